import Verif.Spec.Regular
import Verif.Model.MorRepair

set_option autoImplicit false

/-! # What happens at one transect (for C174) -/

namespace Verif.Spec
open Verif Fl Verif.Model

variable {K : Type} [Field K] [LinearOrder K] [IsStrictOrderedRing K]

/-- Two closed lagoons on the same grid, carrying the same river, which agree at transect `i` and in the transport
alongshore on both sides of it and across the barrier there.  All other transects, the transport elsewhere, the water levels,
the river bed and the place of the last outlet may differ. -/
structure SameHere (i : ℕ) (a a' : MorIn K) : Prop where
  closed : a.Closed = true ∧ a'.Closed = true
  noOutlet : a.outlet.length ≤ 1 ∧ a'.outlet.length ≤ 1
  grid : a'.rows.map (·.x) = a.rows.map (·.x)
  dx : a'.Dx = a.Dx
  limit : a'.MaxMorChange = a.MaxMorChange
  row : a'.rows[i]? = a.rows[i]?
  alongshore : ∀ k, k = i ∨ k + 1 = i → a'.LST[k]? = a.LST[k]?
  across : a'.CST[i]? = a.CST[i]? ∧ a'.OverwashProp[i]? = a.OverwashProp[i]?
  river : a'.online = a.online ∧ a'.Bedload = a.Bedload ∧ a'.ChanWidth = a.ChanWidth ∧ a'.ChanDep = a.ChanDep ∧ a'.ChanFlag = a.ChanFlag

/-- The step made a breach at `x`. -/
def BreachAt (o : MorOut K) (x : K) : Prop := o.Breach = true ∧ o.EndX1 = fin x

/-- How the sea forces the coast during one step: transport alongshore between two neighbouring transects given their
shorelines, transport across the barrier at a transect, and the share of it that is washed over. -/
structure Sea (K : Type) where
  drift : Fl K → Fl K → Fl K
  over : Transect K → Fl K
  wash : Transect K → Fl K

/-- The coast is forced by the sea `f`. -/
structure ForcedBy (f : Sea K) (a : MorIn K) : Prop where
  drift : a.LST = ((a.rows.map (·.y0)).dropLast.zip (a.rows.map (·.y0)).tail).map (fun p => f.drift p.1 p.2)
  over : a.CST = a.rows.map f.over
  wash : a.OverwashProp = a.rows.map f.wash

/-- The river is the same. -/
def SameRiver (a a' : MorIn K) : Prop :=
  a'.online = a.online ∧ a'.Bedload = a.Bedload ∧ a'.ChanWidth = a.ChanWidth ∧ a'.ChanDep = a.ChanDep ∧ a'.ChanFlag = a.ChanFlag

/-- `n` steps of a closed lagoon, one after the other, under the seas `F`. -/
structure ClosedHistory (pp : PhysPars K) (j1 j2 : ℕ → Bool) (F : ℕ → Sea K) (n : ℕ) (a : ℕ → MorIn K) (o : ℕ → MorOut K) : Prop where
  step : ∀ k < n, updateMorphology pp j1 j2 (a k) = .ok (o k)
  next : ∀ k < n, (a (k + 1)).rows = (o k).rows
  forced : ∀ k < n, ForcedBy (F k) (a k)
  closed : ∀ k < n, (a k).Closed = true
  noOutlet : ∀ k < n, (a k).outlet.length ≤ 1
  regular : ∀ k < n, Regular pp (a k)
  limit : ∀ k < n, 0 ≤ (a k).MaxMorChange

/-- Transect `m` is at most `d` transects away from transect `i`. -/
def Nearby (d i m : ℕ) : Prop := m ≤ i + d ∧ i ≤ m + d

end Verif.Spec
