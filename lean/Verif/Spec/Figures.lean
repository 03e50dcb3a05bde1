import Verif.Model.Figures
import Verif.Spec.View

set_option autoImplicit false

/-! # What the transect figure, the long section and the animations should show -/

namespace Verif.Spec
open Verif Verif.Model Fl

variable {K : Type}

/-- The line has a horizontal piece from position `p` to position `q` at level `z`. -/
def Flat (l : Line K) (p q z : Fl K) : Prop := ∃ k, (pts l)[k]? = some (p, z) ∧ (pts l)[k + 1]? = some (q, z)

/-- The line runs from the sea to the land without turning back. -/
def Landward [LE K] (l : Line K) : Prop := ∃ xs : List K, l.x = xs.map fin ∧ xs.Pairwise (fun a b => b ≤ a)

/-- The transect's edges are numbers in the right order: cliff, lagoon edge, the banks of the outlet if there is one, shoreline. -/
def Ordered [LE K] (r : Transect K) : Prop :=
  ∃ a b c : K, r.y4 = fin a ∧ r.y3 = fin b ∧ r.y0 = fin c ∧ a ≤ b ∧ b ≤ c ∧
    (r.y2 = nan ∨ ∃ u v : K, r.y2 = fin u ∧ r.y1 = fin v ∧ b ≤ u ∧ u ≤ v ∧ v ≤ c)

/-- Positions along the channel: they start at zero and grow by the distances between the sections. -/
def Chainage [Field K] [LinearOrder K] (x dx : List (Fl K)) : Prop :=
  x.length = dx.length + 1 ∧ x[0]? = some (fin 0) ∧
  ∀ k a d, x[k]? = some a → dx[k]? = some d → x[k + 1]? = some (a + d)

/-- The values `l` lie within the limits of the axis. -/
def OnAxis [LE K] (lim : K × K) (l : List (Fl K)) : Prop := ∀ v, fin v ∈ l → lim.1 ≤ v ∧ v ≤ lim.2

/-- `fs` are the record numbers `s, s + r, s + 2 r, …` up to and including `last`. -/
def UpTo (s last r : ℤ) (fs : List ℤ) : Prop := ∀ i, i ∈ fs ↔ ∃ k : ℕ, i = s + k * r ∧ i ≤ last

end Verif.Spec
