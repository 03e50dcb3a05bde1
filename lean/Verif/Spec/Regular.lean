import Verif.Num
import Verif.Model.MorRates

set_option autoImplicit false

/-! # Regular arguments of a morphological step (for C34, C142 and C144)

Conditions on the arguments of `updateMorphology` alone under which no rate of change is infinite or nan: every number
used is finite, and none of the heights and widths divided by is zero. -/

namespace Verif.Spec
open Verif Fl Verif.Model

variable {K : Type} [Field K] [LinearOrder K] [IsStrictOrderedRing K]

/-- `v` is a number, not nan or infinite. -/
def IsNumber (v : Fl K) : Prop := match v with | fin _ => True | _ => False

/-- `u` and `v` are different numbers. -/
def Apart (u v : Fl K) : Prop := match u, v with | fin x, fin y => x ≠ y | _, _ => False

instance (v : Fl K) : Decidable (IsNumber v) := by cases v <;> unfold IsNumber <;> infer_instance
instance (u v : Fl K) : Decidable (Apart u v) := by cases u <;> cases v <;> unfold Apart <;> infer_instance

/-- Every transect: numbers for the shoreline, the crest and the side of the barrier away from the sea (the outlet
channel if there is one, otherwise the lagoon); the crest is not at the closure depth nor level with what is behind. -/
def RegularBarrier (cd : K) (r : Transect K) : Prop :=
  IsNumber r.y0 ∧ Apart r.z0 (fin (-cd)) ∧ (if r.y1.isnan then IsNumber r.y3 ∧ Apart r.z0 r.z3 else IsNumber r.y1 ∧ Apart r.z0 r.z1)

/-- Transects where the river flows through the lagoon: the lagoon has a width, and its bed is level neither with its
bank nor with the cliff top. -/
def RegularLagoon (bs : K) (r : Transect K) : Prop :=
  Apart r.y3 r.y4 ∧ Apart (if r.y1.isnan then r.z0 else r.z2) r.z3 ∧ Apart (fin bs) r.z3

/-- Transects where the river flows through the outlet channel: the channel has a width and banks. -/
def RegularChannel (r : Transect K) : Prop := Apart r.y1 r.y2 ∧ Apart r.z0 r.z1 ∧ Apart r.z2 r.z1

/-- Regular arguments. -/
def Regular (pp : PhysPars K) (a : MorIn K) : Prop :=
  a.Dx ≠ 0 ∧ pp.RiverWidth ≠ 0 ∧ (∀ v ∈ a.Bedload, IsNumber v) ∧ (∀ v ∈ a.LST, IsNumber v) ∧ (∀ v ∈ a.CST, IsNumber v) ∧
  (∀ v ∈ a.OverwashProp, IsNumber v) ∧ (∀ r ∈ a.rows, RegularBarrier pp.ClosureDepth r) ∧
  (∀ i ∈ a.online, ∀ r ∈ a.rows[i]?, RegularLagoon pp.BackshoreElev r) ∧
  (a.Closed = false → (∀ i ∈ a.outlet, ∀ r ∈ a.rows[i]?, RegularChannel r) ∧ IsNumber a.EndX1 ∧ Apart a.EndWidth (fin 0) ∧
    Apart a.EndElev (fin pp.BeachTopElev) ∧ pp.SpitWidth ≠ 0 ∧ pp.OutletSedSpreadDist ≠ 0)

instance (cd : K) (r : Transect K) : Decidable (RegularBarrier cd r) := by unfold RegularBarrier; infer_instance
instance (bs : K) (r : Transect K) : Decidable (RegularLagoon bs r) := by unfold RegularLagoon; infer_instance
instance (r : Transect K) : Decidable (RegularChannel r) := by unfold RegularChannel; infer_instance
instance (pp : PhysPars K) (a : MorIn K) : Decidable (Regular pp a) := by unfold Regular; infer_instance

end Verif.Spec
