import Verif.Num
import Verif.Model.MorRates

set_option autoImplicit false

/-! # The height of the barrier (for C145) -/

namespace Verif.Spec
open Verif Fl Verif.Model

variable {K : Type} [Field K] [LinearOrder K] [IsStrictOrderedRing K]

/-- Neither the crest of the (outer) barrier nor that of the barrier behind the outlet channel, where there is one, is
below `m`. -/
def CrestsAbove (m : K) (r : Transect K) : Prop := (r.z0 <? fin m) = false ∧ (r.z2 <? fin m) = false

/-- The barrier at `r`, from the lagoon to the sea and including the channel in it, is more than `2 * lim` wide. -/
def BarrierWider (lim : K) (r : Transect K) : Prop :=
  match r.y0, r.y3 with | fin y0, fin y3 => 2 * lim < y0 - y3 | _, _ => False

instance (m : K) (r : Transect K) : Decidable (CrestsAbove m r) := by unfold CrestsAbove; infer_instance
instance (lim : K) (r : Transect K) : Decidable (BarrierWider lim r) := by
  unfold BarrierWider; cases r.y0 <;> cases r.y3 <;> infer_instance

/-- No channel is closed on a narrow barrier: at every transect with an outlet channel the
barrier is more than twice MaxMorChange wide, also after the shift of the shoreline which line 152 of mor.py makes at
once where the outlet ends just before the next transect and longshore transport is not to the right. -/
def BarriersWide (pp : PhysPars K) (a : MorIn K) : Prop :=
  (a.Closed = false → ∀ r ∈ a.rows[0]?, (a.EndX1 <? fin r.x) = false) ∧
  ∀ i < a.rows.length, ∀ r ∈ a.rows[i]?, r.y1.isnan = false → BarrierWider a.MaxMorChange r ∧
    (a.Closed = false → ∀ q ∈ a.rows[i + 1]?, ∀ l ∈ a.LST[i]?, (a.EndX1 <? fin r.x) = false → (a.EndX1 <? fin q.x) = true →
      (fin 0 <? l) = false → BarrierWider a.MaxMorChange { r with y0 := r.y0 + l / ((fin pp.ClosureDepth + r.z0) * fin a.Dx) })

instance (pp : PhysPars K) (a : MorIn K) : Decidable (BarriersWide pp a) := by unfold BarriersWide; infer_instance

end Verif.Spec
