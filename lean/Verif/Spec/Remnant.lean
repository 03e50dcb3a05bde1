import Verif.Spec.Regular

set_option autoImplicit false

/-! # Specification: transects without a trace of a channel (for C196) -/

namespace Verif.Spec
open Verif Fl Verif.Model

variable {K : Type} [Field K] [LinearOrder K] [IsStrictOrderedRing K]

/-- Neither banks nor bed of a channel; with `z`, no crest of a barrier behind it either. -/
def Bare (z : Bool) (t : Transect K) : Prop := t.y1 = nan ∧ t.y2 = nan ∧ t.z1 = nan ∧ (z = true → t.z2 = nan)

/-- No trace of a channel, or both its banks. -/
def Banked (z : Bool) (t : Transect K) : Prop := (IsNumber t.y1 ∧ IsNumber t.y2) ∨ Bare z t

instance [DecidableEq K] (z : Bool) (t : Transect K) : Decidable (Bare z t) := by unfold Bare; infer_instance
instance [DecidableEq K] (z : Bool) (t : Transect K) : Decidable (Banked z t) := by unfold Banked; infer_instance

end Verif.Spec
