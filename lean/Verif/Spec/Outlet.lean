import Verif.Num

set_option autoImplicit false

/-! # Where an outlet channel may appear (for C148) -/

namespace Verif.Spec

variable {K : Type} [LinearOrder K]

/-- Position `x` is passed on the way from `xl` to `e`: it is not `xl`, but it may be `e`. -/
def Reached (xl e x : K) : Prop := (xl < x ∧ x ≤ e) ∨ (e ≤ x ∧ x < xl)

end Verif.Spec
