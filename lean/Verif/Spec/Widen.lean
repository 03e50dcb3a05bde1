import Verif.Num

set_option autoImplicit false

/-! # How a section answers to the sediment it is given (for C201) -/

namespace Verif.Spec

variable {K : Type} [Field K] [LinearOrder K] [IsStrictOrderedRing K]

/-- A section `w` wide and `d` deep, given `net` (negative if it loses), whose bed rises by `rise` and one of whose banks retreats by `ret`.  With sediment left
over the bed rises; what is missing is taken from the bed if the section is more than `ratio` times as wide as it is deep, from the banks if not. -/
def Answers (ratio w d net rise ret : K) : Prop :=
  (0 < net → 0 < rise ∧ ret = 0) ∧ (net = 0 → rise = 0 ∧ ret = 0) ∧
  (net < 0 → ratio * d < w → rise < 0 ∧ ret = 0) ∧ (net < 0 → w ≤ ratio * d → rise = 0 ∧ 0 < ret)

end Verif.Spec
