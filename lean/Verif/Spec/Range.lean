import Verif.Num

set_option autoImplicit false

/-! # Specification: values within a range -/

namespace Verif.Spec
open Verif Fl

variable {K : Type} [LinearOrder K]

/-- `v` is a number from `lo` to `hi`. -/
def Within2 (lo hi : K) (v : Fl K) : Prop := ∃ x, v = fin x ∧ lo ≤ x ∧ x ≤ hi

/-- All given values are from `lo` to `hi`. -/
def GivenWithin (lo hi : K) (ts : List (ℤ × K)) : Prop := ∀ a ∈ ts, lo ≤ a.2 ∧ a.2 ≤ hi

end Verif.Spec
