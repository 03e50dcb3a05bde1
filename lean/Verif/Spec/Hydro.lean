import Verif.Num
import Mathlib.Data.Real.Basic

set_option autoImplicit false

/-! # Specification: series at another time and of another size -/

namespace Verif.Spec
open Verif Fl

/-- The same values at times later by `s`. -/
def later (s : ℤ) (ts : List (ℤ × Fl ℝ)) : List (ℤ × Fl ℝ) := ts.map fun r => (r.1 + s, r.2)

/-- Values multiplied by `c` at the same times; missing values stay missing. -/
noncomputable def multiplied (c : ℝ) (ts : List (ℤ × Fl ℝ)) : List (ℤ × Fl ℝ) := ts.map fun r => (r.1, fin c * r.2)

/-- Two series have the same records up to the time `t`. -/
def SameUpTo (t : ℤ) (a b : List (ℤ × Fl ℝ)) : Prop := ∀ x v, x ≤ t → ((x, v) ∈ a ↔ (x, v) ∈ b)

/-- The midnight before a time. -/
def midnight (t : ℤ) : ℤ := t - t % (86400 * 10 ^ 9)

end Verif.Spec
