import Mathlib.Analysis.SpecialFunctions.Trigonometric.Basic

set_option autoImplicit false

/-! # Specification: turning from one direction to another -/

namespace Verif.Spec

/-- Two angles that point the same way. -/
def SameDir (a b : ℝ) : Prop := ∃ k : ℤ, a = b + k * (2 * Real.pi)

/-- `d` is the direction reached after the part `s` of a steady turn of at most half a circle from `d1` to `d2`. -/
def ShortWay (d1 d2 s d : ℝ) : Prop := ∃ turn : ℝ, |turn| ≤ Real.pi ∧ SameDir d2 (d1 + turn) ∧ SameDir d (d1 + s * turn)

end Verif.Spec
