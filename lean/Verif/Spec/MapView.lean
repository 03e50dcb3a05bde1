import Mathlib.Analysis.SpecialFunctions.Trigonometric.Basic

set_option autoImplicit false

/-! # Specification of the real-world map -/

namespace Verif.Spec

/-- The unit vector (east, north) of a compass bearing. -/
noncomputable def towards (b : ℝ) : ℝ × ℝ := (Real.sin b, Real.cos b)

/-- The place `x` metres along the shore (to the right when looking out to sea) and `y` metres out to sea from `o`, for a coast that
faces bearing `s`. -/
noncomputable def seaPlace (o : ℝ × ℝ) (s x y : ℝ) : ℝ × ℝ := o + x • towards (s + Real.pi / 2) + y • towards s

end Verif.Spec
