import Mathlib.Analysis.SpecialFunctions.Pow.Real

set_option autoImplicit false

/-! # Specification: steady open channel flow in a rectangular channel -/

namespace Verif.Spec

/-- A discharge `Q` in a channel of width `B` and depth `h` is not supercritical: the Froude
number `V / sqrt(g h)` with `V = Q / (B h)` is at most one, i.e. `Q² ≤ g B² h³`. -/
def NotSupercritical (g Q B h : ℝ) : Prop := Q ^ 2 ≤ g * B ^ 2 * h ^ 3

/-- Critical flow: Froude number one. -/
def Critical (g Q B h : ℝ) : Prop := Q ^ 2 = g * B ^ 2 * h ^ 3

/-- Energy level of a section with bed level `z`, depth `h`, velocity `v`. -/
noncomputable def energyLevel (g beta z h v : ℝ) : ℝ := z + h + beta * v ^ 2 / (2 * g)

/-- Manning friction slope of a wide channel. -/
noncomputable def frictionSlope (n h v : ℝ) : ℝ := n ^ 2 * v ^ 2 / h ^ (4/3 : ℝ)

end Verif.Spec
