import Mathlib.Analysis.SpecialFunctions.Trigonometric.DerivHyp
import Mathlib.Analysis.SpecialFunctions.Sqrt

set_option autoImplicit false

/-! # Specification: linear waves between deep water and a point at finite depth -/

namespace Verif.Spec
open Real

/-- Ratio of group speed to wave speed for wave length `L` at depth `d`. -/
noncomputable def groupRatio (L d : ℝ) : ℝ := (1 + 2 * (2 * π / L) * d / sinh (2 * (2 * π / L) * d)) / 2

/-- A wave of height `H`, angle `θ` to the shore normal and length `L` at depth `d` comes from a deep water wave of height `H0`, angle `θ0` and
length `L0`: dispersion relation for equal period, refraction (Snell's law), and conservation of the energy that passes a unit length of shore
(proportional to `H² n L cos θ` for equal period, with `n = 1/2` in deep water). -/
structure FromDeepWater (H θ L d H0 θ0 L0 : ℝ) : Prop where
  height : 0 ≤ H0
  dispersion : L = L0 * tanh (2 * π * d / L)
  onshore : |θ0| < π / 2
  snell : sin θ0 * L = sin θ * L0
  energy : H0 ^ 2 * (1 / 2) * L0 * cos θ0 = H ^ 2 * groupRatio L d * L * cos θ

end Verif.Spec
