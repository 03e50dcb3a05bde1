import Verif.Num
import Mathlib.Analysis.SpecialFunctions.Pow.Real
import Mathlib.Analysis.SpecialFunctions.Trigonometric.Arctan

set_option autoImplicit false

/-! # Specification vocabulary for waves and barriers (independent of the model) -/

namespace Verif.Spec
open Real

/-- Direction of the waves relative to the shore-normal of the segment joining shoreline
positions `ya` (left) and `yb` (right), `dx` apart: negative = arriving from the left. -/
noncomputable def waveAngle (dx dir ya yb : ℝ) : ℝ := dir - arctan ((ya - yb) / dx)

/-- Speed of a shallow water wave in depth `h`. -/
noncomputable def shallowSpeed (g h : ℝ) : ℝ := √(g * h)

/-- Speed of a linear wave of period `T` and length `L` in depth `d`. -/
noncomputable def waveSpeed (g T L d : ℝ) : ℝ := g * T / (2 * π) * tanh (2 * π * d / L)

/-- Physical parameters and wave conditions that make sense (all strictly positive). -/
structure Waves where
  g : ℝ
  breaker : ℝ      -- coefficient of the breaker depth
  k2 : ℝ           -- transport coefficient
  depth : ℝ        -- depth at which wave data are given
  power : ℝ
  period : ℝ
  length : ℝ
  dir : ℝ

/-- All magnitudes are positive. -/
def Waves.Valid (w : Waves) : Prop :=
  0 < w.g ∧ 0 < w.breaker ∧ 0 < w.k2 ∧ 0 < w.depth ∧ 0 < w.power ∧ 0 < w.period ∧ 0 < w.length

/-- Depth at which the waves break. -/
noncomputable def Waves.breakDepth (w : Waves) : ℝ := (w.breaker * w.power) ^ (0.4 : ℝ)

/-- Snell's law `sin b = sin a * speed_at_breaking / speed_offshore` has a solution `b`. -/
def Waves.Refracts (w : Waves) (a : ℝ) : Prop :=
  |sin a| * shallowSpeed w.g w.breakDepth ≤ waveSpeed w.g w.period w.length w.depth

end Verif.Spec
