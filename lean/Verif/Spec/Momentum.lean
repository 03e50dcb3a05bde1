import Mathlib.Algebra.BigOperators.Group.Finset.Basic
import Mathlib.Analysis.SpecialFunctions.Pow.Real

set_option autoImplicit false

/-! # Specification: momentum of the water in a channel, per unit of its density -/

namespace Verif.Spec
open Finset

/-- Momentum of the water between `N` cross-sections: per reach, length times the mean of the two discharges. -/
noncomputable def channelMomentum (N : ℕ) (dx A V : ℕ → ℝ) : ℝ :=
  ∑ r ∈ range (N - 1), dx r * ((A r * V r + A (r+1) * V (r+1)) / 2)

/-- Momentum that the flow carries through a cross-section per second, in the downstream direction.  It does not depend on which way the
water flows. -/
noncomputable def momentumFlux (beta A V : ℝ) : ℝ := beta * A * V ^ 2

/-- Force on the water by the slope of its surface: per reach, the mean area times the fall. -/
noncomputable def surfaceForce (g : ℝ) (N : ℕ) (A level : ℕ → ℝ) : ℝ :=
  ∑ r ∈ range (N - 1), g * ((A r + A (r+1)) / 2) * (level r - level (r+1))

/-- Manning's friction slope: against the flow. -/
noncomputable def manningSlope (n h V : ℝ) : ℝ := n ^ 2 * (V * |V|) / h ^ (4/3 : ℝ)

/-- Drag of the bed on the water. -/
noncomputable def bedDrag (g n : ℝ) (N : ℕ) (dx A h V : ℕ → ℝ) : ℝ :=
  ∑ r ∈ range (N - 1), g * dx r * ((A r * manningSlope n (h r) (V r) + A (r+1) * manningSlope n (h (r+1)) (V (r+1))) / 2)

/-- What the momentum of the channel gains per second in a state with areas `A`, depths `h` and velocities `V`: what enters at the
first section less what leaves at the last, the force of the surface slope, less the drag. -/
noncomputable def momentumGain (g n beta : ℝ) (N : ℕ) (dx z A h V : ℕ → ℝ) : ℝ :=
  momentumFlux beta (A 0) (V 0) - momentumFlux beta (A (N-1)) (V (N-1))
    + surfaceForce g N A (fun k => z k + h k) - bedDrag g n N dx A h V

end Verif.Spec
