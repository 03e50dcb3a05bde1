import Verif.Spec.Flow

set_option autoImplicit false

/-! # Specification: reaches in which the flow is calm -/

namespace Verif.Spec

/-- The flow is calm in the reach from section `r` to section `r+1`, for timesteps of `dt` with weight `theta`: water
does not cross more than a small part of the reach in a timestep (downstream at its upper end, upstream at its lower
end), and at both ends the momentum flux is small compared with the pressure of the water, allowing for the fall of the
bed and for friction. -/
structure Calm (g n beta theta dt : ℝ) (f : Flow) (r : ℕ) : Prop where
  slow_up : 4 * beta * (theta * dt) * f.V r < f.dx r
  slow_down : 4 * beta * (theta * dt) * (-f.V (r+1)) < f.dx r
  deep_up : 2 * beta * (f.B r * (2 * f.V r ^ 2 - f.V r * |f.V r|)) <
    g * (2 * f.area r - f.B r * f.h (r+1) + f.area (r+1) + f.B r * (f.z r - f.z (r+1) + f.dx r * (7 / 3 * f.friction n r)))
  deep_down : 2 * beta * (f.B (r+1) * (2 * f.V (r+1) ^ 2 - f.V (r+1) * |f.V (r+1)|))
      + g * (f.B (r+1) * (f.z r - f.z (r+1) + f.dx r * (7 / 3 * f.friction n (r+1)))) <
    g * (2 * f.area (r+1) - f.B (r+1) * f.h r + f.area r)

end Verif.Spec
