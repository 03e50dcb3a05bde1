import Mathlib.Data.Real.Basic

set_option autoImplicit false

/-! # Specification: water at rest in a channel that is open to the sea -/

namespace Verif.Spec

/-- Depth at a bed level `z`: the sea stands in the channel, ground above it is dry. -/
noncomputable def restDepth (sea z : ℝ) : ℝ := max (sea - z) 0

end Verif.Spec
