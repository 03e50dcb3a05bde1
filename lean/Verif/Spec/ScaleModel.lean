import Verif.Num
import Verif.Model.Steady
import Verif.Model.Bedload

set_option autoImplicit false

/-! # Scale models of a river (for C175)

Heights are `v` times, lengths `l` times and widths `b` times those of nature; velocities are then √v times (Froude's law). -/

namespace Verif.Spec
open Verif Fl Verif.Model Real

/-- A number times `q`; nan and infinities stay. -/
def times (q : ℝ) (a : Fl ℝ) : Fl ℝ := match a with | fin x => fin (q * x) | a => a

/-- Flow, roughness, sea level and tolerance of the scale model. -/
noncomputable def scalePars (v l b : ℝ) (p : SteadyPars) : SteadyPars :=
  { p with n := p.n * v ^ (2 / 3 : ℝ) / √l, Q := b * v ^ (3 / 2 : ℝ) * p.Q, DsWL := v * p.DsWL, Tol := v * p.Tol }

/-- Grains `d` times as large, as rough as makes the dimensionless shear stress the same. -/
noncomputable def scaleGrains (v d : ℝ) (P : PhysPars ℝ) : PhysPars ℝ :=
  { P with GrainSize := d * P.GrainSize, GrainRoughness := P.GrainRoughness * √d / v ^ (1 / 3 : ℝ) }

end Verif.Spec
