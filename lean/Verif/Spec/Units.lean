import Verif.Spec.ScaleModel
import Verif.Model.Coast
import Verif.Model.Config

set_option autoImplicit false

/-! # Other units of measurement (for C178)

What was 1 m, 1 s and 1 kg is now `L` units of length, `T` units of time and `M` units of mass. -/

namespace Verif.Spec
open Verif Fl Verif.Model Real

/-- The parameters in the new units. Slopes, ratios and exponents are pure numbers. -/
noncomputable def inUnits (L T M : ℝ) (P : PhysPars ℝ) : PhysPars ℝ :=
  { P with
    Gravity := L / T ^ 2 * P.Gravity
    RhoRiv := M / L ^ 3 * P.RhoRiv
    RhoSed := M / L ^ 3 * P.RhoSed
    GrainSize := L * P.GrainSize
    RoughnessManning := T / L ^ (1 / 3 : ℝ) * P.RoughnessManning
    GrainRoughness := T / L ^ (1 / 3 : ℝ) * P.GrainRoughness
    K2coef := L ^ 2 * T ^ 2 / M * P.K2coef
    BreakerCoef := L ^ (3 / 2 : ℝ) * T ^ 3 / M * P.BreakerCoef
    WaveDataDepth := L * P.WaveDataDepth
    OT_coef := L ^ (2 - P.OT_exp) / T * P.OT_coef
    BarRatInt := L * P.BarRatInt
    ClosureDepth := L * P.ClosureDepth
    BackshoreElev := L * P.BackshoreElev
    MaxOutletElev := L * P.MaxOutletElev
    MinOutletWidth := L * P.MinOutletWidth
    RiverWidth := L * P.RiverWidth
    SpitWidth := L * P.SpitWidth
    OutletSedSpreadDist := L * P.OutletSedSpreadDist
    BeachTopElev := L * P.BeachTopElev
    ShorelineErosionRate := L / T * P.ShorelineErosionRate }

/-- Flow, roughness, sea level and tolerance of the steady solver in the new units. -/
noncomputable def flowUnits (L T : ℝ) (p : SteadyPars) : SteadyPars :=
  { p with n := T / L ^ (1 / 3 : ℝ) * p.n, Q := L ^ 3 / T * p.Q, DsWL := L * p.DsWL, Tol := L * p.Tol }

/-- A transect in the new unit of length. -/
def unitTransect (L : ℝ) (t : Transect ℝ) : Transect ℝ :=
  { x := L * t.x, y0 := times L t.y0, y1 := times L t.y1, y2 := times L t.y2, y3 := times L t.y3, y4 := times L t.y4,
           z0 := times L t.z0, z1 := times L t.z1, z2 := times L t.z2, z3 := times L t.z3 }

/-- The configurations state the number under this key of the physical parameters in units whose ratio is `q`. -/
def Restated (v v' : Conf ℝ) (key : String) (q : ℝ) : Prop :=
  ∃ x, v "PhysicalParameters" key = .flt (fin x) ∧ v' "PhysicalParameters" key = .flt (fin (q * x))

end Verif.Spec
