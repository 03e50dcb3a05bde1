import Verif.Model.Types
import Verif.Model.RealFn

set_option autoImplicit false

/-! # Model of `calcBedload` in `hapuamod/riv.py` -/

namespace Verif.Model
open Verif Fl

/-- riv.py 593-607: bedload at one cross-section, before reach averaging. -/
noncomputable def nodeBedload (P : PhysPars ℝ) (scale : ℝ) (B h V : Fl ℝ) : Fl ℝ :=
  -- 594
  let S := (V * V) * (fin P.GrainRoughness * fin P.GrainRoughness) / npPow h (4/3)
  -- 597, 598
  let Tau := fin P.RhoRiv * fin P.Gravity * h * S
  let Theta := Tau / ((fin P.RhoSed - fin P.RhoRiv) * fin P.Gravity * fin P.GrainSize)
  -- 601, 602
  let qs_star := fin P.MPM_coef * npPow (npmax (Theta - fin P.CritShieldsStress) (fin 0)) P.MPM_exp
  let Qs := qs_star * B * fin scale / (fin 1 - fin P.VoidRatio)
  -- 603
  if V <? fin 0 then Qs * fin (-1) else Qs

/-- riv.py 568-609, `calcBedload`.  `z` and `dx` are not used by the code.  The scale factor
`((RhoS/Rho - 1) * g * D**3)**0.5` is computed with Python numbers: it raises
ZeroDivisionError for a zero water density, and a negative base would turn the result into
complex numbers (reported here as the error `other`). -/
noncomputable def calcBedload (B h V : List (Fl ℝ)) (P : PhysPars ℝ) (Psi : ℝ) : Except PyErr (List (Fl ℝ)) :=
  if P.RhoRiv = 0 then .error .zeroDiv else
  let base := (P.RhoSed / P.RhoRiv - 1) * P.Gravity * P.GrainSize ^ 3
  if base < 0 then .error .other else
  let scale := base ^ (0.5 : ℝ)
  let Qs_node := (B.zip (h.zip V)).map (fun s => nodeBedload P scale s.1 s.2.1 s.2.2)
  -- 606
  .ok ((Qs_node.dropLast.zip Qs_node.tail).map (fun q => (fin 1 - fin Psi) * q.1 + fin Psi * q.2))

end Verif.Model
