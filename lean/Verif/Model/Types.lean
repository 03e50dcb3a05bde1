import Verif.Py

set_option autoImplicit false

/-! # Data carried by the model -/

namespace Verif.Model
open Verif

/-- One row of the shoreline arrays: `ShoreX[i]`, `ShoreY[i,0..4]`, `ShoreZ[i,0..3]`
(loadmod.py 420-560, out.py 100-180).  Columns of `ShoreY`: 0 shoreline, 1 seaward edge of
the outlet channel (nan if there is none), 2 landward edge of the outlet channel (nan if
none), 3 seaward edge of the lagoon, 4 cliff toe / landward edge of the lagoon.  Columns
of `ShoreZ`: 0 barrier crest, 1 outlet channel bed, 2 inner barrier crest, 3 lagoon bed. -/
structure Transect (K : Type) where
  x : K
  y0 : Fl K
  y1 : Fl K
  y2 : Fl K
  y3 : Fl K
  y4 : Fl K
  z0 : Fl K
  z1 : Fl K
  z2 : Fl K
  z3 : Fl K
  deriving DecidableEq, Repr

/-- The entries of the dictionary `PhysicalPars` used by the modelled functions
(loadmod.py 150-330).  All are finite numbers. -/
structure PhysPars (K : Type) where
  Gravity : K
  RhoRiv : K
  RhoSed : K
  GrainSize : K
  CritShieldsStress : K
  VoidRatio : K
  RoughnessManning : K
  GrainRoughness : K
  MPM_coef : K
  MPM_exp : K
  K2coef : K
  BreakerCoef : K
  WaveDataDepth : K
  OT_coef : K
  OT_exp : K
  BarRatSlope : K
  BarRatInt : K
  ClosureDepth : K
  BackshoreElev : K
  MaxOutletElev : K
  MinOutletWidth : K
  RiverWidth : K
  SpitWidth : K
  OutletBankEroFac : K
  OutletSedSpreadDist : K
  WidthDepthRatio : K
  BeachTopElev : K
  ShorelineErosionRate : K
  deriving DecidableEq, Repr

end Verif.Model
