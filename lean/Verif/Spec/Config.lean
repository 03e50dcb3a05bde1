import Mathlib.Algebra.Field.Rat
import Mathlib.Data.Rat.Cast.Order

set_option autoImplicit false

/-! # Specification: what a configuration has to state

Written from the description of the parameters (`configspec.cnf` and the comments of `inputs/*.cnf`), without the model.  A
configuration is seen through `num s k`, the number given for a key, and `given s k`, whether the key has a value. -/

namespace Verif.Spec

/-- Quantities that cannot be negative. -/
def nonNegative : List (String × String) :=
  let phys := ["Kcoef", "RhoSed", "RhoSea", "RhoRiv", "VoidRatio", "Gravity", "GammaRatio", "WaveDataDepth", "ClosureDepth",
    "BeachSlope", "RiverSlope", "GrainSize", "CritShieldsStress", "MPM_coef", "MPM_exp", "UpstreamLength", "RiverWidth",
    "RoughnessManning", "GrainRoughness", "BackshoreElev", "OT_coef", "BeachTopElev", "SpitWidth", "TargetBarHeight",
    "TargetBarWidth", "MinOutletWidth", "OutletSedSpreadDist", "OutletBankEroFac", "BarrierPermeability"]
  let num := ["Dx", "Beta", "Theta", "Psi", "ErrTol", "WarnTol", "MaxMorChange"]
  let time := ["HydDt", "MorDtMin", "MorDtMax"]
  let out := ["OutInt", "TsOutInt", "LogInt", "PlotInt"]
  let space := ["ShorelineLengthLeft", "ShorelineLengthRight", "BeachWidth"]
  let noise := ["MeanDaysBetweenEvents", "MeanEventIncrease", "FastDecayRate", "SlowDecayRate", "FastFlowProp", "RisingLimbTime",
    "HydrographDt"]
  phys.map (fun k => ("PhysicalParameters", k)) ++ num.map (fun k => ("NumericalParameters", k)) ++ time.map (fun k => ("Time", k)) ++
  out.map (fun k => ("OutputOptions", k)) ++ space.map (fun k => ("SpatialInputs", k)) ++
  noise.map (fun k => ("BoundaryConditions/ShotnoiseHydrographParameters", k)) ++
  [("InitialConditions", "OutletWidth"), ("BoundaryConditions/HarmonicTideParameters", "SeaLevelDt")]

/-- Quantities that are at least one. -/
def atLeastOne : List (String × String) := [("PhysicalParameters", "WidthDepthRatio"), ("PhysicalParameters", "OT_exp")]

/-- Quantities with a largest value. -/
def atMost : List (String × String × ℚ) :=
  [("PhysicalParameters", "VoidRatio", 1), ("PhysicalParameters", "RiverSlope", 1), ("PhysicalParameters", "GrainSize", 1),
   ("PhysicalParameters", "CritShieldsStress", 1 / 10), ("PhysicalParameters", "RoughnessManning", 3 / 10),
   ("PhysicalParameters", "GrainRoughness", 3 / 10), ("PhysicalParameters", "OutletBankEroFac", 1),
   ("NumericalParameters", "Theta", 1), ("NumericalParameters", "Psi", 1 / 2),
   ("BoundaryConditions/ShotnoiseHydrographParameters", "FastFlowProp", 1)]

/-- Numbers that the model always needs and that have no default. -/
def required : List (String × String) :=
  let phys := ["Kcoef", "WaveDataDepth", "ClosureDepth", "BeachSlope", "RiverSlope", "GrainSize", "UpstreamLength", "RiverWidth",
    "RoughnessManning", "GrainRoughness", "WidthDepthRatio", "BackshoreElev", "MaxOutletElev", "BeachTopElev", "SpitWidth",
    "TargetBarHeight", "TargetBarWidth", "MinOutletWidth"]
  phys.map (fun k => ("PhysicalParameters", k)) ++
  ["OutletWidth", "OutletBed", "LagoonBed", "BarrierElev"].map (fun k => ("InitialConditions", k)) ++
  ["HydDt", "MorDtMin", "MorDtMax"].map (fun k => ("Time", k)) ++
  ["OutInt", "TsOutInt", "LogInt"].map (fun k => ("OutputOptions", k)) ++ [("NumericalParameters", "Dx")]

/-- Texts that the model always needs. -/
def requiredText : List (String × String) :=
  [("", "ModelName"), ("BoundaryConditions", "RiverFlow"), ("BoundaryConditions", "WaveConditions"), ("BoundaryConditions", "SeaLevel"),
   ("Time", "StartTime"), ("Time", "EndTime")]

/-- Everything that the chosen options need is there. -/
structure Complete (given : String → String → Prop) (hot real shotnoise harmonic : Prop) : Prop where
  hotTime : hot → given "HotStart" "HotStartTime"
  straight : ¬ hot → ¬ real →
    given "SpatialInputs" "ShorelineLengthLeft" ∧ given "SpatialInputs" "ShorelineLengthRight" ∧ given "SpatialInputs" "BeachWidth"
  shapes : ¬ hot → real → given "SpatialInputs" "RiverLocation" ∧ given "SpatialInputs" "BarrierBackshore" ∧
    given "SpatialInputs" "CliffToe" ∧ given "SpatialInputs" "OutletLocation"
  flow : shotnoise → ∀ k ∈ ["MeanDaysBetweenEvents", "MeanEventIncrease", "FastDecayRate", "SlowDecayRate", "FastFlowProp", "RisingLimbTime"],
    given "BoundaryConditions/ShotnoiseHydrographParameters" k
  sea : harmonic → given "BoundaryConditions/HarmonicTideParameters" "TidalRange"

end Verif.Spec
