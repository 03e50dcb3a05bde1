import Verif.Model.Load
import Verif.Model.Core

set_option autoImplicit false

/-! # Model of the reading of the configuration in `loadModel` (`hapuamod/loadmod.py` 239-300, 329-331, 373-427, 592-690)
and of `hapuamod/configspec.cnf`

The text of a value is represented by what Python's conversions make of it.  A number is a value without rounding.  What is
read from other files than the configuration is not part of this model: a source of data is recorded by its name. -/

namespace Verif.Model
open Verif Fl

variable {K : Type} [Field K] [LinearOrder K] [IsStrictOrderedRing K]

/-- A value in the configuration file. -/
structure Raw (K : Type) where
  str : Option String       -- the text; none for a list (a value with commas)
  flt : Option (Fl K)       -- `float(value)`; none for a ValueError
  int : Option ℤ            -- `int(value)`; none for a ValueError
  bool : Option Bool        -- `validate.bool_dict`; none for a text that is not in it
  deriving DecidableEq, Repr

/-- A value after validation. -/
inductive Val (K : Type) where
  | none
  | str (s : String)
  | flt (x : Fl K)
  | int (n : ℤ)
  | bool (b : Bool)
  deriving DecidableEq, Repr

/-- A check of configspec.cnf.  The last argument is the default: none if there is none (the key is required), `some none` for
`default=None`. -/
inductive Check where
  | string (d : Option (Option String))
  | float (mn mx : Option ℚ) (d : Option (Option ℚ))
  | integer (mn : Option ℤ) (d : Option (Option ℤ))
  | boolean (d : Option (Option Bool))
  deriving DecidableEq, Repr

/-- `float(min=m)`. -/
def fmin (m : ℚ) : Check := .float (some m) .none .none
/-- `float(min=m, default=None)`. -/
def fminN (m : ℚ) : Check := .float (some m) .none (some .none)
/-- `float(min=m, default=d)`. -/
def fminD (m d : ℚ) : Check := .float (some m) .none (some (some d))
/-- `float(min=m, max=M)`. -/
def fmm (m M : ℚ) : Check := .float (some m) (some M) .none
/-- `float(min=m, max=M, default=d)`. -/
def fmmD (m M d : ℚ) : Check := .float (some m) (some M) (some (some d))
/-- `string`. -/
def sReq : Check := .string .none
/-- `string(default=None)`. -/
def sOpt : Check := .string (some .none)

/-- configspec.cnf: section, key, check.  A subsection is named after its section, with a slash. -/
def configspec : List (String × String × Check) :=
  [("", "ModelName", sReq),
   -- 5-8
   ("BoundaryConditions", "RiverFlow", sReq),
   ("BoundaryConditions", "WaveConditions", sReq),
   ("BoundaryConditions", "SeaLevel", sReq),
   -- 10-19
   ("BoundaryConditions/ShotnoiseHydrographParameters", "MeanDaysBetweenEvents", fminN 0),
   ("BoundaryConditions/ShotnoiseHydrographParameters", "MeanEventIncrease", fminN 0),
   ("BoundaryConditions/ShotnoiseHydrographParameters", "FastDecayRate", fminN 0),
   ("BoundaryConditions/ShotnoiseHydrographParameters", "SlowDecayRate", fminN 0),
   ("BoundaryConditions/ShotnoiseHydrographParameters", "FastFlowProp", .float (some 0) (some 1) (some .none)),
   ("BoundaryConditions/ShotnoiseHydrographParameters", "RisingLimbTime", fminN 0),
   ("BoundaryConditions/ShotnoiseHydrographParameters", "HydrographDt", fminD 0 60),
   ("BoundaryConditions/ShotnoiseHydrographParameters", "RandomSeed", .integer .none (some .none)),
   ("BoundaryConditions/ShotnoiseHydrographParameters", "HydrographStart", sOpt),
   -- 21-24
   ("BoundaryConditions/HarmonicTideParameters", "MeanSeaLevel", .float .none .none (some (some 0))),
   ("BoundaryConditions/HarmonicTideParameters", "TidalRange", .float .none .none (some .none)),
   ("BoundaryConditions/HarmonicTideParameters", "SeaLevelDt", fminD 0 60),
   -- 26-29
   ("HotStart", "InitialConditionsNetCDF", sOpt),
   ("HotStart", "HotStartTime", sOpt),
   ("HotStart", "ContinueSimulation", .boolean (some (some false))),
   -- 31-39
   ("SpatialInputs", "Shoreline", sOpt),
   ("SpatialInputs", "RiverLocation", sOpt),
   ("SpatialInputs", "BarrierBackshore", sOpt),
   ("SpatialInputs", "CliffToe", sOpt),
   ("SpatialInputs", "OutletLocation", sOpt),
   ("SpatialInputs", "ShorelineLengthLeft", fminN 0),
   ("SpatialInputs", "ShorelineLengthRight", fminN 0),
   ("SpatialInputs", "BeachWidth", fminN 0),
   -- 41-45
   ("InitialConditions", "OutletWidth", fmin 0),
   ("InitialConditions", "OutletBed", .float .none .none .none),
   ("InitialConditions", "LagoonBed", .float .none .none .none),
   ("InitialConditions", "BarrierElev", .float .none .none .none),
   -- 47-52
   ("Time", "StartTime", sReq),
   ("Time", "EndTime", sReq),
   ("Time", "HydDt", fmin 0),
   ("Time", "MorDtMin", fmin 0),
   ("Time", "MorDtMax", fmin 0),
   -- 54-87
   ("PhysicalParameters", "Kcoef", fmin 0),
   ("PhysicalParameters", "RhoSed", fminD 0 2650),
   ("PhysicalParameters", "RhoSea", fminD 0 1025),
   ("PhysicalParameters", "RhoRiv", fminD 0 1000),
   ("PhysicalParameters", "VoidRatio", fmmD 0 1 (3/10)),
   ("PhysicalParameters", "Gravity", fminD 0 (981/100)),
   ("PhysicalParameters", "GammaRatio", fminD 0 (1/2)),
   ("PhysicalParameters", "WaveDataDepth", fmin 0),
   ("PhysicalParameters", "ClosureDepth", fmin 0),
   ("PhysicalParameters", "BeachSlope", fmin 0),
   ("PhysicalParameters", "RiverSlope", fmm 0 1),
   ("PhysicalParameters", "GrainSize", fmm 0 1),
   ("PhysicalParameters", "CritShieldsStress", fmmD 0 (1/10) (495/10000)),
   ("PhysicalParameters", "MPM_coef", fminD 0 (397/100)),
   ("PhysicalParameters", "MPM_exp", fminD 0 (3/2)),
   ("PhysicalParameters", "UpstreamLength", fmin 0),
   ("PhysicalParameters", "RiverWidth", fmin 0),
   ("PhysicalParameters", "RoughnessManning", fmm 0 (3/10)),
   ("PhysicalParameters", "GrainRoughness", fmm 0 (3/10)),
   ("PhysicalParameters", "WidthDepthRatio", fmin 1),
   ("PhysicalParameters", "BackshoreElev", fmin 0),
   ("PhysicalParameters", "MaxOutletElev", .float .none .none .none),
   ("PhysicalParameters", "OT_coef", fminD 0 (2/10000)),
   ("PhysicalParameters", "OT_exp", fminD 1 2),
   ("PhysicalParameters", "BeachTopElev", fmin 0),
   ("PhysicalParameters", "SpitWidth", fmin 0),
   ("PhysicalParameters", "TargetBarHeight", fmin 0),
   ("PhysicalParameters", "TargetBarWidth", fmin 0),
   ("PhysicalParameters", "MinOutletWidth", fmin 0),
   ("PhysicalParameters", "OutletSedSpreadDist", fminD 0 100),
   ("PhysicalParameters", "OutletBankEroFac", fmmD 0 1 0),
   ("PhysicalParameters", "BarrierPermeability", fminD 0 0),
   ("PhysicalParameters", "ShorelineErosionRate", .float .none .none (some (some 0))),
   -- 89-97
   ("NumericalParameters", "Dx", fmin 0),
   ("NumericalParameters", "Beta", fminD 0 (105/100)),
   ("NumericalParameters", "Theta", fmmD 0 1 (7/10)),
   ("NumericalParameters", "Psi", fmmD 0 (1/2) (4/10)),
   ("NumericalParameters", "ErrTol", fminD 0 (1/1000)),
   ("NumericalParameters", "MaxIt", .integer (some 1) (some (some 30))),
   ("NumericalParameters", "WarnTol", fminD 0 (1/10)),
   ("NumericalParameters", "MaxMorChange", fminD 0 (5/100)),
   -- 99-105
   ("OutputOptions", "OutFile", sOpt),
   ("OutputOptions", "TsOutFile", sOpt),
   ("OutputOptions", "OutInt", fmin 0),
   ("OutputOptions", "TsOutInt", fmin 0),
   ("OutputOptions", "LogInt", fmin 0),
   ("OutputOptions", "PlotInt", fminD 0 0)]

/-- `validate.is_float` after the conversion: a number is refused if it compares below the minimum or above the maximum
(package `validate`, called from loadmod.py 241). -/
def inBounds (mn mx : Option ℚ) (x : Fl K) : Bool :=
  !(mn.any fun m => x <? fin (m : K)) && !(mx.any fun m => fin (m : K) <? x)

/-- A check applied to a value of the file. -/
def Check.ofRaw (c : Check) (r : Raw K) : Option (Val K) :=
  match c with
  | .string _ => r.str.map .str
  | .float mn mx _ => r.flt.bind fun x => if inBounds mn mx x then some (.flt x) else none
  | .integer mn _ => r.int.bind fun n => if mn.any (fun m => decide (n < m)) then none else some (.int n)
  | .boolean _ => r.bool.map .bool

/-- The default of a check.  None if the key is required. -/
def Check.dflt (c : Check) : Option (Val K) :=
  match c with
  | .string d => d.map fun o => (o.map Val.str).getD .none
  | .float _ _ d => d.map fun o => (o.map fun q => Val.flt (fin (q : K))).getD .none
  | .integer _ d => d.map fun o => (o.map Val.int).getD .none
  | .boolean d => d.map fun o => (o.map Val.bool).getD .none

/-- `Section.validate` for one key: the file's value if there is one, otherwise the default. -/
def Check.run (c : Check) (r : Option (Raw K)) : Option (Val K) :=
  match r with
  | some r => c.ofRaw r
  | none => c.dflt

/-- How `loadModel` fails. -/
inductive LoadErr where
  | config                -- `ConfigError`
  | py (e : PyErr)        -- another exception
  | outside               -- a parameter is nan or infinite: what follows is not modelled
  deriving DecidableEq, Repr

/-- The entry of configspec.cnf for a key. -/
def specOf (s k : String) : Option Check := (configspec.find? fun e => e.1 == s && e.2.1 == k).map fun e => e.2.2

/-- The validated values by section and key. -/
abbrev Conf (K : Type) := String → String → Val K

/-- loadmod.py 237-248: read and validate.  A missing section is one with all keys missing. -/
def validate (file : String → String → Option (Raw K)) : Except LoadErr (Conf K) :=
  if configspec.all fun e => (e.2.2.run (file e.1 e.2.1)).isSome then
    .ok fun s k => ((specOf s k).bind fun c => c.run (file s k)).getD .none
  else .error .config

/-- A finite number of the configuration; `None` in arithmetic raises a TypeError. -/
def Conf.num (v : Conf K) (s k : String) : Except LoadErr K :=
  match v s k with
  | .flt (.fin x) => .ok x
  | .flt _ => .error .outside
  | _ => .error (.py .type)

/-- A text of the configuration, as an argument of `os.path.join` or `str.lower`. -/
def Conf.text (v : Conf K) (s k : String) : Except LoadErr String :=
  match v s k with
  | .str t => .ok t
  | _ => .error (.py .type)

/-- An exception of Python inside `loadModel`. -/
def liftPy {α : Type} (x : Except PyErr α) : Except LoadErr α :=
  match x with
  | .ok a => .ok a
  | .error e => .error (.py e)

/-- `pd.Timedelta(...)` from a number of units, in nanoseconds, rounded down (pandas rounds to a microsecond). -/
def timedelta [FloorRing K] (unit : K) (x : K) : ℤ := ⌊x * unit⌋

/-- loadmod.py 257-261.  `date` is `pd.to_datetime`, none for a text that it refuses. -/
def timePars [FloorRing K] (date : String → Option ℤ) (v : Conf K) : Except LoadErr TimePars := do
  let parse (k : String) : Except LoadErr ℤ := do
    match date (← v.text "Time" k) with
    | some t => pure t
    | none => .error (.py .value)
  let t0 ← parse "StartTime"
  let t1 ← parse "EndTime"
  let hyd ← v.num "Time" "HydDt"
  let lo ← v.num "Time" "MorDtMin"
  let hi ← v.num "Time" "MorDtMax"
  let sec : K := 1000000000
  return { StartTime := t0, EndTime := t1, HydDt := timedelta sec hyd, MorDtMin := timedelta sec lo, MorDtMax := timedelta sec hi }

/-- loadmod.py 270-278.  `pow15 x` is `x**1.5`; `x**2.0` is `x * x`. -/
def lstPars (pow15 : K → K) (v : Conf K) : Except LoadErr (K × K) := do
  let rhoSed ← v.num "PhysicalParameters" "RhoSed"
  let rhoSea ← v.num "PhysicalParameters" "RhoSea"
  let g ← v.num "PhysicalParameters" "Gravity"
  let void ← v.num "PhysicalParameters" "VoidRatio"
  let gammaLST := (rhoSed - rhoSea) * g * (1 - void)
  let kcoef ← v.num "PhysicalParameters" "Kcoef"
  if gammaLST = 0 then .error (.py .zeroDiv)
  let gamma ← v.num "PhysicalParameters" "GammaRatio"
  let d := rhoSea * pow15 g * (gamma * gamma)
  if d = 0 then .error (.py .zeroDiv)
  return (kcoef / gammaLST, 8 / d)

/-- loadmod.py 280-283. -/
def barPars (v : Conf K) : Except LoadErr (K × K) := do
  let h ← v.num "PhysicalParameters" "TargetBarHeight"
  let b ← v.num "PhysicalParameters" "BeachTopElev"
  let w ← v.num "PhysicalParameters" "TargetBarWidth"
  let s ← v.num "PhysicalParameters" "SpitWidth"
  liftPy (barRat h b w s)

/-- Where the initial state comes from. -/
inductive ShoreSource (K : Type) where
  | hot (file time : String)
  | straight (ld : LoadOut K)
  | real (shore river backshore cliff outlet : String)
  deriving DecidableEq, Repr

/-- loadmod.py 293-299, 329-370: the straight shoreline. -/
def straightShore [FloorRing K] (v : Conf K) : Except LoadErr (ShoreSource K) := do
  liftPy (pyAssert (v "SpatialInputs" "ShorelineLengthLeft" ≠ .none))
  liftPy (pyAssert (v "SpatialInputs" "ShorelineLengthRight" ≠ .none))
  liftPy (pyAssert (v "SpatialInputs" "BeachWidth" ≠ .none))
  let c : ShoreCfg K :=
    { ShorelineLengthLeft := ← v.num "SpatialInputs" "ShorelineLengthLeft"
      ShorelineLengthRight := ← v.num "SpatialInputs" "ShorelineLengthRight"
      BeachWidth := ← v.num "SpatialInputs" "BeachWidth"
      Dx := ← v.num "NumericalParameters" "Dx"
      SpitWidth := ← v.num "PhysicalParameters" "SpitWidth"
      RiverWidth := ← v.num "PhysicalParameters" "RiverWidth"
      OutletWidth := ← v.num "InitialConditions" "OutletWidth"
      OutletBed := ← v.num "InitialConditions" "OutletBed"
      LagoonBed := ← v.num "InitialConditions" "LagoonBed"
      BarrierElev := ← v.num "InitialConditions" "BarrierElev" }
  let slope ← v.num "PhysicalParameters" "RiverSlope"
  let up ← v.num "PhysicalParameters" "UpstreamLength"
  let ld ← liftPy (defaultLoad c slope up)
  return .straight ld

/-- loadmod.py 290-299: the river bed, before the choice of the shoreline. -/
def riverPars [FloorRing K] (v : Conf K) : Except LoadErr (List (Fl K)) := do
  let bed ← v.num "InitialConditions" "LagoonBed"
  let slope ← v.num "PhysicalParameters" "RiverSlope"
  let up ← v.num "PhysicalParameters" "UpstreamLength"
  let dx ← v.num "NumericalParameters" "Dx"
  liftPy (riverElev bed slope up dx)

/-- loadmod.py 290-427: the choice between a hot start, the straight shoreline and the real one.  A hot start without a time:
`pd.to_datetime(None)` is None, and `closestTimeIx` cannot subtract it. -/
def shoreSource [FloorRing K] (v : Conf K) : Except LoadErr (ShoreSource K) := do
  if v "HotStart" "InitialConditionsNetCDF" ≠ .none then
    let f ← v.text "HotStart" "InitialConditionsNetCDF"
    let t ← v.text "HotStart" "HotStartTime"
    return .hot f t
  else
    let _ ← riverPars v
    if v "SpatialInputs" "Shoreline" = .none then straightShore v
    else
      let a ← v.text "SpatialInputs" "Shoreline"
      let b ← v.text "SpatialInputs" "RiverLocation"
      let c ← v.text "SpatialInputs" "BarrierBackshore"
      let d ← v.text "SpatialInputs" "CliffToe"
      let e ← v.text "SpatialInputs" "OutletLocation"
      return .real a b c d e

/-- Where the river flow comes from. -/
inductive FlowSource (K : Type) where
  | shotnoise (dt meanTime : ℤ) (meanInc decay1 prop1 decay2 : K) (rise : ℤ)
  | file (name : String)
  deriving DecidableEq, Repr

/-- loadmod.py 585-610, except HydrographStart and RandomSeed (in Loader.lean).  `pd.Timedelta(days=None)` raises a ValueError; the other numbers left out raise a TypeError in
`shotNoise`. -/
def flowSource [FloorRing K] (v : Conf K) : Except LoadErr (FlowSource K) := do
  let t ← v.text "BoundaryConditions" "RiverFlow"
  if t.toLower = "shotnoise" then
    let sec := "BoundaryConditions/ShotnoiseHydrographParameters"
    let day : K := 86400000000000
    let dt ← v.num sec "HydrographDt"
    if v sec "MeanDaysBetweenEvents" = .none then .error (.py .value)
    let mt ← v.num sec "MeanDaysBetweenEvents"
    if v sec "RisingLimbTime" = .none then .error (.py .value)
    let rise ← v.num sec "RisingLimbTime"
    let inc ← v.num sec "MeanEventIncrease"
    let d1 ← v.num sec "FastDecayRate"
    let p1 ← v.num sec "FastFlowProp"
    let d2 ← v.num sec "SlowDecayRate"
    return .shotnoise (timedelta 60000000000 dt) (timedelta day mt) inc d1 p1 d2 (timedelta day rise)
  else return .file t

/-- Where the sea level comes from. -/
inductive SeaSource (K : Type) where
  | harmonic (dt : ℤ) (mean range : K)
  | file (name : String)
  deriving DecidableEq, Repr

/-- loadmod.py 624-638. -/
def seaSource [FloorRing K] (v : Conf K) : Except LoadErr (SeaSource K) := do
  let t ← v.text "BoundaryConditions" "SeaLevel"
  if t.toLower = "harmonic" then
    let sec := "BoundaryConditions/HarmonicTideParameters"
    let dt ← v.num sec "SeaLevelDt"
    let m ← v.num sec "MeanSeaLevel"
    let r ← v.num sec "TidalRange"
    return .harmonic (timedelta 60000000000 dt) m r
  else return .file t

/-- loadmod.py 685-690: the intervals. -/
def outOpts [FloorRing K] (v : Conf K) : Except LoadErr OutOpts := do
  let sec : K := 1000000000
  let a ← v.num "OutputOptions" "OutInt"
  let b ← v.num "OutputOptions" "TsOutInt"
  let c ← v.num "OutputOptions" "LogInt"
  let d ← v.num "OutputOptions" "PlotInt"
  return { OutInt := timedelta sec a, TsOutInt := timedelta sec b, LogInt := timedelta sec c, PlotInt := timedelta sec d }

/-- What the configuration prepares. -/
structure Prepared (K : Type) where
  tp : TimePars
  K2coef : K
  BreakerCoef : K
  BarRatSlope : K
  BarRatInt : K
  shore : ShoreSource K
  flow : FlowSource K
  wave : String
  sea : SeaSource K
  oo : OutOpts
  deriving DecidableEq, Repr

/-- loadmod.py 239-690, as far as it depends on the configuration alone. -/
def prepare [FloorRing K] (date : String → Option ℤ) (pow15 : K → K) (v : Conf K) : Except LoadErr (Prepared K) := do
  let tp ← timePars date v
  let (k2, br) ← lstPars pow15 v
  let (slope, int) ← barPars v
  let shore ← shoreSource v
  let flow ← flowSource v
  let wave ← v.text "BoundaryConditions" "WaveConditions"
  let sea ← seaSource v
  let oo ← outOpts v
  return { tp := tp, K2coef := k2, BreakerCoef := br, BarRatSlope := slope, BarRatInt := int, shore := shore, flow := flow,
           wave := wave, sea := sea, oo := oo }

end Verif.Model
