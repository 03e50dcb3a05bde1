import Verif.Model.Config
import Verif.Model.Synth
import Verif.Model.Load

set_option autoImplicit false

/-! # Model of `loadModel` (hapuamod/loadmod.py) as a whole

From a validated configuration to everything that `main` receives.  What is read from files or drawn at random, and the synthetic
series (which need real functions), are the fields of `Sources`; `synthSources` gives the modelled functions of synth.py. -/

namespace Verif.Model
open Verif Fl

variable {K : Type} [Field K] [LinearOrder K] [IsStrictOrderedRing K]

/-- Arguments of `synth.shotNoise` (loadmod.py 592-599). -/
structure NoiseArgs (K : Type) where
  start : ℤ
  stop : ℤ
  dt : ℤ
  meanTime : ℤ
  meanInc : K
  decay1 : K
  prop1 : K
  decay2 : K
  rise : ℤ
  seed : Val K
  deriving DecidableEq, Repr

/-- Where `loadModel` gets its data. -/
structure Sources (K : Type) where
  /-- `pd.to_datetime` (loadmod.py 257, 258, 310, 589). -/
  date : String → Option ℤ
  /-- `x**1.5` (loadmod.py 276). -/
  pow15 : K → K
  /-- `netCDF4.Dataset(...)`, and `np.deg2rad(NcFile.ModelOrientation)` (loadmod.py 307, 325). -/
  nc : String → Except PyErr (NcFile K × K)
  /-- The surveyed lines: initial state and direction of the shore normal (loadmod.py 372-561, modelled by `realLoad`). -/
  lines : String → String → String → String → String → Except PyErr (LoadOut K × K)
  /-- `pd.read_csv(...)` (loadmod.py 606-610, 617-619, 635-638). -/
  flow : String → Except PyErr (Series K)
  waves : String → Except PyErr (List (ℤ × Wave K))
  sea : String → Except PyErr (Series K)
  /-- loadmod.py 620-622: a direction relative to the shore normal. -/
  turn : K → Fl K → Fl K
  /-- `synth.shotNoise` (loadmod.py 592-599). -/
  shot : NoiseArgs K → Except PyErr (Series K)
  /-- `synth.harmonicTide` (loadmod.py 628-630). -/
  tide : ℤ → ℤ → ℤ → K → K → Except PyErr (Series K)

/-- `os.path.join(ConfigFilePath, name)` (posixpath). -/
def joinPath (dir name : String) : String :=
  if name.startsWith "/" || dir = "" then name else if dir.endsWith "/" then dir ++ name else dir ++ "/" ++ name

/-- `pd.to_datetime`, ValueError for a text that it refuses. -/
def parseDate (date : String → Option ℤ) (t : String) : Except LoadErr ℤ :=
  match date t with
  | some x => .ok x
  | none => .error (.py .value)

/-- loadmod.py 290-579: initial state, direction of the shore normal and, for a hot start, the time of the record used. -/
def initialState [FloorRing K] (w : Sources K) (dir : String) (v : Conf K) : Except LoadErr (LoadOut K × K × Option ℤ) := do
  match ← shoreSource v with
  | .hot f t =>
    let (nc, norm) ← liftPy (w.nc (joinPath dir f))                                   -- 303-308
    let want ← parseDate w.date t                                                     -- 310
    let dx ← v.num "NumericalParameters" "Dx"
    let (ld, actual) ← liftPy (hotStart nc want dx)                                   -- 311-326, 565-569
    return (ld, norm, some actual)
  | .straight ld => return (ld, 0, none)                                              -- 328-370
  | .real a b c d e =>
    let (ld, norm) ← liftPy (w.lines (joinPath dir a) (joinPath dir b) (joinPath dir c) (joinPath dir d) (joinPath dir e))
    return (ld, norm, none)

/-- loadmod.py 585-610: the flow series. -/
def flowSeries [FloorRing K] (w : Sources K) (dir : String) (v : Conf K) (tp : TimePars) : Except LoadErr (Series K) := do
  match ← flowSource v with
  | .shotnoise dt mt inc d1 p1 d2 rise =>
    let sec := "BoundaryConditions/ShotnoiseHydrographParameters"
    let start ← (match v sec "HydrographStart" with                                   -- 588-591
      | .none => .ok tp.StartTime
      | .str t => parseDate w.date t
      | _ => .error (.py .type) : Except LoadErr ℤ)
    liftPy (w.shot { start := start, stop := tp.EndTime, dt := dt, meanTime := mt, meanInc := inc, decay1 := d1, prop1 := p1,
                     decay2 := d2, rise := rise, seed := v sec "RandomSeed" })
  | .file name => liftPy (w.flow (joinPath dir name))

/-- loadmod.py 612-622: the wave series. -/
def waveSeries (w : Sources K) (dir : String) (v : Conf K) (norm : K) : Except LoadErr (List (ℤ × Wave K)) := do
  let name ← v.text "BoundaryConditions" "WaveConditions"
  let ws ← liftPy (w.waves (joinPath dir name))
  return ws.map fun r => (r.1, { r.2 with EDir_h := w.turn norm r.2.EDir_h })

/-- loadmod.py 624-638: the sea level series. -/
def seaSeries [FloorRing K] (w : Sources K) (dir : String) (v : Conf K) (tp : TimePars) : Except LoadErr (Series K) := do
  match ← seaSource v with
  | .harmonic dt m r => liftPy (w.tide tp.StartTime tp.EndTime dt m r)
  | .file name => liftPy (w.sea (joinPath dir name))

/-- loadmod.py 640-646: the start of the simulation, after the synthetic series have been made. -/
def startTime (v : Conf K) (start : ℤ) (actual : Option ℤ) : ℤ :=
  match actual with
  | some a => if v "HotStart" "ContinueSimulation" = .bool true then a else start
  | none => start

/-- loadmod.py 677-684: the names of the output files.  `stem` is `os.path.splitext(ConfigFileName)[0]`. -/
def outFiles (stem : String) (v : Conf K) : Except LoadErr (String × String) := do
  let a ← (if v "OutputOptions" "OutFile" = .none then .ok (stem ++ "_outputs.nc") else v.text "OutputOptions" "OutFile" : Except LoadErr String)
  let b ← (if v "OutputOptions" "TsOutFile" = .none then .ok (stem ++ "_TSoutputs.nc") else v.text "OutputOptions" "TsOutFile" : Except LoadErr String)
  return (a, b)

/-- `PhysicalPars` (loadmod.py 266-283), with the four derived values. -/
def physPars (v : Conf K) (k2 br slope int : K) : Except LoadErr (PhysPars K) := do
  let p := "PhysicalParameters"
  return { Gravity := ← v.num p "Gravity", RhoRiv := ← v.num p "RhoRiv", RhoSed := ← v.num p "RhoSed", GrainSize := ← v.num p "GrainSize",
           CritShieldsStress := ← v.num p "CritShieldsStress", VoidRatio := ← v.num p "VoidRatio",
           RoughnessManning := ← v.num p "RoughnessManning", GrainRoughness := ← v.num p "GrainRoughness",
           MPM_coef := ← v.num p "MPM_coef", MPM_exp := ← v.num p "MPM_exp", K2coef := k2, BreakerCoef := br,
           WaveDataDepth := ← v.num p "WaveDataDepth", OT_coef := ← v.num p "OT_coef", OT_exp := ← v.num p "OT_exp",
           BarRatSlope := slope, BarRatInt := int, ClosureDepth := ← v.num p "ClosureDepth", BackshoreElev := ← v.num p "BackshoreElev",
           MaxOutletElev := ← v.num p "MaxOutletElev", MinOutletWidth := ← v.num p "MinOutletWidth", RiverWidth := ← v.num p "RiverWidth",
           SpitWidth := ← v.num p "SpitWidth", OutletBankEroFac := ← v.num p "OutletBankEroFac",
           OutletSedSpreadDist := ← v.num p "OutletSedSpreadDist", WidthDepthRatio := ← v.num p "WidthDepthRatio",
           BeachTopElev := ← v.num p "BeachTopElev", ShorelineErosionRate := ← v.num p "ShorelineErosionRate" }

/-- What `loadModel` returns (loadmod.py 700-706), as far as `main` uses it. -/
structure Loaded (K : Type) where
  tp : TimePars
  pp : PhysPars K
  Dx : K
  MaxMorChange : K
  ld : LoadOut K
  norm : K
  flow : Series K
  waves : List (ℤ × Wave K)
  sea : Series K
  OutFile : String
  TsOutFile : String
  oo : OutOpts
  deriving DecidableEq, Repr

/-- loadmod.py 237-706, `loadModel`, for a configuration file `stem`.cnf in the directory `dir`, after validation. -/
def loadModel [FloorRing K] (w : Sources K) (dir stem : String) (v : Conf K) : Except LoadErr (Loaded K) := do
  let tp ← timePars w.date v                                                          -- 257-261
  let (k2, br) ← lstPars w.pow15 v                                                    -- 267-278
  let (slope, int) ← barPars v                                                        -- 280-283
  let pp ← physPars v k2 br slope int
  let dx ← v.num "NumericalParameters" "Dx"                                           -- 286-287
  let mc ← v.num "NumericalParameters" "MaxMorChange"
  let (ld, norm, actual) ← initialState w dir v                                       -- 290-579
  let flow ← flowSeries w dir v tp                                                    -- 585-610
  let waves ← waveSeries w dir v norm                                                 -- 612-622
  let sea ← seaSeries w dir v tp                                                      -- 624-638
  let S := startTime v tp.StartTime actual                                            -- 640-646
  let stop := tp.EndTime + tp.MorDtMax
  let flow ← liftPy (trimSeries flow S tp.EndTime stop)                               -- 649-656
  let waves ← liftPy (trimSeries waves S tp.EndTime stop)                             -- 658-665
  let sea ← liftPy (trimSeries sea S tp.EndTime stop)                                 -- 667-674
  let (f1, f2) ← outFiles stem v                                                      -- 677-684
  let oo ← outOpts v                                                                  -- 685-690
  return { tp := { tp with StartTime := S }, pp := pp, Dx := dx, MaxMorChange := mc, ld := ld, norm := norm, flow := flow,
           waves := waves, sea := sea, OutFile := f1, TsOutFile := f2, oo := oo }

/-- What stays fixed during the run of `main` (core.py 29-34). -/
def Loaded.env (l : Loaded K) (parts : Parts K) (junk1 junk2 : ℕ → ℕ → Bool) : Env K :=
  { pp := l.pp, parts := parts, Dx := l.Dx, MaxMorChange := l.MaxMorChange, tp := l.tp, oo := l.oo, flow := l.flow, sea := l.sea,
    waves := l.waves, junk1 := junk1, junk2 := junk2 }

/-- A file on disk: the output of a model, a time series with a number of records, or something else. -/
inductive DiskFile (K : Type) where
  | out (f : NcFile K)
  | ts (records : ℕ)
  | other

/-- out.py 41-58 (and 524-538): a new file in place of one of the same name. -/
def newFile (disk : String → Option (DiskFile K)) (name : String) (Overwrite : Bool) (reply : String) (f : DiskFile K) :
    Except PyErr (String → Option (DiskFile K)) :=
  match guardFile (disk name) Overwrite reply with
  | (.ok (), _) => .ok fun n => if n = name then some f else disk n
  | (.error e, _) => .error e

/-- `out.writeCurrent` (core.py 66-73): another kind of file has no such variables. -/
def appendOut (st : Storage K) (disk : String → Option (DiskFile K)) (name : String) (s : Snapshot K) : Except PyErr (String → Option (DiskFile K)) :=
  match disk name with
  | some (.out f) => do
    let f' ← writeCurrent st f s
    return fun n => if n = name then some (.out f') else disk n
  | _ => .error .index

/-- `out.writeTsOut` (core.py 77-80, out.py 621-650). -/
def appendTs (disk : String → Option (DiskFile K)) (name : String) : Except PyErr (String → Option (DiskFile K)) :=
  match disk name with
  | some (.ts k) => .ok fun n => if n = name then some (.ts (k + 1)) else disk n
  | _ => .error .index

/-- core.py 61-80: the output files and their first records.  `reply1`, `reply2` are what the user types if asked. -/
def createOutputs (st : Storage K) (disk : String → Option (DiskFile K)) (l : Loaded K) (Overwrite : Bool) (reply1 reply2 : String)
    (s : Snapshot K) : Except PyErr (String → Option (DiskFile K)) := do
  let d ← newFile disk l.OutFile Overwrite reply1 (.out (emptyFile st (l.ld.rows.map (·.x)) l.ld.RiverElev))
  let d ← appendOut st d l.OutFile s
  let d ← newFile d l.TsOutFile Overwrite reply2 (.ts 0)
  appendTs d l.TsOutFile

/-- The synthetic series and the wave directions as modelled.  `draws seed` are the random numbers, `midnight t` the origin that pandas
chooses for resampling a series that begins at `t`. -/
noncomputable def synthSources (w : Sources ℝ) (toNs : ℝ → ℤ) (midnight : ℤ → ℤ) (draws : Val ℝ → List (ℝ × ℝ)) : Sources ℝ :=
  { w with
    pow15 := fun x => x ^ (3 / 2 : ℝ)
    turn := fun norm d => waveDir d norm
    shot := fun a => shotNoise { StartDate := a.start, EndDate := a.stop, OutputInt := a.dt, MeanTimeBetweenEvents := a.meanTime,
                                 MeanEventIncrease := a.meanInc, DecayRate1 := a.decay1, PropRate1 := a.prop1,
                                 DecayRate2 := some a.decay2, RisingLimbTime := a.rise, CalcTimeInt := none } toNs (midnight a.start) (draws a.seed)
    tide := harmonicTide }

end Verif.Model
