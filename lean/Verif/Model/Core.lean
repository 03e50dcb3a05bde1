import Verif.Model.MorRepair
import Verif.Model.Series
import Verif.Model.Out
import Verif.Model.Coast
import Verif.Model.Bedload
import Verif.Model.Preissmann

set_option autoImplicit false

/-! # Model of `main` in `hapuamod/core.py`

The functions of the other modules that only use field operations (`assembleChannel`, `storeHydraulics`,
`storeBedload`, `updateMorphology`, `interpolate_at`) are called as modelled.  Those that use real functions
(the hydraulic solvers, bedload, longshore transport, runup and overtopping) are collected in `Parts`, so that the loop
can also be run on rational numbers; `realParts` below gives the modelled functions. -/

namespace Verif.Model
open Verif Fl

variable {K : Type} [Field K] [LinearOrder K] [IsStrictOrderedRing K]

/-- A record of the wave series (core.py 152-157). -/
structure Wave (K : Type) where
  EDir_h : Fl K
  WavePower : Fl K
  WavePeriod : Fl K
  Wlen_h : Fl K
  Hsig_Offshore : Fl K
  deriving DecidableEq, Repr

/-- The functions called by `main` that need real arithmetic, with their parameters already supplied. -/
structure Parts (K : Type) where
  /-- `riv.solveFullPreissmann` (core.py 127-131): depths and velocities left in ChanDep, ChanVel. -/
  unsteady : ChanOut K → List (Fl K × Fl K) → Except PyErr (List (Fl K × Fl K))
  /-- `riv.solveSteady` (core.py 53-55, 136-139). -/
  steady : ChanOut K → Fl K → Fl K → Except PyErr (List (Fl K) × List (Fl K))
  /-- `riv.calcBedload` (core.py 147-148), of widths, depths and velocities. -/
  bedload : List (Fl K) → List (Fl K) → List (Fl K) → Except PyErr (List (Fl K))
  /-- `coast.longShoreTransport` (core.py 159-161), of the shoreline and the waves. -/
  lst : List (Fl K) → Wave K → List (Fl K)
  /-- `coast.runup` (core.py 164). -/
  runup : Wave K → Fl K
  /-- `coast.overtopping` (core.py 165-166), of runup, sea level and shoreline. -/
  overtop : Fl K → Fl K → List (Transect K) → Except PyErr (List (Fl K) × List Bool)

/-- `TimePars` (loadmod.py 257-261), nanoseconds. -/
structure TimePars where
  StartTime : ℤ
  EndTime : ℤ
  HydDt : ℤ
  MorDtMin : ℤ
  MorDtMax : ℤ
  deriving DecidableEq, Repr

/-- The intervals of `OutputOpts` (loadmod.py 685-690), nanoseconds. -/
structure OutOpts where
  OutInt : ℤ
  TsOutInt : ℤ
  LogInt : ℤ
  PlotInt : ℤ
  deriving DecidableEq, Repr

/-- What stays fixed during a run.  `junk1 n`, `junk2 n` are the uninitialised memory seen by `updateMorphology` in
pass `n`. -/
structure Env (K : Type) where
  pp : PhysPars K
  parts : Parts K
  Dx : K
  MaxMorChange : K
  tp : TimePars
  oo : OutOpts
  flow : Series K
  sea : Series K
  waves : List (ℤ × Wave K)
  junk1 : ℕ → ℕ → Bool
  junk2 : ℕ → ℕ → Bool

/-- Arguments of `writeTsOut` other than the file name (out.py 621-622); `mordt` is what is stored for MorDt
(`MorDt.seconds`, line 650). -/
structure TsRec (K : Type) where
  time : ℤ
  SeaLevel : Fl K
  RivFlow : Fl K
  Hs_offshore : Fl K
  EDir_h : Fl K
  MeanLagoonWl : Fl K
  LagOutflow : Fl K
  SedInflow : Fl K
  EndX0 : Fl K
  EndX1 : Fl K
  Closed : Bool
  mordt : ℤ
  deriving DecidableEq, Repr

/-- The variables of `main` that live from one pass of the loop to the next, and the records written so far. -/
structure CoreSt (K : Type) where
  time : ℤ
  dt : ℤ
  outTime : ℤ
  tsTime : ℤ
  plotTime : ℤ
  passes : ℕ
  rows : List (Transect K)
  EndX0 : Fl K
  EndX1 : Fl K
  EndWidth : Fl K
  EndElev : Fl K
  RiverElev : List (Fl K)
  RivDep : List (Fl K)
  RivVel : List (Fl K)
  hyd : HydStore K
  Closed : Bool
  outs : List (Snapshot K)
  ts : List (TsRec K)

/-- One column of the wave series. -/
def waveCol (ws : List (ℤ × Wave K)) (f : Wave K → Fl K) : Series K := ws.map (fun r => (r.1, f r.2))

/-- core.py 38, 152: waves at one time. -/
def wavesAt (ws : List (ℤ × Wave K)) (t : ℤ) : Except PyErr (Wave K) := do
  return { EDir_h := ← ixGet (← interpolateAt (waveCol ws (·.EDir_h)) [t]) 0
           WavePower := ← ixGet (← interpolateAt (waveCol ws (·.WavePower)) [t]) 0
           WavePeriod := ← ixGet (← interpolateAt (waveCol ws (·.WavePeriod)) [t]) 0
           Wlen_h := ← ixGet (← interpolateAt (waveCol ws (·.Wlen_h)) [t]) 0
           Hsig_Offshore := ← ixGet (← interpolateAt (waveCol ws (·.Hsig_Offshore)) [t]) 0 }

/-- `pd.date_range(t, t + dt, freq=hyd, closed='right')` (core.py 121-122). -/
def hydTimes (t dt hyd : ℤ) : Except PyErr (List ℤ) :=
  if hyd = 0 then .error .zeroDiv
  else .ok ((List.range (dt / hyd).toNat).map (fun k : ℕ => t + ((k : ℤ) + 1) * hyd))

/-- `np.nanmean(a)`. -/
def nanmean (l : List (Fl K)) : Fl K :=
  let v := l.filter (fun a => !a.isnan)
  Fl.sum v / fin (v.length : K)

/-- Arguments for `assembleChannel` from the current state (core.py 110-118). -/
def chanIn (e : Env K) (s : CoreSt K) : ChanIn K :=
  { rows := s.rows, EndX0 := s.EndX0, EndX1 := s.EndX1, EndWidth := s.EndWidth, EndElev := s.EndElev, Closed := s.Closed,
    RiverElev := s.RiverElev, RivDep := s.RivDep, RivVel := s.RivVel, LagoonWL := s.hyd.LagoonWL, LagoonVel := s.hyd.LagoonVel,
    OutletDep := s.hyd.OutletDep, OutletVel := s.hyd.OutletVel, EndDep := s.hyd.EndDep, EndVel := s.hyd.EndVel, Dx := e.Dx }

/-- core.py 127-139: unsteady hydraulics, or steady hydraulics if that raises. -/
def hydraulics (e : Env K) (c : ChanOut K) (flow sea : List (Fl K)) : Except PyErr (List (Fl K) × List (Fl K)) :=
  match e.parts.unsteady c (flow.zip sea) with
  | .ok hv => .ok (hv.map (·.1), hv.map (·.2))
  | .error _ => do
    let q ← pyGet flow (-1)
    let w ← pyGet sea (-1)
    e.parts.steady c q w

/-- Everything computed in one pass before time is advanced (core.py 109-176). -/
structure PassOut (K : Type) where
  chan : ChanOut K
  window : List ℤ
  flow : Fl K
  sea : Fl K
  dep : List (Fl K)
  vel : List (Fl K)
  hyd : HydStore K
  bed : List (Fl K)
  wave : Wave K
  LST : List (Fl K)
  CST : List (Fl K)
  owp : List Bool
  mor : MorOut K

/-- A boolean array used as numbers. -/
def boolFl (l : List Bool) : List (Fl K) := l.map (fun b => if b then fin 1 else fin 0)

/-- Arguments of `updateMorphology` (core.py 169-176). -/
def morIn (e : Env K) (s : CoreSt K) (c : ChanOut K) (dep : List (Fl K)) (hyd : HydStore K) (bed LST CST : List (Fl K)) (owp : List Bool) : MorIn K :=
  { rows := s.rows, EndX0 := s.EndX0, EndX1 := s.EndX1, EndWidth := s.EndWidth, EndElev := s.EndElev, RiverElev := s.RiverElev,
    online := c.online, outlet := c.outlet, LagoonWL := hyd.LagoonWL, OutletDep := hyd.OutletDep, ChanWidth := c.width,
    ChanDep := dep, ChanFlag := c.flag, Closed := c.closed, LST := LST, Bedload := bed, CST := CST, OverwashProp := boolFl owp,
    MorDt := s.dt, MorDtMin := e.tp.MorDtMin, MorDtMax := e.tp.MorDtMax, Dx := e.Dx, MaxMorChange := e.MaxMorChange }

/-- core.py 109-176. -/
def compute [FloorRing K] (e : Env K) (s : CoreSt K) : Except PyErr (PassOut K) := do
  let c ← assembleChannel e.pp (chanIn e s)                                                       -- 110-118
  let win ← hydTimes s.time s.dt e.tp.HydDt                                                       -- 121-122
  let flow ← interpolateAt e.flow win                                                             -- 124
  let sea ← interpolateAt e.sea win                                                               -- 125
  let (dep, vel) ← hydraulics e c flow sea                                                        -- 127-139
  let hyd ← storeHydraulics dep vel c.online c.outlet c.flag (s.rows.map (·.z3)) c.closed         -- 141-144
  let bed ← e.parts.bedload c.width dep vel                                                       -- 147-148
  pyAssert (decide (bed.length = c.elev.length - 1))                                              -- 149
  let w ← wavesAt e.waves s.time                                                                  -- 152-157
  let LST := e.parts.lst (s.rows.map (·.y0)) w                                                    -- 159-161
  let q ← pyGet flow (-1)
  let sl ← pyGet sea (-1)
  let (CST, owp) ← e.parts.overtop (e.parts.runup w) sl s.rows                                    -- 164-166
  let m ← updateMorphology e.pp (e.junk1 s.passes) (e.junk2 s.passes) (morIn e s c dep hyd bed LST CST owp)  -- 169-176
  return { chan := c, window := win, flow := q, sea := sl, dep := dep, vel := vel, hyd := hyd, bed := bed, wave := w,
           LST := LST, CST := CST, owp := owp, mor := m }

/-- core.py 193-200: the record for the output file. -/
def snapshot (s : CoreSt K) (p : PassOut K) (t : ℤ) (bl : List (Fl K) × List (Fl K) × List (Fl K)) : Snapshot K :=
  { time := t, SeaLevel := p.sea, RivFlow := p.flow, Hs_offshore := p.wave.Hsig_Offshore, EDir_h := p.wave.EDir_h,
    rows := p.mor.rows, LagoonWL := p.hyd.LagoonWL, LagoonVel := p.hyd.LagoonVel, LagoonBedload := bl.1,
    OutletDep := p.hyd.OutletDep, OutletVel := p.hyd.OutletVel, OutletBedload := bl.2.1, LST := p.LST, CST := p.CST,
    OverwashProp := boolFl p.owp, RiverElev := p.mor.RiverElev, RiverDep := maskSel p.chan.flag (· == 0) p.dep,
    RiverVel := maskSel p.chan.flag (· == 0) p.vel, RiverBedload := maskSel p.chan.flag.dropLast (· == 0) p.bed,
    EndX0 := p.mor.EndX0, EndX1 := p.mor.EndX1, EndElev := p.mor.EndElev, EndWidth := p.mor.EndWidth,
    EndDep := p.hyd.EndDep, EndVel := p.hyd.EndVel, EndBedload := bl.2.2, Closed := p.chan.closed }

/-- core.py 204-207: the record for the time series file. -/
def tsRecord (p : PassOut K) (t dt : ℤ) : Except PyErr (TsRec K) := do
  let d ← pyGet p.dep (-1)
  let v ← pyGet p.vel (-1)
  let w ← pyGet p.chan.width (-1)
  let b ← ixGet p.bed 0
  return { time := t, SeaLevel := p.sea, RivFlow := p.flow, Hs_offshore := p.wave.Hsig_Offshore, EDir_h := p.wave.EDir_h,
           MeanLagoonWl := nanmean p.hyd.LagoonWL, LagOutflow := d * v * w, SedInflow := b,
           EndX0 := p.mor.EndX0, EndX1 := p.mor.EndX1, Closed := p.chan.closed, mordt := secs dt }

/-- core.py 178-235: advance time, write records, update the closed flag.  (The file writes are assumed to
succeed; logging and plotting have no effect on the state.) -/
def advance (e : Env K) (s : CoreSt K) (p : PassOut K) : Except PyErr (CoreSt K) := do
  let dt := if e.tp.EndTime - s.time < p.mor.MorDt then e.tp.EndTime - s.time else p.mor.MorDt    -- 179-180
  let t := s.time + dt                                                                            -- 183
  let live := decide (0 < e.oo.PlotInt)                                                           -- 83
  let isOut := decide (s.outTime ≤ t)
  let isPlot := live && decide (s.plotTime ≤ t)
  let bl ← (if isOut || isPlot then
      storeBedload p.bed s.rows.length p.chan.online p.chan.outlet p.chan.flag p.chan.closed
    else .ok ([], [], []) : Except PyErr _)                                                       -- 186-189
  let outs := if isOut then s.outs ++ [snapshot s p t bl] else s.outs                             -- 192-201
  let isTs := decide (s.tsTime ≤ t)
  let ts ← (if isTs then do return s.ts ++ [← tsRecord p t dt] else .ok s.ts : Except PyErr _)    -- 203-208
  return { time := t, dt := dt
           outTime := if isOut then s.outTime + e.oo.OutInt else s.outTime
           tsTime := if isTs then s.tsTime + e.oo.TsOutInt else s.tsTime
           plotTime := if isPlot then s.plotTime + e.oo.PlotInt else s.plotTime
           passes := s.passes + 1
           rows := p.mor.rows, EndX0 := p.mor.EndX0, EndX1 := p.mor.EndX1, EndWidth := p.mor.EndWidth, EndElev := p.mor.EndElev
           RiverElev := p.mor.RiverElev
           RivDep := maskSel p.chan.flag (· == 0) p.dep, RivVel := maskSel p.chan.flag (· == 0) p.vel
           hyd := p.hyd
           Closed := if p.mor.Breach then false else p.chan.closed                                -- 234-235
           outs := outs, ts := ts }

/-- One pass of the loop (core.py 109-235). -/
def pass [FloorRing K] (e : Env K) (s : CoreSt K) : Except PyErr (PassOut K × CoreSt K) := do
  let p ← compute e s
  let s' ← advance e s p
  return (p, s')

/-- Arguments of the first `assembleChannel` from what `loadModel` returned (core.py 42-49). -/
def firstChan (ld : LoadOut K) (Dx : K) : ChanIn K :=
  { rows := ld.rows, EndX0 := ld.EndX0, EndX1 := ld.EndX1, EndWidth := ld.EndWidth, EndElev := ld.EndElev, Closed := ld.Closed,
    RiverElev := ld.RiverElev, RivDep := List.zipWith (· - ·) ld.RiverWL ld.RiverElev, RivVel := ld.RiverVel,
    LagoonWL := ld.LagoonWL, LagoonVel := ld.LagoonVel, OutletDep := ld.OutletDep, OutletVel := ld.OutletVel,
    EndDep := ld.EndDep, EndVel := ld.EndVel, Dx := Dx }

/-- core.py 36-106: initial conditions, initial records and loop variables.  `ld` is what `loadModel` returned. -/
def initial [FloorRing K] (e : Env K) (ld : LoadOut K) : Except PyErr (CoreSt K) := do
  let S := e.tp.StartTime
  let flow ← interpolateAt e.flow [S]                                                             -- 36
  let sea ← interpolateAt e.sea [S]                                                               -- 37
  let w ← wavesAt e.waves S                                                                       -- 38-40
  let c ← assembleChannel e.pp (firstChan ld e.Dx)                                                -- 42-49
  let q ← ixGet flow 0
  let sl ← ixGet sea 0
  let cold := ld.LagoonVel.all (· ==? fin 0)                                                      -- 51
  let (dep, vel) ← (if cold then e.parts.steady c q sl else .ok (c.dep, c.vel) : Except PyErr _)  -- 53-55
  let hyd ← (if cold then storeHydraulics dep vel c.online c.outlet c.flag (ld.rows.map (·.z3)) c.closed
    else .ok ⟨ld.LagoonWL, ld.LagoonVel, ld.OutletDep, ld.OutletVel, ld.EndDep, ld.EndVel⟩ : Except PyErr (HydStore K))  -- 57-59
  let n := ld.rows.length
  let zeros : ℕ → List (Fl K) := fun n => List.replicate n (fin 0)
  let rd := maskSel c.flag (· == 0) dep
  let rv := maskSel c.flag (· == 0) vel
  let snap : Snapshot K :=
    { time := S, SeaLevel := sl, RivFlow := q, Hs_offshore := w.Hsig_Offshore, EDir_h := w.EDir_h, rows := ld.rows,
      LagoonWL := hyd.LagoonWL, LagoonVel := hyd.LagoonVel, LagoonBedload := zeros n, OutletDep := hyd.OutletDep,
      OutletVel := hyd.OutletVel, OutletBedload := zeros n, LST := zeros (n - 1), CST := zeros n, OverwashProp := zeros n,
      RiverElev := ld.RiverElev, RiverDep := rd, RiverVel := rv, RiverBedload := zeros ld.RiverElev.length,
      EndX0 := ld.EndX0, EndX1 := ld.EndX1, EndElev := ld.EndElev, EndWidth := ld.EndWidth, EndDep := hyd.EndDep,
      EndVel := hyd.EndVel, EndBedload := zeros 2, Closed := c.closed }                           -- 66-73
  let d ← pyGet dep (-1)
  let v ← pyGet vel (-1)
  let cw ← pyGet c.width (-1)
  let tsr : TsRec K :=
    { time := S, SeaLevel := sl, RivFlow := q, Hs_offshore := w.Hsig_Offshore, EDir_h := w.EDir_h,
      MeanLagoonWl := nanmean hyd.LagoonWL, LagOutflow := d * v * cw, SedInflow := fin 0, EndX0 := ld.EndX0,
      EndX1 := ld.EndX1, Closed := c.closed, mordt := secs e.tp.MorDtMin }                        -- 77-80
  return { time := S, dt := e.tp.MorDtMin, outTime := S + e.oo.OutInt, tsTime := S + e.oo.TsOutInt, plotTime := S + e.oo.PlotInt
           passes := 0, rows := ld.rows, EndX0 := ld.EndX0, EndX1 := ld.EndX1, EndWidth := ld.EndWidth, EndElev := ld.EndElev
           RiverElev := ld.RiverElev, RivDep := rd, RivVel := rv, hyd := hyd, Closed := c.closed, outs := [snap], ts := [tsr] }

/-- A run of `main` so far: from the state `s0` reached before the loop, through passes of the loop (core.py 107,
`while MorTime <= EndTime`) to the state `s`; the list records each pass with the states before and after it. -/
inductive Run [FloorRing K] (e : Env K) (s0 : CoreSt K) : List (CoreSt K × PassOut K × CoreSt K) → CoreSt K → Prop where
  | start : Run e s0 [] s0
  | pass {tr : List (CoreSt K × PassOut K × CoreSt K)} {s s' : CoreSt K} {p : PassOut K} :
      Run e s0 tr s → s.time ≤ e.tp.EndTime → pass e s = .ok (p, s') → Run e s0 (tr ++ [(s, p, s')]) s'

/-- `main` returns normally (leaves the loop) in state `s`. -/
def Returns [FloorRing K] (e : Env K) (ld : LoadOut K) (s : CoreSt K) : Prop :=
  ∃ s0 tr, initial e ld = .ok s0 ∧ Run e s0 tr s ∧ ¬ s.time ≤ e.tp.EndTime

/-- A finite number; nan or infinite forcing of the solvers is not modelled. -/
def finOf : Fl ℝ → Except PyErr ℝ
  | fin x => .ok x
  | _ => .error .other

/-- Numerical parameters used by the real functions (`NumericalPars`, and `PhysicalPars` entries not in `PhysPars`). -/
structure NumPars where
  Beta : ℝ
  Theta : ℝ
  Psi : ℝ
  ErrTol : ℝ
  MaxIt : ℕ
  BarrierPermeability : ℝ
  BeachSlope : ℝ

/-- The modelled functions of riv.py and coast.py with the arguments `main` passes (core.py 53-55, 127-139, 147-148,
159-166). -/
noncomputable def realParts (pp : PhysPars ℝ) (np : NumPars) (Dx : ℝ) (HydDt : ℤ) (solver : Solver) : Parts ℝ where
  unsteady c bdy := do
    let b ← bdy.mapM (fun x => do return (← finOf x.1, ← finOf x.2))
    let nodes := List.zipWith (fun (zb : Fl ℝ × Fl ℝ) (r : (Fl ℝ × Fl ℝ) × (Fl ℝ × Fl ℝ)) =>
      ({ z := zb.1, B := zb.2, LagArea := r.1.1, LagLen := r.1.2, h := r.2.1, V := r.2.2 } : ChanNode (Fl ℝ)))
      (c.elev.zip c.width) ((c.lagArea.zip c.lagLen).zip (c.dep.zip c.vel))
    solveFullPreissmann {
      g := pp.Gravity, n := pp.RoughnessManning, P := np.BarrierPermeability, Theta := np.Theta, Beta := np.Beta,
      Tol := np.ErrTol, MaxIt := np.MaxIt, dt := (secs HydDt : ℝ) } c.closed solver c.dx nodes b
  steady c q w := do
    let q ← finOf q
    let w ← finOf w
    solveSteady { n := pp.RoughnessManning, Q := q, DsWL := w, Beta := np.Beta, Tol := np.ErrTol, MaxIt := np.MaxIt } c.dx c.elev c.width
  bedload B h V := calcBedload B h V pp np.Psi
  lst y0 w := longShoreTransport y0 (fin Dx) w.WavePower w.WavePeriod w.Wlen_h w.EDir_h pp
  runup w := runup w.WavePeriod w.Hsig_Offshore (fin np.BeachSlope)
  overtop r sl rows := overtopping r sl rows pp

end Verif.Model
