import Verif.Model.Channel

set_option autoImplicit false

/-! # Model of `updateMorphology` in `hapuamod/mor.py`, first half

Lines 28-215: the derived quantities, the rates of change, the adaptive timestep, the limiter and
the update of the morphology. -/

namespace Verif.Model
open Verif Fl

variable {K : Type} [Field K] [LinearOrder K] [IsStrictOrderedRing K]

/-- Arguments of `updateMorphology` other than `PhysicalPars` (mor.py 12-18); `rows` are ShoreX,
ShoreY and ShoreZ.  `ChanDx` is not used by the function.  Times are in nanoseconds. -/
structure MorIn (K : Type) where
  rows : List (Transect K)
  EndX0 : Fl K
  EndX1 : Fl K
  EndWidth : Fl K
  EndElev : Fl K
  RiverElev : List (Fl K)
  online : List ℕ
  outlet : List ℕ
  LagoonWL : List (Fl K)
  OutletDep : List (Fl K)
  ChanWidth : List (Fl K)
  ChanDep : List (Fl K)
  ChanFlag : List ℕ
  Closed : Bool
  LST : List (Fl K)
  Bedload : List (Fl K)
  CST : List (Fl K)
  OverwashProp : List (Fl K)
  MorDt : ℤ
  MorDtMin : ℤ
  MorDtMax : ℤ
  Dx : K
  MaxMorChange : K

/-- A transect with the quantities derived for it at the start of the step (mor.py 37-68):
ShorefaceHeight, CrestWidth, BackBarHeight, OutletPresent, LagoonOpen, WaterLevel. -/
structure Cell (K : Type) where
  t : Transect K
  sfh : Fl K
  cw : Fl K
  bh : Fl K
  op : Bool
  lo : Bool
  wl : Fl K
  deriving DecidableEq, Repr

/-- mor.py 36-68 for transect number `i`. -/
def mkCell (pp : PhysPars K) (a : MorIn K) (i : ℕ) (r : Transect K) : Cell K :=
  let op := !r.y1.isnan
  { t := r
    sfh := fin pp.ClosureDepth + r.z0
    cw := if op then r.y0 - r.y1 else r.y0 - r.y3
    bh := if op then r.z0 - r.z1 else r.z0 - r.z3
    op := op
    lo := fin pp.MinOutletWidth <? (r.y3 - r.y4)
    wl := if !a.Closed && a.outlet.contains i then (a.OutletDep[i]?).getD nan + r.z1
      else if r.y4 <? r.y3 then (a.LagoonWL[i]?).getD nan else fin (-99999 / 10) }

/-- mor.py 28-68: cells, index of the transect in line with the river, and index of the first
transect right of the outlet end (0 when closed; not used then).  The arrays are taken to have the shapes given
by the caller (otherwise IndexError). -/
def precalc (pp : PhysPars K) (a : MorIn K) : Except PyErr (List (Cell K) × ℕ × ℕ) := do
  let X0Ix ← firstIx (fun r : Transect K => fin r.x ==? fin 0) a.rows
  let rb ← (if a.Closed then .ok 0 else firstIx (fun r : Transect K => a.EndX1 <? fin r.x) a.rows : Except PyErr ℕ)
  if a.LagoonWL.length ≠ a.rows.length ∨ a.OutletDep.length ≠ a.rows.length then .error .index
  else if !a.Closed && a.outlet.any (fun i => decide (a.rows.length ≤ i)) then .error .index
  else
    let cells := a.rows.mapIdx (mkCell pp a)
    pyAssert (!cells.any (·.wl.isnan))                 -- 58
    pyAssert (cells.all (fun c => fin 0 <? c.cw))      -- 63
    return (cells, X0Ix, rb)

/-- Rates of change (mor.py 71-74, 98-110): one entry per transect for the columns of `ShoreYChangeRate`
and `ShoreZChangeRate` (column 2 of the latter stays zero), one per river section below the first for
`RivBedAggRate`, and the rates of outlet end width, bed level and position. -/
structure Rates (K : Type) where
  y0 : List (Fl K)
  y1 : List (Fl K)
  y2 : List (Fl K)
  y3 : List (Fl K)
  y4 : List (Fl K)
  z0 : List (Fl K)
  z1 : List (Fl K)
  z3 : List (Fl K)
  riv : List (Fl K)
  endW : Fl K
  endZ : Fl K
  endX : Fl K
  deriving DecidableEq, Repr

/-- Volume change rate, `TooWide` and `ChanFlag` of one cross-section. -/
structure Sec (K : Type) where
  dvol : Fl K
  wide : Bool
  flag : ℕ
  deriving DecidableEq, Repr

/-- mor.py 91: total erosion. -/
def Sec.ero (s : Sec K) : Fl K := -(npmin s.dvol (fin 0))
/-- mor.py 92. -/
def Sec.bedEro (s : Sec K) : Fl K := s.ero * (if s.wide then fin 1 else fin 0)
/-- mor.py 93. -/
def Sec.bankEro (s : Sec K) : Fl K := s.ero * (if s.wide then fin 0 else fin 1)
/-- mor.py 94. -/
def Sec.bedDep (s : Sec K) : Fl K := npmax s.dvol (fin 0)

/-- mor.py 76-89: the cross-sections that change.  ValueError if the arrays do not match (numpy would
accept some one-element arrays instead). -/
def sections (pp : PhysPars K) (a : MorIn K) : Except PyErr (List (Sec K)) :=
  let dvol := if a.Closed then List.zipWith (· - ·) a.Bedload (a.Bedload.tail ++ [fin 0])
    else List.zipWith (· - ·) a.Bedload.dropLast a.Bedload.tail
  let cut := fun {α : Type} (l : List α) => if a.Closed then l.tail else l.tail.dropLast
  let wide := List.zipWith (fun w d => fin pp.WidthDepthRatio <? (w / d)) (cut a.ChanWidth) (cut a.ChanDep)
  let flag := cut a.ChanFlag
  if a.ChanWidth.length ≠ a.ChanDep.length ∨ wide.length ≠ dvol.length ∨ flag.length ≠ dvol.length then .error .value
  else .ok (List.zipWith (fun d (p : Bool × ℕ) => ⟨d, p.1, p.2⟩) dvol (wide.zip flag))

/-- mor.py 96-97. -/
def lagBank (r : Transect K) : Fl K := if r.y1.isnan then r.z0 else r.z2

/-- `A[ixs, col] += vals`, `vals` computed from the sections and the transects `ixs`; ValueError if
the numbers differ. -/
def addCol (l : List (Fl K)) (ixs : List ℕ) (ss : List (Sec K)) (rs : List (Transect K))
    (f : Sec K → Transect K → Fl K) : Except PyErr (List (Fl K)) :=
  if ss.length ≠ ixs.length then .error .value
  else scatter (fun old v => old + v) l ixs (List.zipWith f ss rs)

/-- mor.py 132-133: rate of shoreline advance at `x` by the sediment leaving the outlet. -/
def toShore (pp : PhysPars K) (a : MorIn K) (bl : Fl K) (c : Cell K) : Fl K :=
  (fin a.Dx * bl / fin pp.OutletSedSpreadDist) *
    npmax (fin 1 - (fin c.t.x - a.EndX1).abs / fin pp.OutletSedSpreadDist) (fin 0)

/-- mor.py 71-133: rates due to the river.  An open channel has exactly one section flagged 3 (outlet
end); any other number is treated as a ValueError. -/
def riverRates (pp : PhysPars K) (a : MorIn K) (cells : List (Cell K)) : Except PyErr (Rates K) := do
  let n := a.rows.length
  let zero := List.replicate n (fin (0 : K))
  let ss ← sections pp a
  let lag := ss.filter (·.flag == 1)
  let riv := (ss.filter (·.flag == 0)).map (fun s => (s.bedDep - s.ero) / (fin pp.RiverWidth * fin a.Dx))
  let onRows ← gather a.rows a.online
  let z3 ← addCol zero a.online lag onRows (fun s r => (s.bedDep - s.bedEro) / ((r.y3 - r.y4) * fin a.Dx))
  let y3 ← addCol zero a.online lag onRows (fun s r => s.bankEro / fin 2 / ((lagBank r - r.z3) * fin a.Dx))
  let y4 ← addCol zero a.online lag onRows (fun s r => -(s.bankEro / fin 2 / ((fin pp.BackshoreElev - r.z3) * fin a.Dx)))
  if a.Closed then
    return ⟨zero, zero, zero, y3, y4, zero, zero, z3, riv, fin 0, fin 0, fin 0⟩
  else
    let out := ss.filter (·.flag == 2)
    let outRows ← gather a.rows a.outlet
    let z1 ← addCol zero a.outlet out outRows (fun s r => (s.bedDep - s.bedEro) / ((r.y1 - r.y2) * fin a.Dx))
    let y1 ← addCol zero a.outlet out outRows (fun s r => s.bankEro / fin 2 / ((r.z0 - r.z1) * fin a.Dx))
    let y2 ← addCol zero a.outlet out outRows (fun s r => -(s.bankEro / fin 2 / ((r.z2 - r.z1) * fin a.Dx)))
    let e ← (match ss.filter (·.flag == 3) with | [e] => .ok e | _ => .error .value : Except PyErr (Sec K))
    let endZ := (e.bedDep - e.bedEro) / (a.EndWidth * fin a.Dx)
    let endW := e.bankEro / ((fin pp.BeachTopElev - a.EndElev) * fin pp.SpitWidth)
    let mv := endW / fin 2 * fin pp.OutletBankEroFac
    let endX := if a.EndX0 <? a.EndX1 then mv else if a.EndX1 <? a.EndX0 then -mv else fin 0
    let bl ← pyGet a.Bedload (-1)
    let y0 := cells.map (fun c => toShore pp a bl c / (c.sfh * fin a.Dx))
    return ⟨y0, y1, y2, y3, y4, zero, z1, z3, riv, endW, endZ, endX⟩

/-- Python index `i - 1` into an array of length `n` (wraps to the last entry for `i = 0`). -/
def prevIx (n i : ℕ) : ℕ := if i = 0 then n - 1 else i - 1

/-- mor.py 137: longshore transport at the interior transects; ValueError if there is not one
transport per segment. -/
def lstInterior (a : MorIn K) (cells : List (Cell K)) (y0 : List (Fl K)) : Except PyErr (List (Fl K)) :=
  let n := cells.length
  if a.LST.length + 1 ≠ n then .error .value
  else .ok ((y0.zip cells).mapIdx (fun i (v, c) =>
    if 0 < i ∧ i + 1 < n then
      v + ((a.LST[i-1]?).getD nan - (a.LST[i]?).getD nan) / (c.sfh * fin a.Dx) else v))

/-- mor.py 135-157: rates due to longshore transport.  Line 152 changes `ShoreY` itself, so the
cells are returned too. -/
def lstRates (pp : PhysPars K) (a : MorIn K) (rb : ℕ) (cells : List (Cell K)) (R : Rates K) :
    Except PyErr (Rates K × List (Cell K)) := do
  let n := cells.length
  let y0 ← lstInterior a cells R.y0
  if a.Closed then return ({ R with y0 := y0 }, cells)
  else
    let l ← ixGet a.LST (prevIx a.LST.length rb)
    let den := (fin pp.BeachTopElev - a.EndElev) * fin pp.SpitWidth
    if fin 0 <? l then
      let c ← ixGet cells rb
      let red := l / den
      return ({ R with
        y0 := y0.modify rb (· - l / (c.sfh * fin a.Dx))
        endW := R.endW - red
        endX := R.endX + red / fin 2 }, cells)
    else
      let c ← ixGet cells (prevIx n rb)
      let red := -l / den
      return ({ R with
        y0 := y0
        endW := R.endW - red
        endX := R.endX - red / fin 2 },
        cells.modify (prevIx n rb) (fun c' => { c' with t := { c'.t with y0 := c'.t.y0 + l / (c.sfh * fin a.Dx) } }))

/-- mor.py 159-172: rates due to cross-shore transport, and the erosion rate imposed at the two ends. -/
def cstRates (pp : PhysPars K) (a : MorIn K) (cells : List (Cell K)) (R : Rates K) : Except PyErr (Rates K) :=
  let n := cells.length
  if a.CST.length ≠ n ∨ a.OverwashProp.length ≠ n then .error .value
  else
    let cst := fun i => (a.CST[i]?).getD nan
    let opr := fun i => (a.OverwashProp[i]?).getD nan
    .ok { R with
      z0 := (R.z0.zip cells).mapIdx (fun i (v, c) => v + (fin 1 - opr i) * cst i / c.cw)
      y3 := (R.y3.zip cells).mapIdx (fun i (v, c) => if c.op then v else v - opr i * cst i / c.bh)
      y1 := (R.y1.zip cells).mapIdx (fun i (v, c) => if c.op then v - opr i * cst i / c.bh else v)
      y0 := (R.y0.zip cells).mapIdx (fun i (v, c) =>
        if 0 < i ∧ i + 1 < n then v - cst i / c.sfh else -(fin pp.ShorelineErosionRate) / fin 31557600) }

/-- `np.max(np.abs(l))`; ValueError if empty. -/
def maxAbs (l : List (Fl K)) : Except PyErr (Fl K) :=
  match l.map Fl.abs with
  | [] => .error .value
  | x :: t => .ok (t.foldl npmax x)

/-- mor.py 176-181 (the zero column of ShoreZChangeRate is included). -/
def maxRate (R : Rates K) : Except PyErr (Fl K) := do
  let m1 ← maxAbs R.riv
  let m2 ← maxAbs (R.y0 ++ R.y1 ++ R.y2 ++ R.y3 ++ R.y4)
  let m3 ← maxAbs (R.z0 ++ R.z1 ++ R.z0.map (fun _ => fin 0) ++ R.z3)
  return pymax (pymax (pymax (pymax (pymax m1 m2) m3) R.endW.abs) R.endZ.abs) R.endX.abs

/-- `Timedelta.seconds`: the whole seconds within the day. -/
def secs (dt : ℤ) : ℤ := dt / 1000000000 % 86400

/-- `while cond: MorDt /= 2` (truncating); 64 halvings bring any pandas Timedelta to zero. -/
def halve (cond : ℤ → Bool) : ℕ → ℤ → Except PyErr ℤ
  | 0, _ => .error .other
  | f + 1, dt => if cond dt then halve cond f (dt.tdiv 2) else .ok dt

/-- `while cond: MorDt *= 2`.  Beyond 2^63 ns pandas raises OverflowError; a zero step is doubled for
ever.  Both are `.error .other`. -/
def grow (cond : ℤ → Bool) : ℕ → ℤ → Except PyErr ℤ
  | 0, _ => .error .other
  | f + 1, dt =>
    if cond dt then
      if 2 ^ 63 ≤ |2 * dt| then .error .other else grow cond f (2 * dt)
    else .ok dt

/-- mor.py 183-189: the adaptive timestep. -/
def adaptDt (rate : Fl K) (lim : K) (dtMin dtMax dt : ℤ) : Except PyErr ℤ := do
  let dt ← halve (fun dt => decide (secs dtMin < secs dt) && (fin lim <? rate * fin (secs dt : K))) 65 dt
  grow (fun dt => decide (secs dt < secs dtMax) && (rate * fin (secs dt : K) <? fin (lim / 2))) 65 dt

/-- `np.minimum(np.maximum(r, -L), L)`. -/
def clip (L : K) (r : Fl K) : Fl K := npmin (npmax r (fin (-L))) (fin L)

/-- `min(max(r, -L), L)`. -/
def pyClip (L : K) (r : Fl K) : Fl K := pymin (pymax r (fin (-L))) (fin L)

/-- mor.py 194-204: limit the rates if they still exceed MaxMorChange.  (`s.endW` is clipped with numpy
functions, the other scalars with Python's.) -/
def limitRates (rate : Fl K) (lim : K) (dtMin dt : ℤ) (R : Rates K) : Except PyErr (Rates K) := do
  if fin lim <? rate * fin (secs dt : K) then
    pyAssert (decide (secs dt ≤ secs dtMin))
    if secs dt = 0 then .error .zeroDiv
    else
      let L := lim / (secs dt : K)
      return { y0 := R.y0.map (clip L), y1 := R.y1.map (clip L), y2 := R.y2.map (clip L), y3 := R.y3.map (clip L),
               y4 := R.y4.map (clip L), z0 := R.z0.map (clip L), z1 := R.z1.map (clip L), z3 := R.z3.map (clip L),
               riv := R.riv.map (clip L), endW := clip L R.endW, endZ := pyClip L R.endZ, endX := pyClip L R.endX }
  else return R

/-- State while the morphology is repaired: cells, outlet end, local OutletChanIx, river bed. -/
structure MorSt (K : Type) where
  cells : List (Cell K)
  e0 : Fl K
  e1 : Fl K
  endW : Fl K
  endZ : Fl K
  ix : List ℕ
  riv : List (Fl K)
  deriving DecidableEq, Repr

/-- mor.py 210-211 for transect number `i`; `s` is MorDt.seconds. -/
def moveCell (R : Rates K) (s : Fl K) (i : ℕ) (c : Cell K) : Cell K :=
  let g := fun (l : List (Fl K)) => (l[i]?).getD nan * s
  { c with t := { c.t with
      y0 := c.t.y0 + g R.y0, y1 := c.t.y1 + g R.y1, y2 := c.t.y2 + g R.y2, y3 := c.t.y3 + g R.y3, y4 := c.t.y4 + g R.y4,
      z0 := c.t.z0 + g R.z0, z1 := c.t.z1 + g R.z1, z3 := c.t.z3 + g R.z3 } }

/-- mor.py 209-215: apply the rates.  ValueError if the river does not have one rate per section below
the first. -/
def applyRates (a : MorIn K) (dt : ℤ) (R : Rates K) (cells : List (Cell K)) : Except PyErr (MorSt K) :=
  let s := fin (secs dt : K)
  if R.riv.length + 1 ≠ a.RiverElev.length then .error .value
  else
    .ok { cells := cells.mapIdx (moveCell R s)
          e0 := a.EndX0
          e1 := if a.Closed then a.EndX1 else a.EndX1 + R.endX * s
          endW := if a.Closed then a.EndWidth else a.EndWidth + R.endW * s
          endZ := if a.Closed then a.EndElev else a.EndElev + R.endZ * s
          ix := a.outlet
          riv := a.RiverElev.take 1 ++ List.zipWith (fun z r => z + r * s) a.RiverElev.tail R.riv }

/-- mor.py 71-172: all rates, with the cells after line 152. -/
def allRates (pp : PhysPars K) (a : MorIn K) (rb : ℕ) (cells : List (Cell K)) : Except PyErr (Rates K × List (Cell K)) := do
  let R ← riverRates pp a cells
  let (R, cells) ← lstRates pp a rb cells R
  let R ← cstRates pp a cells R
  return (R, cells)

/-- mor.py 28-215: everything before the repairs.  Returns the new MorDt, the index of the transect in
line with the river and the state. -/
def forceStage (pp : PhysPars K) (a : MorIn K) : Except PyErr (ℤ × ℕ × MorSt K) := do
  let (cells, X0Ix, rb) ← precalc pp a
  let (R, cells) ← allRates pp a rb cells
  let rate ← maxRate R
  let dt ← adaptDt rate a.MaxMorChange a.MorDtMin a.MorDtMax a.MorDt
  let R ← limitRates rate a.MaxMorChange a.MorDtMin dt R
  let st ← applyRates a dt R cells
  return (dt, X0Ix, st)

end Verif.Model
