import Verif.Model.Channel

set_option autoImplicit false

/-! # Model of `hapuamod/out.py`

A netCDF file is modelled by its dimensions, the stored record times and, for every per-time variable and
record number, the stored values (`none` if nothing was written there).  Attributes, units and descriptions
are not modelled. -/

namespace Verif.Model
open Verif Fl

variable {K : Type} [Field K] [LinearOrder K] [IsStrictOrderedRing K]

/-- The per-time variables of the output file (out.py 121-330), named as in the file. -/
inductive Var where
  | sea_level | river_flow | hs_offshore | wave_dir
  | shoreline_y | outlet_bank1_y | outlet_bank2_y | lagoon_y | cliff_y
  | lagoon_bed_z | outlet_bed_z | barrier_crest_z | inner_barrier_crest_z
  | lagoon_wl | lagoon_vel | lagoon_bedload | outlet_wl | outlet_vel | outlet_bedload
  | lst | cst | overwash_proportion
  | river_bed_z | river_wl | river_vel | river_bedload
  | outlet_end_x | outlet_end_width | outlet_end_z | outlet_end_wl | outlet_end_vel | outlet_end_bedload
  | dummy_xs_dep | dummy_xs_vel | outlet_closed
  deriving DecidableEq, Repr

/-- out.py 121-330: the per-time variables declared by `newOutFile`, in order. -/
def declaredVars : List Var :=
  [.sea_level, .river_flow, .hs_offshore, .wave_dir, .shoreline_y, .outlet_bank1_y, .outlet_bank2_y, .lagoon_y,
   .cliff_y, .lagoon_bed_z, .outlet_bed_z, .barrier_crest_z, .inner_barrier_crest_z, .lagoon_wl, .lagoon_vel,
   .lagoon_bedload, .outlet_wl, .outlet_vel, .outlet_bedload, .lst, .cst, .overwash_proportion, .river_bed_z,
   .river_wl, .river_vel, .river_bedload, .outlet_end_x, .outlet_end_width, .outlet_end_z, .outlet_end_wl,
   .outlet_end_vel, .outlet_end_bedload, .dummy_xs_dep, .dummy_xs_vel, .outlet_closed]

/-- Arguments of `writeCurrent` other than the file name (out.py 334-340).  `rows` are ShoreY and ShoreZ. -/
structure Snapshot (K : Type) where
  time : ℤ
  SeaLevel : Fl K
  RivFlow : Fl K
  Hs_offshore : Fl K
  EDir_h : Fl K
  rows : List (Transect K)
  LagoonWL : List (Fl K)
  LagoonVel : List (Fl K)
  LagoonBedload : List (Fl K)
  OutletDep : List (Fl K)
  OutletVel : List (Fl K)
  OutletBedload : List (Fl K)
  LST : List (Fl K)
  CST : List (Fl K)
  OverwashProp : List (Fl K)
  RiverElev : List (Fl K)
  RiverDep : List (Fl K)
  RiverVel : List (Fl K)
  RiverBedload : List (Fl K)
  EndX0 : Fl K
  EndX1 : Fl K
  EndElev : Fl K
  EndWidth : Fl K
  EndDep : List (Fl K)
  EndVel : List (Fl K)
  EndBedload : List (Fl K)
  Closed : Bool
  deriving DecidableEq, Repr

/-- How numbers and times are rounded when stored: `num` is the conversion of a finite number to float32 (overflow
to infinity is not modelled), `time` the conversion of a time to seconds as float64 and back. -/
structure Storage (K : Type) where
  num : K → K
  time : ℤ → ℤ

/-- Conversion of a float value: nan and infinities are stored as they are. -/
def Storage.val (st : Storage K) : Fl K → Fl K
  | fin x => fin (st.num x)
  | a => a

/-- Conversion of the values of a variable: all are float32 except the integer `outlet_closed` (out.py 326). -/
def Storage.var (st : Storage K) (v : Var) (l : List (Fl K)) : List (Fl K) := if v = .outlet_closed then l else l.map st.val

/-- An output file: dimensions `transect_x` and `river_dist`, coordinate `transect_x`, record times, data. -/
structure NcFile (K : Type) where
  nx : ℕ
  nr : ℕ
  x : List K
  times : List ℤ
  data : Var → ℕ → Option (List (Fl K))

/-- out.py 62-65, 102-107: the new file, before any record is written. -/
def emptyFile (st : Storage K) (ShoreX : List K) (RiverElev : List (Fl K)) : NcFile K :=
  { nx := ShoreX.length, nr := RiverElev.length, x := ShoreX.map st.num, times := [], data := fun _ _ => none }

/-- A value assigned to one record of a variable along a dimension of size `n`.  ValueError if the sizes differ.
(numpy broadcasting of single values is not modelled.) -/
def sized (n : ℕ) (l : List (Fl K)) : Except PyErr (List (Fl K)) := if l.length = n then .ok l else .error .value

/-- out.py 366-408: the assignments made by `writeCurrent`, before rounding. -/
def assignments (nx nr : ℕ) (s : Snapshot K) : Except PyErr (List (Var × List (Fl K))) := do
  let y0 ← sized nx (s.rows.map (·.y0))
  let y1 ← sized nx (s.rows.map (·.y1))
  let y2 ← sized nx (s.rows.map (·.y2))
  let y3 ← sized nx (s.rows.map (·.y3))
  let y4 ← sized nx (s.rows.map (·.y4))
  let z0 ← sized nx (s.rows.map (·.z0))
  let z1 ← sized nx (s.rows.map (·.z1))
  let z2 ← sized nx (s.rows.map (·.z2))
  let z3 ← sized nx (s.rows.map (·.z3))
  let lwl ← sized nx s.LagoonWL
  let lv ← sized nx s.LagoonVel
  let lb ← sized nx s.LagoonBedload
  let od ← sized nx s.OutletDep
  let ov ← sized nx s.OutletVel
  let ob ← sized nx s.OutletBedload
  let cst ← sized nx s.CST
  let op ← sized nx s.OverwashProp
  let lst ← sized (nx - 1) s.LST
  let re ← sized nr s.RiverElev
  let rd ← sized nr s.RiverDep
  let rv ← sized nr s.RiverVel
  let rb ← sized nr s.RiverBedload
  let d0 ← ixGet s.EndDep 0
  let v0 ← ixGet s.EndVel 0
  let d1 ← ixGet s.EndDep 1
  let v1 ← ixGet s.EndVel 1
  return [(.sea_level, [s.SeaLevel]), (.river_flow, [s.RivFlow]), (.hs_offshore, [s.Hs_offshore]), (.wave_dir, [s.EDir_h]),
    (.shoreline_y, y0), (.outlet_bank1_y, y1), (.outlet_bank2_y, y2), (.lagoon_y, y3), (.cliff_y, y4),
    (.barrier_crest_z, z0), (.outlet_bed_z, z1), (.inner_barrier_crest_z, z2), (.lagoon_bed_z, z3),
    (.lagoon_wl, lwl), (.lagoon_vel, lv), (.lagoon_bedload, lb), (.outlet_wl, List.zipWith (· + ·) od z1), (.outlet_vel, ov),
    (.outlet_bedload, ob), (.cst, cst.map (· * fin 3600)), (.overwash_proportion, op), (.lst, lst.map (· * fin 3600)),
    (.river_bed_z, re), (.river_wl, List.zipWith (· + ·) re rd), (.river_vel, rv), (.river_bedload, rb),
    (.outlet_end_x, [s.EndX0, s.EndX1]), (.outlet_end_width, [s.EndWidth]), (.outlet_end_z, [s.EndElev]),
    (.outlet_end_wl, [s.EndElev + d0]), (.outlet_end_vel, [v0]), (.dummy_xs_dep, [d1]), (.dummy_xs_vel, [v1]),
    (.outlet_closed, [if s.Closed then fin 1 else fin 0])]

/-- out.py 334-410, `writeCurrent`: append a record.  (A failing call leaves a partly written file behind, which is
not modelled.) -/
def writeCurrent (st : Storage K) (f : NcFile K) (s : Snapshot K) : Except PyErr (NcFile K) := do
  let as ← assignments f.nx f.nr s
  let ix := f.times.length
  return { f with
    times := f.times ++ [st.time s.time]
    data := fun v i => if i = ix then (as.lookup v).map (st.var v) else f.data v i }

/-- What `readTimestep` returns (out.py 496-501; WavePower is always None). -/
structure ReadOut (K : Type) where
  SeaLevel : Fl K
  RivFlow : Fl K
  Hs_offshore : Fl K
  EDir_h : Fl K
  rows : List (Transect K)
  LagoonWL : List (Fl K)
  LagoonVel : List (Fl K)
  OutletWL : List (Fl K)
  OutletVel : List (Fl K)
  EndX0 : Fl K
  EndX1 : Fl K
  EndWidth : Fl K
  EndElev : Fl K
  EndVel : Fl K
  EndWL : Fl K
  DummyDep : Fl K
  DummyVel : Fl K
  outlet : List ℕ
  LST : List (Fl K)
  CST : List (Fl K)
  Closed : Bool
  RiverElev : List (Fl K)
  RiverWL : List (Fl K)
  RiverVel : List (Fl K)
  time : ℤ
  deriving DecidableEq, Repr

/-- One record of a variable; IndexError if there is no such record.  A record that was never written is masked in
netCDF4; the error `other` stands for that. -/
def readVar (f : NcFile K) (v : Var) (i : ℕ) : Except PyErr (List (Fl K)) :=
  if i < f.times.length then
    match f.data v i with
    | some l => .ok l
    | none => .error .other
  else .error .index

/-- out.py 443-456: the shoreline arrays as rows. -/
def zipRows (xs : List K) (y0 y1 y2 y3 y4 z0 z1 z2 z3 : List (Fl K)) : Except PyErr (List (Transect K)) :=
  (List.range xs.length).mapM (fun i => do
    return { x := ← ixGet xs i, y0 := ← ixGet y0 i, y1 := ← ixGet y1 i, y2 := ← ixGet y2 i, y3 := ← ixGet y3 i,
             y4 := ← ixGet y4 i, z0 := ← ixGet z0 i, z1 := ← ixGet z1 i, z2 := ← ixGet z2 i, z3 := ← ixGet z3 i })

/-- out.py 412-501, `readTimestep`, for one record number.  The EDir_h read from the file on line 437 is replaced by 0
on line 474. -/
def readTimestep (f : NcFile K) (i : ℕ) : Except PyErr (ReadOut K) := do
  let sea ← ixGet (← readVar f .sea_level i) 0
  let flow ← ixGet (← readVar f .river_flow i) 0
  let hs ← ixGet (← readVar f .hs_offshore i) 0
  let _ ← ixGet (← readVar f .wave_dir i) 0
  let t ← ixGet f.times i
  let rows ← zipRows f.x (← readVar f .shoreline_y i) (← readVar f .outlet_bank1_y i) (← readVar f .outlet_bank2_y i)
    (← readVar f .lagoon_y i) (← readVar f .cliff_y i) (← readVar f .barrier_crest_z i) (← readVar f .outlet_bed_z i)
    (← readVar f .inner_barrier_crest_z i) (← readVar f .lagoon_bed_z i)
  let lwl ← readVar f .lagoon_wl i
  let lv ← readVar f .lagoon_vel i
  let owl ← readVar f .outlet_wl i
  let ov ← readVar f .outlet_vel i
  let ex ← readVar f .outlet_end_x i
  let e0 ← ixGet ex 0
  let e1 ← ixGet ex 1
  let ew ← ixGet (← readVar f .outlet_end_width i) 0
  let ez ← ixGet (← readVar f .outlet_end_z i) 0
  let ev ← ixGet (← readVar f .outlet_end_vel i) 0
  let ewl ← ixGet (← readVar f .outlet_end_wl i) 0
  let dd ← ixGet (← readVar f .dummy_xs_dep i) 0
  let dv ← ixGet (← readVar f .dummy_xs_vel i) 0
  let c ← ixGet (← readVar f .outlet_closed i) 0
  let lst ← readVar f .lst i
  let cst ← readVar f .cst i
  let re ← readVar f .river_bed_z i
  let rwl ← readVar f .river_wl i
  let rv ← readVar f .river_vel i
  let Closed := !(c ==? fin 0)
  return { SeaLevel := sea, RivFlow := flow, Hs_offshore := hs, EDir_h := fin 0, rows := rows, LagoonWL := lwl,
           LagoonVel := lv, OutletWL := owl, OutletVel := ov, EndX0 := e0, EndX1 := e1, EndWidth := ew, EndElev := ez,
           EndVel := ev, EndWL := ewl, DummyDep := dd, DummyVel := dv,
           outlet := if Closed then [] else outletIx rows e0 e1,
           LST := lst.map (· / fin 3600), CST := cst.map (· / fin 3600), Closed := Closed,
           RiverElev := re, RiverWL := rwl, RiverVel := rv, time := t }

/-- out.py 503-515, `closestTimeIx`: the indices of the records closest to `t`, and the time of the first of them.
ValueError if there are no records. -/
def closestTimeIx (times : List ℤ) (t : ℤ) : Except PyErr (List ℕ × ℤ) :=
  match times.map (fun s => (s - t).natAbs) with
  | [] => .error .value
  | d :: ds => do
    let m := ds.foldl min d
    let ix := whereIx (fun s => decide ((s - t).natAbs = m)) times
    let first ← ixGet ix 0
    return (ix, ← ixGet times first)

/-- `readTimestep` with the index array returned by `closestTimeIx`: with a single index it reads that record; with
several, the assignment of a (k, n) array to a column of length n raises ValueError. -/
def readIxs (f : NcFile K) (ix : List ℕ) : Except PyErr (ReadOut K) :=
  match ix with
  | [i] => readTimestep f i
  | _ => .error .value

/-- The part of what `loadModel` returns that describes the initial state (loadmod.py 700-706). -/
structure LoadOut (K : Type) where
  rows : List (Transect K)
  RiverElev : List (Fl K)
  EndX0 : Fl K
  EndX1 : Fl K
  EndWidth : Fl K
  EndElev : Fl K
  RiverWL : List (Fl K)
  RiverVel : List (Fl K)
  LagoonWL : List (Fl K)
  LagoonVel : List (Fl K)
  OutletDep : List (Fl K)
  OutletVel : List (Fl K)
  EndDep : List (Fl K)
  EndVel : List (Fl K)
  Closed : Bool
  deriving DecidableEq, Repr

/-- loadmod.py 303-327, 565-569: initial state read from an output file (hot start); also the time of the record
used. -/
def hotStart (f : NcFile K) (t : ℤ) (Dx : K) : Except PyErr (LoadOut K × ℤ) := do
  let (ix, actual) ← closestTimeIx f.times t
  let r ← readIxs f ix
  let x0 ← ixGet f.x 0
  let x1 ← ixGet f.x 1
  pyAssert (decide (x1 - x0 = Dx))
  return ({ rows := r.rows, RiverElev := r.RiverElev, EndX0 := r.EndX0, EndX1 := r.EndX1, EndWidth := r.EndWidth,
            EndElev := r.EndElev, RiverWL := r.RiverWL, RiverVel := r.RiverVel, LagoonWL := r.LagoonWL,
            LagoonVel := r.LagoonVel, OutletDep := List.zipWith (fun w (t : Transect K) => w - t.z1) r.OutletWL r.rows,
            OutletVel := r.OutletVel, EndDep := [r.EndWL - r.EndElev, r.DummyDep], EndVel := [r.EndVel, r.DummyVel],
            Closed := r.Closed }, actual)

/-- out.py 41-58 (and 524-538): what happens to a file of the same name before a new output file is created.  `old` is
the existing file, if any; returns whether the call goes on, and the file left on disk.  `reply` is what the user types. -/
def guardFile {F : Type} (old : Option F) (Overwrite : Bool) (reply : String) : Except PyErr Unit × Option F :=
  match old with
  | none => (.ok (), none)
  | some f =>
    let Overwrite := if !Overwrite then ["Y", "y", "Yes", "yes", "YES"].contains reply else Overwrite
    if Overwrite then (.ok (), none) else (.error .other, some f)

/-- out.py 14-332, `newOutFile`: outcome and the file left on disk. -/
def newOutFile (st : Storage K) (old : Option (NcFile K)) (Overwrite : Bool) (reply : String) (ShoreX : List K)
    (RiverElev : List (Fl K)) : Except PyErr Unit × Option (NcFile K) :=
  match guardFile old Overwrite reply with
  | (.ok (), _) => (.ok (), some (emptyFile st ShoreX RiverElev))
  | (.error e, left) => (.error e, left)

end Verif.Model
