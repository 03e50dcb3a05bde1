import Verif.Model.View
import Verif.Model.Out

set_option autoImplicit false
set_option linter.unusedSectionVars false

/-! # Model of the transect and long section figures of `hapuamod/visualise.py` and of `hapuamod/animate.py`

As in Model/View, a line or polygon is the list of the coordinates of its vertices.  Titles, time stamps, colours and the area
of interest are not modelled. -/

namespace Verif.Model
open Verif Fl

variable {K : Type} [Field K] [LinearOrder K] [IsStrictOrderedRing K]

/-- `np.argmin(d)`: the first index at which the smallest value occurs; ValueError if empty. -/
def argminK (d : List K) : Except PyErr ℕ :=
  match d with
  | [] => .error .value
  | a :: t => firstIx (fun v => decide (v = t.foldl min a)) d

/-- visualise.py 642-643: the transect shown. -/
def transectIx (xs : List K) (X : K) : Except PyErr ℕ := do
  let a ← pyGet xs 0
  let b ← pyGet xs (-1)
  pyAssert (decide (a ≤ X) && decide (X ≤ b))
  argminK (xs.map (fun x => |x - X|))

/-- The constants the transect figure keeps (visualise.py 670-675, 689-692), attributes of the results file (animate.py 139-142). -/
structure TransPars (K : Type) where
  BeachSlope : K
  BackshoreElev : K
  ClosureDepth : K
  BeachTopElev : K

/-- Lines and polygons of the transect figure. -/
structure TransFig (K : Type) where
  ground : Line K
  groundFill : Line K
  water : Line K
  waterFill : Line K
  deriving DecidableEq, Repr

/-- visualise.py 703-736: ground line, from the sea to the cliff. -/
def groundLine (q : TransPars K) (r : Transect K) : Line K :=
  { x := [fin 1000, r.y0 + fin (q.BeachTopElev + q.ClosureDepth) / fin q.BeachSlope] ++ [r.y0, r.y0] ++
      (if r.y2.isnan then [r.y3] else [r.y1, r.y1, r.y2, r.y2, r.y3]) ++ (if r.y3 ==? r.y4 then [] else [r.y3, r.y4]) ++ [r.y4, fin (-1000)]
    y := [fin (-q.ClosureDepth), fin (-q.ClosureDepth)] ++ [fin q.BeachTopElev, r.z0] ++
      (if r.y2.isnan then [r.z0] else [r.z0, r.z1, r.z1, r.z2, r.z2]) ++ (if r.y3 ==? r.y4 then [] else [r.z3, r.z3]) ++
      [fin q.BackshoreElev, fin q.BackshoreElev] }

/-- visualise.py 705-731: water line. -/
def waterLine (r : Transect K) (lag out sea : Fl K) : Line K :=
  { x := [fin 1000, r.y0] ++ (if r.y2.isnan then [] else [r.y1, r.y2]) ++ (if r.y3 ==? r.y4 then [] else [r.y3, r.y4])
    y := [sea, sea] ++ (if r.y2.isnan then [] else [out, out]) ++ (if r.y3 ==? r.y4 then [] else [lag, lag]) }

/-- visualise.py 739-744: the polygon between a line and the level -100. -/
def fillDown (l : Line K) : Except PyErr (Line K) := do
  let xl ← pyGet l.x (-1)
  let x0 ← pyGet l.x 0
  let y0 ← pyGet l.y 0
  return { x := l.x ++ [xl, x0, x0], y := l.y ++ [fin (-100), fin (-100), y0] }

/-- visualise.py 683-757, `updateTransectFig`. -/
def updateTransectFig (q : TransPars K) (ix : ℕ) (rows : List (Transect K)) (LagoonWL OutletWL : List (Fl K)) (SeaLevel : Fl K) :
    Except PyErr (TransFig K) := do
  let r ← ixGet rows ix
  let lw ← ixGet LagoonWL ix
  let ow ← ixGet OutletWL ix
  let g := groundLine q r
  let w := waterLine r lw ow SeaLevel
  let gf ← fillDown g
  let wf ← fillDown w
  return { ground := g, groundFill := gf, water := w, waterFill := wf }

/-- visualise.py 628-681, `newTransectFig`: the transect shown, and the figure. -/
def newTransectFig (q : TransPars K) (rows : List (Transect K)) (LagoonWL OutletWL : List (Fl K)) (SeaLevel : Fl K) (X : K) :
    Except PyErr (ℕ × TransFig K) := do
  let ix ← transectIx (rows.map (·.x)) X
  let t ← updateTransectFig q ix rows LagoonWL OutletWL SeaLevel
  return (ix, t)

/-- `np.cumsum` with a start value, and the start value in front (visualise.py 503, 590). -/
def cumFrom (a : Fl K) : List (Fl K) → List (Fl K)
  | [] => [a]
  | d :: t => a :: cumFrom (a + d) t

/-- `(a[:-1] + a[1:]) / 2`. -/
def mids (l : List (Fl K)) : List (Fl K) := List.zipWith (fun a b => (a + b) / fin 2) l l.tail

/-- Elementwise operation of two arrays; ValueError if their sizes differ (broadcasting of a single value is not modelled). -/
def zipOp (f : Fl K → Fl K → Fl K) (a b : List (Fl K)) : Except PyErr (List (Fl K)) :=
  if a.length = b.length then .ok (List.zipWith f a b) else .error .value

/-- A line given to matplotlib; ValueError if there are not as many X as Y coordinates. -/
def plotLine (x y : List (Fl K)) : Except PyErr (Line K) := if x.length = y.length then .ok ⟨x, y⟩ else .error .value

/-- `np.nanmin`, `np.nanmax`: nan if there are only nans; ValueError if empty. -/
def nanFold (pick : Fl K → Fl K → Fl K) (l : List (Fl K)) : Except PyErr (Fl K) :=
  match l, l.filter (fun a => !a.isnan) with
  | [], _ => .error .value
  | _, [] => .ok nan
  | _, a :: t => .ok (t.foldl pick a)

/-- A limit given to `set_ylim`: ValueError unless it is a finite number. -/
def axisLimit (a : Fl K) : Except PyErr K :=
  match a with
  | fin v => .ok v
  | _ => .error .value

/-- Lines and axis limits of the long section. -/
structure LongSec (K : Type) where
  bed : Line K
  water : Line K
  energy : Line K
  width : Line K
  flow : Line K
  vel : Line K
  froude : Line K
  load : Option (Line K)
  flowLim : K × K
  loadLim : Option (K × K)

/-- visualise.py 607-608: the bedload line, if bedload is given. -/
def loadLine (d2 : List (Fl K)) (load : Option (List (Fl K))) : Except PyErr (Option (Line K)) :=
  match load with
  | none => .ok none
  | some b => do
    let l ← plotLine d2 (b.map (· * fin 3600))
    return some l

/-- visualise.py 620-622: limits of the bedload axis. -/
def loadLimit (load : Option (List (Fl K))) : Except PyErr (Option (K × K)) :=
  match load with
  | none => .ok none
  | some b => do
    let m ← nanFold pymax (b.map (· * fin 3600))
    let h ← axisLimit (pymax m (fin 50) * fin (11 / 10))
    return some (0, h)

/-- visualise.py 585-626, `updateLongSection` (the lines `longSection` draws first, 501-568, are the same).  `root` is `np.sqrt`, `g` is
9.81. -/
def longSection (root : Fl K → Fl K) (g : K) (dx elev width dep vel : List (Fl K)) (load : Option (List (Fl K))) : Except PyErr (LongSec K) := do
  let dist := cumFrom (fin 0) dx
  let d2 := mids dist
  let wl ← zipOp (· + ·) elev dep
  let energy ← zipOp (fun w v => w + v * v / (fin 2 * fin g)) (mids wl) (mids vel)
  let fr ← zipOp (fun v d => Fl.abs v / root (fin g * d)) vel dep
  let vd ← zipOp (· * ·) vel dep
  let q ← zipOp (· * ·) vd width
  let lBed ← plotLine dist elev
  let lWater ← plotLine dist wl
  let lEnergy ← plotLine d2 energy
  let lWidth ← plotLine dist width
  let lFlow ← plotLine dist q
  let lVel ← plotLine dist vel
  let lFr ← plotLine dist fr
  let lLoad ← loadLine d2 load
  let mn ← nanFold pymin q
  let qmax ← nanFold pymax q
  let qmin := pymin (fin 0) mn                                       -- 615
  let lo ← axisLimit qmin
  let hi ← axisLimit (qmax + fin (1 / 10) * (qmax - qmin))            -- 617
  let lim ← loadLimit load
  return { bed := lBed, water := lWater, energy := lEnergy, width := lWidth, flow := lFlow, vel := lVel, froude := lFr, load := lLoad,
           flowLim := (lo, hi), loadLim := lim }

/-- core.py 218-219: the long section drawn after a pass. -/
def passSection (root : Fl K → Fl K) (g : K) (p : PassOut K) : Except PyErr (LongSec K) :=
  longSection root g p.chan.dx p.chan.elev p.chan.width p.dep p.vel (some p.bed)

/-- `range(a, b, r)`; ValueError for step 0. -/
def pyRange (a b r : ℤ) : Except PyErr (List ℤ) :=
  if r = 0 then .error .value
  else if 0 < r then .ok ((List.range ((b - a + r - 1) / r).toNat).map (fun k : ℕ => a + (k : ℤ) * r))
  else .ok ((List.range ((a - b - r - 1) / (-r)).toNat).map (fun k : ℕ => a + (k : ℤ) * r))

/-- animate.py 119-123: the end of the animation. -/
def endStep (size : ℕ) (e : Option ℤ) : ℤ :=
  match e with
  | none => size
  | some e => if (size : ℤ) < e then size else e

/-- animate.py 151-152, 181-182, 201-202: the records an animation shows. -/
def frames (size : ℕ) (s : ℤ) (e : Option ℤ) (r : ℤ) : Except PyErr (List ℤ) := pyRange s (endStep size e) r

/-- `variable[i]` of a netCDF file with Python's negative numbers; IndexError outside the file. -/
def readStep (f : NcFile K) (i : ℤ) : Except PyErr (ReadOut K) :=
  if 0 ≤ i then readTimestep f i.toNat
  else if -(f.times.length : ℤ) ≤ i then readTimestep f ((f.times.length : ℤ) + i).toNat
  else .error .index

/-- Arguments of the map view for a record (animate.py 31-35). -/
def frameIn (rw sw : K) (r : ReadOut K) : ViewIn K :=
  { rows := r.rows, EndX0 := r.EndX0, EndX1 := r.EndX1, EndWidth := r.EndWidth, outlet := r.outlet, Closed := r.Closed
    RiverWidth := rw, SpitWidth := sw }

/-- animate.py 19-35, `animateMap`. -/
def animateMap (free : List (K × Fl K) → Fl K → Fl K) (f : NcFile K) (rw sw : K) (i : ℤ) : Except PyErr (View K) := do
  let r ← readStep f i
  updateModelView free (frameIn rw sw r)

/-- animate.py 37-51, `animateTransect`. -/
def animateTransect (q : TransPars K) (f : NcFile K) (ix : ℕ) (i : ℤ) : Except PyErr (TransFig K) := do
  let r ← readStep f i
  updateTransectFig q ix r.rows r.LagoonWL r.OutletWL r.SeaLevel

/-- Arguments of `assembleChannel` for a record (animate.py 65-76, 160-173). -/
def frameChan (Dx : K) (r : ReadOut K) : ChanIn K :=
  { rows := r.rows, EndX0 := r.EndX0, EndX1 := r.EndX1, EndWidth := r.EndWidth, EndElev := r.EndElev, Closed := r.Closed
    RiverElev := r.RiverElev, RivDep := List.zipWith (· - ·) r.RiverWL r.RiverElev, RivVel := r.RiverVel
    LagoonWL := r.LagoonWL, LagoonVel := r.LagoonVel, OutletDep := List.zipWith (fun w (t : Transect K) => w - t.z1) r.OutletWL r.rows
    OutletVel := r.OutletVel, EndDep := [r.EndWL - r.EndElev], EndVel := [r.EndVel], Dx := Dx }

/-- animate.py 53-79, `animateLongSec`. -/
def animateLongSec [FloorRing K] (root : Fl K → Fl K) (g : K) (pp : PhysPars K) (f : NcFile K) (i : ℤ) : Except PyErr (ChanOut K × LongSec K) := do
  let r ← readStep f i
  let t0 ← ixGet r.rows 0
  let t1 ← ixGet r.rows 1
  let c ← assembleChannel pp (frameChan (t1.x - t0.x) r)
  let l ← longSection root g c.dx c.elev c.width c.dep c.vel none
  return (c, l)

/-- animate.py 81-211, `main` with the map view: the frames of the animation.  The first figure is drawn without `Closed`
(192-196), then one for every frame.  (matplotlib draws the first frame twice; an animation without frames is not modelled.) -/
def mapAnimation (free : List (K × Fl K) → Fl K → Fl K) (f : NcFile K) (rw sw : K) (s : ℤ) (e : Option ℤ) (r : ℤ) :
    Except PyErr (List (ℤ × View K)) := do
  let r0 ← readStep f s
  let _ ← modelView free (frameIn rw sw r0)
  let fs ← frames f.times.length s e r
  fs.mapM (fun i => do let v ← animateMap free f rw sw i; return (i, v))

/-- animate.py 81-211, `main` with a transect: the transect shown and the frames of the animation. -/
def transectAnimation (q : TransPars K) (f : NcFile K) (X : K) (s : ℤ) (e : Option ℤ) (r : ℤ) : Except PyErr (ℕ × List (ℤ × TransFig K)) := do
  let r0 ← readStep f s
  let (ix, _) ← newTransectFig q r0.rows r0.LagoonWL r0.OutletWL r0.SeaLevel X
  let fs ← frames f.times.length s e r
  let l ← fs.mapM (fun i => do let v ← animateTransect q f ix i; return (i, v))
  return (ix, l)

end Verif.Model
