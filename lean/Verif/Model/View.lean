import Verif.Model.Core

set_option autoImplicit false

/-! # Model of the map view in `hapuamod/visualise.py`

A line or polygon of the figure is the list of the X and the list of the Y coordinates of its vertices.  Drawing itself
(matplotlib), colours, labels, arrows and quivers are not modelled. -/

namespace Verif.Model
open Verif Fl

variable {K : Type} [Field K] [LinearOrder K] [IsStrictOrderedRing K]

/-- Vertices of a line or polygon. -/
structure Line (K : Type) where
  x : List (Fl K)
  y : List (Fl K)
  deriving DecidableEq, Repr

/-- Arguments of `updateModelView` (visualise.py 182-185); `RiverWidth` and `SpitWidth` come with the figure (187-188). -/
structure ViewIn (K : Type) where
  rows : List (Transect K)
  EndX0 : Fl K
  EndX1 : Fl K
  EndWidth : Fl K
  outlet : List ℕ
  Closed : Bool
  RiverWidth : K
  SpitWidth : K

/-- `np.interp(x, xp, fp)` for increasing `xp`, with any float `x`. -/
def interpFl (pts : List (K × Fl K)) (x : Fl K) : Except PyErr (Fl K) :=
  match x, pts with
  | _, [] => .error .value
  | fin v, (x0, f0) :: rest => .ok (interpScan x0 f0 rest v)
  | nan, _ => .ok nan
  | ninf, (_, f0) :: _ => .ok f0
  | pinf, p :: rest => .ok ((p :: rest).getLast (by simp)).2

/-- `np.interp(x, ShoreX, ShoreY[:,j])`. -/
def interpCol (rows : List (Transect K)) (f : Transect K → Fl K) (x : Fl K) : Except PyErr (Fl K) :=
  interpFl (rows.map (fun r => (r.x, f r))) x

/-- `np.interp(x, ShoreX[ixs], ShoreY[ixs,j])`.  What numpy returns for positions that are not increasing is left open: `free`. -/
def interpIx (free : List (K × Fl K) → Fl K → Fl K) (rows : List (Transect K)) (ixs : List ℕ) (f : Transect K → Fl K) (x : Fl K) :
    Except PyErr (Fl K) := do
  let rs ← gather rows ixs
  let pts := rs.map (fun r => (r.x, f r))
  if (rs.map (·.x)).Pairwise (· < ·) then interpFl pts x
  else return free pts x

/-- visualise.py 197, 199, 202: cliff left of the river. -/
def cliffLeft (a : ViewIn K) : Except PyErr (Line K) := do
  let rs := a.rows.filter (fun r => r.x ≤ -a.RiverWidth / 2)
  let y ← interpCol a.rows (·.y4) (fin (-a.RiverWidth / 2))
  return { x := rs.map (fun r => fin r.x) ++ [fin (-a.RiverWidth / 2)], y := rs.map (·.y4) ++ [y] }

/-- visualise.py 198, 200, 203: cliff right of the river. -/
def cliffRight (a : ViewIn K) : Except PyErr (Line K) := do
  let rs := a.rows.filter (fun r => a.RiverWidth / 2 ≤ r.x)
  let y ← interpCol a.rows (·.y4) (fin (a.RiverWidth / 2))
  return { x := fin (a.RiverWidth / 2) :: rs.map (fun r => fin r.x), y := y :: rs.map (·.y4) }

/-- visualise.py 206-212: banks of the river, given the cliff on both sides. -/
def riverBanks (a : ViewIn K) (cl cr : Line K) : Except PyErr (Line K × Line K) := do
  let yl ← pyGet cl.y (-1)
  let yr ← pyGet cr.y 0
  return ({ x := [fin (-a.RiverWidth / 2), fin (-a.RiverWidth / 2)], y := [fin (-5000), yl] },
          { x := [fin (a.RiverWidth / 2), fin (a.RiverWidth / 2)], y := [fin (-5000), yr] })

/-- visualise.py 214-228: the hatched area landward of the cliff. -/
def cliffHatch (cl cr lb rb : Line K) : Except PyErr (Line K) := do
  let xl ← pyGet cl.x 0
  let yl ← pyGet cl.y 0
  let xr ← pyGet cr.x (-1)
  return { x := cl.x ++ lb.x.reverse ++ [xl, xl] ++ [nan] ++ [xr, xr] ++ rb.x ++ cr.x
           y := cl.y ++ lb.y.reverse ++ [fin (-5000), yl] ++ [nan] ++ [xr, fin (-5000)] ++ rb.y ++ cr.y }

/-- Two lines drawn as one with a gap between them. -/
def gap (a b : Line K) : Line K := { x := a.x ++ [nan] ++ b.x, y := a.y ++ [nan] ++ b.y }

/-- visualise.py 282-292: X positions of the ends of the outlet banks: upstream left and right, downstream left and right. -/
def bankEnds (a : ViewIn K) : Except PyErr (Fl K × Fl K × Fl K × Fl K) := do
  let r0 ← ixGet a.rows 0
  let r1 ← ixGet a.rows 1
  let Dx := r1.x - r0.x
  let lag := (a.rows.filter (fun r => r.y4 <? r.y3)).map (·.x)
  let lo ← (match lag.min? with | some v => .ok v | none => .error .value : Except PyErr K)
  let hi ← (match lag.max? with | some v => .ok v | none => .error .value : Except PyErr K)
  let o ← ixGet a.outlet 0
  let r ← ixGet a.rows o
  let w := r.y1 - r.y2
  return (pymax (a.EndX0 - w / fin 2) (fin (lo - Dx)), pymin (a.EndX0 + w / fin 2) (fin (hi + Dx)),
          a.EndX1 - a.EndWidth / fin 2, a.EndX1 + a.EndWidth / fin 2)

/-- visualise.py 295-327: left bank of the outlet, before lines 347, 363 and 365. -/
def leftBank (free : List (K × Fl K) → Fl K → Fl K) (a : ViewIn K) (us ds : Fl K) : Except PyErr (Line K) := do
  let rs ← gather a.rows a.outlet
  if us <? ds then
    let ok := rs.filter (fun r => fin r.x <? ds)
    let ya ← interpCol a.rows (·.y3) us
    let r0 ← ixGet rs 0
    let yb ← interpIx free a.rows a.outlet (·.y1) ds
    let yc ← interpCol a.rows (·.y0) ds
    return { x := [us, us] ++ ok.map (fun r => fin r.x) ++ [ds, ds], y := [ya, r0.y1] ++ ok.map (·.y1) ++ [yb, yc] }
  else
    let ok := rs.filter (fun r => fin r.x <? us)
    let ya ← interpCol a.rows (·.y3) us
    let yb ← interpIx free a.rows a.outlet.reverse (·.y2) us
    let s ← interpCol a.rows (·.y0) ds
    let l ← interpCol a.rows (·.y3) ds
    let t := pymax (s - fin a.SpitWidth - a.EndWidth) l
    return { x := [us, us] ++ ok.map (fun r => fin r.x) ++ [pymin a.EndX1 us, ds, ds]
             y := [ya, yb] ++ ok.map (·.y2) ++ [npmin s t, (s - fin a.SpitWidth + t) / fin 2, s] }

/-- visualise.py 329-361: right bank of the outlet, before lines 364 and 366, and the value line 347 puts into the left bank (if it
is executed). -/
def rightBank (free : List (K × Fl K) → Fl K → Fl K) (a : ViewIn K) (us ds : Fl K) : Except PyErr (Line K × Option (Fl K)) := do
  let rs ← gather a.rows a.outlet
  if us <? ds then
    let ok := rs.filter (fun r => us <? fin r.x)
    let ya ← interpCol a.rows (·.y3) us
    let yb ← interpIx free a.rows a.outlet (·.y2) us
    let s ← interpCol a.rows (·.y0) ds
    let l ← interpCol a.rows (·.y3) ds
    let t := pymax (s - fin a.SpitWidth - a.EndWidth) l
    return ({ x := [us, us] ++ ok.map (fun r => fin r.x) ++ [pymax a.EndX1 us, ds, ds]
              y := [ya, yb] ++ ok.map (·.y2) ++ [t, (s - fin a.SpitWidth + t) / fin 2, s] }, some (npmin s t))
  else
    let ok := rs.filter (fun r => ds <? fin r.x)
    let ya ← interpCol a.rows (·.y3) us
    let r0 ← ixGet rs 0
    let yb ← interpIx free a.rows a.outlet.reverse (·.y1) ds
    let yc ← interpCol a.rows (·.y0) ds
    return ({ x := [us, us] ++ ok.map (fun r => fin r.x) ++ [ds, ds], y := [ya, r0.y1] ++ ok.map (·.y1) ++ [yb, yc] }, none)

/-- `l[-k] = v` for a list of at least `k` entries. -/
def setBack (l : List (Fl K)) (k : ℕ) (v : Fl K) : List (Fl K) := l.set (l.length - k) v

/-- visualise.py 363 and 365 (364 and 366): the second point not landward of the first, the last but one not seaward of the last. -/
def bankTidy (y : List (Fl K)) : Except PyErr (List (Fl K)) := do
  let a ← pyGet y 0
  let b ← pyGet y 1
  let y := y.set 1 (npmax a b)
  let c ← pyGet y (-2)
  let d ← pyGet y (-1)
  return setBack y 2 (npmin c d)

/-- visualise.py 294-366: both banks. -/
def banks (free : List (K × Fl K) → Fl K → Fl K) (a : ViewIn K) (usL usR dsL dsR : Fl K) : Except PyErr (Line K × Line K) := do
  let l ← leftBank free a usL dsL
  let (r, v) ← rightBank free a usR dsR
  let ly := match v with | some v => setBack l.y 3 v | none => l.y
  let ly ← bankTidy ly
  let ry ← bankTidy r.y
  return ({ l with y := ly }, { r with y := ry })

/-- The lines and polygons of the map view (visualise.py 423-431). -/
structure View (K : Type) where
  shore : Line K
  dots : Line K
  outlet : Line K
  lagoon : Line K
  cliff : Line K
  river : Line K
  water : Line K
  hatch : Line K

/-- visualise.py 372-420: the rest of the view of an open outlet. -/
def openView (a : ViewIn K) (usL usR dsL dsR : Fl K) (lb rb cl cr rl rr hatch : Line K) : Except PyErr (View K) := do
  let col (p : Transect K → Bool) (f : Transect K → Fl K) : Line K :=
    { x := (a.rows.filter p).map (fun r => fin r.x), y := (a.rows.filter p).map f }
  let app (u v : Line K) : Line K := { x := u.x ++ v.x, y := u.y ++ v.y }
  let pt (x y : Fl K) : Line K := { x := [x], y := [y] }
  let rev (u : Line K) : Line K := { x := u.x.reverse, y := u.y.reverse }
  let xl ← pyGet lb.x (-1)
  let yl ← pyGet lb.y (-1)
  let xr ← pyGet rb.x (-1)
  let yr ← pyGet rb.y (-1)
  let shoreL := app (col (fun r => fin r.x ≤? dsL) (·.y0)) (pt xl yl)
  let shoreR := app (pt xr yr) (col (fun r => dsR ≤? fin r.x) (·.y0))
  let xl0 ← pyGet lb.x 0
  let yl0 ← pyGet lb.y 0
  let xr0 ← pyGet rb.x 0
  let yr0 ← pyGet rb.y 0
  let lagL := app (col (fun r => fin r.x ≤? usL) (·.y3)) (pt xl0 yl0)
  let lagR := app (pt xr0 yr0) (col (fun r => usR ≤? fin r.x) (·.y3))
  let f ← pyGet a.rows 0
  let g ← pyGet a.rows (-1)
  let off : Line K := { x := [fin f.x, fin g.x], y := [fin 5000, fin 5000] }
  let water := app lagR (app (rev cr) (app (rev rr) (app rl (app (rev cl) (app lagL (app lb (app (rev shoreL) (app off (app (rev shoreR) (rev rb))))))))))
  return { shore := gap shoreL shoreR
           dots := col (fun r => !(fin r.x ≤? dsL || dsR ≤? fin r.x)) (·.y0)
           outlet := gap lb rb
           lagoon := gap lagL lagR
           cliff := gap cl cr
           river := gap rl rr
           water := water
           hatch := hatch }

/-- visualise.py 242-278: the rest of the view of a closed outlet. -/
def closedView (a : ViewIn K) (cl cr rl rr hatch : Line K) : Except PyErr (View K) := do
  let f ← pyGet a.rows 0
  let g ← pyGet a.rows (-1)
  let xs := a.rows.map (fun r => fin r.x)
  let water : Line K :=
    { x := xs ++ cr.x.reverse ++ rr.x.reverse ++ rl.x ++ cl.x.reverse ++ [fin f.x, nan] ++ xs ++ [fin g.x, fin f.x] ++ [fin f.x]
      y := a.rows.map (·.y3) ++ cr.y.reverse ++ rr.y.reverse ++ rl.y ++ cl.y.reverse ++ [f.y3, nan] ++ a.rows.map (·.y0) ++ [fin 10000, fin 10000] ++ [f.y0] }
  return { shore := { x := xs, y := a.rows.map (·.y0) }
           dots := { x := [nan], y := [nan] }
           outlet := { x := [nan], y := [nan] }
           lagoon := { x := xs, y := a.rows.map (·.y3) }
           cliff := gap cl cr
           river := gap rl rr
           water := water
           hatch := hatch }

/-- visualise.py 182-431, `updateModelView`. -/
def updateModelView (free : List (K × Fl K) → Fl K → Fl K) (a : ViewIn K) : Except PyErr (View K) := do
  let cl ← cliffLeft a
  let cr ← cliffRight a
  let (rl, rr) ← riverBanks a cl cr
  let hatch ← cliffHatch cl cr rl rr
  if a.Closed then closedView a cl cr rl rr hatch
  else do
    let (usL, usR, dsL, dsR) ← bankEnds a
    let (lb, rb) ← banks free a usL usR dsL dsR
    openView a usL usR dsL dsR lb rb cl cr rl rr hatch

/-- visualise.py 66-180, `modelView`, without an area of interest: limits of the axes (117), then `updateModelView` without the
argument `Closed`, which defaults to False (176-178). -/
def modelView (free : List (K × Fl K) → Fl K → Fl K) (a : ViewIn K) : Except PyErr (View K) := do
  let xs := (a.rows.filter (fun r => !r.y3.isnan)).map (·.x)
  let _ ← pyGet xs 0
  let _ ← pyGet xs (-1)
  updateModelView free { a with Closed := false }

/-- Arguments of the first map view (core.py 92-97). -/
def startIn (e : Env K) (ld : LoadOut K) (c : ChanOut K) : ViewIn K :=
  { rows := ld.rows, EndX0 := ld.EndX0, EndX1 := ld.EndX1, EndWidth := ld.EndWidth, outlet := c.outlet, Closed := c.closed
    RiverWidth := e.pp.RiverWidth, SpitWidth := e.pp.SpitWidth }

/-- core.py 92-97: the live plot set up before the time loop. -/
def startPlot [FloorRing K] (free : List (K × Fl K) → Fl K → Fl K) (e : Env K) (ld : LoadOut K) : Except PyErr (View K) := do
  let c ← assembleChannel e.pp (firstChan ld e.Dx)
  modelView free (startIn e ld c)

/-- Arguments of the map view after a pass (core.py 226-230). -/
def passIn (e : Env K) (p : PassOut K) : ViewIn K :=
  { rows := p.mor.rows, EndX0 := p.mor.EndX0, EndX1 := p.mor.EndX1, EndWidth := p.mor.EndWidth, outlet := p.chan.outlet
    Closed := p.chan.closed, RiverWidth := e.pp.RiverWidth, SpitWidth := e.pp.SpitWidth }

/-- core.py 226-230: the live plot after a pass. -/
def passPlot (free : List (K × Fl K) → Fl K → Fl K) (e : Env K) (p : PassOut K) : Except PyErr (View K) := updateModelView free (passIn e p)

/-- core.py 24-97: `main` up to the time loop, with the map view if live plots are asked for (83). -/
def setUp [FloorRing K] (free : List (K × Fl K) → Fl K → Fl K) (e : Env K) (ld : LoadOut K) : Except PyErr (CoreSt K) := do
  let s ← initial e ld
  if 0 < e.oo.PlotInt then
    let _ ← startPlot free e ld
    return s
  else return s

end Verif.Model
