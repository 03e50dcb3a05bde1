import Verif.Model.Load
import Verif.Model.Geom

set_option autoImplicit false

/-! # Model of `loadModel` in `hapuamod/loadmod.py`, part with real-world spatial inputs (lines 429-561)

Reading of the shapefiles (373-427) is not modelled: the polylines are given as lists of points.  The straight line
through the shoreline points (`np.polyfit`, 433) is a parameter (slope, intercept). -/

namespace Verif.Model
open Verif Fl

/-- loadmod.py 435-440: origin of the model coordinates, on the baseline.  numpy floats: a zero slope gives inf and
nan, not an exception. -/
def baseOrigin {K : Type} [Field K] [LinearOrder K] (slope icept : K) (inflow : K × K) : Fl K × Fl K :=
  let o := (fin inflow.2 + fin inflow.1 / fin slope - fin icept) / (fin slope + fin 1 / fin slope)
  (o, o * fin slope + fin icept)

/-- loadmod.py 441-446: direction of the model's Y axis, as a bearing. -/
noncomputable def baseNormal (slope icept : ℝ) (inflow : ℝ × ℝ) : ℝ :=
  if inflow.1 * slope + icept > 0 then arctan2 slope (-1) else arctan2 (-slope) 1

/-- The configuration entries used for real-world spatial inputs (loadmod.py 429-561). -/
structure RealCfg (K : Type) where
  Dx : K
  SpitWidth : K
  OutletWidth : K
  OutletBed : K
  LagoonBed : K
  BarrierElev : K
  deriving DecidableEq, Repr

section grid
variable {K : Type} [Field K] [LinearOrder K] [IsStrictOrderedRing K]

/-- `np.amax` of an array of floats: ValueError if there are none. -/
def amax (l : List (Fl K)) : Except PyErr (Fl K) :=
  match l with
  | [] => .error .value
  | a :: r => .ok (r.foldl npmax a)

/-- `[np.amin(c), np.amax(c)]` for the X coordinates of a polyline (477, 480): ValueError if there are no points. -/
def extent (pts : List (K × K)) : Except PyErr (K × K) :=
  match pts with
  | [] => .error .value
  | p :: r => .ok (r.foldl (fun a q => min a q.1) p.1, r.foldl (fun a q => max a q.1) p.1)

/-- loadmod.py 453-455: the shoreline in model coordinates from left to right; it must be strictly increasing. -/
def orderShore (pts : List (K × K)) : Except PyErr (List (K × K)) := do
  let a ← ixGet pts 0
  let b ← pyGet pts (-1)
  let pts := if a.1 > b.1 then pts.reverse else pts
  pyAssert ((pts.zip pts.tail).all (fun s => decide (s.2.1 - s.1.1 > 0)))
  return pts

/-- loadmod.py 458-459: positions of the transects.  With a zero `Dx`, `math.ceil` raises OverflowError or ValueError. -/
def realX [FloorRing K] (Dx : K) (shore : List (K × K)) : Except PyErr (List K) := do
  let a ← ixGet shore 0
  let b ← pyGet shore (-1)
  if Dx = 0 then .error .other
  else arange ((⌈a.1 / Dx⌉ : K) * Dx) b.1 Dx

/-- loadmod.py 483-484: the outlet polyline from the lagoon to the sea. -/
def orderOutlet (pts : List (K × K)) : Except PyErr (List (K × K)) := do
  let a ← ixGet pts 0
  let b ← pyGet pts (-1)
  return if a.2 > b.2 then pts.reverse else pts

/-- loadmod.py 464, 487-511: the positions on one transect; levels not yet set. -/
def realRow (c : RealCfg K) (shore cliff lagoon outlet : List (K × K)) (lagExt outExt : K × K) (x : K) :
    Except PyErr (Transect K) := do
  let y0 ← npInterp (shore.map (fun p => (p.1, fin p.2))) x                                 -- 464
  let y4 ← amax (intersectPolyline cliff x)                                                 -- 489-490
  let y3 ← (if lagExt.1 < x ∧ x < lagExt.2 then amax (intersectPolyline lagoon x) else .ok y4)   -- 493-499
  let t : Transect K := { x := x, y0 := y0, y1 := nan, y2 := nan, y3 := y3, y4 := y4,
                          z0 := nan, z1 := nan, z2 := nan, z3 := nan }
  if outExt.1 < x ∧ x < outExt.2 then                                                       -- 502
    let ys := intersectPolyline outlet x
    pyAssert (ys.length == 1)                                                               -- 505
    let v ← ixGet ys 0
    if (y3.isnan || y3 <? v - fin (c.OutletWidth / 2)) && v + fin (c.OutletWidth / 2) <? y0 then   -- 507-509
      return { t with y2 := v - fin (c.OutletWidth / 2), y1 := v + fin (c.OutletWidth / 2) }
    else return t
  else return t

/-- loadmod.py 531-534: the single outlet transect of a straight outlet. -/
def straightRow (c : RealCfg K) (t : Transect K) : Transect K :=
  let y1 := pymin (t.y0 - fin c.SpitWidth) ((t.y0 + t.y3) / fin 2 + fin (c.OutletWidth / 2))
  let y2 := y1 - fin c.OutletWidth
  { t with y1 := y1, y2 := y2, y3 := pymin (y2 + fin (1 / 1000)) t.y3 }

/-- `np.mean` of the Y coordinates. -/
def meanY (pts : List (K × K)) : K := (pts.map (·.2)).sum / (pts.length : K)

/-- loadmod.py 515-543: rows, outlet mask and ends of the outlet channel. -/
def realEnds [FloorRing K] (c : RealCfg K) (outlet : List (K × K)) (toR : Bool) (rows : List (Transect K)) :
    Except PyErr (List (Transect K × Bool) × K × K) :=
  let masked := rows.map (fun t => (t, !t.y1.isnan))
  match (masked.filter (·.2)).map (fun p => p.1.x) with
  | [] => do
    let e0 := if toR then c.Dx * (⌊meanY outlet / c.Dx⌋ : K) else c.Dx * ((⌊meanY outlet / c.Dx⌋ : K) + 1)   -- 523, 526
    let e1 := if toR then e0 + c.Dx / 2 else e0 - c.Dx / 2
    pyAssert ((rows.filter (fun t => decide (t.x = e0))).length == 1)                       -- 529-530
    return (rows.map (fun t => if t.x = e0 then (straightRow c t, true) else (t, false)), e0, e1)
  | x :: xs =>
    if toR then .ok (masked, xs.foldl min x, xs.foldl max x + c.Dx / 2)
    else .ok (masked, xs.foldl max x, xs.foldl min x - c.Dx / 2)

/-- Boolean-mask assignment of bed levels and inner crest levels (loadmod.py 553-556, 561). -/
def assignBeds (crest : K) : List (Transect K × Bool) → List K → List (Transect K)
  | [], _ => []
  | (t, false) :: r, bs => t :: assignBeds crest r bs
  | (t, true) :: r, [] => t :: assignBeds crest r []
  | (t, true) :: r, b :: bs => { t with z1 := fin b, z2 := fin crest } :: assignBeds crest r bs

/-- `np.linspace(a, b, n + 1)` for `n ≥ 1`. -/
def linspace (a b : K) (n : ℕ) : List K := (List.range (n + 1)).map (fun i : ℕ => a + (i : K) * ((b - a) / (n : K)))

/-- loadmod.py 448-561: rows and outlet ends from the polylines in model coordinates. -/
def realRows [FloorRing K] (c : RealCfg K) (shore cliff lagoon outlet : List (K × K)) :
    Except PyErr (List (Transect K) × K × K) := do
  let shore ← orderShore shore
  let xs ← realX c.Dx shore
  let lagExt ← extent lagoon                                                                -- 477
  let xN ← pyGet xs (-1)
  let x0 ← ixGet xs 0
  pyAssert (decide (lagExt.2 < xN) && decide (lagExt.1 > x0))                               -- 478
  let outExt ← extent outlet                                                                -- 480
  let outlet ← orderOutlet outlet
  let rows ← xs.mapM (realRow c shore cliff lagoon outlet lagExt outExt)
  let oa ← ixGet outlet 0
  let ob ← pyGet outlet (-1)
  let toR := decide (oa.1 < ob.1)                                                           -- 514
  let (masked, e0, e1) ← realEnds c outlet toR rows
  let beds := (linspace c.LagoonBed c.OutletBed (masked.filter (·.2)).length).dropLast      -- 552
  let rows := assignBeds c.BarrierElev masked (if toR then beds else beds.reverse)          -- 553-556, 561
  return (rows.map (fun t => { t with z0 := fin c.BarrierElev, z3 := fin c.LagoonBed }), e0, e1)   -- 549, 560

/-- loadmod.py 293-299, 448-561, 570-579: the initial state from the polylines in model coordinates. -/
def realLoadMod [FloorRing K] (c : RealCfg K) (RiverSlope UpstreamLength : K) (shore cliff lagoon outlet : List (K × K)) :
    Except PyErr (LoadOut K) := do
  let riv ← riverElev c.LagoonBed RiverSlope UpstreamLength c.Dx
  let (rows, e0, e1) ← realRows c shore cliff lagoon outlet
  let zeros := fun n : ℕ => List.replicate n (fin (0 : K))
  return { rows := rows, RiverElev := riv, EndX0 := fin e0, EndX1 := fin e1, EndWidth := fin c.OutletWidth, EndElev := fin c.OutletBed,
           RiverWL := zeros riv.length, RiverVel := zeros riv.length, LagoonWL := zeros rows.length, LagoonVel := zeros rows.length,
           OutletDep := zeros rows.length, OutletVel := zeros rows.length, EndDep := zeros 2, EndVel := zeros 2, Closed := false }

end grid

/-- loadmod.py 293-299, 429-579: the initial state from real-world polylines; also origin and direction of the model
coordinates.  If the origin is not finite all model coordinates of the shoreline are nan, so the check of line 455 fails
(with fewer than two points, `math.ceil` of nan raises ValueError). -/
noncomputable def realLoad (c : RealCfg ℝ) (RiverSlope UpstreamLength : ℝ) (fit : ℝ × ℝ) (inflow : ℝ × ℝ)
    (shore cliff lagoon outlet : List (ℝ × ℝ)) : Except PyErr (LoadOut ℝ × (ℝ × ℝ) × ℝ) :=
  match baseOrigin fit.1 fit.2 inflow with
  | (fin ox, fin oy) => do
    let s := baseNormal fit.1 fit.2 inflow
    let conv := fun l : List (ℝ × ℝ) => l.map (fun p => real2mod p.1 p.2 (ox, oy) s)
    let ld ← realLoadMod c RiverSlope UpstreamLength (conv shore) (conv cliff) (conv lagoon) (conv outlet)
    return (ld, (ox, oy), s)
  | _ => do
    let _ ← riverElev c.LagoonBed RiverSlope UpstreamLength c.Dx
    if shore.length < 2 then .error .value else .error .assertion

end Verif.Model
