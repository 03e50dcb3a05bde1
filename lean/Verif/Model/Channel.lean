import Verif.Model.Types
import Mathlib.Algebra.Order.Floor.Ring

set_option autoImplicit false

/-! # Model of `assembleChannel`, `storeHydraulics` and `storeBedload` in `hapuamod/riv.py` -/

namespace Verif.Model
open Verif Fl

variable {K : Type} [Field K] [LinearOrder K] [IsStrictOrderedRing K]

/-- `a % d` for floats (result has the sign of `d`); nan unless `a` is finite and `d ≠ 0`. -/
def flMod [FloorRing K] (a : Fl K) (d : K) : Fl K :=
  match a with
  | fin x => if d = 0 then nan else fin (x - d * (⌊x / d⌋ : K))
  | _ => nan

/-- Scan of `np.interp` from the point `(x0, f0)`. -/
def interpScan (x0 : K) (f0 : Fl K) : List (K × Fl K) → K → Fl K
  | [], _ => f0
  | (x1, f1) :: rest, x =>
    if x < x1 then (if x ≤ x0 then f0 else (f1 - f0) / fin (x1 - x0) * fin (x - x0) + f0)
    else interpScan x1 f1 rest x

/-- `np.interp(x, xp, fp)` for increasing `xp`: clamped at both ends; ValueError if there are no
points. -/
def npInterp (pts : List (K × Fl K)) (x : K) : Except PyErr (Fl K) :=
  match pts with
  | [] => .error .value
  | (x0, f0) :: rest => .ok (interpScan x0 f0 rest x)

/-- riv.py 495-498, 502-507: replace the nan entries of `l` by interpolation (in the index) between
the entries of `vals` at the indices where `l` is not nan, then divided by `f`.  Nothing is
computed if there is no nan. -/
def fillNan (l vals : List (Fl K)) (f : ℕ → Fl K → Fl K) : Except PyErr (List (Fl K)) :=
  if l.any (·.isnan) then
    let pts := ((List.range l.length).filter (fun i => (l[i]?).any (fun a => !a.isnan))).filterMap
      (fun (i : ℕ) => (vals[i]?).map (fun v => ((i : K), v)))
    (List.range l.length).zip l |>.mapM (fun (i, a) =>
      if a.isnan then do return f i (← npInterp pts (i : K)) else return a)
  else .ok l

/-- Arguments of `assembleChannel` other than `PhysicalPars` (riv.py 306-310).  `rows` are
ShoreX, ShoreY and ShoreZ. -/
structure ChanIn (K : Type) where
  rows : List (Transect K)
  EndX0 : Fl K
  EndX1 : Fl K
  EndWidth : Fl K
  EndElev : Fl K
  Closed : Bool
  RiverElev : List (Fl K)
  RivDep : List (Fl K)
  RivVel : List (Fl K)
  LagoonWL : List (Fl K)
  LagoonVel : List (Fl K)
  OutletDep : List (Fl K)
  OutletVel : List (Fl K)
  EndDep : List (Fl K)
  EndVel : List (Fl K)
  Dx : K

/-- The tuple returned by `assembleChannel` (riv.py 519-520). -/
structure ChanOut (K : Type) where
  dx : List (Fl K)
  elev : List (Fl K)
  width : List (Fl K)
  lagArea : List (Fl K)
  lagLen : List (Fl K)
  dep : List (Fl K)
  vel : List (Fl K)
  online : List ℕ
  outlet : List ℕ
  flag : List ℕ
  closed : Bool

/-- riv.py 349-352. -/
def padEnd (l : List (Fl K)) : List (Fl K) := if l.length = 1 then l ++ [nan] else l

/-- riv.py 356-363: transects of the outlet channel, in flow order. -/
def outletIx (rows : List (Transect K)) (e0 e1 : Fl K) : List ℕ :=
  if e0 <? e1 then whereIx (fun r => e0 ≤? fin r.x && fin r.x ≤? e1) rows
  else (whereIx (fun r => e1 ≤? fin r.x && fin r.x ≤? e0) rows).reverse

/-- riv.py 364-365: outlet channel width, 0 where missing. -/
def outWidth (r : Transect K) : Fl K := let d := r.y1 - r.y2; if d.isnan then fin 0 else d

/-- riv.py 385. -/
def lagWidth (r : Transect K) : Fl K := r.y3 - r.y4

/-- riv.py 354-379: outlet transects, their widths, and whether the outlet is closed. -/
def outletStage (pp : PhysPars K) (a : ChanIn K) : Except PyErr (List ℕ × List (Fl K) × Bool) := do
  if a.Closed then return ([], [], true)
  else
    let ix := outletIx a.rows a.EndX0 a.EndX1
    let w := (← gather a.rows ix).map outWidth
    if w.any (· ≤? fin pp.MinOutletWidth) || a.EndWidth ≤? fin pp.MinOutletWidth then return ([], w, true)
    else if w.isEmpty then .error .value  -- 375: np.min of an empty array
    else return (ix, w, false)

/-- `np.nansum(LagoonWidth[...] * Dx)`. -/
def lagAreaOf (Dx : K) (l : List (Transect K)) : Fl K := nansum (l.map (fun r => lagWidth r * fin Dx))

/-- `np.nansum((LagoonWidth[...] > 0) * Dx)`. -/
def lagLenOf (Dx : K) (l : List (Transect K)) : Fl K := nansum (l.map (fun r => if fin 0 <? lagWidth r then fin Dx else fin 0))

/-- Online lagoon transects and the offline lagoon at its two ends. -/
structure LagStage (K : Type) where
  online : List ℕ
  startArea : Fl K
  startLen : Fl K
  endArea : Fl K
  endLen : Fl K

/-- riv.py 388-423. -/
def lagoonStage (a : ChanIn K) (X0Ix : ℕ) (Closed : Bool) : Except PyErr (LagStage K) := do
  let wet := fun r : Transect K => fin 0 <? lagWidth r
  if a.EndX0 ==? fin 0 then
    let right := a.rows.filter (fun r => a.EndX0 <? fin r.x)
    let start := a.rows.drop (X0Ix + 1)
    if Closed then
      let last ← lastIx wet a.rows
      return ⟨arangeUp X0Ix (last + 1), lagAreaOf a.Dx start, lagLenOf a.Dx start, fin 0, fin 0⟩
    else return ⟨[X0Ix], lagAreaOf a.Dx start, lagLenOf a.Dx start, lagAreaOf a.Dx right, lagLenOf a.Dx right⟩
  else if fin 0 <? a.EndX0 then
    let right := a.rows.filter (fun r => a.EndX0 <? fin r.x)
    let start := a.rows.take X0Ix
    if Closed then
      let last ← lastIx wet a.rows
      return ⟨arangeUp X0Ix (last + 1), lagAreaOf a.Dx start, lagLenOf a.Dx start, fin 0, fin 0⟩
    else
      let last ← lastIx (fun r => fin r.x <? a.EndX0) a.rows
      return ⟨arangeUp X0Ix (last + 1), lagAreaOf a.Dx start, lagLenOf a.Dx start, lagAreaOf a.Dx right, lagLenOf a.Dx right⟩
  else
    let left := a.rows.filter (fun r => fin r.x <? a.EndX0)
    let start := a.rows.drop (X0Ix + 1)
    if Closed then
      let first ← firstIx wet a.rows
      return ⟨arangeDown X0Ix first, lagAreaOf a.Dx start, lagLenOf a.Dx start, fin 0, fin 0⟩
    else
      let first ← firstIx (fun r => a.EndX0 <? fin r.x) a.rows
      return ⟨arangeDown X0Ix first, lagAreaOf a.Dx start, lagLenOf a.Dx start, lagAreaOf a.Dx left, lagLenOf a.Dx left⟩

/-- riv.py 427-444: cut the online lagoon at the first transect narrower than `MinOutletWidth`.
Returns the lagoon and whether the channel is closed. -/
def cutStage (pp : PhysPars K) (a : ChanIn K) (s : LagStage K) (Closed : Bool) : Except PyErr (LagStage K × Bool) := do
  pyAssert (!s.online.isEmpty)
  let onRows ← gather a.rows s.online
  let narrow := fun r : Transect K => lagWidth r <? fin pp.MinOutletWidth
  let (s, Closed) :=
    match whereIx narrow onRows with
    | [] => (s, Closed)
    | k :: _ =>
      ({ s with
          online := s.online.take k
          endArea := s.endArea + lagAreaOf a.Dx (onRows.drop k)
          endLen := s.endLen + lagLenOf a.Dx (onRows.drop k) }, true)
  let first ← ixGet s.online 0                      -- 443
  let last ← pyGet s.online (-1)
  pyAssert (((last : ℤ) - first).natAbs == s.online.length - 1)
  pyAssert ((← gather a.rows s.online).all (fun r => fin 0 <? lagWidth r))  -- 444
  return (s, Closed)

/-- `a[i] = v` for a valid index. -/
def setAt (l : List (Fl K)) (i : ℕ) (v : Fl K) : List (Fl K) := l.set i v

/-- `a[i] += v` for a valid index. -/
def addAt (l : List (Fl K)) (i : ℕ) (v : Fl K) : List (Fl K) := l.modify i (· + v)

/-- riv.py 447-476: geometry of the combined channel: reach lengths, flags, bed levels, widths,
attached areas and lengths. -/
def chanGeom [FloorRing K] (pp : PhysPars K) (a : ChanIn K) (s : LagStage K) (Closed : Bool) (outlet : List ℕ)
    (outletW : List (Fl K)) (onRows outRows : List (Transect K)) :
    List (Fl K) × List ℕ × List (Fl K) × List (Fl K) × List (Fl K) × List (Fl K) :=
  let nr := a.RiverElev.length
  let no := s.online.length
  let dx := if Closed then List.replicate (nr + no - 1) (fin a.Dx)
    else
      let n := nr + no + outlet.length + 1
      addAt (List.replicate n (fin a.Dx)) (n - 2)
        (if a.EndX0 <? a.EndX1 then flMod a.EndX1 a.Dx else fin a.Dx - flMod a.EndX1 a.Dx)
  let flag := List.replicate nr 0 ++ List.replicate no 1 ++ (if Closed then [] else List.replicate outlet.length 2 ++ [3, 4])
  let elev := a.RiverElev ++ onRows.map (·.z3) ++
    (if Closed then [] else outRows.map (·.z1) ++ [a.EndElev, pymin (fin pp.MaxOutletElev) a.EndElev])
  let width := List.replicate nr (fin pp.RiverWidth) ++ onRows.map lagWidth ++
    (if Closed then [] else outletW ++ [a.EndWidth, a.EndWidth])
  let area := setAt (setAt (List.replicate elev.length (fin 0)) nr s.startArea) (nr + no - 1) s.endArea
  let len := addAt (addAt (flag.map (fun f => if f = 1 then fin a.Dx else fin 0)) nr s.startLen) (nr + no - 1) s.endLen
  (dx, flag, elev, width, area, len)

/-- riv.py 479-507: initial depths and velocities of the combined channel. -/
def chanHyd (a : ChanIn K) (online outlet : List ℕ) (Closed : Bool) (onRows : List (Transect K)) :
    Except PyErr (List (Fl K) × List (Fl K)) := do
  let wl ← gather a.LagoonWL online
  let lv ← gather a.LagoonVel online
  let lagDep := List.zipWith (fun w (r : Transect K) => w - r.z3) wl onRows
  let (dep, vel) ← (do
    if Closed then
      let vel := a.RivVel ++ lv
      return (a.RivDep ++ lagDep, vel.set (vel.length - 1) (fin 0))
    else
      let od ← gather a.OutletDep outlet
      let ov ← gather a.OutletVel outlet
      return (a.RivDep ++ lagDep ++ od ++ padEnd a.EndDep, a.RivVel ++ lv ++ ov ++ padEnd a.EndVel) : Except PyErr _)
  let dep ← fillNan dep dep (fun _ q => q)
  let vel ← fillNan vel (List.zipWith (· * ·) dep vel) (fun i q => q / (dep[i]?).getD nan)
  return (dep, vel)

/-- riv.py 306-520, `assembleChannel`.  Arrays are assumed to have the shapes the caller gives them
(one entry per transect, or one per river section); a too short array raises IndexError. -/
def assembleChannel [FloorRing K] (pp : PhysPars K) (a : ChanIn K) : Except PyErr (ChanOut K) := do
  let X0Ix ← firstIx (fun r : Transect K => fin r.x ==? fin 0) a.rows
  let (outlet, outletW, Closed) ← outletStage pp a
  let r0 ← ixGet a.rows X0Ix
  pyAssert (fin 0 <? lagWidth r0)                              -- 386
  pyAssert (a.rows.all (fun r => !(lagWidth r).isnan))         -- 387
  let s ← lagoonStage a X0Ix Closed
  let (s, Closed) ← cutStage pp a s Closed
  let onRows ← gather a.rows s.online
  let outRows ← (if Closed then .ok [] else gather a.rows outlet : Except PyErr (List (Transect K)))
  let (dx, flag, elev, width, area, len) := chanGeom pp a s Closed outlet outletW onRows outRows
  let (dep, vel) ← chanHyd a s.online outlet Closed onRows
  pyAssert (!width.any (· ≤? fin 0))                           -- 510-514
  pyAssert (!width.any (·.isnan))
  pyAssert (!elev.any (·.isnan))
  pyAssert (!vel.any (·.isnan))
  pyAssert (!dep.any (·.isnan))
  pyAssert (s.online.length == (flag.filter (· == 1)).length)  -- 517
  return ⟨dx, elev, width, area, len, dep, vel, s.online, outlet, flag, Closed⟩

/-- `v[mask]`: the entries of `l` whose entry of `flag` satisfies `p`. -/
def maskSel {α : Type} (flag : List ℕ) (p : ℕ → Bool) (l : List α) : List α :=
  (flag.zip l).filterMap (fun (f, v) => if p f then some v else none)

/-- `v[ixs] = vals` for distinct indices (`f old new` is stored); ValueError if the sizes differ,
IndexError if an index is out of range. -/
def scatter {α β : Type} (f : α → β → α) (l : List α) : List ℕ → List β → Except PyErr (List α)
  | [], [] => .ok l
  | i :: is, v :: vs => do
    let old ← ixGet l i
    scatter f (l.set i (f old v)) is vs
  | _, _ => .error .value

/-- The tuple returned by `storeHydraulics` (riv.py 565-566). -/
structure HydStore (K : Type) where
  LagoonWL : List (Fl K)
  LagoonVel : List (Fl K)
  OutletDep : List (Fl K)
  OutletVel : List (Fl K)
  EndDep : List (Fl K)
  EndVel : List (Fl K)

/-- `np.min(a)`, `np.max(a)` of an integer array; ValueError if empty. -/
def listMin (l : List ℕ) : Except PyErr ℕ :=
  match l with
  | [] => .error .value
  | a :: t => .ok (t.foldl min a)
def listMax (l : List ℕ) : Except PyErr ℕ :=
  match l with
  | [] => .error .value
  | a :: t => .ok (t.foldl max a)

/-- riv.py 522-566, `storeHydraulics`. -/
def storeHydraulics (dep vel : List (Fl K)) (online outlet flag : List ℕ) (LagoonElev : List (Fl K)) (Closed : Bool) :
    Except PyErr (HydStore K) := do
  let n := LagoonElev.length
  let wl ← scatter (fun z d => z + d) LagoonElev online (maskSel flag (· == 1) dep)   -- 541-542
  let mn ← listMin online
  let mx ← listMax online
  let wmin ← ixGet wl mn
  let wl := wl.mapIdx (fun i w => if i < mn then wmin else w)                         -- 545
  let wmax ← ixGet wl mx
  let wl := wl.mapIdx (fun i w => if mx < i then wmax else w)                         -- 546
  let lv ← scatter (fun _ v => v) (List.replicate n nan) online (maskSel flag (· == 1) vel)
  if Closed then
    return ⟨wl, lv, List.replicate n nan, List.replicate n nan, [nan, nan], [nan, nan]⟩
  else
    let od ← scatter (fun _ v => v) (List.replicate n nan) outlet (maskSel flag (· == 2) dep)
    let ov ← scatter (fun _ v => v) (List.replicate n nan) outlet (maskSel flag (· == 2) vel)
    return ⟨wl, lv, od, ov, maskSel flag (fun f => f == 3 || f == 4) dep, maskSel flag (fun f => f == 3 || f == 4) vel⟩

/-- riv.py 616-642, `storeBedload`; the third component is the scalar 0.0 (as a one-element list)
when closed.  IndexError if the bedload does not have one entry per reach. -/
def storeBedload (bed : List (Fl K)) (n : ℕ) (online outlet flag : List ℕ) (Closed : Bool) :
    Except PyErr (List (Fl K) × List (Fl K) × List (Fl K)) := do
  let f := flag.dropLast
  if f.length ≠ bed.length then .error .index
  else if Closed then
    let lb ← scatter (fun _ v => v) (List.replicate n (fin 0)) online.dropLast (maskSel f (· == 1) bed)
    return (lb, List.replicate n (fin 0), [fin 0])
  else
    let ob ← scatter (fun _ v => v) (List.replicate n (fin 0)) outlet (maskSel f (· == 2) bed)
    let eb := maskSel f (· == 3) bed
    let lb ← scatter (fun _ v => v) (List.replicate n (fin 0)) online (maskSel f (· == 1) bed)
    return (lb, ob, eb)

end Verif.Model
