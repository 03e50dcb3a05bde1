import Verif.Model.MorRates

set_option autoImplicit false

/-! # Model of `updateMorphology` in `hapuamod/mor.py`, second half

Lines 217-695: repairs of the updated morphology, breach decisions, and the function as a whole. -/

namespace Verif.Model
open Verif Fl

variable {K : Type} [Field K] [LinearOrder K] [IsStrictOrderedRing K]

/-- mor.py 217-223: edge of the domain. -/
def edgeCheck (st : MorSt K) : Except PyErr (MorSt K) := do
  let x1 := fin (← ixGet st.cells 1).t.x
  let xr := fin (← pyGet st.cells (-2)).t.x
  let e1 := if st.e1 <? x1 then x1 else st.e1
  return { st with e1 := if xr <? e1 then x1 else e1 }

/-- mor.py 225-235 for one transect. -/
def cliffCell (pp : PhysPars K) (c : Cell K) : Cell K :=
  let t := c.t
  if t.y0 ≤? t.y4 then
    let over := (t.y4 - t.y0) + fin (1 / 1000)
    let ret := over / (fin 1 + (fin pp.BackshoreElev - t.z0) / c.sfh)
    { c with t := { t with y4 := t.y4 - ret, y3 := t.y4 - ret, y0 := t.y0 + (over - ret) } }
  else c

/-- Quantities of mor.py 243-260 for a transect with a channel of negative width. -/
structure Overwash (K : Type) where
  width : Fl K
  vol : Fl K
  until_ : Fl K
  front : Bool
  back : Bool
  leveled : Bool
  deriving DecidableEq, Repr

/-- mor.py 243-260. -/
def overwashOf (c : Cell K) : Overwash K :=
  let t := c.t
  let w := t.y2 - t.y1
  let vol := w * c.bh
  let d := t.z2 - t.z0
  let front := fin 0 ≤? d
  let back := d <? fin 0
  let u := if front then d * c.cw else if back then d * -(t.y2 - t.y3) else d
  let lev := u <? vol
  ⟨w, vol, u, front && !lev, back && !lev, lev⟩

/-- mor.py 238, 241: the channel has negative width. -/
def negWidth (c : Cell K) : Bool := c.op && c.t.y1 <? c.t.y2

/-- mor.py 262-281 for one transect (not including the update of OutletPresent). -/
def overwashCell (c : Cell K) : Cell K :=
  if negWidth c then
    let o := overwashOf c
    let t := c.t
    let t := { t with y1 := t.y1 + o.width }
    let t := if o.front then { t with z0 := t.z0 + o.vol / c.cw } else t
    let t := if o.back then { t with z2 := t.z2 + o.vol / (t.y2 - t.y3) } else t
    if o.leveled then
      { c with t := { t with
          y1 := nan, y2 := nan, z1 := nan, z2 := nan,
          z0 := npmax t.z0 t.z2 + (o.vol - o.until_) / (t.y0 - t.y3) } }
    else { c with t := t }
  else c

/-- mor.py 237-281: overwash into closed channels. -/
def overwashRepair (cells : List (Cell K)) : Except PyErr (List (Cell K)) := do
  let neg := (cells.filter negWidth).map overwashOf
  pyAssert (neg.all (fun o => fin 0 <? o.vol))
  pyAssert (neg.all (fun o => fin 0 ≤? o.until_))
  let cells := cells.map overwashCell
  if neg.any (·.leveled) then return cells.map (fun c => { c with op := !c.t.y1.isnan })
  else return cells

/-- The transects of the outlet channel (mor.py 318-323, 365-372; as riv.py 356-363). -/
def cellIx (cells : List (Cell K)) (e0 e1 : Fl K) : List ℕ := outletIx (cells.map (·.t)) e0 e1

/-- mor.py 305-314 for one new outlet transect. -/
def elongCell (pp : PhysPars K) (st : MorSt K) (c : Cell K) : Cell K :=
  let t := c.t
  { c with t := { t with
      y1 := t.y0 - fin pp.SpitWidth
      y2 := t.y0 - fin pp.SpitWidth - st.endW
      z1 := st.endZ
      z2 := t.z0
      z0 := fin pp.BeachTopElev } }

/-- mor.py 290-323: give the transects of ExtendMask a channel.  The message logged on lines 291 and 300 names one of them:
IndexError if there is none. -/
def extendChan (pp : PhysPars K) (st : MorSt K) (mask : Transect K → Bool) : Except PyErr (MorSt K) :=
  if !st.cells.any (fun c => mask c.t) then .error .index
  else
    let cells := st.cells.map (fun c => if mask c.t then elongCell pp st c else c)
    .ok { st with cells := cells, ix := cellIx cells st.e0 st.e1 }

/-- mor.py 283-323: elongation of the outlet channel across transects. -/
def elongate (pp : PhysPars K) (Closed : Bool) (st : MorSt K) : Except PyErr (MorSt K) := do
  if Closed then return st
  else
    let last ← pyGet st.ix (-1)
    let xl := fin (← ixGet st.cells last).t.x
    if st.e0 <? st.e1 then
      let xn := fin (← ixGet st.cells (last + 1)).t.x
      if xn ≤? st.e1 then extendChan pp st (fun t => (xl <? fin t.x) && (fin t.x ≤? st.e1))
      else return st
    else
      let xn := fin (← ixGet st.cells (prevIx st.cells.length last)).t.x
      if st.e1 ≤? xn then extendChan pp st (fun t => (fin t.x <? xl) && (st.e1 ≤? fin t.x))
      else return st

/-- mor.py 337-341 for the upstream transect of the outlet channel. -/
def seaPreventCell (c : Cell K) : Cell K :=
  let t := c.t
  let d := fin (1 / 1000) + (t.y1 - t.y0)
  { c with t := { t with y1 := t.y1 - d, y2 := t.y2 - d * (t.z0 - t.z1) / (t.z2 - t.z1) } }

/-- mor.py 331-344: keep the upstream transect of the outlet channel away from the sea. -/
def seaPrevent (Closed : Bool) (st : MorSt K) : Except PyErr (MorSt K) := do
  if Closed then return st
  else
    let i ← ixGet st.ix 0
    let c ← ixGet st.cells i
    if c.t.y0 ≤? c.t.y1 then return { st with cells := st.cells.modify i seaPreventCell }
    else return st

/-- Outlet transects of `ix` at which `p` holds. -/
def ixWhere (cells : List (Cell K)) (ix : List ℕ) (p : Transect K → Bool) : List ℕ :=
  ix.filter (fun i => (cells[i]?).any (fun c => p c.t))

/-- mor.py 395-403 for one transect turned from outlet channel into lagoon. -/
def extendCell (c : Cell K) : Cell K :=
  let t := c.t
  { c with
    op := false
    t := { t with y3 := t.y1, z3 := t.z1, y1 := nan, y2 := nan, z1 := nan, z2 := nan } }

/-- mor.py 346-403: truncation of the lagoon end of the outlet channel. -/
def lagoonTrunc (st : MorSt K) : Except PyErr (MorSt K) := do
  if st.ix.length ≤ 1 then return st
  else
    match ixWhere st.cells st.ix.dropLast (fun t => t.y2 ≤? t.y3) with
    | [] => return st
    | i :: _ =>
      let c ← ixGet st.cells i
      let nb ← (if st.e0 <? st.e1 then ixGet st.cells (i + 1) else ixGet st.cells (prevIx st.cells.length i) : Except PyErr (Cell K))
      let e0 := fin nb.t.x
      let ix := cellIx st.cells e0 st.e1
      pyAssert (!ix.isEmpty)
      if c.t.y2 ≤? c.t.y4 then
        let ext ← (if fin 0 <? fin c.t.x then do
            let cur ← lastIx (fun c : Cell K => c.t.y4 <? c.t.y3) st.cells
            return arangeUp (cur + 1) (i + 1)
          else do
            let cur ← firstIx (fun c : Cell K => c.t.y4 <? c.t.y3) st.cells
            return arangeUp i cur : Except PyErr (List ℕ))
        return { st with e0 := e0, ix := ix, cells := modifyIf (fun j => ext.contains j) (fun _ => extendCell) st.cells }
      else return { st with e0 := e0, ix := ix }

/-- mor.py 405-420: truncation of the seaward end of the outlet channel.  The direction in which the remaining transects are
collected is that before the truncation (no transects are left if the first one is truncated). -/
def seaTrunc (Dx : K) (st : MorSt K) : Except PyErr (MorSt K) := do
  if st.ix.length ≤ 1 then return st
  else
    let gone := fun t : Transect K => t.y0 ≤? t.y1
    if (ixWhere st.cells st.ix.tail gone).isEmpty then return st
    else
      let tr := ixWhere st.cells st.ix gone
      if st.e0 <? st.e1 then
        let c ← ixGet st.cells (← ixGet tr 0)
        let e1 := fin c.t.x - fin (Dx / 2)
        return { st with e1 := e1, ix := whereIx (fun c : Cell K => st.e0 ≤? fin c.t.x && fin c.t.x ≤? e1) st.cells }
      else
        let c ← ixGet st.cells (← pyGet tr (-1))
        let e1 := fin c.t.x + fin (Dx / 2)
        return { st with e1 := e1, ix := (whereIx (fun c : Cell K => e1 ≤? fin c.t.x && fin c.t.x ≤? st.e0) st.cells).reverse }

/-- mor.py 429-441 for the downstream transect of the outlet channel. -/
def lagoonPreventCell (pp : PhysPars K) (c : Cell K) : Cell K :=
  let t := c.t
  let y3 := t.y2 - fin (1 / 10000)
  if y3 <? t.y4 then
    let over := t.y4 - y3
    let ret := over / (fin 1 + (fin pp.BackshoreElev - t.z2) / (t.z2 - t.z1))
    { c with t := { t with y4 := t.y4 - ret, y2 := t.y2 + (over - ret), y3 := y3 + (over - ret) } }
  else { c with t := { t with y3 := y3 } }

/-- mor.py 422-441: keep the downstream transect of the outlet channel away from the lagoon. -/
def lagoonPrevent (pp : PhysPars K) (Closed : Bool) (st : MorSt K) : Except PyErr (MorSt K) := do
  if Closed then return st
  else
    let i ← pyGet st.ix (-1)
    let c ← ixGet st.cells i
    if c.t.y2 ≤? c.t.y3 then return { st with cells := st.cells.modify i (lagoonPreventCell pp) }
    else return st

/-- `~np.greater(a, b, where=mask)` for one transect: where the mask is false the result is what the
uninitialised output array happened to hold (`junk`), negated. -/
def notGreater (a b : Fl K) (mask junk : Bool) : Bool := if mask then !(b <? a) else !junk

/-- mor.py 452-461 for one transect: the channel becomes part of the lagoon. -/
def mergeLagoonCell (c : Cell K) : Cell K :=
  let t := c.t
  { c with t := { t with
      z3 := ((t.y1 - t.y2) * t.z1 + (t.y3 - t.y4) * t.z3) / (t.y1 - t.y4)
      y3 := t.y3 + (t.y1 - t.y2)
      y1 := nan
      y2 := nan
      z1 := nan } }

/-- mor.py 449. -/
def lagoonHit (junk : ℕ → Bool) (i : ℕ) (c : Cell K) : Bool := notGreater c.t.y2 c.t.y3 (!c.t.y1.isnan) (junk i)

/-- mor.py 443-461: offline outlet channel merging with the lagoon. -/
def mergeLagoon (junk : ℕ → Bool) (cells : List (Cell K)) : List (Cell K) :=
  cells.mapIdx (fun i c => if lagoonHit junk i c then mergeLagoonCell c else c)

/-- `np.argmin` (first minimum; the first nan if there is one); 0 for an empty list. -/
def argmin (l : List (Fl K)) : ℕ :=
  match (List.range l.length).find? (fun i => (l[i]?).any (·.isnan)) with
  | some i => i
  | none => ((List.range l.length).find? (fun i => (l[i]?).any (fun a => l.all (fun b => a ≤? b)))).getD 0

/-- `np.argmax` (first maximum; the first nan if there is one); 0 for an empty list. -/
def argmax (l : List (Fl K)) : ℕ :=
  match (List.range l.length).find? (fun i => (l[i]?).any (·.isnan)) with
  | some i => i
  | none => ((List.range l.length).find? (fun i => (l[i]?).any (fun a => l.all (fun b => b ≤? a)))).getD 0

/-- mor.py 467. -/
def wideEnough (pp : PhysPars K) (c : Cell K) : Bool := c.op && fin pp.MinOutletWidth ≤? (c.t.y1 - c.t.y2)

/-- Python index into a list of length `n`, if valid. -/
def normIx (n : ℕ) (i : ℤ) : Option ℕ :=
  if 0 ≤ i ∧ i < n then some i.toNat else if -(n : ℤ) ≤ i ∧ i < 0 then some (i + n).toNat else none

/-- mor.py 493-496 (`d = -1`) and 499-501 (`d = 1`): walk along the wide enough channel, copying the
water level; IndexError at the end of the array (negative indices wrap). -/
def walk (pp : PhysPars K) (d : ℤ) : ℕ → ℤ → List (Cell K) → Except PyErr (ℤ × List (Cell K))
  | 0, _, _ => .error .index
  | f + 1, c, cells =>
    match normIx cells.length (c + d) with
    | none => .error .index
    | some j => do
      let nxt ← ixGet cells j
      if wideEnough pp nxt then
        match normIx cells.length c with
        | none => .error .index
        | some k => do
          let cur ← ixGet cells k
          walk pp d f (c + d) (cells.modify j (fun x => { x with wl := cur.wl }))
      else return (c, cells)

/-- mor.py 470-490: `(ConnectedChanMinMax, OutletEndX[0])`; `none` for `[nan, nan]`. -/
def connStart (pp : PhysPars K) (Closed : Bool) (X0Ix : ℕ) (st : MorSt K) : Except PyErr (Option (ℕ × ℕ) × Fl K) := do
  if !Closed then
    let lo ← listMin st.ix
    let hi ← listMax st.ix
    return (some (lo, hi), st.e0)
  else if !st.e0.isnan then
    let us := argmin (st.cells.map (fun c => (fin c.t.x - st.e0).abs))
    let c ← ixGet st.cells us
    if !wideEnough pp c then return (none, nan)
    else if !((st.cells.take (max us X0Ix + 1)).drop (min us X0Ix)).all (·.lo) then return (none, nan)
    else return (some (us, us), st.e0)
  else return (none, st.e0)

/-- mor.py 466-505: the channel connected to the lagoon as a range of transects (`none`: no transect),
and the state with updated water levels. -/
def connected (pp : PhysPars K) (Closed : Bool) (X0Ix : ℕ) (st : MorSt K) : Except PyErr (Option (ℤ × ℤ) × MorSt K) := do
  let (mm, e0) ← connStart pp Closed X0Ix st
  match mm with
  | none =>
    pyAssert (!st.cells.any (·.wl.isnan))
    return (none, { st with e0 := e0 })
  | some (lo, hi) =>
    let n := st.cells.length
    let (lo, cells) ← walk pp (-1) (2 * n + 2) lo st.cells
    let (hi, cells) ← walk pp 1 (2 * n + 2) hi cells
    pyAssert (!cells.any (·.wl.isnan))
    return (some (lo, hi), { st with e0 := e0, cells := cells })

/-- mor.py 503-504: is transect `i` in ConnectedChan? -/
def inConn (conn : Option (ℤ × ℤ)) (i : ℕ) : Bool :=
  match conn with
  | none => false
  | some (lo, hi) => decide (lo ≤ i) && decide ((i : ℤ) ≤ hi)

/-- mor.py 519. -/
def shoreHit (junk : ℕ → Bool) (i : ℕ) (c : Cell K) : Bool := notGreater c.t.y0 c.t.y1 (!c.t.y1.isnan) (junk i)

/-- mor.py 535-545 for one transect: the channel is filled with sediment from the shoreface. -/
def mergeShoreCell (pp : PhysPars K) (c : Cell K) : Cell K :=
  let t := c.t
  { c with
    op := false
    t := { t with
      y0 := t.y0 - (t.y1 - t.y2) * (t.z2 - t.z1) / (t.z2 + fin pp.ClosureDepth)
      y1 := nan
      y2 := nan
      z1 := nan
      z0 := t.z2
      z2 := nan } }

/-- mor.py 522-529: the breach caused by erosion into a connected relic channel of a closed lagoon. -/
def relicBreach (Closed : Bool) (conn : Option (ℤ × ℤ)) (e0 : Fl K) (hit : List Bool) (cells : List (Cell K)) :
    Except PyErr (Option ℕ) :=
  let poss := (List.range cells.length).filter (fun i => (hit[i]?).any id && inConn conn i)
  if Closed && !poss.isEmpty then do
    let cs ← gather cells poss
    let b ← ixGet poss (argmin (cs.map (fun c => (fin c.t.x - e0).abs)))
    return some b
  else .ok none

/-- mor.py 529: `ShoreIntersect[ShoreIntersect != BreachIx]`: booleans compared with an integer. -/
def dropBreach (hit : List Bool) (b : ℕ) : List Bool := hit.filter (fun h => (if h then 1 else 0) != b)

/-- mor.py 507-545: erosion of the barrier between outlet channel and sea.  Returns BreachIx. -/
def mergeShore (pp : PhysPars K) (junk : ℕ → Bool) (Closed : Bool) (conn : Option (ℤ × ℤ)) (st : MorSt K) :
    Except PyErr (Option ℕ × MorSt K) := do
  let hit := st.cells.mapIdx (shoreHit junk)
  if !hit.any id then return (none, st)
  else
    let b ← relicBreach Closed conn st.e0 hit st.cells
    let hit := match b with | none => hit | some b => dropBreach hit b
    if hit.length ≠ st.cells.length then .error .index
    else return (b, { st with cells := (st.cells.zip hit).map (fun (c, h) => if h then mergeShoreCell pp c else c) })

/-- mor.py 551: the barrier is completely eroded and there is a lagoon. -/
def eroded (t : Transect K) : Bool := t.y0 ≤? t.y3 && t.y4 <? t.y3

/-- mor.py 556-566, 615-629: transect `i` is connected to the river through open lagoon. -/
def riverLinked (openAt : List Bool) (X0Ix i : ℕ) : Bool :=
  if X0Ix < i then (arangeUp (X0Ix + 1) (i + 1)).all (fun j => (openAt[j]?).any id)
  else if i < X0Ix then (arangeUp i X0Ix).all (fun j => (openAt[j]?).any id)
  else true

/-- mor.py 592-596 for one transect. -/
def restoreCell (c : Cell K) : Cell K :=
  let t := c.t
  let over := fin (1 / 1000) + (t.y3 - t.y0)
  let shift := over / (fin 1 + c.sfh / (t.z0 - t.z3))
  { c with t := { t with y0 := t.y0 + shift, y3 := t.y3 - (over - shift) } }

/-- `|ShoreX[ixs]|`. -/
def absX (cells : List (Cell K)) (ixs : List ℕ) : List (Fl K) := ixs.filterMap (fun i => (cells[i]?).map (fun c => (fin c.t.x).abs))

/-- mor.py 568-585: does the erosion of the barrier cause a breach?  `poss` are the eroded transects connected to
the river. -/
def erosionBreaches (Closed : Bool) (e0 : Fl K) (xs : List (Fl K)) : Bool :=
  if xs.isEmpty then false else if Closed then true
  else match xs with
    | [] => false
    | x :: t => (t.foldl npmin x) <? e0.abs

/-- mor.py 568-589: `(BreachIx, NotBreachIx)` from the breach so far, the eroded transects `ero` and those of them
connected to the river (`poss`).  A breach on a relic channel, decided before, does not exempt its transect. -/
def erosionDecide (Closed : Bool) (b : Option ℕ) (e0 : Fl K) (cells : List (Cell K)) (ero poss : List ℕ) :
    Except PyErr (Option ℕ × List ℕ) :=
  match b with
  | some k => .ok (some k, ero)
  | none =>
    let xs := absX cells poss
    if erosionBreaches Closed e0 xs then do
      let k ← ixGet poss (argmin xs)
      return (some k, ero.filter (· != k))
    else .ok (none, ero)

/-- mor.py 547-596: complete erosion of the barrier.  `b` is the breach so far. -/
def erosionBreach (Closed : Bool) (X0Ix : ℕ) (b : Option ℕ) (st : MorSt K) : Except PyErr (Option ℕ × MorSt K) := do
  let ero := whereIx (fun c : Cell K => eroded c.t) st.cells
  if ero.isEmpty then return (b, st)
  else
    let poss := ero.filter (riverLinked (st.cells.map (·.lo)) X0Ix)
    let (b, rest) ← erosionDecide Closed b st.e0 st.cells ero poss
    return (b, { st with cells := modifyIf (fun i => rest.contains i) (fun _ => restoreCell) st.cells })

/-- mor.py 601-602: `CrestHeight` is a view of `ShoreZ[:,0]`, so the crest height assigned to transects with
a channel is stored in `ShoreZ` (line 603 then has no effect). -/
def crestCell (c : Cell K) : Cell K :=
  if c.op then { c with t := { c.t with z0 := npmax c.t.z0 c.t.z2 } } else c

/-- mor.py 614-629: the candidates for an overtopping breach, in order, some twice. -/
def overtopCands (conn : Option (ℤ × ℤ)) (openAt : List Bool) (X0Ix : ℕ) (spill : List ℕ) : List ℕ :=
  spill.flatMap (fun i => (if inConn conn i then [i] else []) ++ (if riverLinked openAt X0Ix i then [i] else []))

/-- mor.py 598-649: overtopping.  When there is no candidate in an open lagoon, line 635 indexes with an
empty float array: IndexError. -/
def overtopBreach (pp : PhysPars K) (Closed : Bool) (X0Ix : ℕ) (conn : Option (ℤ × ℤ)) (b : Option ℕ) (st : MorSt K) :
    Except PyErr (Option ℕ × MorSt K) := do
  let cells := st.cells.map crestCell
  pyAssert (!cells.any (·.t.z0.isnan))
  let st := { st with cells := cells }
  let spill := whereIx (fun c : Cell K => c.t.z0 <? c.wl) cells
  if b.isSome || spill.isEmpty then return (b, st)
  else
    let openAt := cells.map (fun c => fin pp.MinOutletWidth <? (c.t.y3 - c.t.y4))
    let poss := overtopCands conn openAt X0Ix spill
    if poss.isEmpty then
      if !Closed then .error .index else return (none, st)
    else
      let cs ← gather cells poss
      let k ← ixGet poss (argmax (cs.map (fun c => c.wl - c.t.z0)))
      return (some k, st)

/-- mor.py 654: `BreachIx in ConnectedChan`, an integer compared with booleans. -/
def inBools (conn : Option (ℤ × ℤ)) (n b : ℕ) : Bool :=
  (List.range n).any (fun i => (if inConn conn i then 1 else 0) == b)

/-- mor.py 662-682 for the breach transect; `w` is the new OutletEndWidth, `z` the new OutletEndElev. -/
def breachCell (pp : PhysPars K) (w z : Fl K) (c : Cell K) : Cell K :=
  let t := c.t
  let y1 := pymin (t.y0 - fin pp.SpitWidth) ((t.y0 + t.y3) / fin 2 + w / fin 2)
  let y2 := y1 - w
  { c with t := { t with
      z2 := t.z0
      y1 := y1
      y2 := y2
      z1 := fin (1 / 2) * z + fin (1 / 2) * t.z3
      y3 := if y2 ≤? t.y3 then y2 - fin (1 / 1000) else t.y3
      y4 := if y2 ≤? t.y4 then y2 - fin (1 / 1000) else t.y4 } }

/-- mor.py 651-682: create the breach. -/
def createBreach (pp : PhysPars K) (conn : Option (ℤ × ℤ)) (b : Option ℕ) (st : MorSt K) : Except PyErr (MorSt K) := do
  match b with
  | none => return st
  | some b =>
    let c ← ixGet st.cells b
    if inBools conn st.cells.length b then return { st with e1 := fin c.t.x }
    else
      let w := pymax st.endW (fin (2 * pp.MinOutletWidth))
      let z := pymin st.endZ (fin pp.MaxOutletElev)
      return { st with e0 := fin c.t.x, e1 := fin c.t.x, endW := w, endZ := z, cells := st.cells.modify b (breachCell pp w z) }

/-- mor.py 686-688 for the transect in line with the river. -/
def keepCell (pp : PhysPars K) (c : Cell K) : Cell K :=
  if (c.t.y3 - c.t.y4) <? fin pp.MinOutletWidth then
    { c with t := { c.t with y4 := c.t.y3 - fin pp.MinOutletWidth - fin (1 / 1000) } }
  else c

/-- mor.py 217-441: repairs 1 to 8. -/
def repairStage (pp : PhysPars K) (Closed : Bool) (Dx : K) (st : MorSt K) : Except PyErr (MorSt K) := do
  let st ← edgeCheck st
  let st := { st with cells := st.cells.map (cliffCell pp) }
  let cells ← overwashRepair st.cells
  let st ← elongate pp Closed { st with cells := cells }
  let st ← seaPrevent Closed st
  let st ← lagoonTrunc st
  let st ← seaTrunc Dx st
  lagoonPrevent pp Closed st

/-- mor.py 443-682: merging of channels with lagoon and sea, and breaches. -/
def breachStage (pp : PhysPars K) (junk1 junk2 : ℕ → Bool) (Closed : Bool) (X0Ix : ℕ) (st : MorSt K) :
    Except PyErr (Bool × MorSt K) := do
  let st := { st with cells := mergeLagoon junk1 st.cells }
  let (conn, st) ← connected pp Closed X0Ix st
  let (b, st) ← mergeShore pp junk2 Closed conn st
  let (b, st) ← erosionBreach Closed X0Ix b st
  let (b, st) ← overtopBreach pp Closed X0Ix conn b st
  let st ← createBreach pp conn b st
  return (b.isSome, st)

/-- mor.py 684-692. -/
def finishStage (pp : PhysPars K) (X0Ix : ℕ) (st : MorSt K) : Except PyErr (MorSt K) := do
  let cells := st.cells.modify X0Ix (keepCell pp)
  pyAssert (cells.all (fun c => !c.t.y0.isnan))
  pyAssert (cells.all (fun c => !c.t.y3.isnan))
  pyAssert (cells.all (fun c => !c.t.y4.isnan))
  return { st with cells := cells }

/-- What `updateMorphology` returns and leaves in the arrays it was given. -/
structure MorOut (K : Type) where
  MorDt : ℤ
  Breach : Bool
  rows : List (Transect K)
  EndX0 : Fl K
  EndX1 : Fl K
  EndWidth : Fl K
  EndElev : Fl K
  RiverElev : List (Fl K)
  deriving DecidableEq, Repr

/-- mor.py 12-695, `updateMorphology`.  `junk1`, `junk2` are the contents of the memory that
`np.greater(..., where=...)` leaves uninitialised at lines 449 and 519.  (Not modelled: logging; state left
behind by a call that raises.) -/
def updateMorphology (pp : PhysPars K) (junk1 junk2 : ℕ → Bool) (a : MorIn K) : Except PyErr (MorOut K) := do
  let (dt, X0Ix, st) ← forceStage pp a
  let st ← repairStage pp a.Closed a.Dx st
  let (b, st) ← breachStage pp junk1 junk2 a.Closed X0Ix st
  let st ← finishStage pp X0Ix st
  return ⟨dt, b, st.cells.map (·.t), st.e0, st.e1, st.endW, st.endZ, st.riv⟩

end Verif.Model
