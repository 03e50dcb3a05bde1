import Verif.Model.Steady

set_option autoImplicit false

/-! # Model of `solveFullPreissmann` in `hapuamod/riv.py`

Arrays over nodes are modelled as one list of node records and arrays over reaches as one
list of reach records, so array shapes are consistent by construction (assembleChannel
returns consistent arrays).  numpy's elementwise operations become functions of one reach and
its two end nodes. -/

namespace Verif.Model
open Verif Fl

/-- Scalar parameters (riv.py 120-127). `dt` is the timestep in seconds (line 128). -/
structure PrePars where
  g : ℝ
  n : ℝ
  P : ℝ
  Theta : ℝ
  Beta : ℝ
  Tol : ℝ
  MaxIt : ℕ
  dt : ℝ

/-- Per-node inputs of the function (riv.py 73). -/
structure ChanNode (K : Type) where
  z : K
  B : K
  LagArea : K
  LagLen : K
  h : K
  V : K

/-- Per-node working arrays. -/
structure PreNode where
  z : Fl ℝ
  B : Fl ℝ
  Be : Fl ℝ
  h : Fl ℝ
  V : Fl ℝ
  A : Fl ℝ
  Sf : Fl ℝ

/-- Per-reach constant arrays. -/
structure PreReach where
  SeepLen : Fl ℝ
  S0 : Fl ℝ
  dtdx : Fl ℝ

/-- riv.py 133, 277: `h[h<=0] = 0.0001`. -/
noncomputable def clampH (h : Fl ℝ) : Fl ℝ := if h ≤? fin 0 then fin 0.0001 else h
/-- riv.py 134, 278: `V[V==0] = 0.0001`. -/
noncomputable def clampV (v : Fl ℝ) : Fl ℝ := if v ==? fin 0 then fin 0.0001 else v

/-- riv.py 155, 281: friction slope. -/
noncomputable def preSf (p : PrePars) (h V : Fl ℝ) : Fl ℝ := V * V.abs * fin (p.n ^ 2) / npPow h (4/3)

/-- riv.py 137-140: length of channel attributed to each node. IndexError if there is no reach. -/
noncomputable def preDx2 (dx : List (Fl ℝ)) : Except PyErr (List (Fl ℝ)) := do
  let d0 ← ixGet dx 0
  let dN ← pyGet dx (-1)
  return d0 :: (List.zipWith (fun a b => (a + b) / fin 2) dx.dropLast dx.tail ++ [dN])

/-- riv.py 133-134, 141, 154-155: working arrays at the start. -/
noncomputable def preNode (p : PrePars) (c : ChanNode (Fl ℝ)) (dx2 : Fl ℝ) : PreNode :=
  let h := clampH c.h
  let V := clampV c.V
  { z := c.z, B := c.B, Be := c.B + c.LagArea / dx2, h := h, V := V, A := h * c.B, Sf := preSf p h V }

/-- riv.py 130, 144, 150: per-reach constants. -/
noncomputable def preReach (p : PrePars) (dx : Fl ℝ) (a b : ChanNode (Fl ℝ)) : PreReach :=
  { SeepLen := (a.LagLen + b.LagLen) / (fin 2 * dx), S0 := (a.z - b.z) / dx, dtdx := fin p.dt / dx }

/-- riv.py 171-175: constant part of the continuity equation of a reach. -/
noncomputable def preC1 (p : PrePars) (DsWl DsWl_old : Fl ℝ) (r : PreReach) (a b : PreNode) : Fl ℝ :=
  b.h * b.Be + a.h * a.Be
    - fin 2 * r.dtdx * (fin (1 - p.Theta)) * (b.V * b.A - a.V * a.A)
    - r.SeepLen * fin p.dt * fin p.P * (b.z + a.z - fin (2 * p.Theta) * DsWl
        + fin (1 - p.Theta) * (b.h + a.h - fin 2 * DsWl_old))

/-- riv.py 178-183: constant part of the momentum equation of a reach. -/
noncomputable def preC2 (p : PrePars) (r : PreReach) (a b : PreNode) : Fl ℝ :=
  a.V * a.A + b.V * b.A
    - fin (2 * p.Beta) * r.dtdx * fin (1 - p.Theta) * (b.V * b.V.abs * b.A - a.V * a.V.abs * a.A)
    - fin p.g * r.dtdx * fin (1 - p.Theta) * (b.A + a.A) * (b.h - a.h)
    + fin (p.g * p.dt * (1 - p.Theta)) * (b.A * (r.S0 - b.Sf) + a.A * (r.S0 - a.Sf))

/-- riv.py 194-197: continuity residual of a reach. -/
noncomputable def preCont (p : PrePars) (C1 : Fl ℝ) (r : PreReach) (a b : PreNode) : Fl ℝ :=
  b.h * b.Be + a.h * a.Be
    + fin 2 * r.dtdx * fin p.Theta * (b.V * b.A - a.V * a.A)
    + r.SeepLen * fin (p.dt * p.P * p.Theta) * (b.h + a.h)
    - C1

/-- riv.py 200-205: momentum residual of a reach. -/
noncomputable def preMom (p : PrePars) (C2 : Fl ℝ) (r : PreReach) (a b : PreNode) : Fl ℝ :=
  a.V * a.A + b.V * b.A
    + fin (2 * p.Beta) * r.dtdx * fin p.Theta * (b.V * b.V.abs * b.A - a.V * a.V.abs * a.A)
    + fin p.g * r.dtdx * fin p.Theta * (b.A + a.A) * (b.h - a.h)
    - fin (p.g * p.dt * p.Theta) * (b.A * (r.S0 - b.Sf) + a.A * (r.S0 - a.Sf))
    - C2

/-- The eight derivative entries of a reach (riv.py 225-255), named as in the comments there:
continuity (c) or momentum (m), depth (h) or velocity (v), upstream (0) or downstream (1). -/
structure ReachDeriv (α : Type) where
  ch0 : α
  cv0 : α
  ch1 : α
  cv1 : α
  mh0 : α
  mv0 : α
  mh1 : α
  mv1 : α

/-- riv.py 225-255. -/
noncomputable def preDeriv (p : PrePars) (r : PreReach) (a b : PreNode) : ReachDeriv (Fl ℝ) :=
  { ch0 := a.Be - fin 2 * r.dtdx * fin p.Theta * a.V * a.B + r.SeepLen * fin (p.dt * p.P * p.Theta)
    cv0 := fin (-2) * r.dtdx * fin p.Theta * a.A
    ch1 := b.Be + fin 2 * r.dtdx * fin p.Theta * b.V * b.B + r.SeepLen * fin (p.dt * p.P * p.Theta)
    cv1 := fin 2 * r.dtdx * fin p.Theta * b.A
    mh0 := a.V * a.B - fin (2 * p.Beta) * r.dtdx * fin p.Theta * a.V.abs * a.V * a.B
      + fin (p.g * p.Theta) * r.dtdx * (fin (-2) * a.A + a.B * b.h - b.A)
      - fin (p.g * p.dt * p.Theta) * a.B * (r.S0 + fin (1/3) * a.Sf)
    mv0 := a.A - fin (4 * p.Beta) * r.dtdx * fin p.Theta * a.V * a.A
      + fin (2 * (p.g * p.dt * p.Theta)) * a.A * a.Sf / a.V
    mh1 := b.V * b.B + fin (2 * p.Beta) * r.dtdx * fin p.Theta * b.V.abs * b.V * b.B
      + fin (p.g * p.Theta) * r.dtdx * (fin 2 * b.A - b.B * a.h + a.A)
      - fin (p.g * p.dt * p.Theta) * b.B * (r.S0 + fin (1/3) * b.Sf)
    mv1 := b.A + fin (4 * p.Beta) * r.dtdx * fin p.Theta * b.V * b.A
      + fin (2 * (p.g * p.dt * p.Theta)) * b.A * b.Sf / b.V }

/-- `np.arange(start, stop, 2)`. -/
def arange2 (start stop : ℕ) : List ℕ := (List.range ((stop - start + 1) / 2)).map (fun k => start + 2 * k)

/-- `v[cols] = vals` on a vector given as a function (cells not listed keep their value). -/
def setCells {α : Type} (v : ℕ → α) (cols : List ℕ) (vals : List α) : ℕ → α :=
  fun c => ((cols.zip vals).lookup c).getD (v c)

/-- `a[row, cols] = vals` on a two-dimensional array given as a function. -/
def setRow {α : Type} (a : ℕ → ℕ → α) (row : ℕ) (cols : List ℕ) (vals : List α) : ℕ → ℕ → α :=
  fun r => if r = row then setCells (a r) cols vals else a r

/-- riv.py 217-263: the banded matrix, as a function of the derivative entries, in the order
of the assignments. `zero` is the value `np.zeros` fills with. `N` is the number of nodes. -/
def bandAssemble {α : Type} (zero : α) (N : ℕ) (usV usH : α) (ds : List (ReachDeriv α)) (dsV dsH : α) : ℕ → ℕ → α :=
  let a : ℕ → ℕ → α := fun _ _ => zero                                                   -- 217
  let a := setRow a 1 [1] [usV]                                                           -- 220
  let a := setRow a 2 [0] [usH]                                                           -- 221
  let a := setRow a 3 (arange2 0 (2*N-2)) (ds.map (·.ch0))                                -- 225
  let a := setRow a 2 (arange2 1 (2*N-2)) (ds.map (·.cv0))                                -- 229
  let a := setRow a 1 (arange2 2 (2*N)) (ds.map (·.ch1))                                  -- 231
  let a := setRow a 0 (arange2 3 (2*N)) (ds.map (·.cv1))                                  -- 235
  let a := setRow a 4 (arange2 0 (2*N-2)) (ds.map (·.mh0))                                -- 239
  let a := setRow a 3 (arange2 1 (2*N-2)) (ds.map (·.mv0))                                -- 244
  let a := setRow a 2 (arange2 2 (2*N)) (ds.map (·.mh1))                                  -- 248
  let a := setRow a 1 (arange2 3 (2*N)) (ds.map (·.mv1))                                  -- 253
  let a := setRow a 2 [2*N-1] [dsV]                                                       -- 259, 262
  setRow a 3 [2*N-2] [dsH]                                                                -- 260, 263

/-- riv.py 187-211: the residual vector. -/
def errAssemble {α : Type} (zero : α) (N : ℕ) (us : α) (cont mom : List α) (dsErr : α) : List α :=
  let e : ℕ → α := fun _ => zero
  let e := setCells e [0] [us]
  let e := setCells e (arange2 1 (2*N-1)) cont
  let e := setCells e (arange2 2 (2*N-1)) mom
  let e := setCells e [2*N-1] [dsErr]
  (List.range (2*N)).map e

/-- Outcome of `linalg.solve_banded`. -/
inductive SolveRes where
  | ok (Delta : List (Fl ℝ))
  | singular                 -- linalg.LinAlgError
  | raised (e : PyErr)       -- any other exception

/-- An arbitrary banded solver. -/
abbrev Solver := (ℕ → ℕ → Fl ℝ) → List (Fl ℝ) → SolveRes

/-- Working state. `Delta` is unbound until the first successful solve. `caller` is `none`
while the local names `h`, `V` still refer to the caller's arrays (all updates are in
place); once line 304 has rebound them, it holds what the caller's arrays contained. -/
structure PreState where
  nodes : List PreNode
  Delta : Option (List (Fl ℝ))
  caller : Option (List (Fl ℝ × Fl ℝ))

/-- The pairs of neighbouring nodes with their reach. -/
def preReaches (rs : List PreReach) (ns : List PreNode) : List (PreReach × PreNode × PreNode) :=
  rs.zip (ns.zip ns.tail)

/-- riv.py 190-211: the residuals for the current state. IndexError when there are no nodes. -/
noncomputable def preErr (p : PrePars) (Closed : Bool) (Q DsWl : ℝ) (C : List (Fl ℝ × Fl ℝ)) (rs : List PreReach)
    (ns : List PreNode) : Except PyErr (List (Fl ℝ)) := do
  let n0 ← ixGet ns 0
  let nN ← pyGet ns (-1)
  let cont := List.zipWith (fun c (x : PreReach × PreNode × PreNode) => preCont p c.1 x.1 x.2.1 x.2.2) C (preReaches rs ns)
  let mom := List.zipWith (fun c (x : PreReach × PreNode × PreNode) => preMom p c.2 x.1 x.2.1 x.2.2) C (preReaches rs ns)
  return errAssemble (fin 0) ns.length (n0.A * n0.V - fin Q) cont mom
    (if Closed then nN.h * nN.V else nN.z + nN.h - fin DsWl)

/-- riv.py 217-263: the banded matrix for the current state. -/
noncomputable def preBand (p : PrePars) (Closed : Bool) (rs : List PreReach) (ns : List PreNode) :
    Except PyErr (ℕ → ℕ → Fl ℝ) := do
  let n0 ← ixGet ns 0
  let nN ← pyGet ns (-1)
  return bandAssemble (fin 0) ns.length n0.A (n0.V * n0.B)
    ((preReaches rs ns).map (fun x => preDeriv p x.1 x.2.1 x.2.2))
    (if Closed then nN.h else fin 0) (if Closed then nN.V else fin 1)

/-- riv.py 273-282: apply the corrections to one node. -/
noncomputable def preUpdate (p : PrePars) (a : PreNode) (dh dV : Fl ℝ) : PreNode :=
  let h := clampH (a.h - dh)
  let V := clampV (a.V - dV)
  { a with h := h, V := V, Sf := preSf p h V, A := h * a.B }

/-- riv.py 188-300: the Newton loop; `fuel` is `MaxIt - ItCount`.  Returns the state and
whether the loop was left by `break`. -/
noncomputable def preNewton (p : PrePars) (Closed : Bool) (solver : Solver) (Q DsWl : ℝ) (C : List (Fl ℝ × Fl ℝ))
    (rs : List PreReach) : ℕ → PreState → Except PyErr (PreState × Bool)
  | 0, s => .ok (s, false)
  | fuel + 1, s => do
    let err ← preErr p Closed Q DsWl C rs s.nodes
    let band ← preBand p Closed rs s.nodes
    -- 266-270: on LinAlgError the previous Delta (if any) is used again
    let Delta ← match solver band err with
      | .ok d => .ok (some d)
      | .singular => .ok s.Delta
      | .raised e => .error e
    match Delta with
    | none => .error .unbound
    | some d => do
      let dh ← gather d ((List.range s.nodes.length).map (fun i => 2 * i))
      let dV ← gather d ((List.range s.nodes.length).map (fun i => 2 * i + 1))
      let ns := List.zipWith (fun a (x : Fl ℝ × Fl ℝ) => preUpdate p a x.1 x.2) s.nodes (dh.zip dV)
      let s' : PreState := { s with nodes := ns, Delta := some d }
      if d.all (fun x => x.abs <? fin p.Tol) then .ok (s', true)
      else preNewton p Closed solver Q DsWl C rs fuel s'

/-- riv.py 160-304: one timestep. `Qlast`, `DsLast` are the last elements of the boundary
series (line 304). -/
noncomputable def preStep (p : PrePars) (Closed : Bool) (solver : Solver) (dx : List (Fl ℝ)) (rs : List PreReach)
    (Qlast DsLast : ℝ) (sd : PreState × Fl ℝ) (bdy : ℝ × ℝ) : Except PyErr (PreState × Fl ℝ) := do
  let s := sd.1
  let C := (preReaches rs s.nodes).map (fun x =>
    (preC1 p (fin bdy.2) sd.2 x.1 x.2.1 x.2.2, preC2 p x.1 x.2.1 x.2.2))
  let (s, conv) ← preNewton p Closed solver bdy.1 bdy.2 C rs p.MaxIt s
  if conv then return (s, fin bdy.2)
  else do
    -- 302-304: rebinds the local names h, V; A and Sf keep their values
    let sp : SteadyPars := { n := p.n, Q := Qlast, DsWL := DsLast, Beta := p.Beta, Tol := p.Tol, MaxIt := p.MaxIt }
    let (hs, Vs) ← solveSteady sp dx (s.nodes.map (·.z)) (s.nodes.map (·.B))
    let ns := List.zipWith (fun (a : PreNode) (x : Fl ℝ × Fl ℝ) => { a with h := x.1, V := x.2 }) s.nodes (hs.zip Vs)
    let caller := match s.caller with
      | some c => some c
      | none => some (s.nodes.map (fun a => (a.h, a.V)))
    return ({ s with nodes := ns, caller := caller }, fin bdy.2)

/-- riv.py 130-155: the node and reach arrays set up before the first timestep. -/
noncomputable def preInit (p : PrePars) (dx : List (Fl ℝ)) (nodes : List (ChanNode (Fl ℝ))) :
    Except PyErr (List PreNode × List PreReach) := do
  let dx2 ← preDx2 dx
  return (List.zipWith (preNode p) nodes dx2,
    List.zipWith (fun d (x : ChanNode (Fl ℝ) × ChanNode (Fl ℝ)) => preReach p d x.1 x.2) dx (nodes.zip nodes.tail))

/-- riv.py 73-304, `solveFullPreissmann`: what the caller's `h` and `V` arrays contain when the
function returns.  `bdy` is the series of (inflow, sea level) for each timestep. -/
noncomputable def solveFullPreissmann (p : PrePars) (Closed : Bool) (solver : Solver) (dx : List (Fl ℝ))
    (nodes : List (ChanNode (Fl ℝ))) (bdy : List (ℝ × ℝ)) : Except PyErr (List (Fl ℝ × Fl ℝ)) := do
  let (ns, rs) ← preInit p dx nodes
  let nN ← pyGet ns (-1)
  let last := bdy.getLast?.getD (0, 0)   -- only used inside the loop, when `bdy` is non-empty
  let s0 : PreState := { nodes := ns, Delta := none, caller := none }
  let (s, _) ← bdy.foldlM (preStep p Closed solver dx rs last.1 last.2) (s0, nN.z + nN.h)
  return match s.caller with
    | some c => c
    | none => s.nodes.map (fun a => (a.h, a.V))

end Verif.Model
