import Verif.Model.Core

set_option autoImplicit false

/-! # Model of the live figure of boundary conditions (`core.py`, `visualise.bdyCndFig`, `visualise.updateBdyCndFig`)

The lines drawn are the columns of the table `BdyPlotTs` of `main`; drawing itself is not modelled. -/

namespace Verif.Model
open Verif Fl

variable {K : Type} [Field K] [LinearOrder K] [IsStrictOrderedRing K]

/-- A row of `BdyPlotTs` (core.py 88-90): one vertex of each of the three lines (visualise.py 763-771, 784-786). -/
structure BdyPt (K : Type) where
  time : ℤ
  Qin : Fl K
  Qout : Fl K
  SeaLevel : Fl K
  deriving DecidableEq, Repr

/-- core.py 88-90: the first row, from the flow and sea level that are also in the first time series record (core.py 77-80). -/
def bdyFirst (r : TsRec K) : BdyPt K := ⟨r.time, r.RivFlow, r.RivFlow, r.SeaLevel⟩

/-- core.py 220-224: the row added when the plots are updated. -/
def bdyNext (p : PassOut K) (t : ℤ) : Except PyErr (BdyPt K) := do
  let d ← pyGet p.dep (-1)
  let v ← pyGet p.vel (-1)
  let w ← pyGet p.chan.width (-1)
  return ⟨t, p.flow, d * v * w, p.sea⟩

/-- core.py 215-231: the table after a pass. -/
def bdyStep (e : Env K) (pts : List (BdyPt K)) (x : CoreSt K × PassOut K × CoreSt K) : Except PyErr (List (BdyPt K)) :=
  if 0 < e.oo.PlotInt ∧ x.1.plotTime ≤ x.2.2.time then do return pts ++ [← bdyNext x.2.1 x.2.2.time]
  else .ok pts

/-- The table during a run, from the state before the loop. -/
def bdyTable (e : Env K) (s0 : CoreSt K) (tr : List (CoreSt K × PassOut K × CoreSt K)) : Except PyErr (List (BdyPt K)) :=
  tr.foldlM (bdyStep e) ((s0.ts.take 1).map bdyFirst)

/-- visualise.py 789: the limits of the time axis, `OutputTs.index[[0,-1]]`. -/
def bdyAxis (pts : List (BdyPt K)) : Except PyErr (ℤ × ℤ) := do
  let a ← ixGet pts 0
  let b ← pyGet pts (-1)
  return (a.time, b.time)

end Verif.Model
