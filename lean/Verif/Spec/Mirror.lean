import Verif.Model.Core

set_option autoImplicit false

/-! # Specification: the coast seen in a mirror (left and right exchanged) -/

namespace Verif.Spec
open Verif Fl Model

variable {K : Type} [Field K] [LinearOrder K]

/-- The transect on the other side of the river. -/
def flipT (t : Transect K) : Transect K := { t with x := -t.x }

/-- The coast with left and right exchanged, again from left to right. -/
def flipRows (l : List (Transect K)) : List (Transect K) := (l.map flipT).reverse

/-- Number of a transect counted from the other end of `n`. -/
def flipIx (n : ℕ) (i : ℕ) : ℕ := n - 1 - i

/-- Stored hydraulics with left and right exchanged. -/
def flipHyd (h : HydStore K) : HydStore K :=
  { h with LagoonWL := h.LagoonWL.reverse, LagoonVel := h.LagoonVel.reverse, OutletDep := h.OutletDep.reverse, OutletVel := h.OutletVel.reverse }

/-- Arguments of `assembleChannel` with left and right exchanged. -/
def flipIn (a : ChanIn K) : ChanIn K :=
  { a with rows := flipRows a.rows, EndX0 := -a.EndX0, EndX1 := -a.EndX1, LagoonWL := a.LagoonWL.reverse, LagoonVel := a.LagoonVel.reverse,
           OutletDep := a.OutletDep.reverse, OutletVel := a.OutletVel.reverse }

/-- The same channel along a coast of `n` transects with left and right exchanged. -/
def flipChan (n : ℕ) (c : ChanOut K) : ChanOut K := { c with online := c.online.map (flipIx n), outlet := c.outlet.map (flipIx n) }

/-- Waves from the other side. -/
def flipWave (w : Wave K) : Wave K := { w with EDir_h := -w.EDir_h }

/-- The state of the simulation with left and right exchanged (without the records). -/
def flipSt (s : CoreSt K) : CoreSt K :=
  { s with rows := flipRows s.rows, EndX0 := -s.EndX0, EndX1 := -s.EndX1, hyd := flipHyd s.hyd }

/-- The functions of river, waves and coast treat left and right alike. -/
structure Impartial (p : Parts K) : Prop where
  unsteady : ∀ n c l, p.unsteady (flipChan n c) l = p.unsteady c l
  steady : ∀ n c q w, p.steady (flipChan n c) q w = p.steady c q w
  lst : ∀ y w, p.lst y.reverse (flipWave w) = ((p.lst y w).map (fun q => -q)).reverse
  runup : ∀ w, p.runup (flipWave w) = p.runup w
  overtop : ∀ r s rows, p.overtop r s (flipRows rows) = (p.overtop r s rows).map fun o => (o.1.reverse, o.2.reverse)

/-- The surroundings with waves from the other side. -/
def flipEnv (e : Env K) : Env K := { e with waves := e.waves.map fun r => (r.1, flipWave r.2) }

/-- The arrays have an entry for each transect. -/
structure SizedIn (a : ChanIn K) : Prop where
  wl : a.LagoonWL.length = a.rows.length
  lv : a.LagoonVel.length = a.rows.length
  od : a.OutletDep.length = a.rows.length
  ov : a.OutletVel.length = a.rows.length

/-- The outlet channel leaves the lagoon away from the river.  If the lagoon is open, the two ends of the channel are at different places, the
seaward one between transects. -/
structure Aside (Closed : Bool) (Dx : K) (e0 e1 : Fl K) : Prop where
  river : ∃ x, e0 = fin x ∧ x ≠ 0
  ends : Closed = false → ∃ x, e1 = fin x ∧ e0 ≠ e1 ∧ ∀ k : ℤ, x ≠ k * Dx

end Verif.Spec
