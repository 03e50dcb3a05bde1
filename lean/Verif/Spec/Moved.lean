import Verif.Model.Core

set_option autoImplicit false

/-! # Specification: the same coast with another origin of the Y axis -/

namespace Verif.Spec
open Verif Fl Model

variable {K : Type} [Field K] [LinearOrder K]

/-- A Y coordinate when the axis starts `d` further landward. -/
def sh (d : K) (y : Fl K) : Fl K := y + fin d

/-- A transect with all Y coordinates increased by `d`; levels are the same. -/
def moveT (d : K) (t : Transect K) : Transect K :=
  { t with y0 := sh d t.y0, y1 := sh d t.y1, y2 := sh d t.y2, y3 := sh d t.y3, y4 := sh d t.y4 }

/-- A coast with all Y coordinates increased by `d`. -/
def moveRows (d : K) (l : List (Transect K)) : List (Transect K) := l.map (moveT d)

/-- The initial condition with all Y coordinates increased by `d`. -/
def moveLoad (d : K) (l : LoadOut K) : LoadOut K := { l with rows := moveRows d l.rows }

/-- An output record with all Y coordinates increased by `d`. -/
def moveSnap (d : K) (s : Snapshot K) : Snapshot K := { s with rows := moveRows d s.rows }

/-- The state of the simulation, and its records, with all Y coordinates increased by `d`. -/
def moveSt (d : K) (s : CoreSt K) : CoreSt K := { s with rows := moveRows d s.rows, outs := s.outs.map (moveSnap d) }

/-- The result of a morphological update with all Y coordinates increased by `d`. -/
def moveMor (d : K) (m : MorOut K) : MorOut K := { m with rows := moveRows d m.rows }

/-- What is computed in a pass, with all Y coordinates increased by `d`. -/
def movePass (d : K) (p : PassOut K) : PassOut K := { p with mor := moveMor d p.mor }

/-- The functions of waves and coast do not depend on the origin of the Y axis. -/
structure NoOrigin (p : Parts K) : Prop where
  lst : ∀ d y w, p.lst (y.map (sh d)) w = p.lst y w
  overtop : ∀ d r s rows, p.overtop r s (moveRows d rows) = p.overtop r s rows

/-- A series with all times later by `τ`. -/
def laterS {α : Type} (τ : ℤ) (l : List (ℤ × α)) : List (ℤ × α) := l.map (fun r => (r.1 + τ, r.2))

/-- The same setup with start, end and all forcing later by `τ`. -/
def laterEnv (τ : ℤ) (e : Env K) : Env K :=
  { e with tp := { e.tp with StartTime := e.tp.StartTime + τ, EndTime := e.tp.EndTime + τ }
           flow := laterS τ e.flow, sea := laterS τ e.sea, waves := laterS τ e.waves }

/-- The state of the simulation later by `τ`: only clocks and the times of the records are different. -/
def laterSt (τ : ℤ) (s : CoreSt K) : CoreSt K :=
  { s with time := s.time + τ, outTime := s.outTime + τ, tsTime := s.tsTime + τ, plotTime := s.plotTime + τ
           outs := s.outs.map (fun r => { r with time := r.time + τ }), ts := s.ts.map (fun r => { r with time := r.time + τ }) }

/-- What is computed in a pass, later by `τ`: only the times of the hydraulic steps are different. -/
def laterPass (τ : ℤ) (p : PassOut K) : PassOut K := { p with window := p.window.map (· + τ) }

end Verif.Spec
