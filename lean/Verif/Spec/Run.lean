import Verif.Model.Core

set_option autoImplicit false

/-! # What is expected of whole runs

These use the types of the model (`CoreSt`, `Snapshot`, `LoadOut`) but none of its functions. -/

namespace Verif.Spec
open Verif Verif.Model

variable {K : Type}

/-- Every array of a record has the size of the dimension it is written along: `n` transects at `xs`, `nr` river
sections, one longshore rate per pair of neighbouring transects, and two end sections. -/
structure RecordFits (xs : List K) (nr : ℕ) (r : Snapshot K) : Prop where
  x : r.rows.map (·.x) = xs
  lagoon : r.LagoonWL.length = xs.length ∧ r.LagoonVel.length = xs.length ∧ r.LagoonBedload.length = xs.length
  outlet : r.OutletDep.length = xs.length ∧ r.OutletVel.length = xs.length ∧ r.OutletBedload.length = xs.length
  coast : r.CST.length = xs.length ∧ r.OverwashProp.length = xs.length ∧ r.LST.length + 1 = max xs.length 1
  river : r.RiverElev.length = nr ∧ r.RiverDep.length = nr ∧ r.RiverVel.length = nr ∧ r.RiverBedload.length = nr
  ends : r.EndDep.length = 2 ∧ r.EndVel.length = 2

/-- The state of the coast, river and clock: everything but the records and the times at which records are due. -/
structure SamePhysics (s s' : CoreSt K) : Prop where
  time : s'.time = s.time
  dt : s'.dt = s.dt
  passes : s'.passes = s.passes
  rows : s'.rows = s.rows
  endX0 : s'.EndX0 = s.EndX0
  endX1 : s'.EndX1 = s.EndX1
  endWidth : s'.EndWidth = s.EndWidth
  endElev : s'.EndElev = s.EndElev
  riverElev : s'.RiverElev = s.RiverElev
  rivDep : s'.RivDep = s.RivDep
  rivVel : s'.RivVel = s.RivVel
  hyd : s'.hyd = s.hyd
  closed : s'.Closed = s.Closed

/-- The same, however many passes led to it. -/
def SameCoast (s s' : CoreSt K) : Prop := SamePhysics s { s' with passes := s.passes }

/-- A record that holds the state. -/
structure RecordOf (s : CoreSt K) (r : Snapshot K) : Prop where
  time : r.time = s.time
  rows : r.rows = s.rows
  endX0 : r.EndX0 = s.EndX0
  endX1 : r.EndX1 = s.EndX1
  endWidth : r.EndWidth = s.EndWidth
  endElev : r.EndElev = s.EndElev
  riverElev : r.RiverElev = s.RiverElev
  rivDep : r.RiverDep = s.RivDep
  rivVel : r.RiverVel = s.RivVel
  lagWL : r.LagoonWL = s.hyd.LagoonWL
  lagVel : r.LagoonVel = s.hyd.LagoonVel
  outDep : r.OutletDep = s.hyd.OutletDep
  outVel : r.OutletVel = s.hyd.OutletVel
  endDep : r.EndDep = s.hyd.EndDep
  endVel : r.EndVel = s.hyd.EndVel
  closed : r.Closed = s.Closed

/-- Two series in order of time that have the same records up to and including the first one at or after `T`. -/
def SameUntil {α : Type} (T : ℤ) (f f' : List (ℤ × α)) : Prop :=
  f.Pairwise (fun a b => a.1 < b.1) ∧ f'.Pairwise (fun a b => a.1 < b.1) ∧
  ∃ c r r', f = c ++ r ∧ f' = c ++ r' ∧ ∃ x ∈ c, T ≤ x.1

end Verif.Spec
