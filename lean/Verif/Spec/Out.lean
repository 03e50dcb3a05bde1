import Verif.Model.Out

set_option autoImplicit false

/-! # What is expected to come back from an output file

These use the record types of the model (`Snapshot`: what was handed to the writer; `ReadOut`: what the reader returns;
`LoadOut`: the initial state of a hot start) but none of its functions. -/

namespace Verif.Spec
open Verif Verif.Model Fl

variable {K : Type} [Field K] [LinearOrder K] [IsStrictOrderedRing K]

/-- A transect whose numbers have been rounded. -/
def roundRow (num : K → K) (val : Fl K → Fl K) (t : Transect K) : Transect K :=
  { x := num t.x, y0 := val t.y0, y1 := val t.y1, y2 := val t.y2, y3 := val t.y3, y4 := val t.y4,
    z0 := val t.z0, z1 := val t.z1, z2 := val t.z2, z3 := val t.z3 }

/-- Rounding of a float: applied to numbers only. -/
def roundFl (num : K → K) : Fl K → Fl K
  | fin x => fin (num x)
  | a => a

/-- The record read is the one written, up to rounding of numbers (`num`) and times (`tm`), except for the wave direction. -/
structure ReadBack (num : K → K) (tm : ℤ → ℤ) (s : Snapshot K) (r : ReadOut K) : Prop where
  time : r.time = tm s.time
  sea : r.SeaLevel = roundFl num s.SeaLevel
  flow : r.RivFlow = roundFl num s.RivFlow
  hs : r.Hs_offshore = roundFl num s.Hs_offshore
  rows : r.rows = s.rows.map (roundRow num (roundFl num))
  lagWL : r.LagoonWL = s.LagoonWL.map (roundFl num)
  lagVel : r.LagoonVel = s.LagoonVel.map (roundFl num)
  outWL : r.OutletWL = List.zipWith (fun d (t : Transect K) => roundFl num (d + t.z1)) s.OutletDep s.rows
  outVel : r.OutletVel = s.OutletVel.map (roundFl num)
  endX0 : r.EndX0 = roundFl num s.EndX0
  endX1 : r.EndX1 = roundFl num s.EndX1
  endW : r.EndWidth = roundFl num s.EndWidth
  endZ : r.EndElev = roundFl num s.EndElev
  endVel : s.EndVel[0]?.map (roundFl num) = some r.EndVel
  endWL : s.EndDep[0]?.map (fun d => roundFl num (s.EndElev + d)) = some r.EndWL
  dumDep : s.EndDep[1]?.map (roundFl num) = some r.DummyDep
  dumVel : s.EndVel[1]?.map (roundFl num) = some r.DummyVel
  lst : r.LST = s.LST.map (fun q => roundFl num (q * fin 3600) / fin 3600)
  cst : r.CST = s.CST.map (fun q => roundFl num (q * fin 3600) / fin 3600)
  closed : r.Closed = s.Closed
  rivZ : r.RiverElev = s.RiverElev.map (roundFl num)
  rivWL : r.RiverWL = List.zipWith (fun z d => roundFl num (z + d)) s.RiverElev s.RiverDep
  rivVel : r.RiverVel = s.RiverVel.map (roundFl num)

/-- A level can be recovered from a depth and a bed level: both are numbers, or both are missing. -/
def Recoverable (z d : Fl K) : Prop := (∃ a b, z = fin a ∧ d = fin b) ∨ (z = nan ∧ d = nan)

/-- The initial state is the one that was saved. -/
structure Restored (s : Snapshot K) (ld : LoadOut K) : Prop where
  rows : ld.rows = s.rows
  rivZ : ld.RiverElev = s.RiverElev
  endX0 : ld.EndX0 = s.EndX0
  endX1 : ld.EndX1 = s.EndX1
  endW : ld.EndWidth = s.EndWidth
  endZ : ld.EndElev = s.EndElev
  rivVel : ld.RiverVel = s.RiverVel
  rivDep : List.zipWith (· - ·) ld.RiverWL ld.RiverElev = s.RiverDep
  lagWL : ld.LagoonWL = s.LagoonWL
  lagVel : ld.LagoonVel = s.LagoonVel
  outDep : ld.OutletDep = s.OutletDep
  outVel : ld.OutletVel = s.OutletVel
  endDep : ld.EndDep = s.EndDep
  endVel : ld.EndVel = s.EndVel
  closed : ld.Closed = s.Closed

end Verif.Spec
