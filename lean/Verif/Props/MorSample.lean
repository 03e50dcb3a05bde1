import Verif.Model.MorRepair
import Verif.Props.Channel

set_option autoImplicit false

/-! # Concrete states for the morphology properties -/

namespace Verif.Props
open Verif Verif.Model Fl

/-- Parameters with a closure depth of 10 m. -/
def moPP : PhysPars ℚ := { chPP with ClosureDepth := 10 }

/-- The seven transects of `chIn` with an open outlet, one unit of bedload entering and half a unit
leaving, longshore transport to the right, no cross-shore transport. -/
def moIn : MorIn ℚ :=
  { rows := chIn.rows, EndX0 := fin 15, EndX1 := fin 24, EndWidth := fin 6, EndElev := fin (-1), RiverElev := [fin 1, fin 0],
    online := [3, 4], outlet := [5], LagoonWL := List.replicate 7 (fin 1), OutletDep := List.replicate 7 (fin 1),
    ChanWidth := [fin 70, fin 70, fin 20, fin 20, fin 5, fin 6, fin 6], ChanDep := List.replicate 7 (fin 1),
    ChanFlag := [0, 0, 1, 1, 2, 3, 4], Closed := false, LST := List.replicate 6 (fin (1/100)),
    Bedload := [fin (1/100), fin (1/100), fin (1/200), fin (1/100), fin (1/100), fin (1/200)], CST := List.replicate 7 (fin 0),
    OverwashProp := List.replicate 7 (fin 0), MorDt := 60000000000, MorDtMin := 30000000000, MorDtMax := 240000000000,
    Dx := 10, MaxMorChange := 1/4 }

/-- The same with a closed outlet (no channel through the barrier in use). -/
def moClosed : MorIn ℚ :=
  { moIn with
    Closed := true, EndX0 := nan, online := [3, 4, 5, 6], outlet := [],
    ChanWidth := [fin 70, fin 70, fin 20, fin 20, fin 20, fin 20], ChanDep := List.replicate 6 (fin 1),
    ChanFlag := [0, 0, 1, 1, 1, 1], Bedload := [fin (1/100), fin (1/100), fin (1/200), fin (1/100), fin 0] }

/-- Memory in which `np.greater(..., where=...)` happens to leave True. -/
def cleanMem : ℕ → Bool := fun _ => true

example : okAnd (updateMorphology moPP cleanMem cleanMem moIn) (fun o => !o.Breach) = true := by decide +kernel
example : okAnd (updateMorphology moPP cleanMem cleanMem moClosed) (fun o => !o.Breach) = true := by decide +kernel

/-- Nine transects, of which the one at 20 m has an outlet channel. -/
def brRow (x : ℚ) : Transect ℚ :=
  if x = 20 then ⟨x, fin 100, fin 60, fin 55, fin 20, fin 0, fin 4, fin 0, fin 3, fin (-1)⟩
  else ⟨x, fin 100, nan, nan, fin 20, fin 0, fin 4, nan, nan, fin (-1)⟩

/-- A step with an open outlet away from the edges of the domain. -/
def brIn : MorIn ℚ :=
  { moIn with
    rows := [-40, -30, -20, -10, 0, 10, 20, 30, 40].map brRow
    online := [4, 5], outlet := [6], LagoonWL := List.replicate 9 (fin 1), OutletDep := List.replicate 9 (fin 1),
    LST := List.replicate 8 (fin (1/100)), CST := List.replicate 9 (fin 0), OverwashProp := List.replicate 9 (fin 0) }

/-- Very high water at -20 m, which is farther from the river than the outlet at 15 m. -/
def brFar : MorIn ℚ := { brIn with LagoonWL := brIn.LagoonWL.set 2 (fin 100) }

/-- The same, with the lagoon closed between there and the river. -/
def brApart : MorIn ℚ := { brFar with rows := brIn.rows.set 3 { brRow (-10) with y3 := fin 1 } }

/-- An outlet channel with an inner barrier higher than the outer one. -/
def brInner : MorIn ℚ := { brIn with rows := brIn.rows.set 6 { brRow 20 with z2 := fin 5 } }

/-- Very high water in the outlet channel. -/
def brChan : MorIn ℚ := { brIn with OutletDep := brIn.OutletDep.set 6 (fin 100) }

end Verif.Props
