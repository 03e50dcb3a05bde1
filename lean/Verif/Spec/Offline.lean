import Verif.Model.Channel

set_option autoImplicit false
set_option linter.unusedSectionVars false

/-! # Specification of where the lagoon outside the channel is attached

Nothing here refers to how the channel is built. -/

namespace Verif.Spec
open Verif Verif.Model

variable {K : Type} [Field K] [LinearOrder K]

/-- Transects on the other side of the river from the outlet. -/
def behindRiver (outletRight : Bool) (rows : List (Transect K)) : List (Transect K) :=
  rows.filter (fun r => if outletRight then decide (r.x < 0) else decide (0 < r.x))

/-- Transects further from the river than `x`, on the side of the outlet. -/
def beyondX (outletRight : Bool) (x : K) (rows : List (Transect K)) : List (Transect K) :=
  rows.filter (fun r => if outletRight then decide (x < r.x) else decide (r.x < x))

/-- Plan area of the lagoon at the given transects, `Dx` apart. -/
def planArea (W : Transect K → K) (Dx : K) (rows : List (Transect K)) : K := Dx * (rows.map W).sum

/-- Length of the lagoon at the given transects, `Dx` apart: only wet ones count. -/
def wetLength (W : Transect K → K) (Dx : K) (rows : List (Transect K)) : K := Dx * ((rows.countP (fun r => decide (0 < W r)) : ℕ) : K)

end Verif.Spec
