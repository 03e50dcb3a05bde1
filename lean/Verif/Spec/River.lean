import Verif.Num

set_option autoImplicit false

/-! # The sediment budget of the river bed (for C147) -/

namespace Verif.Spec
open Verif Fl

variable {K : Type} [Field K] [LinearOrder K] [IsStrictOrderedRing K]

/-- `x`, but not more than `lim` up or down. -/
def capped (lim x : K) : K := max (-lim) (min x lim)

/-- The number `v` (0 if it is none). -/
def numOf (v : Fl K) : K := match v with | fin x => x | _ => 0

/-- Sediment in the bed of the river below its first section, for sections `W` wide and `Dx` apart. -/
def bedVolume (W Dx : K) (z : List (Fl K)) : K := W * Dx * (z.tail.map numOf).sum

end Verif.Spec
