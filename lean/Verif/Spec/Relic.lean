import Verif.Num
import Verif.Model.Types

set_option autoImplicit false

/-! # Channels that are in no danger during a step (for C149) -/

namespace Verif.Spec
open Verif Fl Verif.Model

variable {K : Type} [Field K] [LinearOrder K] [IsStrictOrderedRing K]

/-- Seen from the sea: barrier (from `y0` to `y1`), channel (to `y2`), inner barrier (to `y3`); all three are wider than `2 * M`, and so
is the distance from the shoreline to the cliff (`y4`). -/
def WideChannel (M : K) (r : Transect K) (y1 y2 : K) : Prop :=
  ∃ y0 y3 y4, r.y0 = fin y0 ∧ r.y1 = fin y1 ∧ r.y2 = fin y2 ∧ r.y3 = fin y3 ∧ r.y4 = fin y4 ∧
    2 * M < y0 - y1 ∧ 2 * M < y1 - y2 ∧ 2 * M < y2 - y3 ∧ 2 * M < y0 - y4

end Verif.Spec
