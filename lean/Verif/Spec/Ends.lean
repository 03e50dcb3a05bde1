import Verif.Num
import Verif.Model.Types

set_option autoImplicit false

/-! # The ends of the coast (for C144) -/

namespace Verif.Spec
open Verif Fl Verif.Model

variable {K : Type} [Field K] [LinearOrder K] [IsStrictOrderedRing K]

/-- At `r` there is no channel, the shoreline is at `y`, and lagoon and cliff are more than `2 * lim` behind it. -/
def WideBarrier (lim : K) (r : Transect K) (y : K) : Prop :=
  r.y0 = fin y ∧ r.y1 = nan ∧ r.y2 = nan ∧ ∃ y3 y4, r.y3 = fin y3 ∧ r.y4 = fin y4 ∧ 2 * lim < y - y3 ∧ 2 * lim < y - y4

/-- The place reached after `s` seconds from `y` by a coast that retreats by `rate` metres in a year of 365.25 days. -/
def retreated (rate y s : K) : K := y - rate * s / (36525 / 100 * 24 * 60 * 60)

end Verif.Spec
