import Verif.Num
import Verif.Model.MorRates

set_option autoImplicit false

/-! # The sediment budget of a beach (for C146) -/

namespace Verif.Spec
open Verif Fl Verif.Model

variable {K : Type} [Field K] [LinearOrder K] [IsStrictOrderedRing K]

/-- The part of the river's bedload `b` that the delta spreads to a transect at distance `d` from the end of the outlet,
for transects `Dx` apart: a triangle of area one reaching `S` to both sides. -/
def deltaShare (b Dx S d : K) : K := b * (Dx / S * max (1 - |d| / S) 0)

/-- What a beach between its neighbours at `p` and `q` gains per second, with the end of an open outlet at `e`: its share
`d` of the delta, transport `lp` from the left less transport `lq` to the right less what the waves carry over the barrier.
What longshore transport brings towards the end of the outlet is lost to the outlet. -/
def beachGain (d p r q e lp lq over : K) : K :=
  d + (if p ≤ e ∧ e < r ∧ 0 < lp then 0 else lp) - (if r ≤ e ∧ e < q ∧ lq < 0 then 0 else lq) - over

/-- The outlet, if open, ends well inside the domain, and transect `r` lies beyond all of the outlet to one side, where
the end of the outlet cannot get to in a step. -/
def BeyondOutlet (a : MorIn K) (r : Transect K) : Prop :=
  a.Closed = false → ∃ e p q, a.EndX1 = fin e ∧ a.rows[1]? = some p ∧ a.rows[a.rows.length - 2]? = some q ∧
    p.x + a.MaxMorChange ≤ e ∧ e + a.MaxMorChange ≤ q.x ∧
    ((e + a.MaxMorChange < r.x ∧ ∀ j ∈ a.outlet, ∀ d ∈ a.rows[j]?, d.x ≤ r.x) ∨
     (r.x + a.MaxMorChange < e ∧ ∀ j ∈ a.outlet, ∀ d ∈ a.rows[j]?, r.x ≤ d.x))

end Verif.Spec
