import Verif.Spec.Budget
import Verif.Model.MorRepair

set_option autoImplicit false

/-! # What the waves carry over a barrier (for C151) -/

namespace Verif.Spec
open Verif Fl Verif.Model

variable {K : Type} [Field K] [LinearOrder K] [IsStrictOrderedRing K]

/-- The end of an open outlet is not between transect `i` at `r` and the next one. -/
def NotAtEnd (a : MorIn K) (i : ℕ) (r : Transect K) : Prop :=
  a.Closed = false → ∀ e, a.EndX1 = fin e → ∀ q, a.rows[i + 1]? = some q → ¬ (r.x ≤ e ∧ e < q.x)

/-- A transect without a channel: sea at `y`, lagoon at `y3`, crest at `z0`, lagoon bed at `z3`, the cliff and the lagoon more than
`2 * lim` behind the sea. -/
def PlainBarrier (lim : K) (r : Transect K) (y y3 z0 z3 : K) : Prop :=
  r.y0 = fin y ∧ r.y1 = nan ∧ r.y2 = nan ∧ r.y3 = fin y3 ∧ r.z0 = fin z0 ∧ r.z3 = fin z3 ∧ 2 * lim < y - y3 ∧
    ∃ y4, r.y4 = fin y4 ∧ 2 * lim < y - y4

/-- Where waves carry `s` per second over a barrier from the sea at `y0` to the lagoon at `y3`, from the crest at `z0` down to
the lagoon bed at `z3`, the part `w` of it to the back and the rest onto the crest: how fast the crest rises. -/
def crestRise (s w y0 y3 : K) : K := (1 - w) * s / (y0 - y3)

/-- And how fast its back moves landward. -/
def backShift (s w z0 z3 : K) : K := w * s / (z0 - z3)

/-- The volume, per metre of coast, by which a barrier with crest at `z0` and back at `y3` outgrows one with crest at `z` and back
at `y`, counted over the width `b` and the height `h` of the latter. -/
def barrierGain (b h z y z0 y3 : K) : K := (z0 - z) * b + (y - y3) * h

/-- The barrier was breached at `x`. -/
def BreachedAt (o : MorOut K) (x : K) : Prop := o.Breach = true ∧ o.EndX0 = fin x ∧ o.EndX1 = fin x

end Verif.Spec
