import Verif.Spec.Spit
import Verif.Spec.Budget

set_option autoImplicit false

/-! # The sediment of an open coast (for C156) -/

namespace Verif.Spec
open Verif Fl Verif.Model

variable {K : Type} [Field K] [LinearOrder K] [IsStrictOrderedRing K]

/-- Volume gained by the end of the outlet, between a beach `sw` wide with its top at `bt`, when its width and bed level change from `w` and `z` to `w'` and `z'`: the bed, `Dx`
long, and the bank. -/
def endGain (Dx bt sw w z w' z' : K) : K := (z' - z) * w * Dx - (w' - w) * (bt - z) * sw

/-- Transport at the end of an open outlet is not to the left. -/
def RightwardAtEnd (a : MorIn K) (ls : ℕ → K) : Prop :=
  ∀ i r q e, a.rows[i]? = some r → a.rows[i + 1]? = some q → a.EndX1 = fin e → r.x ≤ e → e < q.x → 0 ≤ ls i

end Verif.Spec
