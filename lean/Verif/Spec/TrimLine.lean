import Mathlib.Algebra.Order.Field.Basic

set_option autoImplicit false

/-! # What is expected of trimming a line -/

namespace Verif.Spec

variable {K : Type} [Field K] [LinearOrder K]

/-- `r` lies on the straight line through the distinct points `p` and `q`. -/
def OnLine (p q r : K × K) : Prop := p ≠ q ∧ (r.1 - p.1) * (q.2 - p.2) = (r.2 - p.2) * (q.1 - p.1)

/-- `r` lies on the polyline with the points `l`, of increasing first coordinates. -/
def OnGraph (l : List (K × K)) (r : K × K) : Prop :=
  ∃ (k : ℕ) (s t : K × K), l[k]? = some s ∧ l[k+1]? = some t ∧ s.1 ≤ r.1 ∧ r.1 ≤ t.1 ∧ (r.1 - s.1) * (t.2 - s.2) = (r.2 - s.2) * (t.1 - s.1)

/-- On which side of the line from `p` to `q` a point lies. -/
def side (p q s : K × K) : K := (s.1 - p.1) * (q.2 - p.2) - (s.2 - p.2) * (q.1 - p.1)

end Verif.Spec
