import Mathlib.Algebra.Order.Field.Basic

set_option autoImplicit false

/-! # Specification: records that add nothing -/

namespace Verif.Spec

variable {K : Type} [Field K] [LinearOrder K] [IsStrictOrderedRing K]

/-- `c` lies between the records `a` and `b`, with every column on the straight line from `a` to `b`. -/
def Straight {ι α : Type} (col : ι → α → K) (a c b : ℤ × α) : Prop :=
  a.1 < c.1 ∧ c.1 < b.1 ∧ ∀ i, (col i c.2 - col i a.2) * ((b.1 : K) - a.1) = (col i b.2 - col i a.2) * ((c.1 : K) - a.1)

/-- The second series is the first one with any number of records added, each on the straight line between its neighbours. -/
inductive Refined {ι α : Type} (col : ι → α → K) (ts : List (ℤ × α)) : List (ℤ × α) → Prop where
  | same : Refined col ts ts
  | add {l1 l2 : List (ℤ × α)} {a c b : ℤ × α} : Refined col ts (l1 ++ a :: b :: l2) → Straight col a c b →
      Refined col ts (l1 ++ a :: c :: b :: l2)

end Verif.Spec
