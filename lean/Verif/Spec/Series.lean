import Mathlib.Algebra.Order.Field.Basic

set_option autoImplicit false

/-! # Specification of time series interpolation -/

namespace Verif.Spec

variable {K : Type} [Field K] [LinearOrder K] [IsStrictOrderedRing K]

/-- Times strictly increase along the records. -/
def Increasing (ts : List (ℤ × K)) : Prop := ts.Pairwise (fun a b => a.1 < b.1)

/-- `v` is the recorded value at the recorded time `t`, or `t` lies strictly between two consecutive
records and `v` is on the straight line through them. -/
def LinearAt (ts : List (ℤ × K)) (t : ℤ) (v : K) : Prop :=
  (t, v) ∈ ts ∨ ∃ (i : ℕ) (t1 t2 : ℤ) (v1 v2 : K), ts[i]? = some (t1, v1) ∧ ts[i + 1]? = some (t2, v2) ∧
    t1 < t ∧ t < t2 ∧ (v - v1) * ((t2 : K) - t1) = (v2 - v1) * ((t : K) - t1)

/-- `t` is not before the first nor after the last record. -/
def Inside (ts : List (ℤ × K)) (t : ℤ) : Prop := (∃ a ∈ ts, a.1 ≤ t) ∧ ∃ b ∈ ts, t ≤ b.1

end Verif.Spec
