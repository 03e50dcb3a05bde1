import Mathlib.Data.Int.Order.Basic
import Mathlib.Data.List.Basic

set_option autoImplicit false

/-! # What is expected of the records and the times of a run -/

namespace Verif.Spec

/-- Times never decrease. -/
def NonDecreasing (ts : List ℤ) : Prop := ts.Pairwise (· ≤ ·)

/-- All times lie between `a` and `b`. -/
def Within (a b : ℤ) (ts : List ℤ) : Prop := ∀ t ∈ ts, a ≤ t ∧ t ≤ b

/-- Up to any time `t` at or after the start there is at most one record per whole interval elapsed, and the initial
one. -/
def AtMostPerInterval (start int : ℤ) (ts : List ℤ) : Prop :=
  ∀ t, start ≤ t → ((ts.filter (· ≤ t)).length : ℤ) ≤ 1 + (t - start) / int

/-- Every scheduled time `start + k * int` that has been reached has a record, made before the next scheduled time. -/
def NoneSkipped (start int now : ℤ) (ts : List ℤ) : Prop :=
  ∀ k : ℕ, start + k * int ≤ now → ∃ t ∈ ts, start + k * int ≤ t ∧ t < start + (k + 1) * int

/-- Windows of time, one after another: each starts where the one before it ended. -/
def Tile : List (ℤ × ℤ) → Prop
  | [] => True
  | [_] => True
  | a :: b :: rest => a.2 = b.1 ∧ Tile (b :: rest)

end Verif.Spec
