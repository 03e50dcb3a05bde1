import Mathlib.Data.List.Basic

set_option autoImplicit false

/-! # Specification: series with missing values -/

namespace Verif.Spec

variable {K : Type}

/-- The records that have a value. -/
def knownRecords (ts : List (Int × Option K)) : List (Int × K) := ts.filterMap fun r => r.2.map fun v => (r.1, v)

/-- The last record at or before `t` has a value. -/
def KnownBefore (ts : List (Int × Option K)) (t : Int) : Prop := ∃ a ∈ ts, a.1 ≤ t ∧ a.2.isSome ∧ ∀ c ∈ ts, c.1 ≤ t → c.1 ≤ a.1

/-- The first record at or after `t` has a value. -/
def KnownAfter (ts : List (Int × Option K)) (t : Int) : Prop := ∃ b ∈ ts, t ≤ b.1 ∧ b.2.isSome ∧ ∀ c ∈ ts, t ≤ c.1 → b.1 ≤ c.1

end Verif.Spec
