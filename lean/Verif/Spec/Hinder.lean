import Verif.Spec.Backwater

set_option autoImplicit false

/-! # A channel that is harder to flow through (for C177) -/

namespace Verif.Spec

/-- The second channel is nowhere shorter, lower or wider than the first. -/
structure Harder (dx z B dx' z' B' : List ℝ) : Prop where
  length : ∀ (i : ℕ) x x', dx[i]? = some x → dx'[i]? = some x' → x ≤ x'
  bed : ∀ (i : ℕ) a a', z[i]? = some a → z'[i]? = some a' → a ≤ a'
  width : ∀ (i : ℕ) b b', B[i]? = some b → B'[i]? = some b' → b' ≤ b

end Verif.Spec
