import Mathlib.Data.List.Basic

set_option autoImplicit false

/-! # Specification: the side of the river on which the lagoon is computed -/

namespace Verif.Spec

/-- The transects follow each other to the right. -/
def RunsRight (l : List ℕ) : Prop := ∀ (k i j : ℕ), l[k]? = some i → l[k + 1]? = some j → j = i + 1

/-- The transects follow each other to the left. -/
def RunsLeft (l : List ℕ) : Prop := ∀ (k i j : ℕ), l[k]? = some i → l[k + 1]? = some j → i = j + 1

/-- Both to the right or both to the left. -/
def SameWay (l l' : List ℕ) : Prop := (RunsRight l ∧ RunsRight l') ∨ (RunsLeft l ∧ RunsLeft l')

end Verif.Spec
