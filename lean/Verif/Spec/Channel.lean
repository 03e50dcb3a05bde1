import Verif.Num

set_option autoImplicit false

/-! # Specification vocabulary for the assembled channel (independent of the model) -/

namespace Verif.Spec

variable {K : Type} [Field K] [LinearOrder K]

/-- A position on the lagoon reach between the river (at 0) and the upstream end `e0` of the
outlet channel: the river position itself, and everything from it up to but excluding `e0`. -/
def OnReach (e0 x : K) : Prop := x = 0 ∨ (0 ≤ x ∧ x < e0) ∨ (e0 < x ∧ x ≤ 0)

/-- A position between the two ends of the outlet channel, in either order, ends included. -/
def InOutlet (e0 e1 x : K) : Prop := min e0 e1 ≤ x ∧ x ≤ max e0 e1

/-- `ix` are the places along the coast whose position lies between `e0` and `e1`, listed in the direction from `e0` to `e1`. -/
def FlowOrder {K : Type} [LinearOrder K] (xs : List K) (e0 e1 : K) (ix : List ℕ) : Prop :=
  (∀ i, i ∈ ix ↔ ∃ x, xs[i]? = some x ∧ min e0 e1 ≤ x ∧ x ≤ max e0 e1) ∧ ix.Pairwise (fun i j => if e0 < e1 then i < j else j < i)

end Verif.Spec
