import Mathlib.Algebra.Order.Field.Basic
import Verif.Spec.Geom

set_option autoImplicit false

/-! # Specification of the initial state -/

namespace Verif.Spec

variable {K : Type} [Field K] [LinearOrder K] [IsStrictOrderedRing K]

/-- Each entry is `d` less than the one before it. -/
def FallsBy (d : K) (l : List K) : Prop := ∀ (i : ℕ) (a b : K), l[i]? = some a → l[i + 1]? = some b → a - b = d

/-- `n` is the smallest number of steps `d` covering the length `len`. -/
def StepsToCover (n : ℕ) (d len : K) : Prop := len ≤ (n : K) * d ∧ ∀ k : ℕ, len ≤ (k : K) * d → n ≤ k

/-- The point `(x, y)` lies on the polyline. -/
def OnPolyline (pts : List (K × K)) (x y : K) : Prop := ∃ s ∈ segments pts, OnSegment s.1 s.2 x y

/-- `y` is the largest ordinate at which the polyline crosses the line through `x`. -/
def HighestCrossing (pts : List (K × K)) (x y : K) : Prop :=
  (∃ s ∈ segments pts, Straddles x s ∧ OnSegment s.1 s.2 x y) ∧
  ∀ s ∈ segments pts, Straddles x s → ∀ y', OnSegment s.1 s.2 x y' → y' ≤ y

end Verif.Spec
