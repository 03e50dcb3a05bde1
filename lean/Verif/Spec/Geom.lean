import Mathlib.Analysis.Real.Sqrt
import Mathlib.Algebra.Order.Field.Basic

set_option autoImplicit false

/-! # Specification vocabulary for geometry (independent of the model) -/

namespace Verif.Spec

/-- Euclidean distance between two points of the plane. -/
noncomputable def dist2 (p q : ℝ × ℝ) : ℝ := Real.sqrt ((p.1 - q.1)^2 + (p.2 - q.2)^2)

/-- Twice the signed area of the triangle `o p q` (positive for a left turn). -/
def orient (o p q : ℝ × ℝ) : ℝ := (p.1 - o.1) * (q.2 - o.2) - (p.2 - o.2) * (q.1 - o.1)

section
variable {K : Type} [Field K] [LinearOrder K]

/-- The consecutive pairs of points of a polyline. -/
def segments {α : Type} (pts : List α) : List (α × α) := pts.zip pts.tail

/-- One end of the segment is strictly left of `x` and the other is not. -/
def Straddles (x : K) (s : (K × K) × (K × K)) : Prop := (s.1.1 < x ∧ x ≤ s.2.1) ∨ (s.2.1 < x ∧ x ≤ s.1.1)

instance (x : K) (s : (K × K) × (K × K)) : Decidable (Straddles x s) := by
  unfold Straddles; infer_instance

/-- The point `(x, y)` lies on the segment from `p` to `q`. -/
def OnSegment (p q : K × K) (x y : K) : Prop :=
  ∃ t : K, 0 ≤ t ∧ t ≤ 1 ∧ x = (1 - t) * p.1 + t * q.1 ∧ y = (1 - t) * p.2 + t * q.2

end
end Verif.Spec
