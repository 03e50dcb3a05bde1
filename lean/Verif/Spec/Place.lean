import Mathlib.Data.Real.Basic
import Mathlib.Algebra.BigOperators.Group.List.Basic
import Mathlib.Algebra.Order.Field.Basic
import Mathlib.Logic.Relation

set_option autoImplicit false

/-! # Moving the map and drawing its lines (for C157, C158, C159) -/

namespace Verif.Spec

/-- A point moved by `t`. -/
def movedBy (t p : ℝ × ℝ) : ℝ × ℝ := (p.1 + t.1, p.2 + t.2)

/-- Sum of the squared distances, measured along the second axis, of the points from the line of slope `f.1` and intercept `f.2`. -/
def misfit (pts : List (ℝ × ℝ)) (f : ℝ × ℝ) : ℝ := (pts.map (fun p => (p.2 - (f.1 * p.1 + f.2)) ^ 2)).sum

/-- The line of least squares: every other line fits worse. -/
def BestLine (pts : List (ℝ × ℝ)) (f : ℝ × ℝ) : Prop := ∀ g, g ≠ f → misfit pts f < misfit pts g

/-- One line is another or the other drawn the other way. -/
def SameLine {α : Type} (l l' : List α) : Prop := l' = l ∨ l' = l.reverse

section
variable {K : Type} [Field K] [LinearOrder K]

/-- Both ends of a line are equally far out. -/
def LevelEnds (pts : List (K × K)) : Prop := ∃ a b, pts.head? = some a ∧ pts.getLast? = some b ∧ a.2 = b.2

/-- A line and the same line with another point on one of its segments. -/
inductive PointAdded : List (K × K) → List (K × K) → Prop
  | here (p q : K × K) (r : List (K × K)) (t : K) (h0 : 0 ≤ t) (h1 : t ≤ 1) :
      PointAdded (p :: q :: r) (p :: ((1 - t) * p.1 + t * q.1, (1 - t) * p.2 + t * q.2) :: q :: r)
  | later (p : K × K) {l l' : List (K × K)} (h : PointAdded l l') : PointAdded (p :: l) (p :: l')

/-- A line and the same line with any number of points added on it. -/
def PointsAdded (l l' : List (K × K)) : Prop := Relation.ReflTransGen PointAdded l l'

end

end Verif.Spec
