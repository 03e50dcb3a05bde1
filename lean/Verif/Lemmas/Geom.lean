import Verif.Model.Geom
import Verif.Spec.Geom

set_option autoImplicit false

set_option linter.unusedSectionVars false

namespace Verif.Model
open Verif Fl Real

theorem real2mod_eq (x y : ℝ) (o : ℝ × ℝ) (s : ℝ) :
    real2mod x y o s = ((x - o.1) * cos s - (y - o.2) * sin s,
                        (x - o.1) * sin s + (y - o.2) * cos s) := by
  unfold real2mod arctan2
  simp only
  set a := x - o.1 with ha
  set b := y - o.2 with hb
  set z : ℂ := ⟨b, a⟩ with hz
  have hn : sqrt (a^2 + b^2) = ‖z‖ := by
    rw [Complex.norm_def, Complex.normSq_mk]; congr 1; ring
  have h1 : ‖z‖ * cos z.arg = b := by rw [Complex.norm_mul_cos_arg]
  have h2 : ‖z‖ * sin z.arg = a := by rw [Complex.norm_mul_sin_arg]
  rw [hn]
  ext
  · simp only [cos_add_pi_div_two, sin_sub]
    linear_combination (cos s) * h2 - (sin s) * h1
  · simp only [sin_add_pi_div_two, cos_sub]
    linear_combination (cos s) * h1 + (sin s) * h2

theorem mod2real_eq (x y : ℝ) (o : ℝ × ℝ) (s : ℝ) :
    mod2real x y o s = (o.1 + x * cos s + y * sin s, o.2 - x * sin s + y * cos s) := by
  unfold mod2real
  simp only [sin_add_pi_div_two, cos_add_pi_div_two]
  ext
  · simp
  · simp; ring

section poly
variable {K : Type} [Field K] [LinearOrder K]

/-- The ordinate formula of geom.py 64-67 for one segment. -/
def crossY (x : K) (s : (K × K) × (K × K)) : Fl K :=
  fin s.1.2 + (fin x - fin s.1.1) * (fin s.2.2 - fin s.1.2) / (fin s.2.1 - fin s.1.1)

theorem filterMap_whereIx {α β : Type} (p : α → Bool) (f : Nat → Option β) (g : α → β) :
    ∀ (l : List α), (∀ i a, l[i]? = some a → f i = some (g a)) →
      (whereIx p l).filterMap f = (l.filter p).map g := by
  intro l
  unfold whereIx
  induction l generalizing f with
  | nil => intro _; rfl
  | cons a l ih =>
    intro h
    have h0 := h 0 a rfl
    have hs : ∀ i b, l[i]? = some b → f (i+1) = some (g b) := fun i b hb => h (i+1) b (by simpa using hb)
    have ih' := ih (fun i => f (i+1)) hs
    simp only [List.length_cons, List.range_succ_eq_map, List.filter_cons, List.getElem?_cons_zero,
      Option.any_some, List.filter_map]
    have key : List.filterMap f (List.map Nat.succ (List.filter
        ((fun i => Option.any p (a :: l)[i]?) ∘ Nat.succ) (List.range l.length)))
        = (l.filter p).map g := by
      rw [List.filterMap_map, ← ih']
      rfl
    split
    · rw [List.filterMap_cons_some h0, key]; rfl
    · exact key

theorem intersectPolyline_eq (pts : List (K × K)) (x : K) :
    intersectPolyline pts x =
      ((Spec.segments pts).filter (fun s => decide (Spec.Straddles x s))).map (crossY x) := by
  unfold intersectPolyline
  simp only
  have hz : ((pts.map (fun p => decide (p.1 < x))).dropLast.zip
      (pts.map (fun p => decide (p.1 < x))).tail)
      = (Spec.segments pts).map (fun s => (decide (s.1.1 < x), decide (s.2.1 < x))) := by
    unfold Spec.segments
    induction pts with
    | nil => rfl
    | cons a l ih =>
      cases l with
      | nil => rfl
      | cons b l => simpa using ih
  rw [hz]
  have hw : whereIx (fun a : Bool × Bool => a.1 != a.2)
      ((Spec.segments pts).map (fun s => (decide (s.1.1 < x), decide (s.2.1 < x))))
      = whereIx (fun s => decide (Spec.Straddles x s)) (Spec.segments pts) := by
    unfold whereIx
    rw [List.length_map]
    apply List.filter_congr
    intro i _
    rw [List.getElem?_map]
    cases (Spec.segments pts)[i]? with
    | none => rfl
    | some s =>
      simp only [Option.map_some, Option.any_some, Spec.Straddles]
      by_cases h1 : s.1.1 < x <;> by_cases h2 : s.2.1 < x <;> simp [h1, h2, le_of_not_gt, not_le_of_gt]
  rw [hw]
  apply filterMap_whereIx
  intro i s hs
  unfold Spec.segments at hs
  rw [List.getElem?_zip_eq_some] at hs
  obtain ⟨h1, h2⟩ := hs
  rw [List.getElem?_tail] at h2
  simp [h1, h2, crossY]

theorem crossY_on [IsStrictOrderedRing K] (x : K) (s : (K × K) × (K × K)) (h : Spec.Straddles x s) :
    ∃ y, crossY x s = fin y ∧ Spec.OnSegment s.1 s.2 x y := by
  obtain ⟨⟨px, py⟩, ⟨qx, qy⟩⟩ := s
  simp only [Spec.Straddles] at h
  have hne : qx - px ≠ 0 := by
    rcases h with ⟨h1, h2⟩ | ⟨h1, h2⟩
    · exact ne_of_gt (by linarith)
    · exact ne_of_lt (by linarith)
  refine ⟨py + (x - px) * (qy - py) / (qx - px), by simp [crossY, hne], (x - px) / (qx - px), ?_, ?_, ?_, ?_⟩
  · rcases h with ⟨h1, h2⟩ | ⟨h1, h2⟩
    · exact div_nonneg (by linarith) (by linarith)
    · exact div_nonneg_of_nonpos (by linarith) (by linarith)
  · rcases h with ⟨h1, h2⟩ | ⟨h1, h2⟩
    · rw [div_le_one (by linarith)]; linarith
    · rw [div_le_one_of_neg (by linarith)]; linarith
  · simp only; field_simp; ring
  · simp only; field_simp; ring

/-- Number of straddling Spec.segments of a polyline starting at `a`: odd exactly when the
two ends are on different sides. -/
theorem parity_aux (x : K) (a : K × K) (l : List (K × K)) :
    (((Spec.segments (a :: l)).filter (fun s => decide (Spec.Straddles x s))).length % 2 = 1) ↔
      ¬ ((a.1 < x) ↔ (((a :: l).getLast (by simp)).1 < x)) := by
  induction l generalizing a with
  | nil => simp [Spec.segments]
  | cons b l ih =>
    have hs : Spec.segments (a :: b :: l) = (a, b) :: Spec.segments (b :: l) := rfl
    rw [hs, List.filter_cons, List.getLast_cons (by simp)]
    have ihb := ih b
    by_cases h1 : a.1 < x <;> by_cases h2 : b.1 < x
    · have : ¬ Spec.Straddles x (a, b) := by simp [Spec.Straddles, h1, h2, not_le.mpr]
      simp only [this, decide_false, Bool.false_eq_true, if_false]
      rw [ihb]; simp [h1, h2]
    · have : Spec.Straddles x (a, b) := Or.inl ⟨h1, not_lt.mp h2⟩
      simp only [this, decide_true, if_true, List.length_cons]
      simp only [h2, false_iff, not_not] at ihb
      simp only [h1, true_iff]
      rw [← ihb]; omega
    · have : Spec.Straddles x (a, b) := Or.inr ⟨h2, not_lt.mp h1⟩
      simp only [this, decide_true, if_true, List.length_cons]
      simp only [h2, true_iff] at ihb
      simp only [h1, false_iff, not_not]
      rw [← not_iff_not, ← ihb]; omega
    · have : ¬ Spec.Straddles x (a, b) := by simp [Spec.Straddles, h1, h2]
      simp only [this, decide_false, Bool.false_eq_true, if_false]
      rw [ihb]; simp [h1, h2]

end poly
end Verif.Model
