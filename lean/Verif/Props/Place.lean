import Verif.Spec.Place
import Verif.Props.LoadReal

set_option autoImplicit false
set_option linter.unusedSectionVars false

/-! # C157: where the coast is on the map -/

namespace Verif.Props
open Verif Verif.Model Verif.Spec Fl

/-- The line of least squares moves with the points. -/
theorem bestLine_moved (t : ℝ × ℝ) (pts : List (ℝ × ℝ)) (f : ℝ × ℝ) (h : BestLine pts f) : BestLine (pts.map (movedBy t)) (f.1, f.2 + t.2 - f.1 * t.1) := by
  have key : ∀ g : ℝ × ℝ, misfit (pts.map (movedBy t)) g = misfit pts (g.1, g.2 - t.2 + g.1 * t.1) := by
    intro g
    unfold misfit
    rw [List.map_map]
    refine congrArg List.sum (List.map_congr_left fun p _ => ?_)
    simp only [Function.comp_apply, movedBy]
    ring
  intro g hg
  rw [key, key]
  have e : ((f.1, f.2 + t.2 - f.1 * t.1) : ℝ × ℝ).2 - t.2 + f.1 * t.1 = f.2 := by simp only; ring
  have e' : (f.1, f.2 + t.2 - f.1 * t.1 - t.2 + f.1 * t.1) = f := Prod.ext rfl (by simp only; ring)
  show misfit pts (f.1, f.2 + t.2 - f.1 * t.1 - t.2 + f.1 * t.1) < _
  rw [e']
  have key2 : (g.1, g.2 - t.2 + g.1 * t.1) ≠ f := by
    intro hh
    apply hg
    have h1 : g.1 = f.1 := (Prod.ext_iff.mp hh).1
    have h2 : g.2 - t.2 + g.1 * t.1 = f.2 := (Prod.ext_iff.mp hh).2
    refine Prod.ext h1 ?_
    show g.2 = f.2 + t.2 - f.1 * t.1
    rw [← h2, h1]
    ring
  exact h _ key2

/-- There is only one line of least squares. -/
theorem bestLine_unique {pts : List (ℝ × ℝ)} {f g : ℝ × ℝ} (h : BestLine pts f) (h' : BestLine pts g) : g = f := by
  by_contra hn
  exact lt_asymm (h g hn) (h' f (Ne.symm hn))

/-- The origin moves with the map. -/
theorem baseOrigin_moved (t p : ℝ × ℝ) {m b : ℝ} (hm : m ≠ 0) {ox oy : ℝ} (h : baseOrigin m b p = (fin ox, fin oy)) :
    baseOrigin m (b + t.2 - m * t.1) (movedBy t p) = (fin (ox + t.1), fin (oy + t.2)) := by
  obtain ⟨o1, h1, h2⟩ := baseOrigin_eq (b := b) p hm
  obtain ⟨o2, h3, h4⟩ := baseOrigin_eq (b := b + t.2 - m * t.1) (movedBy t p) hm
  rw [h1, Prod.mk.injEq, fin.injEq, fin.injEq] at h
  obtain ⟨rfl, rfl⟩ := h
  have ho : o2 = o1 + t.1 := by
    simp only [movedBy] at h4
    have : (1 + m * m) * (o2 - (o1 + t.1)) = 0 := by linear_combination h2 - h4
    rcases mul_eq_zero.mp this with h | h
    · nlinarith [mul_self_nonneg m]
    · linarith
  rw [h3, ho, Prod.mk.injEq]
  exact ⟨rfl, by congr 1; ring⟩

/-- Which side the sea is taken to be on. -/
theorem baseNormal_moved (t p : ℝ × ℝ) (m b : ℝ) (hside : 0 < m * p.1 + b ↔ 0 < m * p.1 + b + t.2) :
    baseNormal m (b + t.2 - m * t.1) (movedBy t p) = baseNormal m b p := by
  unfold baseNormal
  have e : (movedBy t p).1 * m + (b + t.2 - m * t.1) = m * p.1 + b + t.2 := by simp only [movedBy]; ring
  rw [e, mul_comm p.1 m]
  by_cases h : 0 < m * p.1 + b
  · rw [if_pos h, if_pos (hside.mp h)]
  · rw [if_neg h, if_neg (fun hh => h (hside.mpr hh))]

/-- C157, partial: moving everything on the map by the same vector moves the origin by that vector and changes nothing else, exceptions included, as long as the northing of
the baseline in line with the river keeps its sign.
Missing: movements that change that sign, for which it is false. -/
theorem C157_partial (c : RealCfg ℝ) (slope len : ℝ) (t f f' p : ℝ × ℝ) (shore cliff lagoon outlet : List (ℝ × ℝ)) (hf : BestLine shore f)
    (hf' : BestLine (shore.map (movedBy t)) f') (hside : 0 < f.1 * p.1 + f.2 ↔ 0 < f.1 * p.1 + f.2 + t.2) :
    realLoad c slope len f' (movedBy t p) (shore.map (movedBy t)) (cliff.map (movedBy t)) (lagoon.map (movedBy t)) (outlet.map (movedBy t)) =
      (realLoad c slope len f p shore cliff lagoon outlet).map (fun r => (r.1, movedBy t r.2.1, r.2.2)) := by
  have ef := bestLine_unique (bestLine_moved t shore f hf) hf'
  subst ef
  by_cases hm : f.1 = 0
  · unfold realLoad
    simp only [hm]
    rw [baseOrigin_flat, baseOrigin_flat]
    simp only [List.length_map]
    cases riverElev c.LagoonBed slope len c.Dx with
    | error e => rfl
    | ok r => by_cases hl : shore.length < 2 <;> simp only [hl, if_true, if_false] <;> rfl
  · obtain ⟨ox, h1, _⟩ := baseOrigin_eq (b := f.2) p hm
    unfold realLoad
    simp only
    rw [baseOrigin_moved t p hm h1, h1, baseNormal_moved t p f.1 f.2 hside]
    have conv : ∀ l : List (ℝ × ℝ), (l.map (movedBy t)).map (fun q => real2mod q.1 q.2 (ox + t.1, f.1 * ox + f.2 + t.2) (baseNormal f.1 f.2 p)) =
        l.map (fun q => real2mod q.1 q.2 (ox, f.1 * ox + f.2) (baseNormal f.1 f.2 p)) := by
      intro l
      rw [List.map_map]
      refine List.map_congr_left fun q _ => ?_
      simp only [Function.comp_apply, movedBy]
      unfold real2mod
      simp only [add_sub_add_right_eq_sub]
    simp only [conv]
    cases realLoadMod c slope len _ _ _ _ with
    | error e => rfl
    | ok r => rfl

/-- Two points on the line y = x, the river at (5, 10), and a movement by 100 to the east and 50 to the north. -/
example : BestLine [(0, 0), (1, 1)] (1, 0) ∧ BestLine ([(0, 0), (1, 1)].map (movedBy (100, 50))) (1, -50) ∧
    (0 < (1 : ℝ) * 5 + 0 ↔ 0 < (1 : ℝ) * 5 + 0 + 50) := by
  have h : BestLine [((0 : ℝ), (0 : ℝ)), (1, 1)] (1, 0) := by
    intro g hg
    simp only [misfit, List.map_cons, List.map_nil, List.sum_cons, List.sum_nil]
    have h1 := sq_nonneg (0 - (g.1 * 0 + g.2))
    have h2 := sq_nonneg (1 - (g.1 * 1 + g.2))
    rcases h1.lt_or_eq with h1 | h1
    · nlinarith
    · rcases h2.lt_or_eq with h2 | h2
      · nlinarith
      · have e1 := pow_eq_zero_iff (two_ne_zero) |>.mp h1.symm
        have e2 := pow_eq_zero_iff (two_ne_zero) |>.mp h2.symm
        exact absurd (Prod.ext (by linarith) (by linarith)) hg
  refine ⟨h, ?_, by norm_num⟩
  have := bestLine_moved (100, 50) _ _ h
  norm_num at this ⊢
  exact this

/-- C157 is false of the code: loadmod.py 441 compares the northing of the baseline with zero instead of with that of the river.  Whatever the coast, moving the map far enough to the
north or south reverses both axes of the model, so that its sea is on the landward side. -/
theorem C157_refuted (f p : ℝ × ℝ) (hm : f.1 ≠ 0) (shore : List (ℝ × ℝ)) (hf : BestLine shore f) : ∃ (t f' : ℝ × ℝ) (ox oy ox' oy' : ℝ), BestLine (shore.map (movedBy t)) f' ∧
    baseOrigin f.1 f.2 p = (fin ox, fin oy) ∧ baseOrigin f'.1 f'.2 (movedBy t p) = (fin ox', fin oy') ∧
    baseNormal f'.1 f'.2 (movedBy t p) ≠ baseNormal f.1 f.2 p ∧
    ∀ q, real2mod (movedBy t q).1 (movedBy t q).2 (ox', oy') (baseNormal f'.1 f'.2 (movedBy t p)) =
      (-(real2mod q.1 q.2 (ox, oy) (baseNormal f.1 f.2 p)).1, -(real2mod q.1 q.2 (ox, oy) (baseNormal f.1 f.2 p)).2) := by
  obtain ⟨ox, h1, _⟩ := baseOrigin_eq (b := f.2) p hm
  have hs : 0 < Real.sqrt (1 + f.1 ^ 2) := Real.sqrt_pos.mpr (by positivity)
  -- move the baseline in line with the river from v to -v, or to 1
  obtain ⟨d, hd⟩ : ∃ d : ℝ, ¬ (0 < f.1 * p.1 + f.2 ↔ 0 < f.1 * p.1 + f.2 + d) := by
    by_cases h : 0 < f.1 * p.1 + f.2
    · exact ⟨-(f.1 * p.1 + f.2), fun hh => by have := hh.mp h; linarith⟩
    · exact ⟨1 - (f.1 * p.1 + f.2), fun hh => h (hh.mpr (by linarith))⟩
  have e : f.1 * (movedBy (0, d) p).1 + (f.2 + d - f.1 * 0) = f.1 * p.1 + f.2 + d := by simp only [movedBy]; ring
  have key : Real.sin (baseNormal f.1 (f.2 + d - f.1 * 0) (movedBy (0, d) p)) = -Real.sin (baseNormal f.1 f.2 p) ∧
      Real.cos (baseNormal f.1 (f.2 + d - f.1 * 0) (movedBy (0, d) p)) = -Real.cos (baseNormal f.1 f.2 p) := by
    obtain ⟨a1, a2⟩ := baseNormal_trig f.1 f.2 p
    obtain ⟨b1, b2⟩ := baseNormal_trig f.1 (f.2 + d - f.1 * 0) (movedBy (0, d) p)
    rw [e] at b1 b2
    by_cases h : 0 < f.1 * p.1 + f.2
    · have h' : ¬ 0 < f.1 * p.1 + f.2 + d := fun hh => hd ⟨fun _ => hh, fun _ => h⟩
      rw [(a1 h).1, (a1 h).2, (b2 h').1, (b2 h').2]
      constructor <;> ring
    · have h' : 0 < f.1 * p.1 + f.2 + d := by
        by_contra hh
        exact hd ⟨fun x => absurd x h, fun x => absurd x hh⟩
      rw [(a2 h).1, (a2 h).2, (b1 h').1, (b1 h').2]
      constructor <;> ring
  refine ⟨(0, d), (f.1, f.2 + d - f.1 * 0), ox, f.1 * ox + f.2, ox + 0, f.1 * ox + f.2 + d, bestLine_moved (0, d) shore f hf, h1,
    baseOrigin_moved (0, d) p hm h1, fun hh => ?_, fun q => ?_⟩
  · simp only at hh
    rw [hh] at key
    have := Real.sin_sq_add_cos_sq (baseNormal f.1 f.2 p)
    have k1 : Real.sin (baseNormal f.1 f.2 p) = 0 := by linarith [key.1]
    have k2 : Real.cos (baseNormal f.1 f.2 p) = 0 := by linarith [key.2]
    rw [k1, k2] at this
    norm_num at this
  · rw [real2mod_eq, real2mod_eq, key.1, key.2]
    simp only [movedBy]
    refine Prod.ext ?_ ?_ <;> simp only <;> ring

end Verif.Props
