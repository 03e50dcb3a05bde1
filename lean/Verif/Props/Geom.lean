import Verif.Lemmas.Geom

set_option autoImplicit false

set_option linter.unusedSectionVars false

/-! # Properties C01-C04: coordinate conversion and polyline intersection -/

namespace Verif.Props
open Verif Verif.Model Verif.Spec Fl

/-- C01: converting real-world to model coordinates and back gives the point back. -/
theorem C01_real_mod_real (x y : ℝ) (o : ℝ × ℝ) (s : ℝ) :
    mod2real (real2mod x y o s).1 (real2mod x y o s).2 o s = (x, y) := by
  rw [real2mod_eq, mod2real_eq]
  have h := Real.sin_sq_add_cos_sq s
  ext
  · simp only; linear_combination (x - o.1) * h
  · simp only; linear_combination (y - o.2) * h

/-- C01: converting model coordinates to real-world and back gives the point back. -/
theorem C01_mod_real_mod (x y : ℝ) (o : ℝ × ℝ) (s : ℝ) :
    real2mod (mod2real x y o s).1 (mod2real x y o s).2 o s = (x, y) := by
  rw [mod2real_eq, real2mod_eq]
  have h := Real.sin_sq_add_cos_sq s
  ext
  · simp only; linear_combination x * h
  · simp only; linear_combination y * h

/-- Non-trivial instance: a rotated frame really moves points. -/
example : real2mod 1 0 (0, 0) (Real.pi / 2) = (0, 1) := by
  rw [real2mod_eq]; simp

/-- C02: conversion preserves distances. -/
theorem C02_isometry (p q : ℝ × ℝ) (o : ℝ × ℝ) (s : ℝ) :
    dist2 (real2mod p.1 p.2 o s) (real2mod q.1 q.2 o s) = dist2 p q := by
  simp only [dist2, real2mod_eq]
  congr 1
  have h := Real.sin_sq_add_cos_sq s
  linear_combination ((p.1 - q.1)^2 + (p.2 - q.2)^2) * h

/-- C02: the origin of the model frame is (0,0). -/
theorem C02_origin (o : ℝ × ℝ) (s : ℝ) : real2mod o.1 o.2 o s = (0, 0) := by
  rw [real2mod_eq]; simp

/-- C02: conversion keeps handedness (signed areas are preserved, no mirroring). -/
theorem C02_orientation (a p q : ℝ × ℝ) (o : ℝ × ℝ) (s : ℝ) :
    orient (real2mod a.1 a.2 o s) (real2mod p.1 p.2 o s) (real2mod q.1 q.2 o s) = orient a p q := by
  simp only [orient, real2mod_eq]
  have h := Real.sin_sq_add_cos_sq s
  linear_combination ((p.1 - a.1) * (q.2 - a.2) - (p.2 - a.2) * (q.1 - a.1)) * h

/-- C02: one metre seaward in the model is one metre from the origin on compass bearing
`s` (easting `sin s`, northing `cos s`). -/
theorem C02_seaward_bearing (o : ℝ × ℝ) (s : ℝ) :
    mod2real 0 1 o s = (o.1 + Real.sin s, o.2 + Real.cos s) := by
  rw [mod2real_eq]; ext <;> simp

section poly
variable {K : Type} [Field K] [LinearOrder K] [IsStrictOrderedRing K]

/-- C03: the results correspond one to one, in order, to the straddling segments, and
each is a finite ordinate of a point of its segment (so no division by zero). -/
theorem C03_intersections (pts : List (K × K)) (x : K) :
    List.Forall₂ (fun seg v => ∃ y, v = fin y ∧ OnSegment seg.1 seg.2 x y)
      ((segments pts).filter (fun s => decide (Straddles x s))) (intersectPolyline pts x) := by
  rw [intersectPolyline_eq, List.forall₂_map_right_iff]
  rw [List.forall₂_same]
  intro s hs
  exact crossY_on x s (by simpa using (List.mem_filter.mp hs).2)

/-- C03: a straddling segment meets the vertical line in exactly one point, so
`C03_intersections` determines every returned value. -/
theorem C03_unique (x y y' : K) (p q : K × K) (h : Straddles x (p, q))
    (h1 : OnSegment p q x y) (h2 : OnSegment p q x y') : y = y' := by
  obtain ⟨t, _, _, hx, hy⟩ := h1
  obtain ⟨t', _, _, hx', hy'⟩ := h2
  have hne : q.1 - p.1 ≠ 0 := by
    rcases h with ⟨h1, h2⟩ | ⟨h1, h2⟩ <;> simp only at h1 h2
    · exact ne_of_gt (by linarith)
    · exact ne_of_lt (by linarith)
  have : t = t' := by
    have : (t - t') * (q.1 - p.1) = 0 := by linear_combination hx' - hx
    rcases mul_eq_zero.mp this with h | h
    · linarith
    · exact absurd h hne
  rw [hy, hy', this]

/-- C03: every returned value lies between the end ordinates of its segment. -/
theorem C03_between (p q : K × K) (x y : K) (h : OnSegment p q x y) :
    min p.2 q.2 ≤ y ∧ y ≤ max p.2 q.2 := by
  obtain ⟨t, h0, h1, _, hy⟩ := h
  subst hy
  constructor
  · nlinarith [min_le_left p.2 q.2, min_le_right p.2 q.2]
  · nlinarith [le_max_left p.2 q.2, le_max_right p.2 q.2]

/-- Non-trivial instance: two crossings of a triangle, one of them through a vertex. -/
example : intersectPolyline [((0:ℚ), (0:ℚ)), (2, 0), (1, 4), (0, 0)] 1 = [fin 0, fin 4] := by
  decide +kernel

/-- C04: the number of intersections is odd exactly when one end of the polyline is left
of the X coordinate and the other is not. -/
theorem C04_parity (x : K) (a : K × K) (l : List (K × K)) :
    (intersectPolyline (a :: l) x).length % 2 = 1 ↔
      ¬ ((a.1 < x) ↔ (((a :: l).getLast (by simp)).1 < x)) := by
  rw [intersectPolyline_eq, List.length_map]
  exact parity_aux x a l

/-- C04: a closed polygon is met an even number of times. -/
theorem C04_polygon_even (x : K) (a : K × K) (l : List (K × K))
    (hclosed : (a :: l).getLast (by simp) = a) :
    (intersectPolyline (a :: l) x).length % 2 = 0 := by
  have h := (C04_parity x a l).not
  rw [hclosed] at h
  simp at h
  exact h

/-- C04: if two vertices are on different sides there is an intersection. -/
theorem C04_nonempty (x : K) (pts : List (K × K)) (p q : K × K) (hp : p ∈ pts) (hq : q ∈ pts)
    (hl : p.1 < x) (hr : ¬ q.1 < x) : intersectPolyline pts x ≠ [] := by
  rw [intersectPolyline_eq]
  intro h
  simp only [List.map_eq_nil_iff, List.filter_eq_nil_iff, decide_eq_true_eq] at h
  -- no straddling segment: all points are on the same side as the first
  have same : ∀ (l : List (K × K)) (a : K × K),
      (∀ s ∈ segments (a :: l), ¬ Straddles x s) → ∀ b ∈ a :: l, (b.1 < x ↔ a.1 < x) := by
    intro l
    induction l with
    | nil => intro a _ b hb; simp at hb; rw [hb]
    | cons c l ih =>
      intro a hall b hb
      have hs : segments (a :: c :: l) = (a, c) :: segments (c :: l) := rfl
      rw [hs] at hall
      have hac := hall _ List.mem_cons_self
      have hca : c.1 < x ↔ a.1 < x := by
        simp only [Straddles, not_or, not_and, not_le] at hac
        constructor
        · intro hc; by_contra ha; exact absurd (hac.2 hc) (by simpa using ha)
        · intro ha; exact hac.1 ha
      rcases List.mem_cons.mp hb with rfl | hb
      · rfl
      · rw [ih c (fun s hs => hall s (List.mem_cons_of_mem _ hs)) b hb, hca]
  cases pts with
  | nil => simp at hp
  | cons a l =>
    have e1 := same l a h p hp
    have e2 := same l a h q hq
    exact hr (e2.mpr (e1.mp hl))

/-- Non-trivial instance of the hypotheses of C04: a closed polygon crossed twice. -/
example : (intersectPolyline [((0:ℚ), (0:ℚ)), (2, 0), (1, 4), (0, 0)] (1/2)).length = 2 := by
  decide +kernel

end poly
end Verif.Props
