import Verif.Props.Place

set_option autoImplicit false
set_option linter.unusedSectionVars false

/-! # C158: the direction in which the lines are drawn -/

namespace Verif.Props
open Verif Verif.Model Verif.Spec Fl

section grid
variable {K : Type} [Field K] [LinearOrder K] [IsStrictOrderedRing K]

/-- First and last point of a line and of the line drawn the other way. -/
theorem both_ends {α : Type} (l : List α) (h : l ≠ []) : ∃ a b, ixGet l 0 = .ok a ∧ pyGet l (-1) = .ok b ∧ ixGet l.reverse 0 = .ok b ∧ pyGet l.reverse (-1) = .ok a ∧
    l.head? = some a ∧ l.getLast? = some b := by
  obtain ⟨a, r, rfl⟩ := List.exists_cons_of_ne_nil h
  have hb : (a :: r).getLast? = some ((a :: r).getLast h) := List.getLast?_eq_some_getLast h
  refine ⟨a, _, rfl, pyGet_last.mpr hb, ?_, pyGet_last.mpr (by simp), rfl, hb⟩
  unfold ixGet
  rw [← List.head?_eq_getElem?, List.head?_reverse, hb]

theorem segments_reverse {α : Type} (l : List α) : segments l.reverse = ((segments l).map Prod.swap).reverse := by
  refine List.ext_getElem? fun i => ?_
  unfold segments
  by_cases hi : i + 1 < l.length
  · have h1 : i < ((l.zip l.tail).map Prod.swap).length := by simp; omega
    rw [List.getElem?_reverse (by simpa using h1), List.getElem?_map]
    simp only [List.length_map, List.length_zip, List.length_tail]
    rw [List.getElem?_eq_getElem (l := l.reverse.zip l.reverse.tail) (by simp; omega), List.getElem?_eq_getElem (l := l.zip l.tail) (by simp; omega)]
    simp only [List.getElem_zip, List.getElem_tail, List.getElem_reverse, Option.map_some, Prod.swap_prod_mk, Option.some.injEq, Prod.mk.injEq]
    constructor <;> congr 1 <;> omega
  · rw [List.getElem?_eq_none (by simp; omega), List.getElem?_eq_none (by simp; omega)]

theorem straddles_swap (x : K) (s : (K × K) × (K × K)) : Straddles x s.swap ↔ Straddles x s := by
  unfold Straddles
  simp only [Prod.fst_swap, Prod.snd_swap]
  exact or_comm

theorem crossY_swap (x : K) (s : (K × K) × (K × K)) (h : Straddles x s) : crossY x s.swap = crossY x s := by
  have h1 : s.2.1 - s.1.1 ≠ 0 := by
    rcases h with h | h <;> intro hh
    · linarith [h.1, h.2]
    · linarith [h.1, h.2]
  have h2 : s.1.1 - s.2.1 ≠ 0 := fun hh => h1 (by linarith)
  unfold crossY
  simp only [Prod.fst_swap, Prod.snd_swap, sub_fin, mul_fin, add_fin, div_fin _ _ h1, div_fin _ _ h2, fin.injEq]
  field_simp
  ring

theorem intersect_reverse (pts : List (K × K)) (x : K) : intersectPolyline pts.reverse x = (intersectPolyline pts x).reverse := by
  rw [intersectPolyline_eq, intersectPolyline_eq, segments_reverse, List.filter_reverse, List.map_reverse, List.filter_map, List.map_map]
  congr 1
  have : (fun s => decide (Straddles x s)) ∘ Prod.swap = fun s : (K × K) × (K × K) => decide (Straddles x s) := by
    funext s
    simp only [Function.comp_apply, straddles_swap]
  rw [this]
  refine List.map_congr_left fun s hs => ?_
  rw [List.mem_filter, decide_eq_true_eq] at hs
  exact crossY_swap x s hs.2

theorem amax_reverse (l : List (Fl K)) (hl : ∀ v ∈ l, ∃ y, v = fin y) : amax l.reverse = amax l := by
  cases h : amax l with
  | error e =>
    cases l with
    | nil => exact h
    | cons a r => cases h
  | ok v =>
    obtain ⟨y, rfl, h1, h2⟩ := amax_fin h hl
    cases h' : amax l.reverse with
    | error e =>
      cases hr : l.reverse with
      | nil => rw [List.reverse_eq_nil_iff] at hr; subst hr; cases h
      | cons a r => rw [hr] at h'; cases h'
    | ok w =>
      obtain ⟨z, rfl, h3, h4⟩ := amax_fin h' (fun v hv => hl v (List.mem_reverse.mp hv))
      rw [le_antisymm (h2 z (List.mem_reverse.mp h3)) (h4 y (List.mem_reverse.mpr h1))]

theorem amax_intersect_reverse (pts : List (K × K)) (x : K) : amax (intersectPolyline pts.reverse x) = amax (intersectPolyline pts x) := by
  rw [intersect_reverse]
  exact amax_reverse _ (fun v hv => (intersect_fin pts x v hv).imp fun y hy => hy.1)

theorem foldl_min_spec (r : List (K × K)) : ∀ a : K, (r.foldl (fun a q => min a q.1) a ≤ a ∧ ∀ q ∈ r, r.foldl (fun a q => min a q.1) a ≤ q.1) ∧
    (r.foldl (fun a q => min a q.1) a = a ∨ ∃ q ∈ r, r.foldl (fun a q => min a q.1) a = q.1) := by
  induction r with
  | nil => intro a; simp
  | cons p r ih =>
    intro a
    obtain ⟨⟨h1, h2⟩, h3⟩ := ih (min a p.1)
    simp only [List.foldl_cons]
    refine ⟨⟨h1.trans (min_le_left _ _), fun q hq => ?_⟩, ?_⟩
    · rcases List.mem_cons.mp hq with rfl | hq
      · exact h1.trans (min_le_right _ _)
      · exact h2 q hq
    · rcases h3 with h3 | ⟨q, hq, h3⟩
      · rcases min_choice a p.1 with h | h
        · exact Or.inl (h3.trans h)
        · exact Or.inr ⟨p, by simp, h3.trans h⟩
      · exact Or.inr ⟨q, by simp [hq], h3⟩

theorem foldl_max_spec (r : List (K × K)) : ∀ a : K, (a ≤ r.foldl (fun a q => max a q.1) a ∧ ∀ q ∈ r, q.1 ≤ r.foldl (fun a q => max a q.1) a) ∧
    (r.foldl (fun a q => max a q.1) a = a ∨ ∃ q ∈ r, r.foldl (fun a q => max a q.1) a = q.1) := by
  induction r with
  | nil => intro a; simp
  | cons p r ih =>
    intro a
    obtain ⟨⟨h1, h2⟩, h3⟩ := ih (max a p.1)
    simp only [List.foldl_cons]
    refine ⟨⟨(le_max_left _ _).trans h1, fun q hq => ?_⟩, ?_⟩
    · rcases List.mem_cons.mp hq with rfl | hq
      · exact (le_max_right _ _).trans h1
      · exact h2 q hq
    · rcases h3 with h3 | ⟨q, hq, h3⟩
      · rcases max_choice a p.1 with h | h
        · exact Or.inl (h3.trans h)
        · exact Or.inr ⟨p, by simp, h3.trans h⟩
      · exact Or.inr ⟨q, by simp [hq], h3⟩

/-- The extent of a line is that of its points. -/
theorem extent_spec {pts : List (K × K)} {e : K × K} (h : extent pts = .ok e) :
    (∀ q ∈ pts, e.1 ≤ q.1 ∧ q.1 ≤ e.2) ∧ (∃ q ∈ pts, e.1 = q.1) ∧ ∃ q ∈ pts, e.2 = q.1 := by
  cases pts with
  | nil => cases h
  | cons p r =>
    cases h
    obtain ⟨⟨a1, a2⟩, a3⟩ := foldl_min_spec r p.1
    obtain ⟨⟨b1, b2⟩, b3⟩ := foldl_max_spec r p.1
    refine ⟨fun q hq => ?_, ?_, ?_⟩
    · rcases List.mem_cons.mp hq with rfl | hq
      · exact ⟨a1, b1⟩
      · exact ⟨a2 q hq, b2 q hq⟩
    · rcases a3 with h | ⟨q, hq, h⟩
      · exact ⟨p, by simp, h⟩
      · exact ⟨q, by simp [hq], h⟩
    · rcases b3 with h | ⟨q, hq, h⟩
      · exact ⟨p, by simp, h⟩
      · exact ⟨q, by simp [hq], h⟩

theorem extent_reverse (pts : List (K × K)) : extent pts.reverse = extent pts := by
  cases h : extent pts with
  | error e =>
    cases pts with
    | nil => exact h
    | cons a r => cases h
  | ok v =>
    cases h' : extent pts.reverse with
    | error e =>
      cases hr : pts.reverse with
      | nil => rw [List.reverse_eq_nil_iff] at hr; subst hr; cases h
      | cons a r => rw [hr] at h'; cases h'
    | ok w =>
      obtain ⟨a1, ⟨q1, m1, a2⟩, q2, m2, a3⟩ := extent_spec h
      obtain ⟨b1, ⟨q3, m3, b2⟩, q4, m4, b3⟩ := extent_spec h'
      have e1 : w.1 = v.1 := le_antisymm (by rw [a2]; exact (b1 q1 (List.mem_reverse.mpr m1)).1) (by rw [b2]; exact (a1 q3 (List.mem_reverse.mp m3)).1)
      have e2 : w.2 = v.2 := le_antisymm (by rw [b3]; exact (a1 q4 (List.mem_reverse.mp m4)).2) (by rw [a3]; exact (b1 q2 (List.mem_reverse.mpr m2)).2)
      rw [Prod.ext e1 e2]

/-- A shoreline with both ends in the same place turns back. -/
theorem increasing_ends {pts : List (K × K)} (h : (pts.zip pts.tail).all (fun s => decide (s.2.1 - s.1.1 > 0)) = true) {a b : K × K} (ha : pts.head? = some a)
    (hb : pts.getLast? = some b) : pts.length = 1 ∨ a.1 < b.1 := by
  induction pts generalizing a with
  | nil => cases ha
  | cons p r ih =>
    cases ha
    cases r with
    | nil => exact Or.inl rfl
    | cons q r =>
      right
      simp only [List.tail_cons, List.zip_cons_cons, List.all_cons, Bool.and_eq_true, decide_eq_true_eq] at h
      have hb' : (q :: r).getLast? = some b := by rw [← hb]; simp [List.getLast?_cons_cons]
      have h1 : p.1 < q.1 := by linarith [h.1]
      rcases ih (by simpa using h.2) rfl hb' with h2 | h2
      · have : r = [] := List.eq_nil_of_length_eq_zero (by simpa using h2)
        subst this
        cases hb'
        exact h1
      · exact h1.trans h2

theorem orderShore_reverse (pts : List (K × K)) : orderShore pts.reverse = orderShore pts := by
  by_cases hn : pts = []
  · subst hn; rfl
  obtain ⟨a, b, h1, h2, h3, h4, h5, h6⟩ := both_ends pts hn
  unfold orderShore
  rw [h1, h2, h3, h4]
  simp only [List.reverse_reverse, Except.bind, bind]
  rcases lt_trichotomy a.1 b.1 with h | h | h
  · rw [if_pos h, if_neg (by linarith)]
  · rw [if_neg (by linarith), if_neg (by linarith)]
    have key : ∀ l : List (K × K), (l = pts ∨ l = pts.reverse) → l.length ≠ 1 → ((l.zip l.tail).all fun s => decide (s.2.1 - s.1.1 > 0)) = false := by
      intro l hl hlen
      by_contra hc
      rw [Bool.not_eq_false] at hc
      rcases hl with rfl | rfl
      · rcases increasing_ends hc h5 h6 with h2 | h2
        · exact hlen h2
        · linarith
      · rcases increasing_ends hc (a := b) (b := a) (by rw [List.head?_reverse]; exact h6) (by rw [List.getLast?_reverse]; exact h5) with h2 | h2
        · exact hlen h2
        · linarith
    by_cases hl : pts.length = 1
    · obtain ⟨p, rfl⟩ := List.length_eq_one_iff.mp hl
      rfl
    · rw [key pts (Or.inl rfl) hl, key pts.reverse (Or.inr rfl) (by rw [List.length_reverse]; exact hl)]
      rfl
  · rw [if_neg (by linarith), if_pos h]

theorem orderOutlet_reverse (pts : List (K × K)) (h : ¬ LevelEnds pts) : orderOutlet pts.reverse = orderOutlet pts := by
  by_cases hn : pts = []
  · subst hn; rfl
  obtain ⟨a, b, h1, h2, h3, h4, h5, h6⟩ := both_ends pts hn
  unfold orderOutlet
  rw [h1, h2, h3, h4]
  simp only [List.reverse_reverse, Except.bind, bind]
  rcases lt_trichotomy a.2 b.2 with h' | h' | h'
  · rw [if_pos h', if_neg (by linarith)]
  · exact absurd ⟨a, b, h5, h6, h'⟩ h
  · rw [if_neg (by linarith), if_pos h']

variable [FloorRing K]

/-- C158 in model coordinates. -/
theorem drawn_rows (c : RealCfg K) (shore cliff lagoon outlet shore' cliff' lagoon' outlet' : List (K × K)) (h1 : SameLine shore shore') (h2 : SameLine cliff cliff')
    (h3 : SameLine lagoon lagoon') (h4 : SameLine outlet outlet') (h5 : ¬ LevelEnds outlet) :
    realRows c shore' cliff' lagoon' outlet' = realRows c shore cliff lagoon outlet := by
  have e1 : orderShore shore' = orderShore shore := by rcases h1 with rfl | rfl; rfl; exact orderShore_reverse shore
  have e2 : ∀ x, amax (intersectPolyline cliff' x) = amax (intersectPolyline cliff x) := by
    rcases h2 with rfl | rfl
    · exact fun _ => rfl
    · exact amax_intersect_reverse cliff
  have e3 : ∀ x, amax (intersectPolyline lagoon' x) = amax (intersectPolyline lagoon x) := by
    rcases h3 with rfl | rfl
    · exact fun _ => rfl
    · exact amax_intersect_reverse lagoon
  have e4 : extent lagoon' = extent lagoon := by rcases h3 with rfl | rfl; rfl; exact extent_reverse lagoon
  have e5 : extent outlet' = extent outlet := by rcases h4 with rfl | rfl; rfl; exact extent_reverse outlet
  have e6 : orderOutlet outlet' = orderOutlet outlet := by rcases h4 with rfl | rfl; rfl; exact orderOutlet_reverse outlet h5
  have e7 : ∀ shore outlet le oe, realRow c shore cliff' lagoon' outlet le oe = realRow c shore cliff lagoon outlet le oe := by
    intro shore outlet le oe
    funext x
    unfold realRow
    rw [e2, e3]
  unfold realRows
  rw [e1, e4, e5, e6]
  simp only [e7]

end grid

theorem misfit_reverse (pts : List (ℝ × ℝ)) (g : ℝ × ℝ) : misfit pts.reverse g = misfit pts g := by
  unfold misfit
  rw [List.map_reverse, List.sum_reverse]

theorem bestLine_same {pts pts' : List (ℝ × ℝ)} {f f' : ℝ × ℝ} (hs : SameLine pts pts') (h : BestLine pts f) (h' : BestLine pts' f') : f' = f := by
  refine bestLine_unique h ?_
  rcases hs with rfl | rfl
  · exact h'
  · intro g hg
    rw [← misfit_reverse, ← misfit_reverse pts g]
    exact h' g hg

theorem sameLine_map {α β : Type} (g : α → β) {l l' : List α} (h : SameLine l l') : SameLine (l.map g) (l'.map g) := by
  rcases h with rfl | rfl
  · exact Or.inl rfl
  · exact Or.inr (by rw [List.map_reverse])

/-- C158, partial: shoreline, cliff, lagoon and outlet may each be drawn in either direction; the model is the same, exceptions included, unless both ends of the outlet line are
equally far out (at the same model position Y).
Missing: such outlets, for which it is false. -/
theorem C158_partial (c : RealCfg ℝ) (slope len : ℝ) (f f' p : ℝ × ℝ) (shore cliff lagoon outlet shore' cliff' lagoon' outlet' : List (ℝ × ℝ))
    (hf : BestLine shore f) (hf' : BestLine shore' f') (h1 : SameLine shore shore') (h2 : SameLine cliff cliff') (h3 : SameLine lagoon lagoon') (h4 : SameLine outlet outlet')
    (h5 : ∀ ox oy, baseOrigin f.1 f.2 p = (fin ox, fin oy) → ¬ LevelEnds (outlet.map (fun q => real2mod q.1 q.2 (ox, oy) (baseNormal f.1 f.2 p)))) :
    realLoad c slope len f' p shore' cliff' lagoon' outlet' = realLoad c slope len f p shore cliff lagoon outlet := by
  have ef := bestLine_same h1 hf hf'
  subst ef
  have hl : shore'.length = shore.length := by rcases h1 with rfl | rfl; rfl; exact List.length_reverse
  unfold realLoad
  split
  · rename_i ox oy ho
    unfold realLoadMod
    simp only [drawn_rows c _ _ _ _ _ _ _ _ (sameLine_map _ h1) (sameLine_map _ h2) (sameLine_map _ h3) (sameLine_map _ h4) (h5 ox oy ho)]
  · rw [hl]

/-- The sample of C85 to C90 with all lines drawn the other way. -/
example : SameLine rlShore rlShore.reverse ∧ SameLine rlCliff rlCliff.reverse ∧ SameLine rlLagoon rlLagoon.reverse ∧ SameLine rlOutlet rlOutlet.reverse ∧ ¬ LevelEnds rlOutlet ∧
    okAnd (realLoadMod rlCfg (1 / 100) 100 rlShore.reverse rlCliff.reverse rlLagoon.reverse rlOutlet.reverse)
      (fun ld => decide (ld.EndX0 = fin 10 ∧ ld.EndX1 = fin 35)) = true := by
  refine ⟨Or.inr rfl, Or.inr rfl, Or.inr rfl, Or.inr rfl, ?_, by decide +kernel⟩
  rintro ⟨a, b, ha, hb, h⟩
  cases ha
  cases hb
  norm_num at h

/-- C158 is false of the code for an outlet line with both ends equally far out: loadmod.py 483 leaves it as it is drawn, so the outlet channel flows the way it was drawn. -/
theorem C158_refuted : ∃ (outlet : List (ℚ × ℚ)) (ld ld' : LoadOut ℚ), realLoadMod rlCfg (1 / 100) 100 rlShore rlCliff rlLagoon outlet = .ok ld ∧
    realLoadMod rlCfg (1 / 100) 100 rlShore rlCliff rlLagoon outlet.reverse = .ok ld' ∧ ld.EndX0 = fin 10 ∧ ld.EndX1 = fin 35 ∧ ld'.EndX0 = fin 30 ∧ ld'.EndX1 = fin 5 := by
  have h1 : okAnd (realLoadMod rlCfg (1 / 100) 100 rlShore rlCliff rlLagoon [(5, -20), (38, -20)]) (fun ld => decide (ld.EndX0 = fin 10 ∧ ld.EndX1 = fin 35)) = true := by
    decide +kernel
  have h2 : okAnd (realLoadMod rlCfg (1 / 100) 100 rlShore rlCliff rlLagoon [(38, -20), (5, -20)]) (fun ld => decide (ld.EndX0 = fin 30 ∧ ld.EndX1 = fin 5)) = true := by
    decide +kernel
  obtain ⟨a, ha, pa⟩ := okAnd_iff.mp h1
  obtain ⟨b, hb, pb⟩ := okAnd_iff.mp h2
  rw [decide_eq_true_eq] at pa pb
  exact ⟨[(5, -20), (38, -20)], a, b, ha, hb, pa.1, pa.2, pb.1, pb.2⟩

end Verif.Props
