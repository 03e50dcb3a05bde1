import Verif.Lemmas.ChannelArea

set_option autoImplicit false
set_option linter.unusedSectionVars false

namespace Verif.Model
open Verif Fl Verif.Spec Finset

variable {K : Type} [Field K] [LinearOrder K] [IsStrictOrderedRing K]

/-- One for a wet transect, zero for a dry one. -/
def wetOne (W : Transect K → K) (r : Transect K) : K := if 0 < W r then 1 else 0

theorem lagLenOf_fin (Dx : K) (W : Transect K → K) (l : List (Transect K)) (h : ∀ r ∈ l, lagWidth r = fin (W r)) :
    lagLenOf Dx l = fin ((l.map (wetOne W)).sum * Dx) := by
  unfold lagLenOf nansum
  have : (l.map (fun r => if fin 0 <? lagWidth r then fin Dx else fin 0)) = (l.map (fun r => wetOne W r * Dx)).map fin := by
    rw [List.map_map]
    apply List.map_congr_left
    intro r hr
    rw [h r hr]
    simp only [blt_fin, decide_eq_true_eq, Function.comp_apply, wetOne]
    split <;> simp
  rw [this, List.filter_eq_self.mpr (by intro x hx; obtain ⟨y, _, rfl⟩ := List.mem_map.mp hx; rfl), sum_map_fin, List.sum_map_mul_right]

theorem filter_lt_take {rows : List (Transect K)} (hs : SortedX rows) {k : ℕ} (p : Transect K → Bool)
    (h1 : ∀ (i : ℕ) r, rows[i]? = some r → (p r = true ↔ i < k)) : rows.filter p = rows.take k := by
  induction rows generalizing k with
  | nil => simp
  | cons q rows ih =>
    cases k with
    | zero =>
      rw [List.take_zero, List.filter_eq_nil_iff]
      intro r hr hp
      obtain ⟨i, hi⟩ := List.mem_iff_getElem?.mp hr
      exact absurd ((h1 i r hi).mp hp) (by omega)
    | succ k =>
      rw [List.take_succ_cons, List.filter_cons_of_pos ((h1 0 q rfl).mpr (by omega))]
      congr 1
      apply ih (List.pairwise_cons.mp hs).2
      intro i r hi
      rw [h1 (i+1) r hi]; omega

theorem filter_gt_drop {rows : List (Transect K)} (hs : SortedX rows) {k : ℕ} (p : Transect K → Bool)
    (h1 : ∀ (i : ℕ) r, rows[i]? = some r → (p r = true ↔ k ≤ i)) : rows.filter p = rows.drop k := by
  induction rows generalizing k with
  | nil => simp
  | cons q rows ih =>
    cases k with
    | zero =>
      rw [List.drop_zero, List.filter_eq_self]
      intro r hr
      obtain ⟨i, hi⟩ := List.mem_iff_getElem?.mp hr
      exact (h1 i r hi).mpr (by omega)
    | succ k =>
      have : ¬ (p q = true) := fun h => absurd ((h1 0 q rfl).mp h) (by omega)
      rw [List.drop_succ_cons, List.filter_cons_of_neg this]
      apply ih (List.pairwise_cons.mp hs).2
      intro i r hi
      rw [h1 (i+1) r hi]; omega

/-- The online transects, those behind the river and those beyond make up the shore (outlet to the right). -/
theorem split_up (V : Transect K → K) (rows rs : List (Transect K)) {X0 m : ℕ} (h0 : X0 ≤ m) (h : gather rows (arangeUp X0 m) = .ok rs) :
    ((rows.take X0).map V).sum + (rs.map V).sum + ((rows.drop m).map V).sum = (rows.map V).sum := by
  rw [sum_gather_rows V _ _ _ h (nodup_arangeUp _ _), sum_take_rows, sum_drop_rows, sum_rows, ← Finset.sum_add_distrib, ← Finset.sum_add_distrib]
  apply Finset.sum_congr rfl
  intro i _
  simp only [mem_arangeUp]
  by_cases h1 : i < X0
  · simp [h1, show ¬ X0 ≤ i by omega, show ¬ m ≤ i by omega]
  · by_cases h2 : i < m
    · simp [h1, h2, show X0 ≤ i by omega, show ¬ m ≤ i by omega]
    · simp [h1, h2, show m ≤ i by omega]

theorem split_down (V : Transect K → K) (rows rs : List (Transect K)) {X0 m : ℕ} (h0 : m ≤ X0 + 1) (h : gather rows (arangeDown X0 m) = .ok rs) :
    ((rows.drop (X0 + 1)).map V).sum + (rs.map V).sum + ((rows.take m).map V).sum = (rows.map V).sum := by
  rw [sum_gather_rows V _ _ _ h (nodup_arangeDown _ _), sum_take_rows, sum_drop_rows, sum_rows, ← Finset.sum_add_distrib, ← Finset.sum_add_distrib]
  apply Finset.sum_congr rfl
  intro i _
  simp only [mem_arangeDown]
  by_cases h1 : X0 + 1 ≤ i
  · simp [h1, show ¬ i ≤ X0 by omega, show ¬ i < m by omega]
  · by_cases h2 : m ≤ i
    · simp [h1, h2, show i ≤ X0 by omega, show ¬ i < m by omega]
    · simp [h1, h2, show i < m by omega]

theorem arangeUp_take (X0 m k : ℕ) (h : X0 + k ≤ m) : (arangeUp X0 m).take k = arangeUp X0 (X0 + k) := by
  unfold arangeUp
  rw [← List.map_take, List.take_range]
  congr 2
  omega

theorem arangeDown_take (X0 m k : ℕ) (h : k ≤ X0 + 1 - m) : (arangeDown X0 m).take k = arangeDown X0 (X0 + 1 - k) := by
  unfold arangeDown
  rw [← List.map_take, List.take_range]
  congr 2
  omega

theorem arangeUp_length (X0 m : ℕ) : (arangeUp X0 m).length = m - X0 := by simp [arangeUp]
theorem arangeDown_length (X0 m : ℕ) : (arangeDown X0 m).length = X0 + 1 - m := by simp [arangeDown]
theorem arangeUp_getLast (X0 m : ℕ) (h : X0 < m) : (arangeUp X0 m).getLast? = some (m - 1) := by
  rw [List.getLast?_eq_getElem?, arangeUp_length]
  simp [arangeUp, List.getElem?_range (show m - X0 - 1 < m - X0 by omega)]
  omega
theorem arangeDown_getLast (X0 m : ℕ) (h : m ≤ X0) : (arangeDown X0 m).getLast? = some m := by
  rw [List.getLast?_eq_getElem?, arangeDown_length]
  simp [arangeDown, List.getElem?_range (show X0 + 1 - m - 1 < X0 + 1 - m by omega)]
  omega

/-- The two offline parts of the lagoon before the cut. -/
theorem lagoon_lists {a : ChanIn K} {X0 : ℕ} {C1 : Bool} {s : LagStage K} {W : Transect K → K}
    (hs : SortedX a.rows) (hx : firstIx (fun r : Transect K => fin r.x ==? fin 0) a.rows = .ok X0)
    (hW : ∀ r ∈ a.rows, lagWidth r = fin (W r) ∧ 0 ≤ W r) (he0 : (a.EndX0 ==? fin 0) = false)
    (hne : C1 = false → ∀ r ∈ a.rows, (fin r.x ==? a.EndX0) = false)
    (hw0 : ∀ r, a.rows[X0]? = some r → 0 < W r)
    (h : lagoonStage a X0 C1 = .ok s) :
    ∃ e : List (Transect K), s.endArea = lagAreaOf a.Dx e ∧ s.endLen = lagLenOf a.Dx e ∧
      (((fin 0 <? a.EndX0) = true ∧ s.startArea = lagAreaOf a.Dx (a.rows.take X0) ∧ s.startLen = lagLenOf a.Dx (a.rows.take X0) ∧
          ∃ l, X0 < l ∧ s.online = arangeUp X0 l ∧ (e = a.rows.drop l ∨ (e = [] ∧ ∀ r ∈ a.rows.drop l, W r = 0))) ∨
       ((fin 0 <? a.EndX0) = false ∧ s.startArea = lagAreaOf a.Dx (a.rows.drop (X0 + 1)) ∧ s.startLen = lagLenOf a.Dx (a.rows.drop (X0 + 1)) ∧
          ∃ l, l ≤ X0 ∧ s.online = arangeDown X0 l ∧ (e = a.rows.take l ∨ (e = [] ∧ ∀ r ∈ a.rows.take l, W r = 0)))) := by
  obtain ⟨q, hq, hq0⟩ := x0_row hx
  unfold lagoonStage at h
  rw [if_neg (by simp [he0])] at h
  split at h
  · rename_i hpos
    split at h
    · simp only [bind_ok, pure_ok] at h
      obtain ⟨l, hl, rfl⟩ := h
      obtain ⟨_, hmax⟩ := lastIx_ok.mp hl
      refine ⟨[], rfl, rfl, Or.inl ⟨hpos, rfl, rfl, l + 1, ?_, rfl, Or.inr ⟨rfl, ?_⟩⟩⟩
      · by_contra hc
        have h1 := hmax X0 (by omega) q hq
        rw [(hW q (List.mem_of_getElem? hq)).1] at h1
        simp at h1
        exact absurd (hw0 q hq) (not_lt.mpr h1)
      · intro r hr
        obtain ⟨i, hi⟩ := List.mem_iff_getElem?.mp hr
        rw [List.getElem?_drop] at hi
        have h3 := hmax _ (by omega) _ hi
        obtain ⟨h4, h5⟩ := hW _ (List.mem_of_getElem? hi)
        rw [h4] at h3
        simp at h3
        exact le_antisymm h3 h5
    · rename_i hcl
      simp only [bind_ok, pure_ok] at h
      obtain ⟨l, hl, rfl⟩ := h
      obtain ⟨⟨b, hb, hbp⟩, hmax⟩ := lastIx_ok.mp hl
      have hnan : a.EndX0.isnan = false := by
        cases hE : a.EndX0 <;> rw [hE] at hpos <;> simp [Fl.blt] at hpos ⊢
      have hX : X0 ≤ l := by
        by_contra hc
        have := hmax X0 (by omega) q hq
        rw [hq0, hpos] at this; cases this
      refine ⟨_, rfl, rfl, Or.inl ⟨hpos, rfl, rfl, l + 1, by omega, rfl, Or.inl ?_⟩⟩
      apply filter_gt_drop hs
      intro i r hi
      constructor
      · intro h1
        by_contra h2
        have h3 : (fin r.x <? a.EndX0) = true := fin_blt_mono ((hs.le hi hb).mpr (by omega)) hbp
        rw [not_both h3] at h1; cases h1
      · intro h1
        exact trichotomy_fin hnan (hne (by simpa using hcl) _ (List.mem_of_getElem? hi)) (hmax i (by omega) _ hi)
  · rename_i hpos
    have hpos : (fin 0 <? a.EndX0) = false := by simpa using hpos
    split at h
    · simp only [bind_ok, pure_ok] at h
      obtain ⟨l, hl, rfl⟩ := h
      obtain ⟨_, hmin⟩ := firstIx_ok.mp hl
      refine ⟨[], rfl, rfl, Or.inr ⟨hpos, rfl, rfl, l, ?_, rfl, Or.inr ⟨rfl, ?_⟩⟩⟩
      · by_contra hc
        have h1 := hmin X0 (by omega) q hq
        rw [(hW q (List.mem_of_getElem? hq)).1] at h1
        simp at h1
        exact absurd (hw0 q hq) (not_lt.mpr h1)
      · intro r hr
        obtain ⟨i, hi⟩ := List.mem_iff_getElem?.mp hr
        rw [List.getElem?_take] at hi
        split at hi
        · have h3 := hmin _ (by assumption) _ hi
          obtain ⟨h4, h5⟩ := hW _ (List.mem_of_getElem? hi)
          rw [h4] at h3
          simp at h3
          exact le_antisymm h3 h5
        · cases hi
    · rename_i hcl
      simp only [bind_ok, pure_ok] at h
      obtain ⟨l, hl, rfl⟩ := h
      obtain ⟨⟨b, hb, hbp⟩, hmin⟩ := firstIx_ok.mp hl
      have hnan : a.EndX0.isnan = false := by
        cases hE : a.EndX0 <;> rw [hE] at hbp <;> simp [Fl.blt] at hbp ⊢
      have hneg : (a.EndX0 <? fin q.x) = true := by
        rw [hq0]
        have := hne (by simpa using hcl) q (List.mem_of_getElem? hq)
        rw [hq0] at this
        exact trichotomy_fin hnan this hpos
      have hX : l ≤ X0 := by
        by_contra hc
        have := hmin X0 (by omega) q hq
        rw [hneg] at this; cases this
      refine ⟨_, rfl, rfl, Or.inr ⟨hpos, rfl, rfl, l, hX, rfl, Or.inl ?_⟩⟩
      apply filter_lt_take hs
      intro i r hi
      constructor
      · intro h1
        by_contra h2
        have h3 : (a.EndX0 <? fin r.x) = true := blt_fin_mono ((hs.le hb hi).mpr (by omega)) hbp
        rw [not_both h1] at h3; cases h3
      · intro h1
        by_contra h5
        have h6 := trichotomy_fin hnan (hne (by simpa using hcl) _ (List.mem_of_getElem? hi)) (by simpa using h5)
        rw [hmin i h1 _ hi] at h6; cases h6

end Verif.Model
