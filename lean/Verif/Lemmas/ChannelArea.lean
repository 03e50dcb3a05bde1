import Verif.Lemmas.ChannelReach
import Mathlib.Algebra.BigOperators.Group.Finset.Basic
import Mathlib.Algebra.BigOperators.Group.List.Basic
import Mathlib.Algebra.BigOperators.Ring.List

set_option autoImplicit false
set_option linter.unusedSectionVars false

namespace Verif.Model
open Verif Fl Verif.Spec Finset

variable {K : Type} [Field K] [LinearOrder K] [IsStrictOrderedRing K]

theorem lagAreaOf_fin (Dx : K) (W : Transect K → K) (l : List (Transect K)) (h : ∀ r ∈ l, lagWidth r = fin (W r)) :
    lagAreaOf Dx l = fin ((l.map W).sum * Dx) := by
  unfold lagAreaOf nansum
  have : (l.map (fun r => lagWidth r * fin Dx)) = (l.map (fun r => W r * Dx)).map fin := by
    rw [List.map_map]
    apply List.map_congr_left
    intro r hr
    rw [h r hr]; rfl
  rw [this, List.filter_eq_self.mpr (by intro x hx; obtain ⟨y, _, rfl⟩ := List.mem_map.mp hx; rfl), sum_map_fin, List.sum_map_mul_right]

/-- Width of transect `i`, zero outside the list. -/
def widthAt (W : Transect K → K) (rows : List (Transect K)) (i : ℕ) : K := ((rows[i]?).map W).getD 0

theorem widthAt_some {W : Transect K → K} {rows : List (Transect K)} {i : ℕ} {r : Transect K} (h : rows[i]? = some r) :
    widthAt W rows i = W r := by simp [widthAt, h]

theorem sum_rows (W : Transect K → K) (rows : List (Transect K)) :
    (rows.map W).sum = ∑ i ∈ range rows.length, widthAt W rows i := by
  induction rows with
  | nil => rfl
  | cons r rows ih =>
    rw [List.map_cons, List.sum_cons, List.length_cons, Finset.sum_range_succ', ih, add_comm]
    rfl

theorem sum_filter_rows (W : Transect K → K) (p : Transect K → Bool) (rows : List (Transect K)) :
    ((rows.filter p).map W).sum = ∑ i ∈ range rows.length, if (rows[i]?).any p then widthAt W rows i else 0 := by
  induction rows with
  | nil => rfl
  | cons r rows ih =>
    rw [List.length_cons, Finset.sum_range_succ']
    have h0 : (if ((r :: rows)[0]?).any p = true then widthAt W (r :: rows) 0 else 0) = if p r then W r else 0 := by simp [widthAt]
    rw [h0]
    have hs : ∀ i, (if ((r :: rows)[i+1]?).any p = true then widthAt W (r :: rows) (i+1) else 0) =
        if (rows[i]?).any p then widthAt W rows i else 0 := by intro i; simp [widthAt]
    simp only [hs, ← ih]
    rw [List.filter_cons]
    split <;> simp [add_comm]

theorem sum_take_rows (W : Transect K → K) (rows : List (Transect K)) (k : ℕ) :
    ((rows.take k).map W).sum = ∑ i ∈ range rows.length, if i < k then widthAt W rows i else 0 := by
  induction rows generalizing k with
  | nil => simp
  | cons r rows ih =>
    cases k with
    | zero => simp
    | succ k =>
      rw [List.length_cons, Finset.sum_range_succ', List.take_succ_cons, List.map_cons, List.sum_cons, ih]
      simp [widthAt, add_comm]

theorem sum_drop_rows (W : Transect K → K) (rows : List (Transect K)) (k : ℕ) :
    ((rows.drop k).map W).sum = ∑ i ∈ range rows.length, if k ≤ i then widthAt W rows i else 0 := by
  have h1 := sum_rows W rows
  have h2 := sum_take_rows W rows k
  have h3 : ((rows.take k).map W).sum + ((rows.drop k).map W).sum = (rows.map W).sum := by
    rw [← List.sum_append, ← List.map_append, List.take_append_drop]
  have h4 : ∑ i ∈ range rows.length, widthAt W rows i =
      (∑ i ∈ range rows.length, if i < k then widthAt W rows i else 0) + ∑ i ∈ range rows.length, if k ≤ i then widthAt W rows i else 0 := by
    rw [← Finset.sum_add_distrib]
    apply Finset.sum_congr rfl
    intro i _
    by_cases h : i < k
    · simp [h]
    · simp [h, not_lt.mp h]
  rw [h4, ← h2] at h1
  rw [h1] at h3
  exact add_left_cancel h3

theorem sum_gather_rows (W : Transect K → K) (rows rs : List (Transect K)) (is : List ℕ) (h : gather rows is = .ok rs) (hn : is.Nodup) :
    (rs.map W).sum = ∑ i ∈ range rows.length, if i ∈ is then widthAt W rows i else 0 := by
  rw [← Finset.sum_filter]
  have h1 : (range rows.length).filter (· ∈ is) = is.toFinset := by
    ext i
    simp only [Finset.mem_filter, Finset.mem_range, List.mem_toFinset, and_iff_right_iff_imp]
    intro hi
    obtain ⟨r, hr, _⟩ := gather_mem h hi
    exact (List.getElem?_eq_some_iff.mp hr).1
  rw [h1, List.sum_toFinset _ hn]
  congr 1
  apply List.ext_getElem?
  intro k
  rw [List.getElem?_map, List.getElem?_map, gather_getElem? h]
  cases hk : is[k]? with
  | none => rfl
  | some i =>
    obtain ⟨r, hr, _⟩ := gather_mem h (List.mem_of_getElem? hk)
    simp [hr, widthAt]

/-- `x <? e` for increasing positions. -/
theorem fin_blt_mono {x y : K} {e : Fl K} (h : x ≤ y) (hy : (fin y <? e) = true) : (fin x <? e) = true := by
  cases e <;> simp [Fl.blt] at hy ⊢
  exact lt_of_le_of_lt h hy

theorem blt_fin_mono {x y : K} {e : Fl K} (h : x ≤ y) (hy : (e <? fin x) = true) : (e <? fin y) = true := by
  cases e <;> simp [Fl.blt] at hy ⊢
  exact lt_of_lt_of_le hy h

theorem trichotomy_fin {x : K} {e : Fl K} (he : e.isnan = false) (h : (fin x ==? e) = false) (h2 : (fin x <? e) = false) : (e <? fin x) = true := by
  cases e <;> simp [Fl.blt, Fl.beq] at he h h2 ⊢
  exact lt_of_le_of_ne h2 (fun h3 => h h3.symm)

theorem not_both {x : K} {e : Fl K} (h : (fin x <? e) = true) : (e <? fin x) = false := by
  cases e <;> simp [Fl.blt] at h ⊢
  exact le_of_lt h

/-- Offline areas and the online transects before the cut together make up the lagoon. -/
theorem lagoon_area {a : ChanIn K} {X0 : ℕ} {C1 : Bool} {s : LagStage K} {W : Transect K → K} {rs : List (Transect K)}
    (hs : SortedX a.rows) (hx : firstIx (fun r : Transect K => fin r.x ==? fin 0) a.rows = .ok X0)
    (hW : ∀ r ∈ a.rows, lagWidth r = fin (W r) ∧ 0 ≤ W r) (he0 : (a.EndX0 ==? fin 0) = false)
    (hne : C1 = false → ∀ r ∈ a.rows, (fin r.x ==? a.EndX0) = false)
    (hw0 : ∀ r, a.rows[X0]? = some r → 0 < W r)
    (h : lagoonStage a X0 C1 = .ok s) (hrs : gather a.rows s.online = .ok rs) :
    ∃ A B, s.startArea = fin A ∧ s.endArea = fin B ∧ A + B + (rs.map W).sum * a.Dx = (a.rows.map W).sum * a.Dx := by
  obtain ⟨q, hq, hq0⟩ := x0_row hx
  have hlt := (List.getElem?_eq_some_iff.mp hq).1
  have hWf : ∀ l : List (Transect K), (∀ r ∈ l, r ∈ a.rows) → lagAreaOf a.Dx l = fin ((l.map W).sum * a.Dx) :=
    fun l hl => lagAreaOf_fin a.Dx W l (fun r hr => (hW r (hl r hr)).1)
  have key : ∀ A B : K, A + B + (rs.map W).sum = (a.rows.map W).sum →
      A * a.Dx + B * a.Dx + (rs.map W).sum * a.Dx = (a.rows.map W).sum * a.Dx := by
    intro A B h; rw [← h]; ring
  unfold lagoonStage at h
  rw [if_neg (by simp [he0])] at h
  split at h
  · rename_i hpos
    have hstart := hWf (a.rows.take X0) (fun r hr => List.mem_of_mem_take hr)
    split at h
    · simp only [bind_ok, pure_ok] at h
      obtain ⟨l, hl, rfl⟩ := h
      obtain ⟨_, hmax⟩ := lastIx_ok.mp hl
      refine ⟨_, 0, hstart, rfl, ?_⟩
      have := key ((a.rows.take X0).map W).sum 0 (by
        rw [sum_gather_rows W _ _ _ hrs (nodup_arangeUp _ _), sum_take_rows, sum_rows, add_zero, ← Finset.sum_add_distrib]
        apply Finset.sum_congr rfl
        intro i hi
        simp only [mem_arangeUp]
        by_cases h1 : i < X0
        · simp [h1, show ¬ (X0 ≤ i) by omega]
        · by_cases h2 : i < l + 1
          · simp [h1, h2, show X0 ≤ i by omega]
          · have hi' : a.rows[i]? = some (a.rows[i]'(by simpa using hi)) := List.getElem?_eq_getElem _
            have h3 := hmax i (by omega) _ hi'
            obtain ⟨h4, h5⟩ := hW _ (List.mem_of_getElem? hi')
            rw [h4] at h3
            simp at h3
            have h6 := le_antisymm h3 h5
            rw [widthAt_some hi', h6]; simp)
      simpa using this
    · rename_i hcl
      simp only [bind_ok, pure_ok] at h
      obtain ⟨l, hl, rfl⟩ := h
      obtain ⟨⟨b, hb, hbp⟩, hmax⟩ := lastIx_ok.mp hl
      refine ⟨_, _, hstart, hWf _ (fun r hr => (List.mem_filter.mp hr).1), key _ _ ?_⟩
      rw [sum_gather_rows W _ _ _ hrs (nodup_arangeUp _ _), sum_take_rows, sum_filter_rows, sum_rows, ← Finset.sum_add_distrib, ← Finset.sum_add_distrib]
      apply Finset.sum_congr rfl
      intro i hi
      have hi' : a.rows[i]? = some (a.rows[i]'(by simpa using hi)) := List.getElem?_eq_getElem _
      have hnan : a.EndX0.isnan = false := by
        cases hE : a.EndX0 <;> rw [hE] at hpos <;> simp [Fl.blt] at hpos ⊢
      have hX : X0 ≤ l := by
        by_contra hc
        have := hmax X0 (by omega) q hq
        rw [hq0, hpos] at this; cases this
      simp only [mem_arangeUp, hi', Option.any_some]
      by_cases h2 : i < l + 1
      · have h3 : (fin (a.rows[i]'(by simpa using hi)).x <? a.EndX0) = true := fin_blt_mono ((hs.le hi' hb).mpr (by omega)) hbp
        rw [not_both h3]
        by_cases h1 : i < X0
        · simp [h1, show ¬ (X0 ≤ i) by omega]
        · simp [h1, h2, show X0 ≤ i by omega]
      · have h3 := hmax i (by omega) _ hi'
        have h4 := trichotomy_fin hnan (hne (by simpa using hcl) _ (List.mem_of_getElem? hi')) h3
        rw [h4]
        simp [h2, show ¬ i < X0 by omega]
  · rename_i hpos
    have hstart := hWf (a.rows.drop (X0+1)) (fun r hr => List.mem_of_mem_drop hr)
    split at h
    · simp only [bind_ok, pure_ok] at h
      obtain ⟨l, hl, rfl⟩ := h
      obtain ⟨_, hmin⟩ := firstIx_ok.mp hl
      refine ⟨_, 0, hstart, rfl, ?_⟩
      have hX : l ≤ X0 := by
        by_contra hc
        have h1 := hmin X0 (by omega) q hq
        rw [(hW q (List.mem_of_getElem? hq)).1] at h1
        simp at h1
        exact absurd (hw0 q hq) (not_lt.mpr h1)
      have := key ((a.rows.drop (X0+1)).map W).sum 0 (by
        rw [sum_gather_rows W _ _ _ hrs (nodup_arangeDown _ _), sum_drop_rows, sum_rows, add_zero, ← Finset.sum_add_distrib]
        apply Finset.sum_congr rfl
        intro i hi
        simp only [mem_arangeDown]
        by_cases h1 : X0 + 1 ≤ i
        · simp [h1, show ¬ (i ≤ X0) by omega]
        · by_cases h2 : l ≤ i
          · simp [h1, h2, show i ≤ X0 by omega]
          · have hi' : a.rows[i]? = some (a.rows[i]'(by simpa using hi)) := List.getElem?_eq_getElem _
            have h3 := hmin i (by omega) _ hi'
            obtain ⟨h4, h5⟩ := hW _ (List.mem_of_getElem? hi')
            rw [h4] at h3
            simp at h3
            have h6 := le_antisymm h3 h5
            rw [widthAt_some hi', h6]; simp)
      simpa using this
    · rename_i hcl
      simp only [bind_ok, pure_ok] at h
      obtain ⟨l, hl, rfl⟩ := h
      obtain ⟨⟨b, hb, hbp⟩, hmin⟩ := firstIx_ok.mp hl
      refine ⟨_, _, hstart, hWf _ (fun r hr => (List.mem_filter.mp hr).1), key _ _ ?_⟩
      rw [sum_gather_rows W _ _ _ hrs (nodup_arangeDown _ _), sum_drop_rows, sum_filter_rows, sum_rows, ← Finset.sum_add_distrib, ← Finset.sum_add_distrib]
      apply Finset.sum_congr rfl
      intro i hi
      have hi' : a.rows[i]? = some (a.rows[i]'(by simpa using hi)) := List.getElem?_eq_getElem _
      have hnan : a.EndX0.isnan = false := by
        cases hE : a.EndX0 <;> rw [hE] at hbp <;> simp [Fl.blt] at hbp ⊢
      have hneg : (a.EndX0 <? fin q.x) = true := by
        rw [hq0]
        have := hne (by simpa using hcl) q (List.mem_of_getElem? hq)
        rw [hq0] at this
        exact trichotomy_fin hnan this (by simpa using hpos)
      have hX : l ≤ X0 := by
        by_contra hc
        have := hmin X0 (by omega) q hq
        rw [hneg] at this; cases this
      simp only [mem_arangeDown, hi', Option.any_some]
      by_cases h2 : l ≤ i
      · have h3 : (a.EndX0 <? fin (a.rows[i]'(by simpa using hi)).x) = true := blt_fin_mono ((hs.le hb hi').mpr h2) hbp
        have h4 : (fin (a.rows[i]'(by simpa using hi)).x <? a.EndX0) = false := by
          by_contra h5
          have := not_both (by simpa using h5 : (fin (a.rows[i]'(by simpa using hi)).x <? a.EndX0) = true)
          rw [h3] at this; cases this
        rw [h4]
        by_cases h1 : X0 + 1 ≤ i
        · simp [h1, show ¬ (i ≤ X0) by omega]
        · simp [h1, h2, show i ≤ X0 by omega]
      · have h3 := hmin i (by omega) _ hi'
        have h4 : (fin (a.rows[i]'(by simpa using hi)).x <? a.EndX0) = true := by
          by_contra h5
          have h6 := trichotomy_fin hnan (hne (by simpa using hcl) _ (List.mem_of_getElem? hi')) (by simpa using h5)
          rw [h3] at h6; cases h6
        rw [h4]
        simp [h2, show ¬ X0 + 1 ≤ i by omega]

theorem sum_set_two (n i j : ℕ) (A B : K) (hij : i ≠ j) (hi : i < n) (hj : j < n) :
    Fl.sum (setAt (setAt (List.replicate n (fin 0)) i (fin A)) j (fin B)) = fin (A + B) := by
  have h : setAt (setAt (List.replicate n (fin (0:K))) i (fin A)) j (fin B) = (((List.replicate n (0:K)).set i A).set j B).map fin := by
    simp [setAt, List.map_set]
  rw [h, sum_map_fin]
  congr 1
  rw [List.sum_set', List.sum_set']
  simp [hi, hj, List.getElem_set_ne hij]

end Verif.Model
