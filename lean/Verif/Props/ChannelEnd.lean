import Verif.Props.Channel
import Mathlib.Algebra.Order.Floor.Ring
import Mathlib.Tactic.Linarith
import Mathlib.Tactic.IntervalCases
import Mathlib.Tactic.Positivity

set_option autoImplicit false
set_option linter.unusedSectionVars false

/-! # Property C31: distance to the outlet end -/

namespace Verif.Props
open Verif Verif.Model Verif.Spec Fl

variable {K : Type} [Field K] [LinearOrder K] [IsStrictOrderedRing K] [FloorRing K]

/-- Transects `Dx` apart, number `i0` being at X = 0. -/
def RegularGrid (rows : List (Transect K)) (Dx : K) : Prop :=
  ∃ i0 : ℤ, ∀ (i : ℕ) r, rows[i]? = some r → r.x = ((i - i0 : ℤ) : K) * Dx

/-- Reach lengths of an open channel: all `Dx` except the one to the outlet end. -/
theorem dx_open (pp : PhysPars K) (a : ChanIn K) (out : ChanOut K) (h : assembleChannel pp a = .ok out) (ho : out.closed = false) :
    2 ≤ out.dx.length ∧
    out.dx[out.dx.length - 2]? = some (fin a.Dx + (if a.EndX0 <? a.EndX1 then flMod a.EndX1 a.Dx else fin a.Dx - flMod a.EndX1 a.Dx)) ∧
    (∀ i, i < out.dx.length → i ≠ out.dx.length - 2 → out.dx[i]? = some (fin a.Dx)) ∧
    out.outlet = outletIx a.rows a.EndX0 a.EndX1 ∧ out.outlet ≠ [] := by
  obtain ⟨X0, r0, w, C1, s1, s, onRows, outRows, H⟩ := assemble_inv h
  obtain ⟨m, hm0, hshape, hbnd⟩ := H.shape
  have hon : 0 < s.online.length := by rw [← H.online, hshape]; simpa using hm0
  obtain ⟨hC1, _⟩ := H.closed_of ho
  have hox : out.outlet = outletIx a.rows a.EndX0 a.EndX1 := by
    rcases outlet_inv H.outlet with ⟨_, _, h3⟩ | ⟨_, rs, _, _, h5⟩
    · rw [hC1] at h3; cases h3
    · rcases h5 with ⟨h5, _⟩ | ⟨_, h5, _⟩
      · rw [hC1] at h5; cases h5
      · exact h5
  have hg := H.geom
  unfold chanGeom at hg
  simp only [Prod.mk.injEq] at hg
  have g1 := hg.1
  rw [ho] at g1
  simp only [Bool.false_eq_true, if_false] at g1
  have hne := (H.lens.2 ho).2.2
  have hpos : 0 < out.outlet.length := List.length_pos_iff.mpr hne
  have hlen : out.dx.length = a.RiverElev.length + s.online.length + out.outlet.length + 1 := by rw [g1]; simp [addAt]
  refine ⟨by omega, ?_, ?_, hox, hne⟩
  · rw [hlen, g1]
    unfold addAt
    rw [List.getElem?_modify]
    have : a.RiverElev.length + s.online.length + out.outlet.length + 1 - 2 < a.RiverElev.length + s.online.length + out.outlet.length + 1 := by omega
    simp only [this, List.getElem?_replicate, if_true, Option.map_some]
    rfl
  · intro i hi hi2
    rw [hlen] at hi hi2
    rw [g1]
    unfold addAt
    rw [List.getElem?_modify]
    have : ¬ (a.RiverElev.length + s.online.length + out.outlet.length + 1 - 2 = i) := fun h => hi2 h.symm
    simp only [if_neg this]
    simp [hi]

/-- All other reach lengths are `Dx`, also when closed. -/
theorem C31_other_reaches (pp : PhysPars K) (a : ChanIn K) (out : ChanOut K) (h : assembleChannel pp a = .ok out) (i : ℕ)
    (hi : i < out.dx.length) (hne : out.closed = true ∨ i ≠ out.dx.length - 2) : out.dx[i]? = some (fin a.Dx) := by
  cases ho : out.closed with
  | false => exact (dx_open pp a out h ho).2.2.1 i hi (by simpa [ho] using hne)
  | true =>
    obtain ⟨X0, r0, w, C1, s1, s, onRows, outRows, H⟩ := assemble_inv h
    have hg := H.geom
    unfold chanGeom at hg
    simp only [Prod.mk.injEq] at hg
    have g1 := hg.1
    rw [ho] at g1
    simp only [if_true] at g1
    rw [g1] at hi ⊢
    rw [List.getElem?_replicate]
    simp only [List.length_replicate] at hi
    simp [hi]

/-- The last outlet transect and the outlet end, left to right. -/
theorem last_LR (rows : List (Transect K)) (Dx e0 e1 : K) (hDx : 0 < Dx) (hg : RegularGrid rows Dx)
    (he : e0 < e1) (hcov : ∃ r ∈ rows, e1 < r.x + Dx) (hne : outletIx rows (fin e0) (fin e1) ≠ []) :
    ∃ i r, (outletIx rows (fin e0) (fin e1)).getLast? = some i ∧ rows[i]? = some r ∧ r.x = (⌊e1 / Dx⌋ : K) * Dx := by
  obtain ⟨i0, hgrid⟩ := hg
  have hmem := outletIx_mem rows e0 e1
  have hsort : (outletIx rows (fin e0) (fin e1)).Pairwise (· < ·) := by
    unfold outletIx; rw [if_pos (by simpa using he)]; exact whereIx_sorted _ _
  obtain ⟨i, hi⟩ : ∃ i, (outletIx rows (fin e0) (fin e1)).getLast? = some i := ⟨_, List.getLast?_eq_getLast_of_ne_nil hne⟩
  have him := List.mem_of_getLast? hi
  obtain ⟨r, hr, hin⟩ := (hmem i).mp him
  unfold InOutlet at hin
  rw [min_eq_left (le_of_lt he), max_eq_right (le_of_lt he)] at hin
  refine ⟨i, r, hi, hr, ?_⟩
  have hx := hgrid i r hr
  have hle : (i - i0 : ℤ) ≤ ⌊e1 / Dx⌋ := by
    rw [Int.le_floor, le_div_iff₀ hDx, ← hx]; exact hin.2
  have hfl : (⌊e1 / Dx⌋ : K) * Dx ≤ e1 := by
    have := Int.floor_le (e1 / Dx); rwa [le_div_iff₀ hDx] at this
  rcases lt_or_eq_of_le hle with hlt | heq
  · exfalso
    obtain ⟨q, hq, hqe⟩ := hcov
    obtain ⟨j, hj⟩ := List.mem_iff_getElem?.mp hq
    have hxj := hgrid j q hj
    have hj2 : ⌊e1 / Dx⌋ ≤ (j - i0 : ℤ) := by
      by_contra hc
      have hc2 : (j - i0 : ℤ) + 1 ≤ ⌊e1 / Dx⌋ := by omega
      have hc3 : (((j - i0 : ℤ) + 1 : ℤ) : K) ≤ (⌊e1 / Dx⌋ : K) := Int.cast_le.mpr hc2
      have hc4 := mul_le_mul_of_nonneg_right hc3 (le_of_lt hDx)
      rw [Int.cast_add, Int.cast_one, add_mul, one_mul, ← hxj] at hc4
      linarith
    have hjlen := (List.getElem?_eq_some_iff.mp hj).1
    have hi1 : rows[i+1]? = some (rows[i+1]'(by omega)) := List.getElem?_eq_getElem _
    have hx1 := hgrid (i+1) _ hi1
    have hle1 : (((i : ℤ) + 1 - i0 : ℤ) : K) ≤ (⌊e1 / Dx⌋ : K) := Int.cast_le.mpr (by omega)
    have hle2 := mul_le_mul_of_nonneg_right hle1 (le_of_lt hDx)
    have hge1 : ((i - i0 : ℤ) : K) ≤ (((i : ℤ) + 1 - i0 : ℤ) : K) := Int.cast_le.mpr (by omega)
    have hge2 := mul_le_mul_of_nonneg_right hge1 (le_of_lt hDx)
    have hcast : (((i+1 : ℕ) : ℤ) - i0 : ℤ) = (i : ℤ) + 1 - i0 := by push_cast; ring
    rw [hcast] at hx1
    have hm1 : i + 1 ∈ outletIx rows (fin e0) (fin e1) := by
      rw [hmem]
      refine ⟨_, hi1, ?_⟩
      unfold InOutlet
      rw [min_eq_left (le_of_lt he), max_eq_right (le_of_lt he)]
      rw [← hx1] at hle2 hge2
      rw [← hx] at hge2
      exact ⟨le_trans hin.1 hge2, le_trans hle2 hfl⟩
    obtain ⟨t, ht⟩ := List.getLast?_eq_some_iff.mp hi
    rw [ht] at hm1 hsort
    rcases List.mem_append.mp hm1 with hm2 | hm2
    · have := (List.pairwise_append.mp hsort).2.2 _ hm2 i (by simp)
      omega
    · simp at hm2
  · rw [hx, heq]

/-- The last outlet transect and the outlet end, right to left (or in line). -/
theorem last_RL (rows : List (Transect K)) (Dx e0 e1 : K) (hDx : 0 < Dx) (hg : RegularGrid rows Dx)
    (he : e1 ≤ e0) (hcov : ∃ r ∈ rows, r.x - Dx < e1) (hne : outletIx rows (fin e0) (fin e1) ≠ []) :
    ∃ i r, (outletIx rows (fin e0) (fin e1)).getLast? = some i ∧ rows[i]? = some r ∧ r.x = (⌈e1 / Dx⌉ : K) * Dx := by
  obtain ⟨i0, hgrid⟩ := hg
  have hmem := outletIx_mem rows e0 e1
  have hsort : (outletIx rows (fin e0) (fin e1)).Pairwise (· > ·) := by
    unfold outletIx; rw [if_neg (by simpa using he), List.pairwise_reverse]; exact whereIx_sorted _ _
  obtain ⟨i, hi⟩ : ∃ i, (outletIx rows (fin e0) (fin e1)).getLast? = some i := ⟨_, List.getLast?_eq_getLast_of_ne_nil hne⟩
  have him := List.mem_of_getLast? hi
  obtain ⟨r, hr, hin⟩ := (hmem i).mp him
  unfold InOutlet at hin
  rw [min_eq_right he, max_eq_left he] at hin
  refine ⟨i, r, hi, hr, ?_⟩
  have hx := hgrid i r hr
  have hle : ⌈e1 / Dx⌉ ≤ (i - i0 : ℤ) := by
    rw [Int.ceil_le, div_le_iff₀ hDx, ← hx]; exact hin.1
  have hfl : e1 ≤ (⌈e1 / Dx⌉ : K) * Dx := by
    have := Int.le_ceil (e1 / Dx); rwa [div_le_iff₀ hDx] at this
  rcases lt_or_eq_of_le hle with hlt | heq
  · exfalso
    obtain ⟨q, hq, hqe⟩ := hcov
    obtain ⟨j, hj⟩ := List.mem_iff_getElem?.mp hq
    have hxj := hgrid j q hj
    have hj2 : (j - i0 : ℤ) ≤ ⌈e1 / Dx⌉ := by
      by_contra hc
      have hc2 : ⌈e1 / Dx⌉ ≤ (j - i0 : ℤ) - 1 := by omega
      have hc3 : (⌈e1 / Dx⌉ : K) ≤ (((j - i0 : ℤ) - 1 : ℤ) : K) := Int.cast_le.mpr hc2
      have hc4 := mul_le_mul_of_nonneg_right hc3 (le_of_lt hDx)
      rw [Int.cast_sub, Int.cast_one, sub_mul, one_mul, ← hxj] at hc4
      linarith
    have hi1' : 1 ≤ i := by omega
    have hilen := (List.getElem?_eq_some_iff.mp hr).1
    have hi1 : rows[i-1]? = some (rows[i-1]'(by omega)) := List.getElem?_eq_getElem _
    have hx1 := hgrid (i-1) _ hi1
    have hcast : (((i-1 : ℕ) : ℤ) - i0 : ℤ) = (i : ℤ) - 1 - i0 := by omega
    rw [hcast] at hx1
    have hle1 : (⌈e1 / Dx⌉ : K) ≤ (((i : ℤ) - 1 - i0 : ℤ) : K) := Int.cast_le.mpr (by omega)
    have hle2 := mul_le_mul_of_nonneg_right hle1 (le_of_lt hDx)
    have hge1 : (((i : ℤ) - 1 - i0 : ℤ) : K) ≤ ((i - i0 : ℤ) : K) := Int.cast_le.mpr (by omega)
    have hge2 := mul_le_mul_of_nonneg_right hge1 (le_of_lt hDx)
    have hm1 : i - 1 ∈ outletIx rows (fin e0) (fin e1) := by
      rw [hmem]
      refine ⟨_, hi1, ?_⟩
      unfold InOutlet
      rw [min_eq_right he, max_eq_left he]
      rw [← hx1] at hle2 hge2
      rw [← hx] at hge2
      exact ⟨le_trans hfl hle2, le_trans hge2 hin.2⟩
    obtain ⟨t, ht⟩ := List.getLast?_eq_some_iff.mp hi
    rw [ht] at hm1 hsort
    rcases List.mem_append.mp hm1 with hm2 | hm2
    · have := (List.pairwise_append.mp hsort).2.2 _ hm2 i (by simp)
      omega
    · simp at hm2; omega
  · rw [hx, ← heq]

/-- C31, partial: on a regular grid that covers the outlet end, the last-but-one reach length of an
open channel is `Dx` plus the distance from the last outlet transect `i` to the outlet end `e1`:
always for an outlet running left to right, and otherwise unless `e1` is a multiple of `Dx`.
Missing: that last case, in which it is false (`C31_at_multiple`). -/
theorem C31_partial (pp : PhysPars K) (a : ChanIn K) (out : ChanOut K) (e0 e1 : K) (hDx : 0 < a.Dx) (hg : RegularGrid a.rows a.Dx)
    (he0 : a.EndX0 = fin e0) (he1 : a.EndX1 = fin e1) (h : assembleChannel pp a = .ok out) (ho : out.closed = false)
    (hcov : (e0 < e1 ∧ ∃ r ∈ a.rows, e1 < r.x + a.Dx) ∨
      (e1 ≤ e0 ∧ (∃ r ∈ a.rows, r.x - a.Dx < e1) ∧ ∀ z : ℤ, e1 ≠ z * a.Dx)) :
    ∃ i r, out.outlet.getLast? = some i ∧ a.rows[i]? = some r ∧
      out.dx[out.dx.length - 2]? = some (fin (a.Dx + |r.x - e1|)) := by
  obtain ⟨_, h1, _, h2, h3⟩ := dx_open pp a out h ho
  rw [h1, h2, he0, he1]
  rw [h2, he0, he1] at h3
  have hmod : flMod (fin e1) a.Dx = fin (e1 - a.Dx * (⌊e1 / a.Dx⌋ : K)) := by simp [flMod, ne_of_gt hDx]
  rw [hmod]
  have hfl : (⌊e1 / a.Dx⌋ : K) * a.Dx ≤ e1 := by
    have := Int.floor_le (e1 / a.Dx); rwa [le_div_iff₀ hDx] at this
  rcases hcov with ⟨hlt, hc⟩ | ⟨hle, hc, hz⟩
  · obtain ⟨i, r, hi, hr, hx⟩ := last_LR a.rows a.Dx e0 e1 hDx hg hlt hc h3
    refine ⟨i, r, hi, hr, ?_⟩
    rw [if_pos (by simpa using hlt), hx, abs_of_nonpos (by linarith)]
    rw [add_fin]; congr 2; ring
  · obtain ⟨i, r, hi, hr, hx⟩ := last_RL a.rows a.Dx e0 e1 hDx hg hle hc h3
    refine ⟨i, r, hi, hr, ?_⟩
    have hceil : ⌈e1 / a.Dx⌉ = ⌊e1 / a.Dx⌋ + 1 := by
      rw [Int.ceil_eq_iff]
      constructor
      · have h4 : (⌊e1 / a.Dx⌋ : K) ≤ e1 / a.Dx := Int.floor_le _
        have h5 : (⌊e1 / a.Dx⌋ : K) ≠ e1 / a.Dx := by
          intro h6
          apply hz ⌊e1 / a.Dx⌋
          rw [h6, div_mul_cancel₀ _ (ne_of_gt hDx)]
        push_cast
        have := lt_of_le_of_ne h4 h5
        linarith
      · push_cast
        exact le_of_lt (Int.lt_floor_add_one _)
    have hce : e1 ≤ (⌈e1 / a.Dx⌉ : K) * a.Dx := by
      have := Int.le_ceil (e1 / a.Dx); rwa [div_le_iff₀ hDx] at this
    rw [if_neg (by simpa using hle), hx, abs_of_nonneg (by linarith), hceil]
    rw [sub_fin, add_fin]; congr 2; push_cast; ring

/-- C31 is false of every open channel on such a grid whose outlet runs right to left (or straight)
and ends on a transect: the reach length is `2 Dx` although the last outlet transect is at the
outlet end. -/
theorem C31_at_multiple (pp : PhysPars K) (a : ChanIn K) (out : ChanOut K) (e0 : K) (z : ℤ) (hDx : 0 < a.Dx) (hg : RegularGrid a.rows a.Dx)
    (he0 : a.EndX0 = fin e0) (he1 : a.EndX1 = fin (z * a.Dx)) (h : assembleChannel pp a = .ok out) (ho : out.closed = false)
    (hle : z * a.Dx ≤ e0) (hcov : ∃ r ∈ a.rows, r.x - a.Dx < z * a.Dx) :
    ∃ i r, out.outlet.getLast? = some i ∧ a.rows[i]? = some r ∧ r.x = z * a.Dx ∧
      out.dx[out.dx.length - 2]? = some (fin (2 * a.Dx)) := by
  obtain ⟨_, h1, _, h2, h3⟩ := dx_open pp a out h ho
  rw [h1, h2, he0, he1]
  rw [h2, he0, he1] at h3
  have hdiv : (z : K) * a.Dx / a.Dx = z := mul_div_cancel_right₀ _ (ne_of_gt hDx)
  have hmod : flMod (fin ((z : K) * a.Dx)) a.Dx = fin 0 := by
    simp [flMod, ne_of_gt hDx, mul_comm]
  obtain ⟨i, r, hi, hr, hx⟩ := last_RL a.rows a.Dx e0 _ hDx hg hle hcov h3
  refine ⟨i, r, hi, hr, ?_, ?_⟩
  · rw [hx, hdiv]; simp
  · rw [hmod, if_neg (by simpa using hle), sub_fin, add_fin]; congr 2; ring

/-- C31 refuted: a concrete channel for which the claim fails. -/
theorem C31_refuted : ∃ (a : ChanIn ℚ) (out : ChanOut ℚ) (i : ℕ) (r : Transect ℚ), assembleChannel chPP a = .ok out ∧
    out.closed = false ∧ a.EndX1 = fin 20 ∧ out.outlet.getLast? = some i ∧ a.rows[i]? = some r ∧
    out.dx[out.dx.length - 2]? ≠ some (fin (a.Dx + |r.x - 20|)) := by
  let a : ChanIn ℚ := { chIn with
    EndX0 := fin 25
    EndX1 := fin 20 }
  obtain ⟨out, h1, h2, h3, h4⟩ := ok_witness (x := assembleChannel chPP a)
    (fun out => out.closed = false ∧ out.outlet.getLast? = some 5 ∧ out.dx[out.dx.length - 2]? ≠ some (fin (10 + |(20:ℚ) - 20|))) (by decide +kernel)
  exact ⟨a, out, 5, chRow 20, h1, h2, rfl, h3, by decide +kernel, h4⟩

/-- The sample channel meets the hypotheses of `C31_partial`. -/
example : RegularGrid chIn.rows chIn.Dx := by
  refine ⟨3, ?_⟩
  intro i r hr
  have hi : i < 7 := (List.getElem?_eq_some_iff.mp hr).1
  interval_cases i <;> (simp [chIn, chRow] at hr; subst hr; norm_num [chIn])
example : okAnd (assembleChannel chPP chIn) (fun out => !out.closed && out.dx[out.dx.length - 2]? == some (fin 14)) = true := by decide +kernel
example : (15:ℚ) < 24 ∧ ∃ r ∈ chIn.rows, 24 < r.x + chIn.Dx := by decide +kernel

end Verif.Props
