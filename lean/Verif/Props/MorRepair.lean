import Verif.Lemmas.MorRiver
import Verif.Props.MorSample
import Mathlib.Tactic.LinearCombination

set_option autoImplicit false
set_option linter.unusedSectionVars false

/-! # Properties C39-C42 and C44: repairs of single transects -/

namespace Verif.Props
open Verif Verif.Model Verif.Spec Fl

variable {K : Type} [Field K] [LinearOrder K] [IsStrictOrderedRing K]

/-! ## C39 -/

/-- `t'` is the transect `t` after the shoreline-cliff repair: untouched when the beach has a width, else with a 1 mm beach, the lagoon edge on
the cliff, and as much sediment put on the shoreface (height `h`) as was taken from the cliff (top at `B`). -/
def CliffRepaired (B h : K) (t t' : Transect K) : Prop :=
  ∃ y0 y4 z0 : K, t.y0 = fin y0 ∧ t.y4 = fin y4 ∧ t.z0 = fin z0 ∧
    (y4 < y0 → t' = t) ∧
    (y0 ≤ y4 → ∃ y0' y4' : K, t' = { t with y0 := fin y0', y3 := fin y4', y4 := fin y4' } ∧ y0' - y4' = 1 / 1000 ∧
      (y4 - y4') * (B - z0) = (y0' - y0) * h ∧ y4' < y4 ∧ (z0 ≤ B → y0 ≤ y0'))

/-- C39: the repair of one transect, for every shoreface height and cliff above the sea bed. -/
theorem C39_cell (pp : PhysPars K) (c : Cell K) {y0 y4 z0 h : K} (e0 : c.t.y0 = fin y0) (e4 : c.t.y4 = fin y4) (ez : c.t.z0 = fin z0) (eh : c.sfh = fin h)
    (hh : 0 < h) (hB : 0 < h + (pp.BackshoreElev - z0)) : CliffRepaired pp.BackshoreElev h c.t (cliffCell pp c).t := by
  refine ⟨y0, y4, z0, e0, e4, ez, ?_, ?_⟩
  · intro hlt
    unfold cliffCell
    simp only [e0, e4, ble_fin, hlt.not_ge, decide_false, Bool.false_eq_true, if_false]
  · intro hle
    have hd : 1 + (pp.BackshoreElev - z0) / h = (h + (pp.BackshoreElev - z0)) / h := by field_simp
    have hpos : 0 < 1 + (pp.BackshoreElev - z0) / h := by rw [hd]; positivity
    have ho : 0 < y4 - y0 + 1 / 1000 := by linarith [show (0 : K) < 1 / 1000 by norm_num]
    refine ⟨y0 + ((y4 - y0 + 1/1000) - (y4 - y0 + 1/1000) / (1 + (pp.BackshoreElev - z0) / h)),
      y4 - (y4 - y0 + 1/1000) / (1 + (pp.BackshoreElev - z0) / h), ?_, ?_, ?_, ?_, ?_⟩
    · unfold cliffCell
      simp only [e0, e4, ez, eh, ble_fin, hle, decide_true, if_true, sub_fin, add_fin, div_fin _ _ hh.ne', div_fin _ _ hpos.ne']
    · ring
    · rw [hd]; field_simp; ring
    · have : 0 < (y4 - y0 + 1/1000) / (1 + (pp.BackshoreElev - z0) / h) := by positivity
      linarith
    · intro hz
      have h1 : 1 ≤ 1 + (pp.BackshoreElev - z0) / h := by
        have : 0 ≤ (pp.BackshoreElev - z0) / h := div_nonneg (by linarith) hh.le
        linarith
      have : (y4 - y0 + 1/1000) / (1 + (pp.BackshoreElev - z0) / h) ≤ y4 - y0 + 1/1000 := div_le_self ho.le h1
      linarith

/-- C39 in the repair stage of a step with a closed outlet: every transect without a channel comes out of the stage
repaired, and nothing else has happened to it. -/
theorem C39_stage (pp : PhysPars K) (Dx : K) (st st' : MorSt K) (h : repairStage pp true Dx st = .ok st') (hix : st.ix = [])
    {i : ℕ} {c : Cell K} (hi : st.cells[i]? = some c) (hop : c.op = false) {y0 y4 z0 hh : K} (e0 : c.t.y0 = fin y0) (e4 : c.t.y4 = fin y4)
    (ez : c.t.z0 = fin z0) (eh : c.sfh = fin hh) (hpos : 0 < hh) (hB : 0 < hh + (pp.BackshoreElev - z0)) :
    ∃ c', st'.cells[i]? = some c' ∧ CliffRepaired pp.BackshoreElev hh c.t c'.t := by
  unfold repairStage at h
  simp only [bind_ok] at h
  obtain ⟨s1, h1, cs, h2, s3, h3, s4, h4, s5, h5, s6, h6, h7⟩ := h
  have e1 : s1.cells = st.cells ∧ s1.ix = st.ix := by
    unfold edgeCheck at h1
    simp only [bind_ok, pure_ok] at h1
    obtain ⟨_, _, _, _, rfl⟩ := h1
    exact ⟨rfl, rfl⟩
  have e3 : s3 = { s1 with cells := cs } := by
    unfold elongate at h3
    simp only [if_true, pure_ok] at h3
    exact h3.symm
  have e4' : s4 = s3 := by
    unfold seaPrevent at h4
    simp only [if_true, pure_ok] at h4
    exact h4.symm
  have ix4 : s4.ix = [] := by rw [e4', e3]; exact e1.2.trans hix
  have e5 : s5 = s4 := by
    unfold lagoonTrunc at h5
    rw [ix4] at h5
    simp only [List.length_nil, Nat.zero_le, if_true, pure_ok] at h5
    exact h5.symm
  have e6 : s6 = s5 := by
    unfold seaTrunc at h6
    rw [e5, ix4] at h6
    simp only [List.length_nil, Nat.zero_le, if_true, pure_ok] at h6
    rw [e5]; exact h6.symm
  have e7 : st' = s6 := by
    unfold lagoonPrevent at h7
    simp only [if_true, pure_ok] at h7
    exact h7.symm
  have ecs : st'.cells = cs := by rw [e7, e6, e5, e4', e3]
  rw [ecs]
  have hc1 : (s1.cells.map (cliffCell pp))[i]? = some (cliffCell pp c) := by
    rw [e1.1, List.getElem?_map, hi]; rfl
  have hop1 : (cliffCell pp c).op = false := by
    unfold cliffCell; dsimp only; split <;> exact hop
  have how : overwashCell (cliffCell pp c) = cliffCell pp c := by
    unfold overwashCell negWidth
    rw [hop1]; rfl
  unfold overwashRepair at h2
  simp only [bind_ok, pyAssert_ok] at h2
  obtain ⟨_, _, _, _, h2⟩ := h2
  split at h2
  · simp only [pure_ok] at h2
    subst h2
    refine ⟨_, by rw [List.getElem?_map, List.getElem?_map, hc1]; rfl, ?_⟩
    show CliffRepaired _ _ _ (overwashCell (cliffCell pp c)).t
    rw [how]
    exact C39_cell pp c e0 e4 ez eh hpos hB
  · simp only [pure_ok] at h2
    subst h2
    refine ⟨_, by rw [List.getElem?_map, hc1]; rfl, ?_⟩
    rw [how]
    exact C39_cell pp c e0 e4 ez eh hpos hB

/-- A transect of `moIn` with the shoreline 2 m behind the cliff line. -/
def cliffHit : Cell ℚ :=
  { t := { x := 0, y0 := fin (-2), y1 := nan, y2 := nan, y3 := fin 0, y4 := fin 0, z0 := fin 3, z1 := nan, z2 := nan, z3 := fin 0 },
    sfh := fin 13, cw := fin 5, bh := fin 3, op := false, lo := true, wl := fin 1 }

/-- Concrete case for C39: the cliff retreats and the shoreline advances. -/
example : (cliffCell moPP cliffHit).t ≠ cliffHit.t ∧ ((cliffCell moPP cliffHit).t.y4 <? fin 0) = true := by decide +kernel

/-! ## C40 -/

/-- Sand in the barrier above the datum, per unit length of coast, for a barrier with a channel of zero width at `y2`: crest `z0` seaward of it, crest `z2`
landward of it. -/
def barrierSand (y0 y2 y3 z0 z2 : K) : K := z0 * (y0 - y2) + z2 * (y2 - y3)

/-- C40, the part that holds, for every transect on which overwash would close the channel beyond zero width.  `bh` and `cw` are the height and crest width
of the seaward barrier at the start of the step, so `(y2 - y1) * bh` is the volume of overwash that did not fit.
The channel is left with exactly zero width, or removed; no crest is lowered; and the barrier gains exactly the overwash that did not fit if
the landward crest is the lower one, or if the crest width has not changed during the step.  Missing: the
volume when the seaward crest is the lower one and the crest width has changed, refuted below. -/
theorem C40_partial (cells cells' : List (Cell K)) (h : overwashRepair cells = .ok cells') {i : ℕ} {c : Cell K} (hi : cells[i]? = some c) (hop : c.op = true)
    {y0 y1 y2 y3 z0 z2 bh cw : K} (e0 : c.t.y0 = fin y0) (e1 : c.t.y1 = fin y1) (e2 : c.t.y2 = fin y2) (e3 : c.t.y3 = fin y3) (ez0 : c.t.z0 = fin z0)
    (ez2 : c.t.z2 = fin z2) (eb : c.bh = fin bh) (ew : c.cw = fin cw) (hcw : 0 < cw) (hy : y3 < y0) (hneg : y1 < y2) :
    ∃ c', cells'[i]? = some c' ∧ c'.t.x = c.t.x ∧ c'.t.y0 = c.t.y0 ∧ c'.t.y3 = c.t.y3 ∧ c'.t.y4 = c.t.y4 ∧ c'.t.z3 = c.t.z3 ∧
      ((∃ z0' z2', c'.t.y1 = fin y2 ∧ c'.t.y2 = fin y2 ∧ c'.t.z1 = c.t.z1 ∧ c'.t.z0 = fin z0' ∧ c'.t.z2 = fin z2' ∧ z0 ≤ z0' ∧ z2 ≤ z2' ∧
          (z2 < z0 ∨ cw = y0 - y2 → barrierSand y0 y2 y3 z0' z2' - barrierSand y0 y2 y3 z0 z2 = (y2 - y1) * bh)) ∨
       (∃ z0', c'.t.y1 = nan ∧ c'.t.y2 = nan ∧ c'.t.z1 = nan ∧ c'.t.z2 = nan ∧ c'.op = false ∧ c'.t.z0 = fin z0' ∧ z0 ≤ z0' ∧ z2 ≤ z0' ∧
          (z2 < z0 ∨ cw = y0 - y2 → barrierSand y0 y2 y3 z0' z0' - barrierSand y0 y2 y3 z0 z2 = (y2 - y1) * bh))) := by
  unfold overwashRepair at h
  simp only [bind_ok, pyAssert_ok] at h
  obtain ⟨_, ha1, _, ha2, h⟩ := h
  have hnw : negWidth c = true := by unfold negWidth; rw [hop, e1, e2]; simp [hneg]
  have hmem : overwashOf c ∈ (cells.filter negWidth).map overwashOf :=
    List.mem_map.mpr ⟨c, List.mem_filter.mpr ⟨List.mem_of_getElem? hi, hnw⟩, rfl⟩
  have hv := List.all_eq_true.mp ha1 _ hmem
  have hu := List.all_eq_true.mp ha2 _ hmem
  obtain ⟨⟨x, a0, a1, a2, a3, y4, b0, z1, b2, z3⟩, sfh, cw', bh', op, lo, wl⟩ := c
  simp only at e0 e1 e2 e3 ez0 ez2 eb ew hop
  subst e0 e1 e2 e3 ez0 ez2 eb ew hop
  set V := (y2 - y1) * bh with hV
  have hget : ∃ c', cells'[i]? = some c' ∧ c'.t = (overwashCell (⟨⟨x, fin y0, fin y1, fin y2, fin y3, y4, fin z0, z1, fin z2, z3⟩, sfh, fin cw, fin bh, true, lo, wl⟩ : Cell K)).t ∧
      ((overwashOf (⟨⟨x, fin y0, fin y1, fin y2, fin y3, y4, fin z0, z1, fin z2, z3⟩, sfh, fin cw, fin bh, true, lo, wl⟩ : Cell K)).leveled = true → c'.op = !c'.t.y1.isnan) := by
    split at h
    · simp only [pure_ok] at h
      subst h
      refine ⟨{ overwashCell _ with op := !(overwashCell _).t.y1.isnan }, ?_, rfl, fun _ => rfl⟩
      rw [List.getElem?_map, List.getElem?_map, hi]; rfl
    · rename_i hno
      simp only [pure_ok] at h
      subst h
      refine ⟨_, by rw [List.getElem?_map, hi]; rfl, rfl, fun hl => ?_⟩
      exact absurd (List.any_eq_true.mpr ⟨_, hmem, hl⟩) hno
  obtain ⟨c', hc', ht, hopl⟩ := hget
  refine ⟨c', hc', ?_⟩
  rw [ht]
  have hnw' : decide (y1 < y2) = true := by simpa using hneg
  have hsub : y1 + (y2 - y1) = y2 := by ring
  rcases le_or_gt z0 z2 with hz | hz
  · -- seaward crest lower
    have hz' : 0 ≤ z2 - z0 := by linarith
    by_cases hl : (z2 - z0) * cw < V
    · -- levelled
      have hc1 : overwashOf (⟨⟨x, fin y0, fin y1, fin y2, fin y3, y4, fin z0, z1, fin z2, z3⟩, sfh, fin cw, fin bh, true, lo, wl⟩ : Cell K) =
          ⟨fin (y2 - y1), fin V, fin ((z2 - z0) * cw), false, false, true⟩ := by
        simp only [overwashOf, sub_fin, mul_fin, ble_fin, blt_fin, hz', decide_true, if_true, ← hV, hl, Bool.not_true, Bool.and_false]
      have hyy : y0 - y3 ≠ 0 := by linarith [sub_pos.mpr hy] |> fun h : 0 < y0 - y3 => h.ne'
      have hc2 : (overwashCell (⟨⟨x, fin y0, fin y1, fin y2, fin y3, y4, fin z0, z1, fin z2, z3⟩, sfh, fin cw, fin bh, true, lo, wl⟩ : Cell K)).t =
          ⟨x, fin y0, nan, nan, fin y3, y4, fin (z2 + (V - (z2 - z0) * cw) / (y0 - y3)), nan, nan, z3⟩ := by
        unfold overwashCell
        rw [hnw, if_pos rfl, hc1]
        simp only [Bool.false_eq_true, if_false, if_true, npmax_fin, sub_fin, div_fin _ _ hyy, add_fin, max_eq_right hz]
      rw [hc2]
      have hg : 0 < (V - (z2 - z0) * cw) / (y0 - y3) := div_pos (by linarith) (by linarith)
      refine ⟨rfl, rfl, rfl, rfl, rfl, Or.inr ⟨z2 + (V - (z2 - z0) * cw) / (y0 - y3), rfl, rfl, rfl, rfl, ?_, rfl, by linarith, by linarith, ?_⟩⟩
      · rw [hopl (by rw [hc1]), ht, hc2]; rfl
      · rintro (h | h)
        · linarith
        · unfold barrierSand
          have e : (V - (z2 - z0) * cw) / (y0 - y3) * (y0 - y3) = V - (z2 - z0) * cw := div_mul_cancel₀ _ hyy
          subst h
          linear_combination e
    · have hc1 : overwashOf (⟨⟨x, fin y0, fin y1, fin y2, fin y3, y4, fin z0, z1, fin z2, z3⟩, sfh, fin cw, fin bh, true, lo, wl⟩ : Cell K) =
          ⟨fin (y2 - y1), fin V, fin ((z2 - z0) * cw), true, false, false⟩ := by
        simp only [overwashOf, sub_fin, mul_fin, ble_fin, blt_fin, hz', decide_true, if_true, ← hV, hl, decide_false, Bool.not_false, Bool.and_true, hz'.not_gt]
      have hc2 : (overwashCell (⟨⟨x, fin y0, fin y1, fin y2, fin y3, y4, fin z0, z1, fin z2, z3⟩, sfh, fin cw, fin bh, true, lo, wl⟩ : Cell K)).t =
          ⟨x, fin y0, fin y2, fin y2, fin y3, y4, fin (z0 + V / cw), z1, fin z2, z3⟩ := by
        unfold overwashCell
        rw [hnw, if_pos rfl, hc1]
        simp only [Bool.false_eq_true, if_false, if_true, div_fin _ _ hcw.ne', add_fin, hsub]
      rw [hc2]
      refine ⟨rfl, rfl, rfl, rfl, rfl, Or.inl ⟨z0 + V / cw, z2, rfl, rfl, rfl, rfl, rfl, ?_, le_refl _, ?_⟩⟩
      · rw [hc1] at hv
        have hv' : 0 < V := by simpa using hv
        have : 0 ≤ V / cw := div_nonneg hv'.le hcw.le
        linarith
      · rintro (h | h)
        · linarith
        · unfold barrierSand
          rw [← h]
          have e : V / cw * cw = V := div_mul_cancel₀ _ hcw.ne'
          linear_combination e
  · -- landward crest lower
    have hz' : ¬ (0 ≤ z2 - z0) := by linarith
    have hz'' : z2 - z0 < 0 := by linarith
    by_cases hl : (z2 - z0) * -(y2 - y3) < V
    · have hc1 : overwashOf (⟨⟨x, fin y0, fin y1, fin y2, fin y3, y4, fin z0, z1, fin z2, z3⟩, sfh, fin cw, fin bh, true, lo, wl⟩ : Cell K) =
          ⟨fin (y2 - y1), fin V, fin ((z2 - z0) * -(y2 - y3)), false, false, true⟩ := by
        simp only [overwashOf, sub_fin, mul_fin, neg_fin, ble_fin, blt_fin, hz', hz'', decide_true, decide_false, Bool.false_eq_true, if_false, if_true, ← hV, hl, Bool.not_true, Bool.and_false]
      have hyy : y0 - y3 ≠ 0 := by linarith [sub_pos.mpr hy] |> fun h : 0 < y0 - y3 => h.ne'
      have hc2 : (overwashCell (⟨⟨x, fin y0, fin y1, fin y2, fin y3, y4, fin z0, z1, fin z2, z3⟩, sfh, fin cw, fin bh, true, lo, wl⟩ : Cell K)).t =
          ⟨x, fin y0, nan, nan, fin y3, y4, fin (z0 + (V - (z2 - z0) * -(y2 - y3)) / (y0 - y3)), nan, nan, z3⟩ := by
        unfold overwashCell
        rw [hnw, if_pos rfl, hc1]
        simp only [Bool.false_eq_true, if_false, if_true, npmax_fin, sub_fin, div_fin _ _ hyy, add_fin, max_eq_left hz.le]
      rw [hc2]
      have hg : 0 < (V - (z2 - z0) * -(y2 - y3)) / (y0 - y3) := div_pos (by linarith) (by linarith)
      refine ⟨rfl, rfl, rfl, rfl, rfl, Or.inr ⟨z0 + (V - (z2 - z0) * -(y2 - y3)) / (y0 - y3), rfl, rfl, rfl, rfl, ?_, rfl, by linarith, by linarith, ?_⟩⟩
      · rw [hopl (by rw [hc1]), ht, hc2]; rfl
      · intro _
        unfold barrierSand
        have e : (V - (z2 - z0) * -(y2 - y3)) / (y0 - y3) * (y0 - y3) = V - (z2 - z0) * -(y2 - y3) := div_mul_cancel₀ _ hyy
        linear_combination e
    · have hc1 : overwashOf (⟨⟨x, fin y0, fin y1, fin y2, fin y3, y4, fin z0, z1, fin z2, z3⟩, sfh, fin cw, fin bh, true, lo, wl⟩ : Cell K) =
          ⟨fin (y2 - y1), fin V, fin ((z2 - z0) * -(y2 - y3)), false, true, false⟩ := by
        simp only [overwashOf, sub_fin, mul_fin, neg_fin, ble_fin, blt_fin, hz', hz'', decide_true, decide_false, Bool.false_eq_true, if_false, if_true, ← hV, hl, Bool.not_false, Bool.and_true]
      have hvp : 0 < V := by
        have : overwashOf (⟨⟨x, fin y0, fin y1, fin y2, fin y3, y4, fin z0, z1, fin z2, z3⟩, sfh, fin cw, fin bh, true, lo, wl⟩ : Cell K) = _ := hc1
        rw [this] at hv
        simpa using hv
      have hyp : 0 < y2 - y3 := by
        by_contra hcon
        have : (z2 - z0) * -(y2 - y3) ≤ 0 := mul_nonpos_of_nonpos_of_nonneg hz''.le (by linarith)
        linarith [not_lt.mp hl]
      have hc2 : (overwashCell (⟨⟨x, fin y0, fin y1, fin y2, fin y3, y4, fin z0, z1, fin z2, z3⟩, sfh, fin cw, fin bh, true, lo, wl⟩ : Cell K)).t =
          ⟨x, fin y0, fin y2, fin y2, fin y3, y4, fin z0, z1, fin (z2 + V / (y2 - y3)), z3⟩ := by
        unfold overwashCell
        rw [hnw, if_pos rfl, hc1]
        simp only [Bool.false_eq_true, if_false, if_true, sub_fin, div_fin _ _ hyp.ne', add_fin, hsub]
      rw [hc2]
      refine ⟨rfl, rfl, rfl, rfl, rfl, Or.inl ⟨z0, z2 + V / (y2 - y3), rfl, rfl, rfl, rfl, rfl, le_refl _, ?_, ?_⟩⟩
      · have : 0 ≤ V / (y2 - y3) := div_nonneg hvp.le hyp.le
        linarith
      · intro _
        unfold barrierSand
        have e : V / (y2 - y3) * (y2 - y3) = V := div_mul_cancel₀ _ hyp.ne'
        linear_combination e

/-- A transect whose seaward crest is the lower one and whose crest has widened from 5 m to 6 m during the step, with the channel 1 m
too narrow. -/
def overCell : Cell ℚ :=
  { t := { x := 0, y0 := fin 20, y1 := fin 13, y2 := fin 14, y3 := fin 5, y4 := fin 0, z0 := fin 3, z1 := fin 0, z2 := fin 5, z3 := fin 0 },
    sfh := fin 13, cw := fin 5, bh := fin 3, op := true, lo := true, wl := fin 1 }

/-- C40 is false as stated: 3 m2 of overwash did not fit, but the barrier gains 18/5 m2, because the rise of the crest is
computed with the crest width before the step. -/
theorem C40_refuted : ∃ cells' c' z0', overwashRepair [overCell] = .ok cells' ∧ cells'[0]? = some c' ∧ c'.t.z0 = fin z0' ∧ c'.t.z2 = fin 5 ∧ c'.t.y1 = fin 14 ∧
    barrierSand 20 14 5 z0' 5 - barrierSand 20 14 5 3 5 = 18 / 5 ∧ ((14 : ℚ) - 13) * 3 = 3 := by
  obtain ⟨cs, h, p⟩ := ok_witness (x := overwashRepair [overCell]) (fun o : List (Cell ℚ) => o = [{ overCell with t := { overCell.t with y1 := fin 14, z0 := fin (18/5) } }]) (by decide +kernel)
  exact ⟨cs, _, 18/5, h, by rw [p]; rfl, rfl, rfl, rfl, by norm_num [barrierSand], by norm_num⟩

/-- Concrete case for C40: the same with the crest width unchanged; the barrier is levelled and gets all 30 m2. -/
example : okAnd (overwashRepair [{ overCell with cw := fin 6, bh := fin 30 }]) (fun o => (o[0]?).any (fun c => c.t.z0 == fin (5 + 18/15) && !c.op)) = true := by decide +kernel

/-! ## C41 -/

/-- C41, the part that holds: after the edge check the seaward end of the outlet lies between the second and last-but-one transects; it is untouched if it was
there already; and an outlet leaving on the left is held at the left edge.  Missing: the right edge, refuted below. -/
theorem C41_partial (st st' : MorSt K) (h : edgeCheck st = .ok st') {e : K} (he : st.e1 = fin e) {l r : Cell K} (hl : st.cells[1]? = some l)
    (hr : st.cells[st.cells.length - 2]? = some r) (hn : 2 ≤ st.cells.length) (hlr : l.t.x ≤ r.t.x) :
    (∃ e', st' = { st with e1 := fin e' } ∧ l.t.x ≤ e' ∧ e' ≤ r.t.x ∧ (l.t.x ≤ e → e ≤ r.t.x → e' = e) ∧ (e < l.t.x → e' = l.t.x)) := by
  unfold edgeCheck at h
  simp only [bind_ok, pure_ok, ixGet_ok] at h
  obtain ⟨l', hl', r', hr', rfl⟩ := h
  rw [hl] at hl'; cases hl'
  have hr2 : r' = r := by
    unfold pyGet at hr'
    rw [if_neg (by norm_num), if_pos (by omega), ixGet_ok] at hr'
    have : ((st.cells.length : ℤ) + -2).toNat = st.cells.length - 2 := by omega
    rw [this, hr] at hr'
    exact (Option.some.inj hr').symm
  subst hr2
  rw [he]
  simp only [blt_fin]
  by_cases h1 : e < l.t.x
  · simp only [h1, decide_true, if_true, blt_fin, hlr.not_gt, decide_false, Bool.false_eq_true, if_false]
    exact ⟨_, rfl, le_refl _, hlr, fun h => absurd h h1.not_ge, fun _ => rfl⟩
  · simp only [h1, decide_false, Bool.false_eq_true, if_false, blt_fin]
    by_cases h2 : r'.t.x < e
    · simp only [h2, decide_true, if_true]
      exact ⟨_, rfl, le_refl _, hlr, fun _ h => absurd h h2.not_ge, fun h => h.elim⟩
    · simp only [h2, decide_false, Bool.false_eq_true, if_false]
      exact ⟨e, rfl, not_lt.mp h1, not_lt.mp h2, fun _ _ => rfl, fun h => h.elim⟩

/-- State of `moIn` with the outlet end beyond the last-but-one transect (x = 20). -/
def edgeState : MorSt ℚ :=
  { cells := moIn.rows.mapIdx (mkCell moPP moIn), e0 := fin 0, e1 := fin 26, endW := fin 6, endZ := fin 0, ix := [5], riv := [fin 0] }

/-- C41 is false as stated: an outlet leaving through the right edge (at 26, the last-but-one transect being at 20) is moved to
the left edge of the domain, at -20. -/
theorem C41_refuted : ∃ st', edgeCheck edgeState = .ok st' ∧ st'.e1 = fin (-20) ∧
    (edgeState.cells[edgeState.cells.length - 2]?).map (·.t.x) = some 20 := by
  obtain ⟨o, h, p⟩ := ok_witness (x := edgeCheck edgeState) (fun o : MorSt ℚ => o.e1 = fin (-20)) (by decide +kernel)
  exact ⟨o, h, p, by decide +kernel⟩

/-! ## C42 -/

/-- C42, the part that holds: at a transect with a channel (whatever the memory left uninitialised), the channel is merged exactly when nothing is
left between it and the lagoon.  The merged lagoon then has the combined width; its bed volume is the combined bed volume if the channel
just touches the lagoon.  Missing: bed volume when they overlap, refuted below. -/
theorem C42_partial (junk : ℕ → Bool) (cells : List (Cell K)) {i : ℕ} {c : Cell K} (hi : cells[i]? = some c) {y1 y2 y3 y4 z1 z3 : K}
    (e1 : c.t.y1 = fin y1) (e2 : c.t.y2 = fin y2) (e3 : c.t.y3 = fin y3) (e4 : c.t.y4 = fin y4) (ez1 : c.t.z1 = fin z1) (ez3 : c.t.z3 = fin z3) (hw : y4 < y1) :
    (y3 < y2 → (mergeLagoon junk cells)[i]? = some c) ∧
    (y2 ≤ y3 → ∃ c' y3' z3', (mergeLagoon junk cells)[i]? = some c' ∧ c'.t.y1 = nan ∧ c'.t.y2 = nan ∧ c'.t.z1 = nan ∧ c'.t.y0 = c.t.y0 ∧ c'.t.y4 = c.t.y4 ∧ c'.t.z0 = c.t.z0 ∧
      c'.t.y3 = fin y3' ∧ c'.t.z3 = fin z3' ∧ y3' - y4 = (y1 - y2) + (y3 - y4) ∧
      (y2 = y3 → z3' * (y3' - y4) = z1 * (y1 - y2) + z3 * (y3 - y4))) := by
  have hg : (mergeLagoon junk cells)[i]? = some (if lagoonHit junk i c then mergeLagoonCell c else c) := by
    unfold mergeLagoon
    rw [List.getElem?_mapIdx, hi]; rfl
  have hh : lagoonHit junk i c = !decide (y3 < y2) := by
    unfold lagoonHit notGreater
    rw [e1, e2, e3]; rfl
  have hne : y1 - y4 ≠ 0 := (sub_pos.mpr hw).ne'
  refine ⟨fun h => ?_, fun h => ?_⟩
  · rw [hg, hh]; simp [h]
  · rw [hg, hh]
    simp only [h.not_gt, decide_false, Bool.not_false, if_true]
    refine ⟨_, y3 + (y1 - y2), ((y1 - y2) * z1 + (y3 - y4) * z3) / (y1 - y4), rfl, rfl, rfl, rfl, rfl, rfl, rfl, ?_, ?_, by ring, ?_⟩
    · simp [mergeLagoonCell, e1, e2, e3]
    · simp only [mergeLagoonCell, e1, e2, e3, e4, ez1, ez3, sub_fin, mul_fin, add_fin, div_fin _ _ hne]
    · intro he
      subst he
      field_simp
      ring

/-- The bed volume after a merge in general: the combined volume times combined width over the distance from cliff to channel bank.  So
it is conserved only if the channel just touches the lagoon or the combined volume is zero. -/
theorem C42_refuted_general (junk : ℕ → Bool) (cells : List (Cell K)) {i : ℕ} {c : Cell K} (hi : cells[i]? = some c) {y1 y2 y3 y4 z1 z3 : K}
    (e1 : c.t.y1 = fin y1) (e2 : c.t.y2 = fin y2) (e3 : c.t.y3 = fin y3) (e4 : c.t.y4 = fin y4) (ez1 : c.t.z1 = fin z1) (ez3 : c.t.z3 = fin z3) (hw : y4 < y1) (h : y2 < y3)
    (hv : z1 * (y1 - y2) + z3 * (y3 - y4) ≠ 0) :
    ∃ c' y3' z3', (mergeLagoon junk cells)[i]? = some c' ∧ c'.t.y3 = fin y3' ∧ c'.t.z3 = fin z3' ∧ z3' * (y3' - y4) ≠ z1 * (y1 - y2) + z3 * (y3 - y4) := by
  have hg : (mergeLagoon junk cells)[i]? = some (if lagoonHit junk i c then mergeLagoonCell c else c) := by
    unfold mergeLagoon
    rw [List.getElem?_mapIdx, hi]; rfl
  have hh : lagoonHit junk i c = !decide (y3 < y2) := by
    unfold lagoonHit notGreater
    rw [e1, e2, e3]; rfl
  have hne : y1 - y4 ≠ 0 := (sub_pos.mpr hw).ne'
  rw [hg, hh]
  simp only [h.not_gt, decide_false, Bool.not_false, if_true]
  refine ⟨_, y3 + (y1 - y2), ((y1 - y2) * z1 + (y3 - y4) * z3) / (y1 - y4), rfl, ?_, ?_, ?_⟩
  · simp [mergeLagoonCell, e1, e2, e3]
  · simp only [mergeLagoonCell, e1, e2, e3, e4, ez1, ez3, sub_fin, mul_fin, add_fin, div_fin _ _ hne]
  · intro hcon
    have : (z1 * (y1 - y2) + z3 * (y3 - y4)) * (y3 - y2) = 0 := by
      have h2 : ((y1 - y2) * z1 + (y3 - y4) * z3) * (y3 + (y1 - y2) - y4) = (z1 * (y1 - y2) + z3 * (y3 - y4)) * (y1 - y4) := by
        rw [div_mul_eq_mul_div, div_eq_iff hne] at hcon
        exact hcon
      linear_combination h2
    rcases mul_eq_zero.mp this with h' | h'
    · exact hv h'
    · linarith

/-- A channel 2 m wide overlapping a lagoon 10 m wide by 1 m. -/
def mergeCell : Cell ℚ :=
  { t := { x := 0, y0 := fin 20, y1 := fin 11, y2 := fin 9, y3 := fin 10, y4 := fin 0, z0 := fin 3, z1 := fin 1, z2 := fin 3, z3 := fin 1 },
    sfh := fin 13, cw := fin 9, bh := fin 3, op := true, lo := true, wl := fin 1 }

/-- C42 is false as stated: beds at level 1 in a channel 2 m wide and a lagoon 10 m wide give a lagoon 12 m wide with its bed at 12/11. -/
theorem C42_refuted : (mergeLagoon (fun _ => true) [mergeCell])[0]?.map (fun c => (c.t.y3, c.t.z3)) = some (fin 12, fin (12/11)) ∧ (12/11 : ℚ) * 12 ≠ 1 * 2 + 1 * 10 := by
  constructor
  · decide +kernel
  · norm_num

/-- Concrete case for `C42_partial`: the channel just touches the lagoon. -/
example : (mergeLagoon (fun _ => true) [{ mergeCell with t := { mergeCell.t with y3 := fin 9 } }])[0]?.map (fun c => (c.t.y3, c.t.z3)) = some (fin 11, fin 1) := by
  decide +kernel

/-! ## C44 -/

/-- C44, the part that holds: restoring a barrier eroded through (`y0 ≤ y3`) leaves exactly 1 mm between shoreline and lagoon, moving only these two, the
shoreline seaward and the lagoon edge landward, by the same volume.  Missing: conservation of mass, refuted below. -/
theorem C44_partial (c : Cell K) {y0 y3 z0 z3 h : K} (e0 : c.t.y0 = fin y0) (e3 : c.t.y3 = fin y3) (ez0 : c.t.z0 = fin z0) (ez3 : c.t.z3 = fin z3) (eh : c.sfh = fin h)
    (hh : 0 < h) (hz : z3 < z0) (hy : y0 ≤ y3) :
    ∃ y0' y3', (restoreCell c).t = { c.t with y0 := fin y0', y3 := fin y3' } ∧ y0' - y3' = 1 / 1000 ∧ y0 < y0' ∧ y3' < y3 ∧ (y0' - y0) * h = (y3 - y3') * (z0 - z3) := by
  have hz' : 0 < z0 - z3 := by linarith
  have hd : 0 < 1 + h / (z0 - z3) := by positivity
  have ho : 0 < 1/1000 + (y3 - y0) := by
    have : (0 : K) < 1 / 1000 := by norm_num
    linarith
  refine ⟨y0 + (1/1000 + (y3 - y0)) / (1 + h / (z0 - z3)), y3 - ((1/1000 + (y3 - y0)) - (1/1000 + (y3 - y0)) / (1 + h / (z0 - z3))), ?_, by ring, ?_, ?_, ?_⟩
  · simp only [restoreCell, e0, e3, ez0, ez3, eh, sub_fin, add_fin, div_fin _ _ hz'.ne', div_fin _ _ hd.ne']
  · have : 0 < (1/1000 + (y3 - y0)) / (1 + h / (z0 - z3)) := by positivity
    linarith
  · have : (1/1000 + (y3 - y0)) / (1 + h / (z0 - z3)) < 1/1000 + (y3 - y0) := by
      apply div_lt_self ho
      have : 0 < h / (z0 - z3) := by positivity
      linarith
    linarith
  · field_simp
    ring

/-- C44 is false: both moves add sediment, so every restoration creates it (shoreface volume plus barrier volume grow). -/
theorem C44_refuted_general (c : Cell K) {y0 y3 z0 z3 h : K} (e0 : c.t.y0 = fin y0) (e3 : c.t.y3 = fin y3) (ez0 : c.t.z0 = fin z0) (ez3 : c.t.z3 = fin z3) (eh : c.sfh = fin h)
    (hh : 0 < h) (hz : z3 < z0) (hy : y0 ≤ y3) :
    ∃ y0' y3', (restoreCell c).t.y0 = fin y0' ∧ (restoreCell c).t.y3 = fin y3' ∧ 0 < (y0' - y0) * h + (y3 - y3') * (z0 - z3) := by
  obtain ⟨y0', y3', h1, _, h2, h3, _⟩ := C44_partial c e0 e3 ez0 ez3 eh hh hz hy
  refine ⟨y0', y3', by rw [h1], by rw [h1], ?_⟩
  have : 0 < (y0' - y0) * h := mul_pos (by linarith) hh
  have : 0 < (y3 - y3') * (z0 - z3) := mul_pos (by linarith) (by linarith)
  linarith

/-- An eroded barrier: shoreline 1 m behind the lagoon edge. -/
def erodedCell : Cell ℚ :=
  { t := { x := 0, y0 := fin 9, y1 := nan, y2 := nan, y3 := fin 10, y4 := fin 0, z0 := fin 3, z1 := nan, z2 := nan, z3 := fin 0 },
    sfh := fin 13, cw := fin 1, bh := fin 3, op := false, lo := true, wl := fin 1 }

/-- C44 refuted on a concrete transect: 2.44 m2 of sediment appear out of nothing on each side. -/
theorem C44_refuted : ∃ y0' y3', (restoreCell erodedCell).t.y0 = fin y0' ∧ (restoreCell erodedCell).t.y3 = fin y3' ∧ (4 : ℚ) < (y0' - 9) * 13 + (10 - y3') * (3 - 0) := by
  refine ⟨9 + 3003/16000, 10 - 13013/16000, ?_, ?_, by norm_num⟩ <;> decide +kernel

end Verif.Props
