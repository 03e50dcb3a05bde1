import Verif.Lemmas.MorRel
import Verif.Lemmas.Ends
import Verif.Lemmas.Regular
import Verif.Spec.Crest

set_option autoImplicit false
set_option linter.unusedSectionVars false

/-! # The height of the barrier through a step -/

namespace Verif.Model
open Verif Fl Verif.Spec List

variable {K : Type} [Field K] [LinearOrder K] [IsStrictOrderedRing K]

/-- Not a number below `m`. -/
def NotBelow (m : K) (v : Fl K) : Prop := (v <? fin m) = false

/-- Not a negative number. -/
def NotNeg (v : Fl K) : Prop := NotBelow 0 v

theorem notBelow_nan (m : K) : NotBelow m (nan : Fl K) := rfl
theorem notBelow_pinf (m : K) : NotBelow m (pinf : Fl K) := rfl
theorem notBelow_fin {m x : K} : NotBelow m (fin x) ↔ m ≤ x := by unfold NotBelow; simp
theorem not_notBelow_ninf (m : K) : ¬ NotBelow m (ninf : Fl K) := by intro h; cases h

theorem notBelow_add {m : K} {z v : Fl K} (hz : NotBelow m z) (hv : NotNeg v) : NotBelow m (z + v) := by
  unfold NotNeg at hv
  cases z with
  | nan => rw [nan_add']; exact notBelow_nan m
  | ninf => exact absurd hz (not_notBelow_ninf m)
  | pinf => cases v <;> first | rfl
  | fin x =>
    cases v with
    | nan => rfl
    | ninf => exact absurd hv (not_notBelow_ninf 0)
    | pinf => rfl
    | fin y => rw [notBelow_fin] at hz hv; rw [add_fin, notBelow_fin]; linarith

theorem notNeg_infOfSign {x : K} (h : 0 ≤ x) : NotNeg (infOfSign x) := by
  unfold infOfSign
  split
  · rfl
  · split
    · rfl
    · next h1 h2 => exact absurd (le_antisymm (not_lt.mp h2) h) h1

theorem notNeg_mul {u v : Fl K} (hu : NotNeg u) (hv : NotNeg v) : NotNeg (u * v) := by
  unfold NotNeg at *
  cases u with
  | nan => rw [nan_mul']; rfl
  | ninf => exact absurd hu (not_notBelow_ninf 0)
  | pinf =>
    cases v with
    | nan => rfl
    | ninf => exact absurd hv (not_notBelow_ninf 0)
    | pinf => rfl
    | fin y => exact notNeg_infOfSign (notBelow_fin.mp hv)
  | fin x =>
    cases v with
    | nan => rfl
    | ninf => exact absurd hv (not_notBelow_ninf 0)
    | pinf => exact notNeg_infOfSign (notBelow_fin.mp hu)
    | fin y => rw [mul_fin, notBelow_fin]; exact mul_nonneg (notBelow_fin.mp hu) (notBelow_fin.mp hv)

theorem notNeg_div {u v : Fl K} (hu : NotNeg u) (hv : NotNeg v) : NotNeg (u / v) := by
  unfold NotNeg at *
  cases u with
  | nan => rw [nan_div']; rfl
  | ninf => exact absurd hu (not_notBelow_ninf 0)
  | pinf =>
    cases v with
    | nan => rfl
    | ninf => rfl
    | pinf => rfl
    | fin y =>
      show NotBelow 0 (if 0 ≤ y then pinf else ninf)
      rw [if_pos (notBelow_fin.mp hv)]; rfl
  | fin x =>
    cases v with
    | nan => rfl
    | ninf => exact notBelow_fin.mpr le_rfl
    | pinf => exact notBelow_fin.mpr le_rfl
    | fin y =>
      show NotBelow 0 (if y = 0 then infOfSign x else fin (x / y))
      split
      · exact notNeg_infOfSign (notBelow_fin.mp hu)
      · exact notBelow_fin.mpr (div_nonneg (notBelow_fin.mp hu) (notBelow_fin.mp hv))

theorem notNeg_of_pos {v : Fl K} (h : (fin 0 <? v) = true) : NotNeg v := by
  unfold NotNeg
  cases v with
  | nan => rfl
  | ninf => cases h
  | pinf => rfl
  | fin x => simp only [blt_fin, decide_eq_true_eq] at h; exact notBelow_fin.mpr h.le

theorem notNeg_sub_of_lt {u v : Fl K} (h : (u <? v) = true) : NotNeg (v - u) := by
  unfold NotNeg
  cases u <;> cases v <;> first | rfl | (cases h; done) | skip
  simp only [blt_fin, decide_eq_true_eq] at h
  rw [sub_fin, notBelow_fin]; linarith

theorem notNeg_one_sub {v : Fl K} (h : (fin 1 <? v) = false) : NotNeg (fin 1 - v) := by
  unfold NotNeg
  cases v with
  | nan => rfl
  | ninf => rfl
  | pinf => cases h
  | fin x =>
    simp only [blt_fin, decide_eq_false_iff_not, not_lt] at h
    rw [sub_fin, notBelow_fin]; linarith

theorem notBelow_npmax {m : K} {u v : Fl K} (hu : NotBelow m u) (hv : NotBelow m v) : NotBelow m (npmax u v) := by
  unfold npmax
  split
  · exact hu
  · split
    · exact hv
    · split <;> assumption

theorem barrierWider_ok {lim : K} {r : Transect K} (h : BarrierWider lim r) : ∃ y0 y3, r.y0 = fin y0 ∧ r.y3 = fin y3 ∧ 2 * lim < y0 - y3 := by
  unfold BarrierWider at h
  split at h
  · next y0 y3 h0 h3 => exact ⟨y0, y3, h0, h3, h⟩
  · cases h

theorem notNeg_clip {L : K} (hL : 0 ≤ L) {r : Fl K} (h : NotNeg r) : NotNeg (clip L r) := by
  unfold NotNeg at *
  unfold clip
  cases r with
  | nan => rfl
  | ninf => exact absurd h (not_notBelow_ninf 0)
  | pinf =>
    have : npmin (npmax (pinf : Fl K) (fin (-L))) (fin L) = fin L := rfl
    rw [this]; exact notBelow_fin.mpr hL
  | fin x =>
    rw [npmax_fin, npmin_fin]
    rw [notBelow_fin] at h ⊢
    exact le_min (h.trans (le_max_left _ _)) hL

/-! ## Cells -/

/-- Both crests are high enough. -/
def High (m : K) (c : Cell K) : Prop := NotBelow m c.t.z0 ∧ NotBelow m c.t.z2

/-- A high transect stays one. -/
def StaysHigh (m : K) (c c' : Cell K) : Prop := High m c → High m c'

theorem high_chan {pp : PhysPars K} {m : K} (hm : m ≤ pp.BeachTopElev) : ChanRel pp (StaysHigh m) where
  refl _ h := h
  trans _ _ _ h1 h2 h := h2 (h1 h)
  setOp _ _ h := h
  extend _ h := ⟨h.1, notBelow_nan m⟩
  elong _ _ h := ⟨notBelow_fin.mpr hm, h.1⟩
  seaPrevent _ h := h

theorem high_breach (pp : PhysPars K) (m : K) : BreachRel pp (StaysHigh m) where
  refl _ h := h
  trans _ _ _ h1 h2 h := h2 (h1 h)
  mergeLagoon _ h := h
  setWl _ _ h := h
  mergeShore _ h := ⟨h.2, notBelow_nan m⟩
  restore _ _ h := h
  crest c h := by
    unfold crestCell
    split
    · exact ⟨notBelow_npmax h.1 h.2, h.2⟩
    · exact h
  breach _ _ _ h := ⟨h.1, h.1⟩

/-- A transect whose channel, if it has one, can be leveled without lowering the barrier. -/
def Levelable (c : Cell K) : Prop := c.op = true → (fin 0 <? c.cw) = true ∧ NotNeg (c.t.y0 - c.t.y3)

theorem cliff_high {pp : PhysPars K} {m : K} {c : Cell K} (h : High m c) : High m (cliffCell pp c) := by
  unfold cliffCell
  dsimp only
  split <;> exact h

theorem cliff_levelable {pp : PhysPars K} {c : Cell K} (h : Levelable c) {y : K} (hy : c.op = true → c.t.y0 = fin y) : Levelable (cliffCell pp c) := by
  unfold cliffCell
  dsimp only
  split
  · next hle =>
    intro hop
    have hop : c.op = true := hop
    obtain ⟨h1, _⟩ := h hop
    have hy := hy hop
    refine ⟨h1, ?_⟩
    rw [hy] at hle
    show NotNeg (c.t.y0 + _ - _)
    rw [hy]
    generalize fin 1 + (fin pp.BackshoreElev - c.t.z0) / c.sfh = q
    cases h4 : c.t.y4 with
    | nan => rw [h4] at hle; cases hle
    | ninf => rw [h4] at hle; cases hle
    | pinf =>
      have : (pinf - fin y + fin (1 / 1000) : Fl K) = pinf := rfl
      rw [this]
      generalize (pinf : Fl K) / q = ret
      cases ret <;> rfl
    | fin y4 =>
      rw [sub_fin, add_fin]
      generalize fin (y4 - y + 1 / 1000) / q = ret
      cases ret with
      | nan => rfl
      | pinf => rfl
      | ninf => rfl
      | fin w =>
        simp only [sub_fin, add_fin]
        unfold NotNeg
        rw [notBelow_fin]
        have : y + (y4 - y + 1 / 1000 - w) - (y4 - w) = (1 / 1000 : K) := by ring
        rw [this]; norm_num
  · exact h

theorem overwash_high {m : K} {c : Cell K} (h : High m c) (hl : Levelable c) (hv : negWidth c = true → (fin 0 <? (overwashOf c).vol) = true)
    (hu : negWidth c = true → (fin 0 ≤? (overwashOf c).until_) = true) : High m (overwashCell c) := by
  unfold overwashCell
  split
  · next hneg =>
    have hop : c.op = true := by unfold negWidth at hneg; exact (Bool.and_eq_true_iff.mp hneg).1
    obtain ⟨hcw, hd⟩ := hl hop
    have hv := hv hneg
    have hu := hu hneg
    dsimp only
    by_cases hlev : (overwashOf c).leveled = true
    · have hf : (overwashOf c).front = false := by unfold overwashOf at hlev ⊢; dsimp only at hlev ⊢; rw [hlev]; simp
      have hb : (overwashOf c).back = false := by unfold overwashOf at hlev ⊢; dsimp only at hlev ⊢; rw [hlev]; simp
      rw [if_pos hlev, hf, hb]
      refine ⟨?_, notBelow_nan m⟩
      exact notBelow_add (notBelow_npmax h.1 h.2) (notNeg_div (notNeg_sub_of_lt hlev) hd)
    · rw [if_neg hlev]
      have hfront : NotBelow m (c.t.z0 + (overwashOf c).vol / c.cw) :=
        notBelow_add h.1 (notNeg_div (notNeg_of_pos hv) (notNeg_of_pos hcw))
      have hback : (overwashOf c).back = true → NotBelow m (c.t.z2 + (overwashOf c).vol / (c.t.y2 - c.t.y3)) := by
        intro hb
        refine notBelow_add h.2 (notNeg_div (notNeg_of_pos hv) ?_)
        unfold overwashOf at hb hu
        dsimp only at hb hu
        have hneg' : (c.t.z2 - c.t.z0 <? fin 0) = true := (Bool.and_eq_true_iff.mp hb).1
        have hnf : (fin 0 ≤? (c.t.z2 - c.t.z0)) = false := by
          cases hh : c.t.z2 - c.t.z0 <;> rw [hh] at hneg' <;> first | rfl | cases hneg' | skip
          simpa using hneg'
        rw [hnf, hneg'] at hu
        simp only [Bool.false_eq_true, if_false, if_true] at hu
        unfold NotNeg
        cases hw : c.t.y2 - c.t.y3 with
        | nan => rfl
        | pinf => rfl
        | ninf =>
          exfalso
          rw [hw] at hu
          cases hh : c.t.z2 - c.t.z0 with
          | nan => rw [hh] at hneg'; cases hneg'
          | pinf => rw [hh] at hneg'; cases hneg'
          | ninf => rw [hh] at hu; cases hu
          | fin x =>
            rw [hh] at hu hneg'
            simp only [blt_fin, decide_eq_true_eq] at hneg'
            have : (fin x * -ninf : Fl K) = infOfSign x := rfl
            rw [this] at hu
            unfold infOfSign at hu
            rw [if_neg hneg'.ne, if_neg hneg'.not_gt] at hu
            cases hu
        | fin w =>
          rw [notBelow_fin]
          by_contra hwn
          rw [not_le] at hwn
          rw [hw] at hu
          cases hh : c.t.z2 - c.t.z0 with
          | nan => rw [hh] at hneg'; cases hneg'
          | pinf => rw [hh] at hneg'; cases hneg'
          | ninf =>
            rw [hh] at hu
            have : (ninf * -fin w : Fl K) = infOfSign (- -w) := rfl
            rw [this] at hu
            unfold infOfSign at hu
            rw [if_neg (by simpa using hwn.ne), if_neg (by simpa using hwn.not_gt)] at hu
            cases hu
          | fin x =>
            rw [hh] at hu hneg'
            simp only [blt_fin, decide_eq_true_eq, neg_fin, mul_fin, ble_fin] at hneg' hu
            nlinarith
      by_cases hf : (overwashOf c).front = true
      · by_cases hb : (overwashOf c).back = true
        · rw [if_pos hf, if_pos hb]; exact ⟨hfront, hback hb⟩
        · rw [if_pos hf, if_neg hb]; exact ⟨hfront, h.2⟩
      · by_cases hb : (overwashOf c).back = true
        · rw [if_neg hf, if_pos hb]; exact ⟨h.1, hback hb⟩
        · rw [if_neg hf, if_neg hb]; exact h
  · exact h

theorem repair_high {pp : PhysPars K} {C : Bool} {Dx m : K} (hm : m ≤ pp.BeachTopElev) {st st' : MorSt K} (h : repairStage pp C Dx st = .ok st') {i : ℕ}
    {c : Cell K} (hc : st.cells[i]? = some c) (hh : High m c) (hl : Levelable c) {y : K} (hy : c.op = true → c.t.y0 = fin y) :
    ∃ c', st'.cells[i]? = some c' ∧ High m c' := by
  unfold repairStage at h
  simp only [bind_ok] at h
  obtain ⟨s1, h1, cs, h2, s3, h3, s4, h4, s5, h5, s6, h6, h7⟩ := h
  have H := high_chan hm
  have t := H.trans
  have e1 : s1.cells = st.cells := by
    unfold edgeCheck at h1
    simp only [bind_ok, pure_ok] at h1
    obtain ⟨_, _, _, _, rfl⟩ := h1
    rfl
  have hcl : (s1.cells.map (cliffCell pp))[i]? = some (cliffCell pp c) := by rw [e1, getElem?_map, hc]; rfl
  obtain ⟨c2, hc2, r2⟩ : ∃ c2, cs[i]? = some c2 ∧ High m c2 := by
    unfold overwashRepair at h2
    simp only [bind_ok, pyAssert_ok] at h2
    obtain ⟨_, hv, _, hu, h2⟩ := h2
    have hmem : negWidth (cliffCell pp c) = true → overwashOf (cliffCell pp c) ∈ ((s1.cells.map (cliffCell pp)).filter negWidth).map overwashOf :=
      fun hn => List.mem_map_of_mem (List.mem_filter.mpr ⟨List.mem_of_getElem? hcl, hn⟩)
    have g := overwash_high (cliff_high (pp := pp) hh) (cliff_levelable hl hy) (fun hn => List.all_eq_true.mp hv _ (hmem hn))
      (fun hn => List.all_eq_true.mp hu _ (hmem hn))
    split at h2
    · simp only [pure_ok] at h2
      subst h2
      refine ⟨{ overwashCell (cliffCell pp c) with op := !(overwashCell (cliffCell pp c)).t.y1.isnan }, ?_, g⟩
      rw [getElem?_map, getElem?_map, hcl]; rfl
    · simp only [pure_ok] at h2
      subst h2
      exact ⟨_, by rw [getElem?_map, hcl]; rfl, g⟩
  have g7 : Forall₂ (StaysHigh m) s6.cells st'.cells := by
    unfold lagoonPrevent at h7
    split at h7
    · simp only [pure_ok] at h7; subst h7; exact forall₂_rfl H.refl _
    · simp only [bind_ok] at h7
      obtain ⟨_, _, _, _, h⟩ := h7
      split at h
      · simp only [pure_ok] at h; subst h
        refine forall₂_modify' H.refl ?_ _ _
        intro c hc
        unfold lagoonPreventCell
        dsimp only
        split <;> exact hc
      · simp only [pure_ok] at h; subst h; exact forall₂_rfl H.refl _
  obtain ⟨c', hc', r'⟩ := forall₂_get (forall₂_trans t (elongate_rel H h3) (forall₂_trans t (seaPrevent_rel H h4)
    (forall₂_trans t (lagoonTrunc_rel H.toStageRel h5) (forall₂_trans t (seaTrunc_rel H.toStageRel h6) g7)))) hc2
  exact ⟨c', hc', r' r2⟩

theorem breach_num {pp : PhysPars K} {j1 j2 : ℕ → Bool} {C B : Bool} {X0 : ℕ} {st st' : MorSt K} (h : breachStage pp j1 j2 C X0 st = .ok (B, st')) :
    ∀ c ∈ st'.cells, c.t.z0.isnan = false := by
  unfold breachStage at h
  simp only [bind_ok] at h
  obtain ⟨⟨conn, t1⟩, g1, ⟨b2, t2⟩, g2, ⟨b3, t3⟩, g3, ⟨b4, t4⟩, g4, t5, g5, g6⟩ := h
  simp only [pure_ok] at g6
  cases g6
  have k4 : ∀ c ∈ t4.cells, c.t.z0.isnan = false := by
    have key : (!(t3.cells.map crestCell).any (·.t.z0.isnan)) = true → ∀ c ∈ t3.cells.map crestCell, c.t.z0.isnan = false := by
      intro hn c hc
      by_contra hh
      rw [Bool.not_eq_false] at hh
      have := (List.any_eq_true (p := fun c : Cell K => c.t.z0.isnan)).mpr ⟨c, hc, hh⟩
      rw [this] at hn; cases hn
    unfold overtopBreach at g4
    simp only [bind_ok, pyAssert_ok] at g4
    obtain ⟨_, hn, g4⟩ := g4
    split at g4
    · simp only [pure_ok] at g4; cases g4; exact key hn
    · split at g4
      · split at g4
        · cases g4
        · simp only [pure_ok] at g4; cases g4; exact key hn
      · simp only [bind_ok, pure_ok] at g4
        obtain ⟨_, _, _, _, g4⟩ := g4
        cases g4; exact key hn
  unfold createBreach at g5
  split at g5
  · simp only [pure_ok] at g5; subst g5; exact k4
  · simp only [bind_ok] at g5
    obtain ⟨c, _, g5⟩ := g5
    split at g5
    · simp only [pure_ok] at g5; subst g5; exact k4
    · simp only [pure_ok] at g5; subst g5
      intro d hd
      obtain ⟨k, hk⟩ := List.mem_iff_getElem?.mp hd
      rw [getElem?_modify] at hk
      obtain ⟨e, he, rfl⟩ := Option.map_eq_some_iff.mp hk
      have := k4 e (List.mem_of_getElem? he)
      split <;> exact this

/-! ## The rates -/

theorem rates_z0 {pp : PhysPars K} {a : MorIn K} {rb : ℕ} {cells' : List (Cell K)} {R : Rates K} {X0 : ℕ}
    (hp : precalc pp a = .ok (a.rows.mapIdx (mkCell pp a), X0, rb))
    (h : allRates pp a rb (a.rows.mapIdx (mkCell pp a)) = .ok (R, cells')) (hcst : ∀ v ∈ a.CST, (v <? fin 0) = false)
    (hop : ∀ v ∈ a.OverwashProp, (fin 1 <? v) = false) :
    (∀ v ∈ R.z0, NotNeg v) ∧ ∀ (i : ℕ) c', cells'[i]? = some c' → ∃ r, a.rows[i]? = some r ∧ c'.t.z0 = r.z0 ∧ c'.t.z2 = r.z2 ∧
      c'.t.y3 = r.y3 ∧ c'.cw = (mkCell pp a i r).cw ∧ c'.op = (mkCell pp a i r).op ∧
      (c'.t.y0 = r.y0 ∨ a.Closed = false ∧ i = prevIx a.rows.length rb ∧ ∃ l, a.LST[prevIx a.LST.length rb]? = some l ∧ (fin 0 <? l) = false ∧
        c'.t.y0 = r.y0 + l / ((fin pp.ClosureDepth + r.z0) * fin a.Dx)) := by
  have hcw := (precalc_rb hp).2.2
  unfold allRates at h
  simp only [bind_ok] at h
  obtain ⟨R1, h1, ⟨R2, c2⟩, h2, R3, h3, h⟩ := h
  obtain ⟨rfl, rfl⟩ : R3 = R ∧ c2 = cells' := by cases h; exact ⟨rfl, rfl⟩
  have z1 : ∀ v ∈ R1.z0, NotNeg v := by
    have hz : ∀ v ∈ List.replicate a.rows.length (fin (0 : K)), NotNeg v := fun v hv => by
      rw [List.eq_of_mem_replicate hv]; exact notBelow_fin.mpr le_rfl
    unfold riverRates at h1
    simp only [bind_ok] at h1
    obtain ⟨_, _, _, _, _, _, _, _, _, _, h1⟩ := h1
    split at h1
    · cases h1; exact hz
    · simp only [bind_ok] at h1
      obtain ⟨_, _, _, _, _, _, _, _, _, _, _, _, h1⟩ := h1
      cases h1; exact hz
  have base : ∀ (i : ℕ) c', (a.rows.mapIdx (mkCell pp a))[i]? = some c' → ∃ r, a.rows[i]? = some r ∧ c'.t.z0 = r.z0 ∧ c'.t.z2 = r.z2 ∧
      c'.t.y3 = r.y3 ∧ c'.cw = (mkCell pp a i r).cw ∧ c'.op = (mkCell pp a i r).op ∧
      (c'.t.y0 = r.y0 ∨ a.Closed = false ∧ i = prevIx a.rows.length rb ∧ ∃ l, a.LST[prevIx a.LST.length rb]? = some l ∧ (fin 0 <? l) = false ∧
        c'.t.y0 = r.y0 + l / ((fin pp.ClosureDepth + r.z0) * fin a.Dx)) := by
    intro i c' hc'
    rw [getElem?_mapIdx] at hc'
    obtain ⟨r, hr, rfl⟩ := Option.map_eq_some_iff.mp hc'
    exact ⟨r, hr, rfl, rfl, rfl, rfl, rfl, Or.inl rfl⟩
  obtain ⟨z2, hcells, hcw2⟩ : (∀ v ∈ R2.z0, NotNeg v) ∧ (∀ (i : ℕ) c', c2[i]? = some c' → ∃ r, a.rows[i]? = some r ∧ c'.t.z0 = r.z0 ∧ c'.t.z2 = r.z2 ∧
      c'.t.y3 = r.y3 ∧ c'.cw = (mkCell pp a i r).cw ∧ c'.op = (mkCell pp a i r).op ∧
      (c'.t.y0 = r.y0 ∨ a.Closed = false ∧ i = prevIx a.rows.length rb ∧ ∃ l, a.LST[prevIx a.LST.length rb]? = some l ∧ (fin 0 <? l) = false ∧
        c'.t.y0 = r.y0 + l / ((fin pp.ClosureDepth + r.z0) * fin a.Dx))) ∧ ∀ c ∈ c2, (fin 0 <? c.cw) = true := by
    unfold lstRates at h2
    simp only [bind_ok] at h2
    obtain ⟨y0, _, h2⟩ := h2
    split at h2
    · cases h2; exact ⟨z1, base, hcw⟩
    · next hC =>
      simp only [bind_ok] at h2
      obtain ⟨l, hlg, h2⟩ := h2
      split at h2
      · simp only [bind_ok, pure_ok] at h2
        obtain ⟨_, _, h2⟩ := h2
        cases h2; exact ⟨z1, base, hcw⟩
      · next hl =>
        simp only [bind_ok, pure_ok] at h2
        obtain ⟨cc, hcc, h2⟩ := h2
        cases h2
        refine ⟨z1, ?_, ?_⟩
        · intro i c' hc'
          rw [getElem?_modify] at hc'
          obtain ⟨d, hd, rfl⟩ := Option.map_eq_some_iff.mp hc'
          rw [ixGet_ok] at hcc hlg
          by_cases he : prevIx (a.rows.mapIdx (mkCell pp a)).length rb = i
          · rw [he, hd] at hcc
            cases hcc
            rw [getElem?_mapIdx] at hd
            obtain ⟨r, hr, rfl⟩ := Option.map_eq_some_iff.mp hd
            refine ⟨r, hr, ?_⟩
            rw [if_pos he]
            refine ⟨rfl, rfl, rfl, rfl, rfl, Or.inr ⟨by simpa using hC, ?_, l, hlg, by simpa using hl, rfl⟩⟩
            rw [← he, List.length_mapIdx]
          · obtain ⟨r, hr, k⟩ := base i d hd
            exact ⟨r, hr, by rw [if_neg he]; exact k⟩
        · intro c hc
          obtain ⟨k, hk⟩ := List.mem_iff_getElem?.mp hc
          rw [getElem?_modify] at hk
          obtain ⟨e, he, rfl⟩ := Option.map_eq_some_iff.mp hk
          have := hcw e (List.mem_of_getElem? he)
          split <;> exact this
  refine ⟨?_, hcells⟩
  unfold cstRates at h3
  dsimp only at h3
  split at h3
  · cases h3
  · next hlen =>
    have l1 : a.CST.length = c2.length := by by_contra hh; exact hlen (Or.inl hh)
    have l2 : a.OverwashProp.length = c2.length := by by_contra hh; exact hlen (Or.inr hh)
    cases h3
    intro v hv
    obtain ⟨i, hi⟩ := List.mem_iff_getElem?.mp hv
    rw [getElem?_mapIdx] at hi
    obtain ⟨⟨u, c⟩, hp', rfl⟩ := Option.map_eq_some_iff.mp hi
    have hm := List.of_mem_zip (List.mem_of_getElem? hp')
    have hlt := (List.getElem?_eq_some_iff.mp hp').1
    rw [List.length_zip] at hlt
    have k1 : (a.CST[i]?).getD nan ∈ a.CST := by
      rw [List.getElem?_eq_getElem (by omega)]; exact List.getElem_mem _
    have k2 : (a.OverwashProp[i]?).getD nan ∈ a.OverwashProp := by
      rw [List.getElem?_eq_getElem (by omega)]; exact List.getElem_mem _
    exact notBelow_add (z2 u hm.1) (notNeg_div (notNeg_mul (notNeg_one_sub (hop _ k2)) (hcst _ k1)) (notNeg_of_pos (hcw2 c hm.2)))

theorem limit_z0 {R R' : Rates K} {v : Fl K} {lim : K} (hB : 0 ≤ lim) {dtMin dt : ℤ} (h : limitRates v lim dtMin dt R = .ok R')
    (hz : ∀ v ∈ R.z0, NotNeg v) : ∀ v ∈ R'.z0, NotNeg v := by
  unfold limitRates at h
  split at h
  · simp only [bind_ok] at h
    obtain ⟨_, _, h⟩ := h
    split at h
    · cases h
    · cases h
      intro v hv
      obtain ⟨u, hu, rfl⟩ := List.mem_map.mp hv
      refine notNeg_clip (div_nonneg hB ?_) (hz u hu)
      exact_mod_cast secs_nonneg dt
  · cases h; exact hz

theorem force_high {pp : PhysPars K} {a : MorIn K} {dt : ℤ} {X0 : ℕ} {st : MorSt K} (h : forceStage pp a = .ok (dt, X0, st)) (hB : 0 ≤ a.MaxMorChange)
    (hcst : ∀ v ∈ a.CST, (v <? fin 0) = false) (hop : ∀ v ∈ a.OverwashProp, (fin 1 <? v) = false) {m : K} {i : ℕ} {r : Transect K}
    (hr : a.rows[i]? = some r) (hh : CrestsAbove m r)
    (hchan : r.y1.isnan = false → Regular pp a ∧ BarriersWide pp a) :
    ∃ (c : Cell K) (y : K), st.cells[i]? = some c ∧ High m c ∧ Levelable c ∧ (c.op = true → c.t.y0 = fin y) := by
  obtain ⟨rb, cells', R, R', rate, hp, hall, hrt, hdt, hl, ha⟩ := force_inv h
  have hm : (a.rows.mapIdx (mkCell pp a)).length = a.rows.length := by simp
  obtain ⟨hlen, hlen', hsame⟩ := allRates_len hm hall
  obtain ⟨hz, hcells⟩ := rates_z0 hp hall hcst hop
  have hz' := limit_z0 hB hl hz
  have hil := (List.getElem?_eq_some_iff.mp hr).1
  have hci : cells'[i]? = some (cells'[i]'(by omega)) := List.getElem?_eq_getElem (by omega)
  generalize cells'[i]'(by omega) = c at hci
  obtain ⟨r', hr', k0, k2, k3, kw, ko, ky⟩ := hcells i c hci
  rw [hr] at hr'
  cases hr'
  have hs0 : (0 : K) ≤ (secs dt : K) := by exact_mod_cast secs_nonneg dt
  have hzi : NotNeg ((R'.z0[i]?).getD nan * fin (secs dt : K)) := by
    refine notNeg_mul ?_ (notBelow_fin.mpr hs0)
    cases hg : R'.z0[i]? with
    | none => exact notBelow_nan 0
    | some v => exact hz' v (List.mem_of_getElem? hg)
  unfold applyRates at ha
  simp only at ha
  split at ha
  · cases ha
  · cases ha
    have hget : (cells'.mapIdx (moveCell R' (fin (secs dt : K))))[i]? = some (moveCell R' (fin (secs dt : K)) i c) := by
      rw [getElem?_mapIdx, hci]; rfl
    have hhigh : High m (moveCell R' (fin (secs dt : K)) i c) := by
      refine ⟨?_, ?_⟩
      · show NotBelow m (c.t.z0 + _)
        rw [k0]
        exact notBelow_add hh.1 hzi
      · show NotBelow m c.t.z2
        rw [k2]; exact hh.2
    cases hn : r.y1.isnan with
    | true =>
      have hof : (moveCell R' (fin (secs dt : K)) i c).op = false := by
        show c.op = false
        rw [ko]
        show (!r.y1.isnan) = false
        rw [hn]; rfl
      exact ⟨_, 0, hget, hhigh, (fun hc => by rw [hof] at hc; cases hc), (fun hc => by rw [hof] at hc; cases hc)⟩
    | false =>
      obtain ⟨hreg, hlv⟩ := hchan hn
      obtain ⟨hwid, hdir⟩ := hlv.2 i hil r hr hn
      obtain ⟨y0, y3, hy0, hy3, hw⟩ : ∃ y0 y3, c.t.y0 = fin y0 ∧ r.y3 = fin y3 ∧ 2 * a.MaxMorChange < y0 - y3 := by
        rcases ky with ky | ⟨hC, hip, l, hl1, hl2, ky⟩
        · rw [ky]; exact barrierWider_ok hwid
        · rw [ky]
          have hrb := (precalc_rb hp).2.1 hC
          obtain ⟨⟨q, hq, hq1⟩, hq2⟩ := firstIx_ok.mp hrb
          have hpos : 0 < rb := by
            by_contra hh
            have h0 : rb = 0 := by omega
            subst h0
            have := hlv.1 hC q hq
            rw [hq1] at this; cases this
          have hi1 : rb = i + 1 := by unfold prevIx at hip; rw [if_neg (by omega)] at hip; omega
          subst hi1
          have hl1 : a.LST[i]? = some l := by unfold prevIx at hl1; rw [if_neg (by omega)] at hl1; exact hl1
          exact barrierWider_ok (hdir hC q hq l hl1 (hq2 i (by omega) r hr) hq1 hl2)
      have hF := regular_finite hreg hp hall
      obtain ⟨hsm, hcl⟩ := limit_small hB hF hrt hl
      simp only [Rates.cols, List.mem_cons, List.not_mem_nil, or_false, forall_eq_or_imp, forall_eq] at hsm
      obtain ⟨s0, _, _, s3, _⟩ := hsm
      have l0 : R'.y0.length = a.rows.length := by
        have := congrArg (fun l => l[0]?) hcl
        simp only [Rates.cols, List.map_cons, List.getElem?_cons_succ, List.getElem?_cons_zero, Option.some.injEq] at this
        rw [this]; exact hlen.1
      have l3 : R'.y3.length = a.rows.length := by
        have := congrArg (fun l => l[3]?) hcl
        simp only [Rates.cols, List.map_cons, List.getElem?_cons_succ, List.getElem?_cons_zero, Option.some.injEq] at this
        rw [this]; exact hlen.2.2.2.1
      obtain ⟨x0, hx0, b0⟩ := s0 _ (List.getElem_mem (l := R'.y0) (n := i) (by omega))
      obtain ⟨x3, hx3, b3⟩ := s3 _ (List.getElem_mem (l := R'.y3) (n := i) (by omega))
      have c0 : (moveCell R' (fin (secs dt : K)) i c).t.y0 = fin (y0 + x0 * (secs dt : K)) := by
        show c.t.y0 + (R'.y0[i]?).getD nan * fin (secs dt : K) = _
        rw [List.getElem?_eq_getElem (by omega), Option.getD_some, hx0, hy0, mul_fin, add_fin]
      have c3 : (moveCell R' (fin (secs dt : K)) i c).t.y3 = fin (y3 + x3 * (secs dt : K)) := by
        show c.t.y3 + (R'.y3[i]?).getD nan * fin (secs dt : K) = _
        rw [List.getElem?_eq_getElem (by omega), Option.getD_some, hx3, k3, hy3, mul_fin, add_fin]
      refine ⟨_, _, hget, hhigh, fun _ => ⟨?_, ?_⟩, fun _ => c0⟩
      · show (fin 0 <? c.cw) = true
        rw [kw]
        refine (precalc_rb hp).2.2 _ (List.mem_of_getElem? (i := i) ?_)
        rw [getElem?_mapIdx, hr]; rfl
      · rw [c0, c3, sub_fin]
        unfold NotNeg
        rw [notBelow_fin]
        have d0 := neg_abs_le x0
        have d3 := le_abs_self x3
        have e0 : -(|x0| * (secs dt : K)) ≤ x0 * (secs dt : K) := by
          have := mul_le_mul_of_nonneg_right d0 hs0
          linarith
        have e3 := mul_le_mul_of_nonneg_right d3 hs0
        linarith

/-- The barrier after a step. -/
theorem update_high {pp : PhysPars K} {j1 j2 : ℕ → Bool} {a : MorIn K} {o : MorOut K} (h : updateMorphology pp j1 j2 a = .ok o) (hB : 0 ≤ a.MaxMorChange)
    (hcst : ∀ v ∈ a.CST, (v <? fin 0) = false) (hop : ∀ v ∈ a.OverwashProp, (fin 1 <? v) = false) {m : K} (hm : m ≤ pp.BeachTopElev) {i : ℕ}
    {r : Transect K} (hr : a.rows[i]? = some r) (hh : CrestsAbove m r)
    (hchan : r.y1.isnan = false → Regular pp a ∧ BarriersWide pp a) :
    ∃ r', o.rows[i]? = some r' ∧ (fin m ≤? r'.z0) = true ∧ CrestsAbove m r' := by
  obtain ⟨X0, s0, s1, s2, s3, g0, g1, g2, g3, e, _⟩ := update_inv h
  obtain ⟨c, y, hc, f1, f2, f3⟩ := force_high g0 hB hcst hop hr hh hchan
  obtain ⟨c1, hc1, q1⟩ := repair_high hm g1 hc f1 f2 f3
  obtain ⟨c2, hc2, q2⟩ := forall₂_get (breach_rel (high_breach pp m) g2) hc1
  have hnum := breach_num g2 c2 (List.mem_of_getElem? hc2)
  unfold finishStage at g3
  simp only [bind_ok, pure_ok, pyAssert_ok] at g3
  obtain ⟨_, _, _, _, _, _, rfl⟩ := g3
  obtain ⟨c3, hc3, r3⟩ := forall₂_get (forall₂_modify' (R := fun c c' : Cell K => c'.t.z0 = c.t.z0 ∧ c'.t.z2 = c.t.z2) (fun _ => ⟨rfl, rfl⟩)
    (fun c => by unfold keepCell; split <;> exact ⟨rfl, rfl⟩) s2.cells X0 (f := keepCell pp)) hc2
  have q := q2 q1
  refine ⟨c3.t, by rw [e, List.getElem?_map, hc3]; rfl, ?_, ?_⟩
  · rw [r3.1]
    have := q.1
    cases hz : c2.t.z0 with
    | nan => rw [hz] at hnum; cases hnum
    | ninf => rw [hz] at this; cases this
    | pinf => rfl
    | fin x =>
      rw [hz] at this
      simp only [ble_fin, decide_eq_true_eq]
      exact notBelow_fin.mp this
  · unfold CrestsAbove
    rw [r3.1, r3.2]
    exact q

end Verif.Model
