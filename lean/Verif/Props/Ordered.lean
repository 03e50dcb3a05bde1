import Verif.Lemmas.Ordered
import Verif.Props.MorStep
import Verif.Spec.Order

set_option autoImplicit false
set_option linter.unusedSectionVars false

/-! # C121, C122: order of the features across the shore after a step -/

namespace Verif.Props
open Verif Verif.Model Verif.Spec Fl

variable {K : Type} [Field K] [LinearOrder K] [IsStrictOrderedRing K]

/-! ## C121 -/

/-- The edges of a transect made by a breach. -/
theorem breach_edges {pp : PhysPars K} {w : K} {z : Fl K} {c : Cell K} {y0 y3 : K}
    (h0 : (breachCell pp (fin w) z c).t.y0 = fin y0) (h3 : (breachCell pp (fin w) z c).t.y3 = fin y3) :
    ∃ y1, (breachCell pp (fin w) z c).t.y1 = fin y1 ∧ (breachCell pp (fin w) z c).t.y2 = fin (y1 - w) ∧ y1 ≤ y0 - pp.SpitWidth ∧ y3 < y1 - w := by
  have e0 : c.t.y0 = fin y0 := h0
  have e2 : (breachCell pp (fin w) z c).t.y2 = (breachCell pp (fin w) z c).t.y1 - fin w := rfl
  have e3 : (breachCell pp (fin w) z c).t.y3 =
      if (breachCell pp (fin w) z c).t.y2 ≤? c.t.y3 then (breachCell pp (fin w) z c).t.y2 - fin (1 / 1000) else c.t.y3 := rfl
  have e1 : (breachCell pp (fin w) z c).t.y1 = pymin (c.t.y0 - fin pp.SpitWidth) ((c.t.y0 + c.t.y3) / fin 2 + fin w / fin 2) := rfl
  have hpos : (0 : K) < 1 / 1000 := by norm_num
  have two : (2 : K) ≠ 0 := two_ne_zero
  rw [e3] at h3
  cases hy : c.t.y3 with
  | nan => rw [hy] at h3; simp at h3
  | ninf =>
    have hy2 : (breachCell pp (fin w) z c).t.y2 = ninf := by
      rw [e2, e1, e0, hy, sub_fin, div_fin _ _ two]
      have : (fin y0 + ninf : Fl K) / fin 2 = ninf := if_pos zero_le_two
      rw [this]
      rfl
    rw [hy2, hy] at h3
    cases h3
  | pinf =>
    have f1 : (breachCell pp (fin w) z c).t.y1 = fin (y0 - pp.SpitWidth) := by
      rw [e1, e0, hy, sub_fin, div_fin _ _ two]
      have : (fin y0 + pinf : Fl K) / fin 2 = pinf := if_pos zero_le_two
      rw [this]
      rfl
    rw [f1, sub_fin] at e2
    rw [e2, hy] at h3
    refine ⟨_, f1, e2, le_refl _, ?_⟩
    have h3' : (fin (y0 - pp.SpitWidth - w - 1 / 1000) : Fl K) = fin y3 := by rw [← sub_fin]; exact h3
    cases h3'
    linarith
  | fin y =>
    have f1 : (breachCell pp (fin w) z c).t.y1 = fin (min (y0 - pp.SpitWidth) ((y0 + y) / 2 + w / 2)) := by
      rw [e1, e0, hy]; simp [div_fin _ _ two]
    rw [f1, sub_fin] at e2
    rw [e2, hy] at h3
    refine ⟨_, f1, e2, min_le_left _ _, ?_⟩
    simp only [ble_fin, decide_eq_true_eq, sub_fin] at h3
    split at h3
    · cases h3; linarith
    · rename_i hn
      cases h3; exact not_le.mp hn

/-- A restored barrier is 1 mm wide. -/
theorem restore_edges {c : Cell K} {y0 y3 : K} (h0 : (restoreCell c).t.y0 = fin y0) (h3 : (restoreCell c).t.y3 = fin y3) : y0 - y3 = 1 / 1000 := by
  have e0 : (restoreCell c).t.y0 = c.t.y0 + (fin (1 / 1000) + (c.t.y3 - c.t.y0)) / (fin 1 + c.sfh / (c.t.z0 - c.t.z3)) := rfl
  have e3 : (restoreCell c).t.y3 = c.t.y3 - ((fin (1 / 1000) + (c.t.y3 - c.t.y0)) - (fin (1 / 1000) + (c.t.y3 - c.t.y0)) / (fin 1 + c.sfh / (c.t.z0 - c.t.z3))) := rfl
  rw [e0] at h0
  rw [e3] at h3
  generalize hs : (fin (1 / 1000) + (c.t.y3 - c.t.y0)) / (fin 1 + c.sfh / (c.t.z0 - c.t.z3)) = s at h0 h3
  cases ha : c.t.y0 with
  | nan => rw [ha] at h0; simp at h0
  | ninf => rw [ha] at h0; cases s <;> cases h0
  | pinf => rw [ha] at h0; cases s <;> cases h0
  | fin a =>
    rw [ha] at h0 h3
    cases s with
    | nan => simp at h0
    | ninf => cases h0
    | pinf => cases h0
    | fin s =>
      cases hb : c.t.y3 with
      | nan => rw [hb] at h3; simp at h3
      | ninf => rw [hb] at h3; cases h3
      | pinf => rw [hb] at h3; cases h3
      | fin b =>
        rw [hb] at h3
        simp only [add_fin, sub_fin] at h0 h3
        cases h0; cases h3
        ring

theorem crest_y (c : Cell K) : (crestCell c).t.y0 = c.t.y0 ∧ (crestCell c).t.y1 = c.t.y1 ∧ (crestCell c).t.y2 = c.t.y2 ∧
    (crestCell c).t.y3 = c.t.y3 ∧ (crestCell c).t.y4 = c.t.y4 := by
  unfold crestCell
  split <;> exact ⟨rfl, rfl, rfl, rfl, rfl⟩

theorem keep_y (pp : PhysPars K) (c : Cell K) : (keepCell pp c).t.y0 = c.t.y0 ∧ (keepCell pp c).t.y1 = c.t.y1 ∧ (keepCell pp c).t.y2 = c.t.y2 ∧
    (keepCell pp c).t.y3 = c.t.y3 := by
  unfold keepCell
  split <;> exact ⟨rfl, rfl, rfl, rfl⟩

/-- The last cells of a step and the rows returned. -/
theorem finish_row {pp : PhysPars K} {j1 j2 : ℕ → Bool} {a : MorIn K} {o : MorOut K} (h : updateMorphology pp j1 j2 a = .ok o)
    {i : ℕ} {r : Transect K} (hr : o.rows[i]? = some r) : ∃ (X0 : ℕ) (s1 s2 : MorSt K) (c : Cell K), breachStage pp j1 j2 a.Closed X0 s1 = .ok (o.Breach, s2) ∧
      s2.cells[i]? = some c ∧ o.EndWidth = s2.endW ∧ r.y0 = c.t.y0 ∧ r.y1 = c.t.y1 ∧ r.y2 = c.t.y2 ∧ r.y3 = c.t.y3 ∧ (r.x ≠ 0 → r.y4 = c.t.y4) := by
  have hxs := C72_positions h
  obtain ⟨X0, s0, s1, s2, s3, h0, h1, h2, h3, er, _, _, ew, _⟩ := update_inv h
  obtain ⟨rb, cells', R, R', rate, g1, _⟩ := force_inv h0
  obtain ⟨hX0, _, _⟩ := precalc_rb g1
  obtain ⟨⟨r0, hr0, hx0⟩, hfirst⟩ := firstIx_ok.mp hX0
  obtain ⟨ef, hfin⟩ := finish_inv h3
  have hcell := hr
  rw [er, List.getElem?_map] at hcell
  obtain ⟨c3, hc3, rfl⟩ := Option.map_eq_some_iff.mp hcell
  rw [ef] at hc3
  simp only [List.getElem?_modify] at hc3
  by_cases e : X0 = i
  · subst e
    simp only [if_true, Option.map_eq_map] at hc3
    obtain ⟨c, hc, rfl⟩ := Option.map_eq_some_iff.mp hc3
    obtain ⟨k0, k1, k2, k3⟩ := keep_y pp c
    refine ⟨X0, s1, s2, c, h2, hc, by rw [ew, ef], k0, k1, k2, k3, ?_⟩
    intro hne
    exfalso
    apply hne
    have hx : (o.rows[X0]?).map (·.x) = (a.rows[X0]?).map (·.x) := by
      rw [← List.getElem?_map, ← List.getElem?_map, hxs]
    rw [hr, hr0] at hx
    simp only [Option.map_some, Option.some.injEq] at hx
    rw [hx]; simpa using hx0
  · have hc3 : s2.cells[i]? = some c3 := by simpa [e] using hc3
    exact ⟨X0, s1, s2, c3, h2, hc3, by rw [ew, ef], rfl, rfl, rfl, rfl, fun _ => rfl⟩

/-- C121, partial: after a step a channel that is not of negative width lies strictly between lagoon edge and shoreline,
and where there is a lagoon the shoreline is seaward of its edge.  The latter is for transects off the river mouth at X = 0, and not
for the first two transects in a step with a breach.  (Missing: lagoons may get a negative width, see
`C121_refuted`, and so may channels.) -/
theorem C121_partial {pp : PhysPars K} {j1 j2 : ℕ → Bool} {a : MorIn K} {o : MorOut K} (h : updateMorphology pp j1 j2 a = .ok o)
    (hspit : 0 < pp.SpitWidth) (hmin : 0 < pp.MinOutletWidth) (hw : ∃ w, o.EndWidth = fin w) {i : ℕ} {r : Transect K} (hr : o.rows[i]? = some r)
    {y0 y3 : K} (h0 : r.y0 = fin y0) (h3 : r.y3 = fin y3) :
    (∀ y1 y2, r.y1 = fin y1 → r.y2 = fin y2 → y2 ≤ y1 → y3 < y2 ∧ y1 < y0) ∧
    (∀ y4, r.y4 = fin y4 → y4 < y3 → r.x ≠ 0 → o.Breach = false ∨ 2 ≤ i → y3 < y0) := by
  obtain ⟨X0, s1, s2, c, hb, hc, ew, e0, e1, e2, e3, e4⟩ := finish_row h hr
  rw [e0] at h0
  rw [e3] at h3
  rw [e1, e2]
  have clear : ∀ {c : Cell K}, Clear c.t → (crestCell c).t.y0 = fin y0 → (crestCell c).t.y3 = fin y3 →
      ∀ y1 y2, (crestCell c).t.y1 = fin y1 → (crestCell c).t.y2 = fin y2 → y2 ≤ y1 → y3 < y2 ∧ y1 < y0 := by
    intro c hcl h0 h3 y1 y2 h1 h2 hle
    obtain ⟨k0, k1, k2, k3, k4⟩ := crest_y c
    rw [k0] at h0; rw [k1] at h1; rw [k2] at h2; rw [k3] at h3
    have := hcl (by rw [h1]; rfl)
    rw [h0, h1, h2, h3] at this
    simp only [blt_fin, decide_eq_true_eq] at this
    exact ⟨this.2, this.1⟩
  rcases breach_track hb hc with ⟨c0, hcl, her, rfl⟩ | ⟨c0, hcl, her, rfl⟩ | ⟨hB, c0, e, z, he, rfl⟩ | ⟨hB, hi, c0, hcl, rfl⟩
  · refine ⟨clear hcl h0 h3, ?_⟩
    intro y4 h4 hlt hx _
    rw [e4 hx] at h4
    obtain ⟨k0, k1, k2, k3, k4⟩ := crest_y c0
    rw [k0] at h0; rw [k3] at h3; rw [k4] at h4
    unfold eroded at her
    rw [h0, h3, h4] at her
    simp only [ble_fin, blt_fin, hlt, decide_true, Bool.and_true, decide_eq_false_iff_not] at her
    exact not_le.mp her
  · obtain ⟨k0, k1, k2, k3, k4⟩ := crest_y (restoreCell c0)
    rw [k0] at h0; rw [k3] at h3; rw [k1, k2]
    have hre := restore_edges h0 h3
    have hpos : (0 : K) < 1 / 1000 := by norm_num
    refine ⟨?_, fun _ _ _ _ _ => by linarith⟩
    intro y1 y2 h1 h2 hle
    exfalso
    have f1 : c0.t.y1 = fin y1 := h1
    have f2 : c0.t.y2 = fin y2 := h2
    obtain ⟨a1, a2⟩ := hcl (by rw [f1]; rfl)
    unfold eroded at her
    rw [Bool.and_eq_true] at her
    obtain ⟨a3, -⟩ := her
    rw [f1] at a1
    rw [f2] at a2
    cases hq0 : c0.t.y0 with
    | nan => rw [hq0] at a1; simp at a1
    | ninf => rw [hq0] at a1; cases a1
    | pinf =>
      have : (restoreCell c0).t.y0 = c0.t.y0 + (fin (1 / 1000) + (c0.t.y3 - c0.t.y0)) / (fin 1 + c0.sfh / (c0.t.z0 - c0.t.z3)) := rfl
      rw [h0, hq0] at this
      generalize (fin (1 / 1000) + (c0.t.y3 - pinf)) / (fin 1 + c0.sfh / (c0.t.z0 - c0.t.z3)) = s at this
      cases s <;> cases this
    | fin q0 =>
      cases hq3 : c0.t.y3 with
      | nan => rw [hq3] at a2; simp at a2
      | ninf => rw [hq0, hq3] at a3; cases a3
      | pinf => rw [hq3] at a2; cases a2
      | fin q3 =>
        rw [hq0] at a1 a3
        rw [hq3] at a2 a3
        simp only [blt_fin, ble_fin, decide_eq_true_eq] at a1 a2 a3
        linarith
  · obtain ⟨w, hw⟩ := hw
    rw [ew] at hw
    have hwpos : 0 < w := by
      rw [hw] at he
      unfold pymax at he
      split at he
      · cases he; linarith
      · rename_i hn
        rw [← he] at hn
        simp only [blt_fin, decide_eq_true_eq, not_lt] at hn
        linarith
    rw [hw] at h0 h3 ⊢
    obtain ⟨q1, b1, b2, b3, b4⟩ := breach_edges h0 h3
    refine ⟨?_, fun _ _ _ _ _ => by linarith⟩
    intro y1 y2 h1 h2 _
    rw [b1] at h1; rw [b2] at h2
    cases h1; cases h2
    exact ⟨b4, by linarith⟩
  · refine ⟨clear hcl h0 h3, ?_⟩
    intro _ _ _ _ hor
    rcases hor with hB' | hi'
    · rw [hB] at hB'; cases hB'
    · omega

/-- All edges are where they should be. -/
def inOrderB (r : Transect ℚ) : Bool :=
  r.y4 ≤? r.y3 && r.y3 <? r.y0 && (r.y1.isnan && r.y2.isnan || (r.y3 <? r.y2 && r.y2 ≤? r.y1 && r.y1 <? r.y0)) &&
    (match r.y0, r.y3, r.y4 with | fin _, fin _, fin _ => true | _, _, _ => false)

theorem inOrder_of {r : Transect ℚ} (h : inOrderB r = true) : InOrder r := by
  unfold inOrderB at h
  simp only [Bool.and_eq_true] at h
  obtain ⟨⟨⟨h1, h2⟩, h3⟩, h4⟩ := h
  split at h4
  · rename_i y0 y3 y4 e0 e3 e4
    rw [e3, e4] at h1
    rw [e0, e3] at h2
    simp only [ble_fin, blt_fin, decide_eq_true_eq] at h1 h2
    refine ⟨y0, y3, y4, e0, e3, e4, h1, h2, ?_⟩
    rw [Bool.or_eq_true] at h3
    rcases h3 with h3 | h3
    · rw [Bool.and_eq_true] at h3
      exact Or.inl ⟨(isnan_iff _).mp h3.1, (isnan_iff _).mp h3.2⟩
    · right
      simp only [Bool.and_eq_true] at h3
      obtain ⟨⟨a1, a2⟩, a3⟩ := h3
      rw [e3] at a1; rw [e0] at a3
      cases f1 : r.y1 with
      | nan => rw [f1] at a2; simp at a2
      | pinf => rw [f1] at a3; cases a3
      | ninf =>
        rw [f1] at a2
        cases f2 : r.y2 with
        | nan => rw [f2] at a2; cases a2
        | pinf => rw [f2] at a2; cases a2
        | ninf => rw [f2] at a1; cases a1
        | fin y2 => rw [f2] at a2; cases a2
      | fin y1 =>
        cases f2 : r.y2 with
        | nan => rw [f2] at a1; simp at a1
        | pinf => rw [f1, f2] at a2; cases a2
        | ninf => rw [f2] at a1; cases a1
        | fin y2 =>
          rw [f1] at a2 a3; rw [f2] at a1 a2
          simp only [ble_fin, blt_fin, decide_eq_true_eq] at a1 a2 a3
          exact ⟨y1, y2, rfl, rfl, a1, a2, a3⟩
  · cases h4

/-- A lagoon of 10 cm at -20 m, and overwash there. -/
def orNarrow : MorIn ℚ :=
  { brIn with
    rows := brIn.rows.set 2 { brRow (-20) with y3 := fin (1 / 10) }
    CST := brIn.CST.set 2 (fin (1 / 50))
    OverwashProp := brIn.OverwashProp.set 2 (fin 1) }

/-- C121 refuted: a step from a coast that is in order, after which the lagoon at -20 m is -14 cm wide (its edge behind the cliff): the
overwash is more than the lagoon can hold. -/
theorem C121_refuted : (∀ r ∈ orNarrow.rows, InOrder r) ∧ ∃ o, updateMorphology moPP cleanMem cleanMem orNarrow = .ok o ∧
    (o.rows[2]?).map (fun r => (r.y3, r.y4)) = some (fin (-7 / 50 : ℚ), fin 0) ∧ ∃ r ∈ o.rows, ¬ InOrder r := by
  have h1 : ∀ r ∈ orNarrow.rows, inOrderB r = true := by decide +kernel
  refine ⟨fun r hr => inOrder_of (h1 r hr), ?_⟩
  obtain ⟨o, h2, h3⟩ := ok_witness (x := updateMorphology moPP cleanMem cleanMem orNarrow)
    (fun o : MorOut ℚ => (o.rows[2]?).map (fun r => (r.y3, r.y4)) = some (fin (-7 / 50 : ℚ), fin 0)) (by decide +kernel)
  refine ⟨o, h2, h3, ?_⟩
  obtain ⟨r, hr, e⟩ := Option.map_eq_some_iff.mp h3
  obtain ⟨e3, e4⟩ := Prod.mk.inj e
  refine ⟨r, List.mem_of_getElem? hr, ?_⟩
  rintro ⟨y0, y3, y4, _, f3, f4, hle, _⟩
  rw [f3] at e3; rw [f4] at e4
  cases e3; cases e4
  norm_num at hle

/-- A step to which the partial theorem applies, with a channel and lagoons of positive width. -/
example : 0 < moPP.SpitWidth ∧ 0 < moPP.MinOutletWidth ∧ okAnd (updateMorphology moPP cleanMem cleanMem brIn)
    (fun o => !o.Breach && !o.EndWidth.isnan && (o.rows.all inOrderB)) = true := by decide +kernel

/-! ## C122 -/

/-- The check of mor.py 63. -/
theorem precalc_crest {pp : PhysPars K} {a : MorIn K} {cells : List (Cell K)} {X0 rb : ℕ} (h : precalc pp a = .ok (cells, X0, rb))
    {i : ℕ} {r : Transect K} (hr : a.rows[i]? = some r) : (fin 0 <? (mkCell pp a i r).cw) = true := by
  unfold precalc at h
  simp only [bind_ok] at h
  obtain ⟨_, _, _, _, h⟩ := h
  split at h
  · cases h
  · split at h
    · cases h
    · simp only [bind_ok, pyAssert_ok, pure_ok] at h
      obtain ⟨_, _, _, hall, _⟩ := h
      refine List.all_eq_true.mp hall _ (List.mem_of_getElem? (i := i) ?_)
      rw [List.getElem?_mapIdx, hr]
      rfl

/-- Distance from the shoreline to the channel, or to the lagoon where there is no channel. -/
def CrestWidth (r : Transect K) (w : K) : Prop :=
  ∃ y0, r.y0 = fin y0 ∧ ((∃ y1, r.y1 = fin y1 ∧ w = y0 - y1) ∨ (r.y1 = nan ∧ ∃ y3, r.y3 = fin y3 ∧ w = y0 - y3))

/-- C122, partial: a step without breach leaves a barrier of positive width at every transect that has a channel of
non-negative width, or no channel and, off the river mouth, a lagoon of positive width.  (Missing: other
transects, see `C122_refuted`.) -/
theorem C122_partial {pp : PhysPars K} {j1 j2 : ℕ → Bool} {a : MorIn K} {o : MorOut K} (h : updateMorphology pp j1 j2 a = .ok o)
    (hspit : 0 < pp.SpitWidth) (hmin : 0 < pp.MinOutletWidth) (hw : ∃ w, o.EndWidth = fin w) (hB : o.Breach = false) {r : Transect K} (hr : r ∈ o.rows)
    {y0 y3 y4 : K} (h0 : r.y0 = fin y0) (h3 : r.y3 = fin y3) (h4 : r.y4 = fin y4)
    (hor : (∃ y1 y2, r.y1 = fin y1 ∧ r.y2 = fin y2 ∧ y2 ≤ y1) ∨ (r.y1 = nan ∧ r.x ≠ 0 ∧ y4 < y3)) : ∃ w, CrestWidth r w ∧ 0 < w := by
  obtain ⟨i, hi⟩ := List.mem_iff_getElem?.mp hr
  obtain ⟨k1, k2⟩ := C121_partial h hspit hmin hw hi h0 h3
  rcases hor with ⟨y1, y2, h1, h2, hle⟩ | ⟨h1, hx, hlt⟩
  · have := (k1 y1 y2 h1 h2 hle).2
    exact ⟨y0 - y1, ⟨y0, h0, Or.inl ⟨y1, h1, rfl⟩⟩, by linarith⟩
  · have := k2 y4 h4 hlt hx (Or.inl hB)
    exact ⟨y0 - y3, ⟨y0, h0, Or.inr ⟨h1, y3, h3, rfl⟩⟩, by linarith⟩

/-- Every transect of `brIn` is such after the step. -/
example : okAnd (updateMorphology moPP cleanMem cleanMem brIn)
    (fun o => !o.Breach && (o.rows.all (fun r => (r.y2 ≤? r.y1) || (r.y1.isnan && decide (r.x ≠ 0) && (r.y4 <? r.y3)) || decide (r.x = 0)))) = true := by
  decide +kernel

/-- A closed lagoon with a narrow relic channel at -30 m, where there is no lagoon, and longshore transport that erodes there. -/
def orRelic : MorIn ℚ :=
  { brIn with
    rows := brIn.rows.set 1 ⟨-30, fin 100, fin (9995 / 100), fin (9985 / 100), fin (998 / 10), fin (998 / 10), fin 4, fin 0, fin 3, fin (-1)⟩
    LST := brIn.LST.set 1 (fin (1 / 100 + 133 / 300))
    Closed := true, EndX0 := nan, online := [4, 5, 6, 7, 8], outlet := [],
    ChanWidth := [fin 70, fin 70, fin 20, fin 20, fin 20, fin 20, fin 20], ChanDep := List.replicate 7 (fin 1),
    ChanFlag := [0, 0, 1, 1, 1, 1, 1], Bedload := [fin 0, fin 0, fin 0, fin 0, fin 0, fin 0] }

/-- C122 refuted: a step from a coast that is in order, after which no step is possible, whatever the forcing: the sea has
reached the relic channel at -30 m, and filling the channel from the shoreface has moved the shoreline to 1.3 cm behind the cliff. -/
theorem C122_refuted : (∀ r ∈ orRelic.rows, InOrder r) ∧ ∃ o, updateMorphology moPP cleanMem cleanMem orRelic = .ok o ∧ o.Breach = false ∧
    ∀ (pp : PhysPars ℚ) (j1 j2 : ℕ → Bool) (a : MorIn ℚ) (o' : MorOut ℚ), a.rows = o.rows → updateMorphology pp j1 j2 a ≠ .ok o' := by
  have h1 : ∀ r ∈ orRelic.rows, inOrderB r = true := by decide +kernel
  refine ⟨fun r hr => inOrder_of (h1 r hr), ?_⟩
  obtain ⟨o, h2, h3, h4, h5⟩ := ok_witness (x := updateMorphology moPP cleanMem cleanMem orRelic)
    (fun o : MorOut ℚ => o.Breach = false ∧ (o.rows[1]?).map (fun r => r.y1) = some nan ∧
      (o.rows[1]?).map (fun r => r.y0 - r.y3) = some (fin (-17 / 1300 : ℚ))) (by decide +kernel)
  refine ⟨o, h2, h3, ?_⟩
  intro pp j1 j2 a o' ea h
  obtain ⟨r, hr, e1⟩ := Option.map_eq_some_iff.mp h4
  rw [hr, Option.map_some, Option.some.injEq] at h5
  obtain ⟨X0, s0, s1, s2, s3, h0, _⟩ := update_inv h
  obtain ⟨rb, cells', R, R', rate, g1, _⟩ := force_inv h0
  have hcw := precalc_crest g1 (ea ▸ hr)
  simp only [mkCell, e1, isnan_nan, Bool.not_true, Bool.false_eq_true, if_false, h5, blt_fin, decide_eq_true_eq] at hcw
  norm_num at hcw

end Verif.Props
