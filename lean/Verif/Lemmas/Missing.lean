import Verif.Lemmas.Plain
import Verif.Lemmas.Ends

set_option autoImplicit false
set_option linter.unusedSectionVars false

/-! # A missing shoreline position stays missing to the end of the step -/

namespace Verif.Model
open Verif Fl List

variable {K : Type} [Field K] [LinearOrder K] [IsStrictOrderedRing K]

/-- A missing shoreline position is not filled in. -/
def StaysNan (c c' : Cell K) : Prop := c.t.y0 = nan → c'.t.y0 = nan

theorem staysNan_repair (pp : PhysPars K) : RepairRel pp (StaysNan (K := K)) where
  refl _ h := h
  trans _ _ _ h1 h2 h := h2 (h1 h)
  cliff c h := by unfold cliffCell; dsimp only; rw [h]; simpa using h
  overwash c h := by unfold overwashCell; dsimp only; split_ifs <;> exact h
  setOp _ _ h := h
  elong _ _ h := h
  seaPrevent _ h := h
  extend _ h := h
  lagoonPrevent c h := by unfold lagoonPreventCell; dsimp only; split <;> exact h

/-- The rate of the shoreline at transect number `i` is missing. -/
def NanRate (R : Rates K) (i : ℕ) : Prop := (R.y0[i]?).getD nan = nan

theorem lstInterior_nan {a : MorIn K} {cells : List (Cell K)} {y0 y0' : List (Fl K)} (h : lstInterior a cells y0 = .ok y0') {i : ℕ} (h0 : 0 < i)
    (h1 : i + 1 < cells.length) (hn : a.LST[i - 1]? = some nan ∨ a.LST[i]? = some nan) : (y0'[i]?).getD nan = nan := by
  unfold lstInterior at h
  simp only at h
  split at h
  · cases h
  · cases h
    rw [getElem?_mapIdx]
    cases ((y0.zip cells)[i]?) with
    | none => rfl
    | some vc =>
      simp only [Option.map_some, Option.getD_some]
      rw [if_pos ⟨h0, h1⟩]
      rcases hn with e | e <;> rw [e] <;> simp

theorem lstRates_nan {pp : PhysPars K} {a : MorIn K} {rb : ℕ} {cells cells' : List (Cell K)} {R R' : Rates K} (h : lstRates pp a rb cells R = .ok (R', cells')) {i : ℕ}
    (h0 : 0 < i) (h1 : i + 1 < cells.length) (hn : a.LST[i - 1]? = some nan ∨ a.LST[i]? = some nan) : NanRate R' i := by
  unfold lstRates at h
  simp only [bind_ok] at h
  obtain ⟨y0, hy, h⟩ := h
  have g := lstInterior_nan hy h0 h1 hn
  unfold NanRate
  split at h
  · cases h; exact g
  · simp only [bind_ok] at h
    obtain ⟨l, _, h⟩ := h
    split at h
    · simp only [bind_ok] at h
      obtain ⟨c, _, h⟩ := h
      cases h
      dsimp only
      rw [getElem?_modify]
      split
      · cases hv : y0[i]? with
        | none => rfl
        | some v => rw [hv] at g; simp only [Option.getD_some] at g; subst g; simp
      · simpa using g
    · simp only [bind_ok] at h
      obtain ⟨c, _, h⟩ := h
      cases h
      exact g

theorem lstRates_cells {pp : PhysPars K} {a : MorIn K} {rb : ℕ} {cells cells' : List (Cell K)} {R R' : Rates K} (h : lstRates pp a rb cells R = .ok (R', cells')) :
    cells'.length = cells.length := by
  unfold lstRates at h
  simp only [bind_ok] at h
  obtain ⟨y0, hy, h⟩ := h
  split at h
  · cases h; rfl
  · simp only [bind_ok] at h
    obtain ⟨l, _, h⟩ := h
    split at h
    · simp only [bind_ok] at h
      obtain ⟨c, _, h⟩ := h
      cases h; rfl
    · simp only [bind_ok] at h
      obtain ⟨c, _, h⟩ := h
      cases h; simp

theorem cstRates_nan {pp : PhysPars K} {a : MorIn K} {cells : List (Cell K)} {R R' : Rates K} (h : cstRates pp a cells R = .ok R') {i : ℕ}
    (h0 : 0 < i) (h1 : i + 1 < cells.length) (hn : NanRate R i ∨ a.CST[i]? = some nan) : NanRate R' i := by
  unfold cstRates at h
  simp only at h
  split at h
  · cases h
  · cases h
    unfold NanRate at hn ⊢
    dsimp only
    rw [getElem?_mapIdx]
    cases hz : ((R.y0.zip cells)[i]?) with
    | none => rfl
    | some vc =>
      obtain ⟨v, c⟩ := vc
      simp only [Option.map_some, Option.getD_some]
      rw [if_pos ⟨h0, h1⟩]
      rcases hn with e | e
      · rw [getElem?_zip_eq_some] at hz
        rw [hz.1] at e
        simp only [Option.getD_some] at e
        rw [e]; simp
      · rw [e]; simp

theorem allRates_nan {pp : PhysPars K} {a : MorIn K} {rb : ℕ} {cells cells' : List (Cell K)} {R : Rates K} (h : allRates pp a rb cells = .ok (R, cells')) {i : ℕ}
    (h0 : 0 < i) (h1 : i + 1 < cells.length) (hn : (a.LST[i - 1]? = some nan ∨ a.LST[i]? = some nan) ∨ a.CST[i]? = some nan) :
    NanRate R i ∧ cells'.length = cells.length := by
  unfold allRates at h
  simp only [bind_ok] at h
  obtain ⟨R1, _, ⟨R2, c2⟩, g2, R3, g3, h⟩ := h
  cases h
  have hl := lstRates_cells g2
  refine ⟨cstRates_nan g3 h0 (by show i + 1 < c2.length; omega) ?_, hl⟩
  rcases hn with e | e
  · exact Or.inl (lstRates_nan g2 h0 h1 e)
  · exact Or.inr e

theorem limit_nan {R R' : Rates K} {v : Fl K} {lim : K} {dtMin dt : ℤ} (h : limitRates v lim dtMin dt R = .ok R') {i : ℕ} (hn : NanRate R i) : NanRate R' i := by
  rcases limit_all h with rfl | ⟨_, e, _⟩
  · exact hn
  · unfold NanRate at hn ⊢
    rw [e, getElem?_map]
    cases hv : R.y0[i]? with
    | none => rfl
    | some x =>
      rw [hv] at hn
      simp only [Option.getD_some] at hn
      subst hn
      rfl

/-- After the rates are applied the shoreline position is missing. -/
theorem force_nan {pp : PhysPars K} {a : MorIn K} {dt : ℤ} {X0 : ℕ} {st : MorSt K} (h : forceStage pp a = .ok (dt, X0, st)) {i : ℕ}
    (h0 : 0 < i) (h1 : i + 1 < a.rows.length) (hn : (a.LST[i - 1]? = some nan ∨ a.LST[i]? = some nan) ∨ a.CST[i]? = some nan) :
    ∃ c, st.cells[i]? = some c ∧ c.t.y0 = nan := by
  obtain ⟨rb, cells', R, R', rate, hp, hall, hrt, hdt, hlr, happ⟩ := force_inv h
  obtain ⟨g, hl⟩ := allRates_nan hall h0 (by simpa using h1) hn
  have g' := limit_nan hlr g
  simp only [length_mapIdx] at hl
  unfold applyRates at happ
  simp only at happ
  split at happ
  · cases happ
  · cases happ
    obtain ⟨c, hc⟩ : ∃ c, cells'[i]? = some c := ⟨_, getElem?_eq_getElem (by omega)⟩
    refine ⟨_, by rw [getElem?_mapIdx, hc]; rfl, ?_⟩
    unfold moveCell
    dsimp only
    unfold NanRate at g'
    rw [g']; simp

/-- No step completes after that. -/
theorem update_nan {pp : PhysPars K} {j1 j2 : ℕ → Bool} {a : MorIn K} {o : MorOut K} (h : updateMorphology pp j1 j2 a = .ok o) {i : ℕ}
    (h0 : 0 < i) (h1 : i + 1 < a.rows.length) : ¬ ((a.LST[i - 1]? = some nan ∨ a.LST[i]? = some nan) ∨ a.CST[i]? = some nan) := by
  intro hn
  obtain ⟨X0, s0, s1, s2, s3, g0, g1, g2, g3, _⟩ := update_inv h
  obtain ⟨c, hc, e⟩ := force_nan g0 h0 h1 hn
  obtain ⟨c1, hc1, r1⟩ := forall₂_get (repair_rel (staysNan_repair pp) g1) hc
  obtain ⟨c2, hc2, e2⟩ := breach_nan g2 hc1 (r1 e)
  unfold finishStage at g3
  simp only [bind_ok, pyAssert_ok] at g3
  obtain ⟨_, g3, _⟩ := g3
  rw [List.all_eq_true] at g3
  obtain ⟨c3, hc3, e3⟩ : ∃ c3, (s2.cells.modify X0 (keepCell pp))[i]? = some c3 ∧ c3.t.y0 = nan := by
    rw [getElem?_modify, hc2]
    refine ⟨_, rfl, ?_⟩
    dsimp only
    split
    · unfold keepCell; split <;> exact e2
    · exact e2
  have := g3 c3 (mem_of_getElem? hc3)
  rw [e3] at this
  simp at this

end Verif.Model
