import Verif.Lemmas.EndKeep
import Verif.Lemmas.Widen
import Verif.Props.Spit

set_option autoImplicit false
set_option linter.unusedSectionVars false

/-! # Lemmas for C202: the position of the outlet end through a step without a breach -/

namespace Verif.Model
open Verif Fl List Verif.Spec Verif.Props

variable {K : Type} [Field K] [LinearOrder K] [IsStrictOrderedRing K]

theorem connected_e1 {pp : PhysPars K} {C : Bool} {X0 : ℕ} {st st' : MorSt K} {conn : Option (ℤ × ℤ)} (h : connected pp C X0 st = .ok (conn, st')) :
    st'.e1 = st.e1 := by
  unfold connected at h
  simp only [bind_ok] at h
  obtain ⟨⟨mm, e0⟩, _, h⟩ := h
  cases mm with
  | none =>
    simp only [bind_ok, pure_ok] at h
    obtain ⟨_, _, h⟩ := h
    cases h; rfl
  | some p =>
    obtain ⟨lo, hi⟩ := p
    simp only [bind_ok, pure_ok] at h
    obtain ⟨⟨l1, c1⟩, h1, ⟨l2, c2⟩, h2, _, _, h⟩ := h
    cases h; rfl

theorem mergeShore_e1 {pp : PhysPars K} {junk : ℕ → Bool} {C : Bool} {conn : Option (ℤ × ℤ)} {st st' : MorSt K} {b : Option ℕ}
    (h : mergeShore pp junk C conn st = .ok (b, st')) : st'.e1 = st.e1 := by
  unfold mergeShore at h
  simp only at h
  split at h
  · simp only [pure_ok] at h; cases h; rfl
  · simp only [bind_ok] at h
    obtain ⟨b1, _, h⟩ := h
    cases b1 <;> dsimp only at h <;>
    · by_cases hl : st'.e1 = st.e1
      · exact hl
      · split_ifs at h
        simp only [pure_ok] at h
        cases h; rfl

theorem erosion_e1 {C : Bool} {X0 : ℕ} {b b' : Option ℕ} {st st' : MorSt K} (h : erosionBreach C X0 b st = .ok (b', st')) : st'.e1 = st.e1 := by
  unfold erosionBreach at h
  simp only at h
  split at h
  · simp only [pure_ok] at h; cases h; rfl
  · simp only [bind_ok, pure_ok] at h
    obtain ⟨⟨b1, rest⟩, _, h⟩ := h
    cases h; rfl

theorem overtop_e1 {pp : PhysPars K} {C : Bool} {X0 : ℕ} {conn : Option (ℤ × ℤ)} {b b' : Option ℕ} {st st' : MorSt K}
    (h : overtopBreach pp C X0 conn b st = .ok (b', st')) : st'.e1 = st.e1 := by
  unfold overtopBreach at h
  simp only [bind_ok] at h
  obtain ⟨_, _, h⟩ := h
  split at h
  · simp only [pure_ok] at h; cases h; rfl
  · split at h
    · split at h
      · cases h
      · simp only [pure_ok] at h; cases h; rfl
    · simp only [bind_ok, pure_ok] at h
      obtain ⟨_, _, _, _, h⟩ := h
      cases h; rfl

theorem breach_e1 {pp : PhysPars K} {j1 j2 : ℕ → Bool} {C B : Bool} {X0 : ℕ} {st st' : MorSt K} (h : breachStage pp j1 j2 C X0 st = .ok (B, st')) (hB : B = false) :
    st'.e1 = st.e1 := by
  unfold breachStage at h
  simp only [bind_ok] at h
  obtain ⟨⟨conn, t1⟩, g1, ⟨b2, t2⟩, g2, ⟨b3, t3⟩, g3, ⟨b4, t4⟩, g4, t5, g5, g6⟩ := h
  simp only [pure_ok] at g6
  cases g6
  have e5 : st' = t4 := by
    cases b4 with
    | none => unfold createBreach at g5; simp only [pure_ok] at g5; exact g5.symm
    | some b => cases hB
  rw [e5, overtop_e1 g4, erosion_e1 g3, mergeShore_e1 g2, connected_e1 g1]

/-- How bank erosion moves the outlet end. -/
theorem river_endX {pp : PhysPars K} {a : MorIn K} {cells : List (Cell K)} {R : Rates K} (h : riverRates pp a cells = .ok R) (hc : a.Closed = false)
    {e0 e q : K} (h0 : a.EndX0 = fin e0) (h1 : a.EndX1 = fin e) (hq : R.endW = fin q) :
    R.endX = fin (if e0 < e then q / 2 * pp.OutletBankEroFac else if e < e0 then -(q / 2 * pp.OutletBankEroFac) else 0) := by
  unfold riverRates at h
  simp only [bind_ok] at h
  obtain ⟨ss', hss, onRows, hon, z3', hz3', y3', hy3', y4', hy4', h⟩ := h
  rw [if_neg (by rw [hc]; simp)] at h
  simp only [bind_ok, pure_ok] at h
  obtain ⟨_, _, _, _, _, _, _, _, _, _, _, _, rfl⟩ := h
  dsimp only at hq ⊢
  rw [hq, h0, h1]
  have e2 : fin q / fin 2 * fin pp.OutletBankEroFac = fin (q / 2 * pp.OutletBankEroFac) := by rw [div_fin _ _ two_ne_zero, mul_fin]
  rw [e2]
  simp only [blt_fin, decide_eq_true_eq]
  split
  · rfl
  · split <;> rfl

/-- What longshore transport `l` at the end of an open outlet does to its width and position. -/
theorem drift_rates {pp : PhysPars K} {a : MorIn K} {rb : ℕ} {cells cells' : List (Cell K)} {R R1 : Rates K} (h : allRates pp a rb cells = .ok (R, cells'))
    (hR1 : riverRates pp a cells = .ok R1) (hc : a.Closed = false) {l z q m : K} (hl : a.LST[prevIx a.LST.length rb]? = some (fin l)) (hz : a.EndElev = fin z)
    (hzt : z < pp.BeachTopElev) (hsp : 0 < pp.SpitWidth) (hq : R1.endW = fin q) (hm : R1.endX = fin m) :
    R.endW = fin (q - |l| / ((pp.BeachTopElev - z) * pp.SpitWidth)) ∧ R.endX = fin (m + l / ((pp.BeachTopElev - z) * pp.SpitWidth) / 2) := by
  unfold allRates at h
  simp only [bind_ok] at h
  obtain ⟨R1', g1, ⟨R2, c2⟩, g2, R3, g3, h⟩ := h
  rw [hR1] at g1
  cases g1
  obtain ⟨rfl, rfl⟩ : R3 = R ∧ c2 = cells' := by cases h; exact ⟨rfl, rfl⟩
  have hd : (pp.BeachTopElev - z) * pp.SpitWidth ≠ 0 := (mul_pos (by linarith) hsp).ne'
  have k : R2.endW = fin (q - |l| / ((pp.BeachTopElev - z) * pp.SpitWidth)) ∧ R2.endX = fin (m + l / ((pp.BeachTopElev - z) * pp.SpitWidth) / 2) := by
    unfold lstRates at g2
    simp only [bind_ok] at g2
    obtain ⟨_, _, g2⟩ := g2
    rw [if_neg (by rw [hc]; simp)] at g2
    simp only [bind_ok, ixGet_ok] at g2
    obtain ⟨l', hl', g2⟩ := g2
    rw [hl] at hl'
    cases hl'
    split at g2
    · next hn =>
      simp only [blt_fin, decide_eq_true_eq] at hn
      simp only [bind_ok, pure_ok] at g2
      obtain ⟨_, _, g2⟩ := g2
      cases g2
      dsimp only
      rw [abs_of_pos hn, hq, hm, hz, sub_fin, mul_fin, div_fin _ _ hd, sub_fin, div_fin _ _ two_ne_zero, add_fin]
      exact ⟨rfl, rfl⟩
    · next hn =>
      simp only [blt_fin, decide_eq_true_eq, not_lt] at hn
      simp only [bind_ok, pure_ok] at g2
      obtain ⟨_, _, g2⟩ := g2
      cases g2
      dsimp only
      rw [abs_of_nonpos hn, hq, hm, hz, neg_fin, sub_fin, mul_fin, div_fin _ _ hd, sub_fin, div_fin _ _ two_ne_zero, sub_fin]
      refine ⟨rfl, ?_⟩
      congr 1
      ring
  unfold cstRates at g3
  dsimp only at g3
  split at g3
  · cases g3
  · cases g3
    exact k

/-- The outlet end through the limiter. -/
theorem limit_endX {R R' : Rates K} {v : Fl K} {lim : K} {dtMin dt : ℤ} (h : limitRates v lim dtMin dt R = .ok R') {w x : K} (hw : R.endW = fin w) (hx : R.endX = fin x) :
    (R' = R) ∨ (0 < secs dt ∧ R'.endW = clip (lim / (secs dt : K)) (fin w) ∧ R'.endX = clip (lim / (secs dt : K)) (fin x)) := by
  unfold limitRates at h
  split at h
  · simp only [bind_ok] at h
    obtain ⟨_, _, h⟩ := h
    split at h
    · cases h
    · next hne =>
      cases h
      refine Or.inr ⟨lt_of_le_of_ne (secs_nonneg dt) (Ne.symm hne), by dsimp only; rw [hw], ?_⟩
      dsimp only
      rw [hx]
      unfold clip pyClip
      rw [npmax_fin, npmin_fin, pymax_fin, pymin_fin]
  · cases h; exact Or.inl rfl

end Verif.Model
