import Verif.Lemmas.MorKeep
import Verif.Lemmas.SpitStep

set_option autoImplicit false
set_option linter.unusedSectionVars false

/-! # The end of the outlet through a step without a breach -/

namespace Verif.Model
open Verif Fl List Verif.Spec Verif.Props

variable {K : Type} [Field K] [LinearOrder K] [IsStrictOrderedRing K]

/-- Width and bed level of the outlet end. -/
def MorSt.ends (st : MorSt K) : Fl K × Fl K := (st.endW, st.endZ)

theorem edge_ends {st st' : MorSt K} (h : edgeCheck st = .ok st') : st'.ends = st.ends := by
  unfold edgeCheck at h
  simp only [bind_ok, pure_ok] at h
  obtain ⟨_, _, _, _, rfl⟩ := h
  rfl

theorem extendChan_ends {pp : PhysPars K} {m : Transect K → Bool} {st st' : MorSt K} (h : extendChan pp st m = .ok st') : st'.ends = st.ends := by
  unfold extendChan at h
  split at h
  · exact absurd h (by simp)
  · rw [ok_inj] at h; subst h; rfl

theorem elongate_ends {pp : PhysPars K} {C : Bool} {st st' : MorSt K} (h : elongate pp C st = .ok st') : st'.ends = st.ends := by
  unfold elongate at h
  split at h
  · simp only [pure_ok] at h; subst h; rfl
  · simp only [bind_ok] at h
    obtain ⟨_, _, _, _, h⟩ := h
    split at h
    · simp only [bind_ok] at h
      obtain ⟨_, _, h⟩ := h
      split at h
      · exact extendChan_ends h
      · simp only [pure_ok] at h; subst h; rfl
    · simp only [bind_ok] at h
      obtain ⟨_, _, h⟩ := h
      split at h
      · exact extendChan_ends h
      · simp only [pure_ok] at h; subst h; rfl

theorem seaPrevent_ends {C : Bool} {st st' : MorSt K} (h : seaPrevent C st = .ok st') : st'.ends = st.ends := by
  unfold seaPrevent at h
  split at h
  · simp only [pure_ok] at h; subst h; rfl
  · simp only [bind_ok] at h
    obtain ⟨_, _, _, _, h⟩ := h
    split at h
    · simp only [pure_ok] at h; subst h; rfl
    · simp only [pure_ok] at h; subst h; rfl

theorem lagoonTrunc_ends {st st' : MorSt K} (h : lagoonTrunc st = .ok st') : st'.ends = st.ends := by
  unfold lagoonTrunc at h
  split at h
  · simp only [pure_ok] at h; subst h; rfl
  · split at h
    · simp only [pure_ok] at h; subst h; rfl
    · simp only [bind_ok] at h
      obtain ⟨_, _, _, _, _, _, h⟩ := h
      split at h
      · simp only [bind_ok, pure_ok] at h
        obtain ⟨_, _, rfl⟩ := h
        rfl
      · simp only [pure_ok] at h; subst h; rfl

theorem seaTrunc_ends {Dx : K} {st st' : MorSt K} (h : seaTrunc Dx st = .ok st') : st'.ends = st.ends := by
  unfold seaTrunc at h
  split at h
  · simp only [pure_ok] at h; subst h; rfl
  · simp only at h
    split at h
    · simp only [pure_ok] at h; subst h; rfl
    · split at h
      · simp only [bind_ok, pure_ok] at h
        obtain ⟨_, _, _, _, rfl⟩ := h
        rfl
      · simp only [bind_ok, pure_ok] at h
        obtain ⟨_, _, _, _, rfl⟩ := h
        rfl

theorem lagoonPrevent_ends {pp : PhysPars K} {C : Bool} {st st' : MorSt K} (h : lagoonPrevent pp C st = .ok st') : st'.ends = st.ends := by
  unfold lagoonPrevent at h
  split at h
  · simp only [pure_ok] at h; subst h; rfl
  · simp only [bind_ok] at h
    obtain ⟨_, _, _, _, h⟩ := h
    split at h
    · simp only [pure_ok] at h; subst h; rfl
    · simp only [pure_ok] at h; subst h; rfl

theorem repair_ends {pp : PhysPars K} {C : Bool} {Dx : K} {st st' : MorSt K} (h : repairStage pp C Dx st = .ok st') : st'.ends = st.ends := by
  unfold repairStage at h
  simp only [bind_ok] at h
  obtain ⟨s1, h1, cs, h2, s3, h3, s4, h4, s5, h5, s6, h6, h7⟩ := h
  rw [lagoonPrevent_ends h7, seaTrunc_ends h6, lagoonTrunc_ends h5, seaPrevent_ends h4, elongate_ends h3]
  exact (edge_ends h1 : s1.ends = st.ends)

theorem connected_ends {pp : PhysPars K} {C : Bool} {X0 : ℕ} {st st' : MorSt K} {conn : Option (ℤ × ℤ)} (h : connected pp C X0 st = .ok (conn, st')) :
    st'.ends = st.ends := by
  unfold connected at h
  simp only [bind_ok] at h
  obtain ⟨⟨mm, e0⟩, _, h⟩ := h
  cases mm with
  | none =>
    simp only [bind_ok, pure_ok] at h
    obtain ⟨_, _, h⟩ := h
    cases h; rfl
  | some p =>
    obtain ⟨lo, hi⟩ := p
    simp only [bind_ok, pure_ok] at h
    obtain ⟨⟨l1, c1⟩, h1, ⟨l2, c2⟩, h2, _, _, h⟩ := h
    cases h; rfl

theorem mergeShore_ends {pp : PhysPars K} {junk : ℕ → Bool} {C : Bool} {conn : Option (ℤ × ℤ)} {st st' : MorSt K} {b : Option ℕ}
    (h : mergeShore pp junk C conn st = .ok (b, st')) : st'.ends = st.ends := by
  unfold mergeShore at h
  simp only at h
  split at h
  · simp only [pure_ok] at h; cases h; rfl
  · simp only [bind_ok] at h
    obtain ⟨b1, _, h⟩ := h
    cases b1 <;> dsimp only at h <;>
    · by_cases hl : st'.ends = st.ends
      · exact hl
      · split_ifs at h
        simp only [pure_ok] at h
        cases h; rfl

theorem erosion_ends {C : Bool} {X0 : ℕ} {b b' : Option ℕ} {st st' : MorSt K} (h : erosionBreach C X0 b st = .ok (b', st')) : st'.ends = st.ends := by
  unfold erosionBreach at h
  simp only at h
  split at h
  · simp only [pure_ok] at h; cases h; rfl
  · simp only [bind_ok, pure_ok] at h
    obtain ⟨⟨b1, rest⟩, _, h⟩ := h
    cases h; rfl

theorem overtop_ends {pp : PhysPars K} {C : Bool} {X0 : ℕ} {conn : Option (ℤ × ℤ)} {b b' : Option ℕ} {st st' : MorSt K}
    (h : overtopBreach pp C X0 conn b st = .ok (b', st')) : st'.ends = st.ends := by
  unfold overtopBreach at h
  simp only [bind_ok] at h
  obtain ⟨_, _, h⟩ := h
  split at h
  · simp only [pure_ok] at h; cases h; rfl
  · split at h
    · split at h
      · cases h
      · simp only [pure_ok] at h; cases h; rfl
    · simp only [bind_ok, pure_ok] at h
      obtain ⟨_, _, _, _, h⟩ := h
      cases h; rfl

theorem breach_ends {pp : PhysPars K} {j1 j2 : ℕ → Bool} {C B : Bool} {X0 : ℕ} {st st' : MorSt K} (h : breachStage pp j1 j2 C X0 st = .ok (B, st')) (hB : B = false) :
    st'.ends = st.ends := by
  unfold breachStage at h
  simp only [bind_ok] at h
  obtain ⟨⟨conn, t1⟩, g1, ⟨b2, t2⟩, g2, ⟨b3, t3⟩, g3, ⟨b4, t4⟩, g4, t5, g5, g6⟩ := h
  simp only [pure_ok] at g6
  cases g6
  have e5 : st' = t4 := by
    cases b4 with
    | none => unfold createBreach at g5; simp only [pure_ok] at g5; exact g5.symm
    | some b => cases hB
  rw [e5, overtop_ends g4, erosion_ends g3, mergeShore_ends g2, connected_ends g1]
  rfl

/-- Width and bed level of the outlet end after a step without a breach are those left by applying the rates. -/
theorem update_ends {pp : PhysPars K} {j1 j2 : ℕ → Bool} {a : MorIn K} {o : MorOut K} (h : updateMorphology pp j1 j2 a = .ok o) (hB : o.Breach = false) :
    ∃ (X0 : ℕ) (s0 : MorSt K), forceStage pp a = .ok (o.MorDt, X0, s0) ∧ o.EndWidth = s0.endW ∧ o.EndElev = s0.endZ := by
  obtain ⟨X0, s0, s1, s2, s3, h0, h1, h2, h3, _, _, _, ew, ez, _⟩ := update_inv h
  refine ⟨X0, s0, h0, ?_⟩
  have h4 : s3.ends = s2.ends := by
    unfold finishStage at h3
    simp only [bind_ok, pure_ok] at h3
    obtain ⟨_, _, _, _, _, _, rfl⟩ := h3
    rfl
  have e : s3.ends = s0.ends := by rw [h4, breach_ends h2 hB, repair_ends h1]
  unfold MorSt.ends at e
  rw [Prod.mk.injEq] at e
  rw [ew, ez]
  exact e

/-- The outlet end through the limiter. -/
theorem limit_ends {R R' : Rates K} {v : Fl K} {lim : K} {dtMin dt : ℤ} (h : limitRates v lim dtMin dt R = .ok R') :
    R' = R ∨ (0 < secs dt ∧ R'.endW = clip (lim / (secs dt : K)) R.endW ∧ R'.endZ = pyClip (lim / (secs dt : K)) R.endZ) := by
  unfold limitRates at h
  split at h
  · simp only [bind_ok] at h
    obtain ⟨_, _, h⟩ := h
    split at h
    · cases h
    · next hne =>
      cases h
      exact Or.inr ⟨lt_of_le_of_ne (secs_nonneg dt) (Ne.symm hne), rfl, rfl⟩
  · cases h; exact Or.inl rfl

theorem clip_free_one {v v' : Fl K} {lim : K} {dt : ℤ} (h : v' = v ∨ (0 < secs dt ∧ v' = clip (lim / (secs dt : K)) v)) {x : K} (hx : v = fin x) :
    ∃ x', v' = fin x' ∧ (|x' * (secs dt : K)| < lim → x' = x) := by
  obtain ⟨x', h1, h2⟩ := clip_free (l := [v]) (l' := [v']) (lim := lim) (dt := dt) (i := 0) (x := x) (by
    rcases h with rfl | ⟨h1, rfl⟩
    · exact Or.inl rfl
    · exact Or.inr ⟨h1, rfl⟩) (by rw [hx]; rfl)
  refine ⟨x', ?_, h2⟩
  simpa using h1

/-- What longshore transport `l` to the right (or none) at the end of an open outlet does to its rates. -/
theorem mouth_rates {pp : PhysPars K} {a : MorIn K} {rb : ℕ} {cells cells' : List (Cell K)} {R R1 : Rates K} (h : allRates pp a rb cells = .ok (R, cells'))
    (hR1 : riverRates pp a cells = .ok R1) (hc : a.Closed = false) {l z q p : K} (hl : a.LST[prevIx a.LST.length rb]? = some (fin l)) (hl0 : 0 ≤ l) (hz : a.EndElev = fin z)
    (hzt : z < pp.BeachTopElev) (hsp : 0 < pp.SpitWidth) (hq : R1.endW = fin q) (hp : R1.endZ = fin p) :
    R.endW = fin (q - l / ((pp.BeachTopElev - z) * pp.SpitWidth)) ∧ R.endZ = fin p := by
  unfold allRates at h
  simp only [bind_ok] at h
  obtain ⟨R1', g1, ⟨R2, c2⟩, g2, R3, g3, h⟩ := h
  rw [hR1] at g1
  cases g1
  obtain ⟨rfl, rfl⟩ : R3 = R ∧ c2 = cells' := by cases h; exact ⟨rfl, rfl⟩
  have hd : (pp.BeachTopElev - z) * pp.SpitWidth ≠ 0 := (mul_pos (by linarith) hsp).ne'
  have k : R2.endW = fin (q - l / ((pp.BeachTopElev - z) * pp.SpitWidth)) ∧ R2.endZ = fin p := by
    unfold lstRates at g2
    simp only [bind_ok] at g2
    obtain ⟨_, _, g2⟩ := g2
    rw [if_neg (by rw [hc]; simp)] at g2
    simp only [bind_ok, ixGet_ok] at g2
    obtain ⟨l', hl', g2⟩ := g2
    rw [hl] at hl'
    cases hl'
    split at g2
    · simp only [bind_ok, pure_ok] at g2
      obtain ⟨_, _, g2⟩ := g2
      cases g2
      refine ⟨?_, hp⟩
      show R1.endW - fin l / ((fin pp.BeachTopElev - a.EndElev) * fin pp.SpitWidth) = _
      rw [hq, hz, sub_fin, mul_fin, div_fin _ _ hd, sub_fin]
    · next hn =>
      have hl1 : l = 0 := by
        simp only [blt_fin, decide_eq_true_eq, not_lt] at hn
        exact le_antisymm hn hl0
      subst hl1
      simp only [bind_ok, pure_ok] at g2
      obtain ⟨_, _, g2⟩ := g2
      cases g2
      refine ⟨?_, hp⟩
      show R1.endW - -fin 0 / ((fin pp.BeachTopElev - a.EndElev) * fin pp.SpitWidth) = _
      rw [hq, hz, neg_fin, sub_fin, mul_fin, div_fin _ _ hd, sub_fin, neg_zero]
  unfold cstRates at g3
  dsimp only at g3
  split at g3
  · cases g3
  · cases g3
    exact k

end Verif.Model
