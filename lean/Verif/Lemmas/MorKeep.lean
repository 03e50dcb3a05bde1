import Verif.Lemmas.MorRel

set_option autoImplicit false
set_option linter.unusedSectionVars false

/-! # The river bed is not touched by the repairs and breaches -/

namespace Verif.Model
open Verif Fl List

variable {K : Type} [Field K] [LinearOrder K] [IsStrictOrderedRing K]

theorem edge_riv {st st' : MorSt K} (h : edgeCheck st = .ok st') : st'.riv = st.riv := by
  unfold edgeCheck at h
  simp only [bind_ok, pure_ok] at h
  obtain ⟨_, _, _, _, rfl⟩ := h
  rfl

theorem extendChan_riv {pp : PhysPars K} {m : Transect K → Bool} {st st' : MorSt K} (h : extendChan pp st m = .ok st') : st'.riv = st.riv := by
  unfold extendChan at h
  split at h
  · exact absurd h (by simp)
  · rw [ok_inj] at h; subst h; rfl

theorem elongate_riv {pp : PhysPars K} {C : Bool} {st st' : MorSt K} (h : elongate pp C st = .ok st') : st'.riv = st.riv := by
  unfold elongate at h
  split at h
  · simp only [pure_ok] at h; subst h; rfl
  · simp only [bind_ok] at h
    obtain ⟨_, _, _, _, h⟩ := h
    split at h
    · simp only [bind_ok] at h
      obtain ⟨_, _, h⟩ := h
      split at h
      · exact extendChan_riv h
      · simp only [pure_ok] at h; subst h; rfl
    · simp only [bind_ok] at h
      obtain ⟨_, _, h⟩ := h
      split at h
      · exact extendChan_riv h
      · simp only [pure_ok] at h; subst h; rfl

theorem seaPrevent_riv {C : Bool} {st st' : MorSt K} (h : seaPrevent C st = .ok st') : st'.riv = st.riv := by
  unfold seaPrevent at h
  split at h
  · simp only [pure_ok] at h; subst h; rfl
  · simp only [bind_ok] at h
    obtain ⟨_, _, _, _, h⟩ := h
    split at h
    · simp only [pure_ok] at h; subst h; rfl
    · simp only [pure_ok] at h; subst h; rfl

theorem lagoonTrunc_riv {st st' : MorSt K} (h : lagoonTrunc st = .ok st') : st'.riv = st.riv := by
  unfold lagoonTrunc at h
  split at h
  · simp only [pure_ok] at h; subst h; rfl
  · split at h
    · simp only [pure_ok] at h; subst h; rfl
    · simp only [bind_ok] at h
      obtain ⟨_, _, _, _, _, _, h⟩ := h
      split at h
      · simp only [bind_ok, pure_ok] at h
        obtain ⟨_, _, rfl⟩ := h
        rfl
      · simp only [pure_ok] at h; subst h; rfl

theorem seaTrunc_riv {Dx : K} {st st' : MorSt K} (h : seaTrunc Dx st = .ok st') : st'.riv = st.riv := by
  unfold seaTrunc at h
  split at h
  · simp only [pure_ok] at h; subst h; rfl
  · simp only at h
    split at h
    · simp only [pure_ok] at h; subst h; rfl
    · split at h
      · simp only [bind_ok, pure_ok] at h
        obtain ⟨_, _, _, _, rfl⟩ := h
        rfl
      · simp only [bind_ok, pure_ok] at h
        obtain ⟨_, _, _, _, rfl⟩ := h
        rfl

theorem lagoonPrevent_riv {pp : PhysPars K} {C : Bool} {st st' : MorSt K} (h : lagoonPrevent pp C st = .ok st') : st'.riv = st.riv := by
  unfold lagoonPrevent at h
  split at h
  · simp only [pure_ok] at h; subst h; rfl
  · simp only [bind_ok] at h
    obtain ⟨_, _, _, _, h⟩ := h
    split at h
    · simp only [pure_ok] at h; subst h; rfl
    · simp only [pure_ok] at h; subst h; rfl

theorem repair_riv {pp : PhysPars K} {C : Bool} {Dx : K} {st st' : MorSt K} (h : repairStage pp C Dx st = .ok st') : st'.riv = st.riv := by
  unfold repairStage at h
  simp only [bind_ok] at h
  obtain ⟨s1, h1, cs, h2, s3, h3, s4, h4, s5, h5, s6, h6, h7⟩ := h
  rw [lagoonPrevent_riv h7, seaTrunc_riv h6, lagoonTrunc_riv h5, seaPrevent_riv h4, elongate_riv h3]
  exact (edge_riv h1 : s1.riv = st.riv)

theorem connected_riv {pp : PhysPars K} {C : Bool} {X0 : ℕ} {st st' : MorSt K} {conn : Option (ℤ × ℤ)} (h : connected pp C X0 st = .ok (conn, st')) :
    st'.riv = st.riv := by
  unfold connected at h
  simp only [bind_ok] at h
  obtain ⟨⟨mm, e0⟩, _, h⟩ := h
  cases mm with
  | none =>
    simp only [bind_ok, pure_ok] at h
    obtain ⟨_, _, h⟩ := h
    cases h; rfl
  | some p =>
    obtain ⟨lo, hi⟩ := p
    simp only [bind_ok, pure_ok] at h
    obtain ⟨⟨l1, c1⟩, h1, ⟨l2, c2⟩, h2, _, _, h⟩ := h
    cases h; rfl

theorem mergeShore_riv {pp : PhysPars K} {junk : ℕ → Bool} {C : Bool} {conn : Option (ℤ × ℤ)} {st st' : MorSt K} {b : Option ℕ}
    (h : mergeShore pp junk C conn st = .ok (b, st')) : st'.riv = st.riv := by
  unfold mergeShore at h
  simp only at h
  split at h
  · simp only [pure_ok] at h; cases h; rfl
  · simp only [bind_ok] at h
    obtain ⟨b1, _, h⟩ := h
    cases b1 <;> dsimp only at h <;>
    · by_cases hl : st'.riv = st.riv
      · exact hl
      · split_ifs at h
        simp only [pure_ok] at h
        cases h; rfl

theorem erosion_riv {C : Bool} {X0 : ℕ} {b b' : Option ℕ} {st st' : MorSt K} (h : erosionBreach C X0 b st = .ok (b', st')) : st'.riv = st.riv := by
  unfold erosionBreach at h
  simp only at h
  split at h
  · simp only [pure_ok] at h; cases h; rfl
  · simp only [bind_ok, pure_ok] at h
    obtain ⟨⟨b1, rest⟩, _, h⟩ := h
    cases h; rfl

theorem overtop_riv {pp : PhysPars K} {C : Bool} {X0 : ℕ} {conn : Option (ℤ × ℤ)} {b b' : Option ℕ} {st st' : MorSt K}
    (h : overtopBreach pp C X0 conn b st = .ok (b', st')) : st'.riv = st.riv := by
  unfold overtopBreach at h
  simp only [bind_ok] at h
  obtain ⟨_, _, h⟩ := h
  split at h
  · simp only [pure_ok] at h; cases h; rfl
  · split at h
    · split at h
      · cases h
      · simp only [pure_ok] at h; cases h; rfl
    · simp only [bind_ok, pure_ok] at h
      obtain ⟨_, _, _, _, h⟩ := h
      cases h; rfl

theorem create_riv {pp : PhysPars K} {conn : Option (ℤ × ℤ)} {b : Option ℕ} {st st' : MorSt K} (h : createBreach pp conn b st = .ok st') :
    st'.riv = st.riv := by
  unfold createBreach at h
  split at h
  · simp only [pure_ok] at h; cases h; rfl
  · simp only [bind_ok] at h
    obtain ⟨c, _, h⟩ := h
    split at h
    · simp only [pure_ok] at h; cases h; rfl
    · simp only [pure_ok] at h; cases h; rfl

theorem breach_riv {pp : PhysPars K} {j1 j2 : ℕ → Bool} {C B : Bool} {X0 : ℕ} {st st' : MorSt K} (h : breachStage pp j1 j2 C X0 st = .ok (B, st')) :
    st'.riv = st.riv := by
  unfold breachStage at h
  simp only [bind_ok] at h
  obtain ⟨⟨conn, t1⟩, g1, ⟨b2, t2⟩, g2, ⟨b3, t3⟩, g3, ⟨b4, t4⟩, g4, t5, g5, g6⟩ := h
  simp only [pure_ok] at g6
  cases g6
  rw [create_riv g5, overtop_riv g4, erosion_riv g3, mergeShore_riv g2, connected_riv g1]

/-- The river bed after a step is that left by applying the rates. -/
theorem update_riv {pp : PhysPars K} {j1 j2 : ℕ → Bool} {a : MorIn K} {o : MorOut K} (h : updateMorphology pp j1 j2 a = .ok o) :
    ∃ (X0 : ℕ) (s0 : MorSt K), forceStage pp a = .ok (o.MorDt, X0, s0) ∧ o.RiverElev = s0.riv := by
  obtain ⟨X0, s0, s1, s2, s3, h0, h1, h2, h3, _, _, _, _, _, er⟩ := update_inv h
  refine ⟨X0, s0, h0, ?_⟩
  have h4 : s3.riv = s2.riv := by
    unfold finishStage at h3
    simp only [bind_ok, pure_ok] at h3
    obtain ⟨_, _, _, _, _, _, rfl⟩ := h3
    rfl
  rw [er, h4, breach_riv h2, repair_riv h1]

theorem update_riv_length {pp : PhysPars K} {j1 j2 : ℕ → Bool} {a : MorIn K} {o : MorOut K} (h : updateMorphology pp j1 j2 a = .ok o) :
    o.RiverElev.length = a.RiverElev.length ∧ 0 < a.RiverElev.length := by
  obtain ⟨X0, s0, h0, er⟩ := update_riv h
  obtain ⟨rb, cells', R, R', rate, g1, g2, g3, g4, g5, g6⟩ := force_inv h0
  unfold applyRates at g6
  simp only at g6
  split at g6
  · cases g6
  · next hl =>
    rw [er, ← ok_inj.mp g6]
    simp only [ne_eq, not_not] at hl
    simp
    omega

end Verif.Model
