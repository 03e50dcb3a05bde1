import Verif.Lemmas.EndKeep

set_option autoImplicit false
set_option linter.unusedSectionVars false

/-! # The inner end of a closed outlet through a step -/

namespace Verif.Model
open Verif Fl List Verif.Spec Verif.Props

variable {K : Type} [Field K] [LinearOrder K] [IsStrictOrderedRing K]

/-- Position of the inner end of the outlet, and the transects of the channel. -/
def MorSt.inner (st : MorSt K) : Fl K × List ℕ := (st.e0, st.ix)

theorem repair_inner {pp : PhysPars K} {Dx : K} {st st' : MorSt K} (h : repairStage pp true Dx st = .ok st') (hix : st.ix = []) : st'.inner = st.inner := by
  unfold repairStage at h
  simp only [bind_ok] at h
  obtain ⟨s1, h1, cs, h2, s3, h3, s4, h4, s5, h5, s6, h6, h7⟩ := h
  have e1 : s1.inner = st.inner := by
    unfold edgeCheck at h1
    simp only [bind_ok, pure_ok] at h1
    obtain ⟨_, _, _, _, rfl⟩ := h1
    rfl
  have e3 : s3.inner = s1.inner := by
    unfold elongate at h3
    simp only [if_true, pure_ok] at h3
    subst h3; rfl
  have e4 : s4.inner = s3.inner := by
    unfold seaPrevent at h4
    simp only [Bool.true_or, if_true, pure_ok] at h4
    subst h4; rfl
  have i4 : s4.ix = [] := by
    have := e4.trans (e3.trans e1)
    unfold MorSt.inner at this
    rw [Prod.mk.injEq] at this
    rw [this.2, hix]
  have e5 : s5.inner = s4.inner := by
    unfold lagoonTrunc at h5
    rw [if_pos (by rw [i4]; simp), pure_ok] at h5
    subst h5; rfl
  have i5 : s5.ix = [] := by
    unfold MorSt.inner at e5
    rw [Prod.mk.injEq] at e5
    rw [e5.2, i4]
  have e6 : s6.inner = s5.inner := by
    unfold seaTrunc at h6
    rw [if_pos (by rw [i5]; simp), pure_ok] at h6
    subst h6; rfl
  have e7 : st'.inner = s6.inner := by
    unfold lagoonPrevent at h7
    simp only [Bool.true_or, if_true, pure_ok] at h7
    subst h7; rfl
  rw [e7, e6, e5, e4, e3, e1]

theorem connected_inner {pp : PhysPars K} {X0 : ℕ} {st st' : MorSt K} {conn : Option (ℤ × ℤ)} (h : connected pp true X0 st = .ok (conn, st')) :
    st'.e0 = st.e0 ∨ st'.e0 = nan := by
  unfold connected at h
  simp only [bind_ok] at h
  obtain ⟨⟨mm, e0⟩, g, h⟩ := h
  have k : e0 = st.e0 ∨ e0 = nan := by
    unfold connStart at g
    simp only [Bool.not_true, Bool.false_eq_true, if_false] at g
    split at g
    · simp only [bind_ok] at g
      obtain ⟨_, _, g⟩ := g
      split at g
      · rw [pure_ok] at g; cases g; exact Or.inr rfl
      · split at g
        · rw [pure_ok] at g; cases g; exact Or.inr rfl
        · rw [pure_ok] at g; cases g; exact Or.inl rfl
    · rw [pure_ok] at g; cases g; exact Or.inl rfl
  cases mm with
  | none =>
    simp only [bind_ok, pure_ok] at h
    obtain ⟨_, _, h⟩ := h
    cases h; exact k
  | some p =>
    obtain ⟨lo, hi⟩ := p
    simp only [bind_ok, pure_ok] at h
    obtain ⟨⟨l1, c1⟩, h1, ⟨l2, c2⟩, h2, _, _, h⟩ := h
    cases h; exact k

theorem mergeShore_inner {pp : PhysPars K} {junk : ℕ → Bool} {C : Bool} {conn : Option (ℤ × ℤ)} {st st' : MorSt K} {b : Option ℕ}
    (h : mergeShore pp junk C conn st = .ok (b, st')) : st'.e0 = st.e0 := by
  unfold mergeShore at h
  simp only at h
  split at h
  · simp only [pure_ok] at h; cases h; rfl
  · simp only [bind_ok] at h
    obtain ⟨b1, _, h⟩ := h
    cases b1 <;> dsimp only at h <;>
    · by_cases hl : st'.e0 = st.e0
      · exact hl
      · split_ifs at h
        simp only [pure_ok] at h
        cases h; rfl

theorem erosion_inner {C : Bool} {X0 : ℕ} {b b' : Option ℕ} {st st' : MorSt K} (h : erosionBreach C X0 b st = .ok (b', st')) : st'.e0 = st.e0 := by
  unfold erosionBreach at h
  simp only at h
  split at h
  · simp only [pure_ok] at h; cases h; rfl
  · simp only [bind_ok, pure_ok] at h
    obtain ⟨⟨b1, rest⟩, _, h⟩ := h
    cases h; rfl

theorem overtop_inner {pp : PhysPars K} {C : Bool} {X0 : ℕ} {conn : Option (ℤ × ℤ)} {b b' : Option ℕ} {st st' : MorSt K}
    (h : overtopBreach pp C X0 conn b st = .ok (b', st')) : st'.e0 = st.e0 := by
  unfold overtopBreach at h
  simp only [bind_ok] at h
  obtain ⟨_, _, h⟩ := h
  split at h
  · simp only [pure_ok] at h; cases h; rfl
  · split at h
    · split at h
      · cases h
      · simp only [pure_ok] at h; cases h; rfl
    · simp only [bind_ok, pure_ok] at h
      obtain ⟨_, _, _, _, h⟩ := h
      cases h; rfl

/-- A step of a closed lagoon without a breach leaves the inner end of the outlet where it is, or gives it up. -/
theorem closed_inner {pp : PhysPars K} {j1 j2 : ℕ → Bool} {a : MorIn K} {o : MorOut K} (h : updateMorphology pp j1 j2 a = .ok o) (hC : a.Closed = true)
    (hix : a.outlet = []) (hB : o.Breach = false) : o.EndX0 = a.EndX0 ∨ o.EndX0 = nan := by
  obtain ⟨X0, s0, s1, s2, s3, h0, h1, h2, h3, _, ex, _⟩ := update_inv h
  have e0 : s0.inner = (a.EndX0, a.outlet) := by
    obtain ⟨rb, cells', R, R', rate, hp, hall, hrt, hdt, hl, ha⟩ := force_inv h0
    unfold applyRates at ha
    simp only at ha
    split at ha
    · cases ha
    · cases ha; rfl
  have h4 : s3.e0 = s2.e0 := by
    unfold finishStage at h3
    simp only [bind_ok, pure_ok] at h3
    obtain ⟨_, _, _, _, _, _, rfl⟩ := h3
    rfl
  rw [hC] at h1 h2
  have e1 := (repair_inner h1 (by unfold MorSt.inner at e0; rw [Prod.mk.injEq] at e0; rw [e0.2, hix])).trans e0
  have e1' : s1.e0 = a.EndX0 := congrArg Prod.fst e1
  unfold breachStage at h2
  simp only [bind_ok] at h2
  obtain ⟨⟨conn, t1⟩, g1, ⟨b2, t2⟩, g2, ⟨b3, t3⟩, g3, ⟨b4, t4⟩, g4, t5, g5, g6⟩ := h2
  simp only [pure_ok, Prod.mk.injEq] at g6
  obtain ⟨g6, rfl⟩ := g6
  have e5 : t5 = t4 := by
    cases b4 with
    | none => unfold createBreach at g5; simp only [pure_ok] at g5; exact g5.symm
    | some b => rw [hB] at g6; cases g6
  have k := connected_inner g1
  rw [ex, h4, e5, overtop_inner g4, erosion_inner g3, mergeShore_inner g2]
  simpa [e1'] using k

end Verif.Model
