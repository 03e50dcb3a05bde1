import Verif.Lemmas.EndKeep
import Verif.Lemmas.Regular
import Verif.Lemmas.Channel

set_option autoImplicit false
set_option linter.unusedSectionVars false

/-! # Width and bed level of the outlet end through a step -/

namespace Verif.Model
open Verif Fl Verif.Spec

variable {K : Type} [Field K] [LinearOrder K] [IsStrictOrderedRing K]

/-- Merging and breaches: a new breach is at least twice the smallest width wide. -/
theorem breach_ends_any {pp : PhysPars K} {j1 j2 : ℕ → Bool} {C B : Bool} {X0 : ℕ} {st st' : MorSt K} (h : breachStage pp j1 j2 C X0 st = .ok (B, st')) :
    st'.ends = st.ends ∨ (B = true ∧ st'.ends = (pymax st.endW (fin (2 * pp.MinOutletWidth)), pymin st.endZ (fin pp.MaxOutletElev))) := by
  unfold breachStage at h
  simp only [bind_ok] at h
  obtain ⟨⟨conn, t1⟩, g1, ⟨b2, t2⟩, g2, ⟨b3, t3⟩, g3, ⟨b4, t4⟩, g4, t5, g5, g6⟩ := h
  simp only [pure_ok] at g6
  cases g6
  have e4 : t4.ends = st.ends := by
    rw [overtop_ends g4, erosion_ends g3, mergeShore_ends g2, connected_ends g1]
    rfl
  cases b4 with
  | none =>
    unfold createBreach at g5; simp only [pure_ok] at g5; subst g5
    exact Or.inl e4
  | some b =>
    unfold createBreach at g5
    simp only [bind_ok] at g5
    obtain ⟨d, _, g5⟩ := g5
    split at g5
    · simp only [pure_ok] at g5; subst g5
      exact Or.inl e4
    · simp only [pure_ok] at g5; subst g5
      refine Or.inr ⟨rfl, ?_⟩
      unfold MorSt.ends at e4 ⊢
      rw [Prod.mk.injEq] at e4
      rw [← e4.1, ← e4.2]

/-- The forcing: nothing at a closed outlet; at an open one, with regular arguments, no more than the limit. -/
theorem force_ends {pp : PhysPars K} {a : MorIn K} {dt : ℤ} {X0 : ℕ} {st : MorSt K} (h : forceStage pp a = .ok (dt, X0, st)) :
    (a.Closed = true → st.ends = (a.EndWidth, a.EndElev)) ∧
    (0 ≤ a.MaxMorChange → Regular pp a → (∀ w, a.EndWidth = fin w → ∃ w', st.endW = fin w' ∧ |w' - w| ≤ a.MaxMorChange) ∧
      (∀ z, a.EndElev = fin z → ∃ z', st.endZ = fin z' ∧ |z' - z| ≤ a.MaxMorChange)) := by
  obtain ⟨rb, cells', R, R', rate, hp, hall, hrt, hdt, hl, ha⟩ := force_inv h
  unfold applyRates at ha
  simp only at ha
  split at ha
  · cases ha
  · cases ha
    refine ⟨fun hC => ?_, fun hB hreg => ?_⟩
    · simp only [MorSt.ends, hC, if_true]
    · have hF := regular_finite hreg hp hall
      obtain ⟨hsm, hcl⟩ := limit_small hB hF hrt hl
      simp only [Rates.cols, List.mem_cons, List.not_mem_nil, or_false, forall_eq_or_imp, forall_eq] at hsm
      obtain ⟨_, _, _, _, _, _, _, _, _, sw, sz, _⟩ := hsm
      have hs0 : (0 : K) ≤ (secs dt : K) := by exact_mod_cast secs_nonneg dt
      have one : ∀ (v r : Fl K) (u : K), Small a.MaxMorChange (secs dt : K) r → v = fin u →
          ∃ u', (if a.Closed then v else v + r * fin (secs dt : K)) = fin u' ∧ |u' - u| ≤ a.MaxMorChange := by
        intro v r u ⟨x, hx, b⟩ hv
        cases a.Closed with
        | true => exact ⟨u, by simp [hv], by simpa using hB⟩
        | false =>
          refine ⟨u + x * (secs dt : K), ?_, ?_⟩
          · simp only [Bool.false_eq_true, if_false]
            rw [hx, hv, mul_fin, add_fin]
          · rw [add_sub_cancel_left, abs_mul, abs_of_nonneg hs0]; exact b
      exact ⟨fun w hw => one _ _ w sw hw, fun z hz => one _ _ z sz hz⟩

/-- A whole step. -/
theorem update_ends_any {pp : PhysPars K} {j1 j2 : ℕ → Bool} {a : MorIn K} {o : MorOut K} (h : updateMorphology pp j1 j2 a = .ok o) :
    ∃ (X0 : ℕ) (s0 : MorSt K), forceStage pp a = .ok (o.MorDt, X0, s0) ∧ ((o.EndWidth = s0.endW ∧ o.EndElev = s0.endZ) ∨
      (o.Breach = true ∧ o.EndWidth = pymax s0.endW (fin (2 * pp.MinOutletWidth)) ∧ o.EndElev = pymin s0.endZ (fin pp.MaxOutletElev))) := by
  obtain ⟨X0, s0, s1, s2, s3, h0, h1, h2, h3, _, _, _, ew, ez, _⟩ := update_inv h
  refine ⟨X0, s0, h0, ?_⟩
  have h4 : s3.ends = s2.ends := by
    unfold finishStage at h3
    simp only [bind_ok, pure_ok] at h3
    obtain ⟨_, _, _, _, _, _, rfl⟩ := h3
    rfl
  have e1 := repair_ends h1
  have e2 := breach_ends_any h2
  unfold MorSt.ends at h4 e1 e2
  simp only [Prod.mk.injEq] at h4 e1 e2
  rw [ew, ez, h4.1, h4.2]
  rw [e1.1, e1.2] at e2
  exact e2

/-- A channel is assembled as open only if the outlet end is wider than the smallest width. -/
theorem open_width [FloorRing K] {pp : PhysPars K} {a : ChanIn K} {out : ChanOut K} (h : assembleChannel pp a = .ok out) (ho : out.closed = false) :
    a.Closed = false ∧ (a.EndWidth ≤? fin pp.MinOutletWidth) = false := by
  obtain ⟨X0, r0, w, C1, s1, s, onRows, outRows, H⟩ := assemble_inv h
  obtain ⟨_, rows1, hr1, _, _, _, _, hc⟩ := cut_inv H.cut
  have hC1 : C1 = false := by
    rcases hc with ⟨_, hc, _⟩ | ⟨_, _, hc, _⟩
    · rw [← hc]; exact ho
    · rw [ho] at hc; cases hc
  rcases outlet_inv H.outlet with ⟨_, _, h2⟩ | ⟨h1, rs, h2, h3, h4⟩
  · rw [hC1] at h2; cases h2
  · rcases h4 with ⟨h5, _⟩ | ⟨_, _, _, h6⟩
    · rw [hC1] at h5; cases h5
    · rw [Bool.or_eq_false_iff] at h6
      exact ⟨h1, h6.2⟩

end Verif.Model
