import Verif.Lemmas.Drift
import Verif.Lemmas.EndStep
import Verif.Lemmas.Core
import Verif.Props.EndWidth

set_option autoImplicit false
set_option linter.unusedSectionVars false

/-! # C205: without longshore transport the outlet mouth never narrows -/

namespace Verif.Model
open Verif Verif.Spec Fl

variable {K : Type} [Field K] [LinearOrder K] [IsStrictOrderedRing K]

/-- Bank erosion of the outlet end is a number and widens it. -/
theorem bank_widens {pp : PhysPars K} {a : MorIn K} {cells : List (Cell K)} {R : Rates K} (h : riverRates pp a cells = .ok R) (hc : a.Closed = false)
    (hb : ∀ v ∈ a.Bedload, IsNumber v) {z : K} (hz : a.EndElev = fin z) (hzt : z < pp.BeachTopElev) (hsp : 0 < pp.SpitWidth) :
    ∃ q m, R.endW = fin q ∧ 0 ≤ q ∧ R.endX = fin m := by
  unfold riverRates at h
  simp only [bind_ok] at h
  obtain ⟨ss, hss, _, _, _, _, _, _, _, _, h⟩ := h
  rw [if_neg (by rw [hc]; simp)] at h
  simp only [bind_ok, pure_ok] at h
  obtain ⟨_, _, _, _, _, _, _, _, s, hs, _, _, rfl⟩ := h
  have hsm : s ∈ ss := by
    split at hs
    · next s' he =>
      cases hs
      have : s ∈ ss.filter (·.flag == 3) := by rw [he]; simp
      exact List.mem_of_mem_filter this
    · cases hs
  obtain ⟨v, hv⟩ := isNumber_iff.mp (sections_nums hb hss s hsm)
  obtain ⟨_, k, _, e2, _, hk, _⟩ := ero_split hv
  have hH : 0 < (pp.BeachTopElev - z) * pp.SpitWidth := mul_pos (by linarith) hsp
  dsimp only
  rw [e2, hz, sub_fin, mul_fin, div_fin _ _ hH.ne', div_fin _ _ two_ne_zero, mul_fin, neg_fin]
  split
  · exact ⟨_, _, rfl, div_nonneg hk hH.le, rfl⟩
  · split <;> exact ⟨_, _, rfl, div_nonneg hk hH.le, rfl⟩

/-- The forcing without longshore transport. -/
theorem force_calm {pp : PhysPars K} {a : MorIn K} {dt : ℤ} {X0 : ℕ} {st : MorSt K} (h : forceStage pp a = .ok (dt, X0, st)) (hc : a.Closed = false)
    (hb : ∀ v ∈ a.Bedload, IsNumber v) (hl0 : ∀ v ∈ a.LST, v = fin 0) (hlim : 0 ≤ a.MaxMorChange) {w z : K} (hw : a.EndWidth = fin w) (hz : a.EndElev = fin z)
    (hzt : z < pp.BeachTopElev) (hsp : 0 < pp.SpitWidth) : ∃ w', st.endW = fin w' ∧ w ≤ w' := by
  obtain ⟨rb, cells', R, R', rate, hp, hall, hrt, hdt, hlr, happ⟩ := force_inv h
  obtain ⟨R1, hR1, hL⟩ : ∃ R1, riverRates pp a (a.rows.mapIdx (mkCell pp a)) = .ok R1 ∧ a.LST[prevIx a.LST.length rb]? = some (fin 0) := by
    have hall' := hall
    unfold allRates at hall'
    simp only [bind_ok] at hall'
    obtain ⟨R1, g1, ⟨R2, c2⟩, g2, _⟩ := hall'
    refine ⟨R1, g1, ?_⟩
    unfold lstRates at g2
    simp only [bind_ok] at g2
    obtain ⟨_, _, g2⟩ := g2
    rw [if_neg (by rw [hc]; simp)] at g2
    simp only [bind_ok, ixGet_ok] at g2
    obtain ⟨l, hl, _⟩ := g2
    rw [hl, hl0 l (List.mem_of_getElem? hl)]
  obtain ⟨q, m, e1, hq, e2⟩ := bank_widens hR1 hc hb hz hzt hsp
  obtain ⟨r1, r2⟩ := drift_rates hall hR1 hc hL hz hzt hsp e1 e2
  rw [abs_zero, zero_div, sub_zero] at r1
  have ht0 : (0 : K) ≤ (secs dt : K) := by exact_mod_cast secs_nonneg dt
  obtain ⟨x, hx, hx0⟩ : ∃ x, R'.endW = fin x ∧ 0 ≤ x := by
    rcases limit_endX hlr r1 r2 with g | ⟨g1, g2, _⟩
    · exact ⟨q, by rw [g]; exact r1, hq⟩
    · have hL0 : 0 ≤ a.MaxMorChange / (secs dt : K) := div_nonneg hlim ht0
      refine ⟨_, g2.trans (by unfold clip; rw [npmax_fin, npmin_fin]), le_min (le_max_of_le_left hq) hL0⟩
  unfold applyRates at happ
  simp only at happ
  split at happ
  · cases happ
  · cases happ
    refine ⟨w + x * (secs dt : K), ?_, by have := mul_nonneg hx0 ht0; linarith⟩
    simp only [hc, Bool.false_eq_true, if_false]
    rw [hx, hw, mul_fin, add_fin]

end Verif.Model

namespace Verif.Props
open Verif Verif.Model Verif.Spec Fl

variable {K : Type} [Field K] [LinearOrder K] [IsStrictOrderedRing K] [FloorRing K]

/-- C205 for one pass: without longshore transport, with bedload that is a number and the bed of the outlet end below the beach top, the outlet end is not narrower after the pass than
before, whether or not the pass breaches. -/
theorem C205_step {e : Env K} {s s1 : CoreSt K} {p : PassOut K} (hp : pass e s = .ok (p, s1)) (hB : 0 ≤ e.MaxMorChange) (hsp : 0 < e.pp.SpitWidth)
    (hl0 : ∀ v ∈ p.LST, v = fin 0) (hb : ∀ v ∈ p.bed, IsNumber v) (hz : p.chan.closed = false → ∃ z, s.EndElev = fin z ∧ z < e.pp.BeachTopElev)
    (w : K) (hw : s.EndWidth = fin w) : ∃ w', s1.EndWidth = fin w' ∧ w ≤ w' := by
  obtain ⟨⟨_, _, hc⟩, ha⟩ := pass_inv hp
  obtain ⟨X0, s0, g0, g⟩ := update_ends_any hc.mor
  obtain ⟨w0, q1, q2⟩ : ∃ w0, s0.endW = fin w0 ∧ w ≤ w0 := by
    cases hcl : p.chan.closed with
    | true =>
      have k := (force_ends g0).1 hcl
      unfold MorSt.ends at k
      rw [Prod.mk.injEq] at k
      exact ⟨w, k.1.trans hw, le_refl _⟩
    | false =>
      obtain ⟨z, hz, hzt⟩ := hz hcl
      exact force_calm g0 hcl hb hl0 hB hw hz hzt hsp
  rw [ha.endWidth]
  rcases g with ⟨g, _⟩ | ⟨_, g, _⟩
  · exact ⟨w0, g.trans q1, q2⟩
  · rw [q1, pymax_fin] at g
    exact ⟨_, g, q2.trans (le_max_left _ _)⟩

/-- C205 for whole runs: between any two passes of a run without longshore transport the outlet end does not get narrower. -/
theorem C205_run {e : Env K} {s0 s : CoreSt K} {tr : List (CoreSt K × PassOut K × CoreSt K)} (hrun : Run e s0 tr s) (hB : 0 ≤ e.MaxMorChange) (hsp : 0 < e.pp.SpitWidth)
    (hl0 : ∀ x ∈ tr, ∀ v ∈ x.2.1.LST, v = fin 0) (hb : ∀ x ∈ tr, ∀ v ∈ x.2.1.bed, IsNumber v)
    (hz : ∀ x ∈ tr, x.2.1.chan.closed = false → ∃ z, x.1.EndElev = fin z ∧ z < e.pp.BeachTopElev)
    (w0 : K) (hw : s0.EndWidth = fin w0) :
    ∃ w, s.EndWidth = fin w ∧ w0 ≤ w := by
  induction hrun with
  | start => exact ⟨w0, hw, le_refl _⟩
  | @pass tr s s' p _ _ hp ih =>
    obtain ⟨w, k1, k2⟩ := ih (fun x hx => hl0 x (by simp [hx])) (fun x hx => hb x (by simp [hx])) (fun x hx => hz x (by simp [hx]))
    obtain ⟨w', k3, k4⟩ := C205_step hp hB hsp (hl0 (s, p, s') (by simp)) (hb (s, p, s') (by simp)) (hz (s, p, s') (by simp)) w k1
    exact ⟨w', k3, k2.trans k4⟩

/-- The sample run without longshore transport, with bedload growing towards the sea. -/
def caEnv : Env ℚ := { coEnv with parts := { coParts with bedload := fun B _ _ => .ok (B.tail.mapIdx (fun i _ => fin ((i : ℚ) / 1000))) } }

/-- Concrete case: a run of two passes with an open outlet, whose mouth widens in both. -/
example : ∃ s0 s tr, initial caEnv coLoad = .ok s0 ∧ Run caEnv s0 tr s ∧ tr.length = 2 ∧ 0 ≤ caEnv.MaxMorChange ∧ 0 < caEnv.pp.SpitWidth ∧
    (∀ x ∈ tr, ∀ v ∈ x.2.1.LST, v = fin 0) ∧ (∀ x ∈ tr, ∀ v ∈ x.2.1.bed, IsNumber v) ∧ (∀ x ∈ tr, x.2.1.chan.closed = false ∧ (x.1.EndElev <? fin caEnv.pp.BeachTopElev) = true) ∧
    (∀ x ∈ tr, (x.1.EndWidth <? x.2.2.EndWidth) = true) := by
  have h : okAnd (initial caEnv coLoad) (fun s0 => okAnd (trace caEnv s0 2) (fun x => decide (
      (∀ y ∈ x.1, ∀ v ∈ y.2.1.LST, v = fin 0) ∧ (∀ y ∈ x.1, ∀ v ∈ y.2.1.bed, IsNumber v) ∧
      (∀ y ∈ x.1, y.2.1.chan.closed = false ∧ (y.1.EndElev <? fin caEnv.pp.BeachTopElev) = true) ∧ (∀ y ∈ x.1, (y.1.EndWidth <? y.2.2.EndWidth) = true)))) = true := by decide +kernel
  obtain ⟨s0, h0, h⟩ := okAnd_iff.mp h
  obtain ⟨⟨tr, s⟩, h1, h⟩ := okAnd_iff.mp h
  obtain ⟨k1, k2, k3, k4⟩ := of_decide_eq_true h
  obtain ⟨r, l⟩ := trace_run h1
  exact ⟨s0, s, tr, h0, r, l, by decide +kernel, by decide +kernel, k1, k2, k3, k4⟩

end Verif.Props
