import Verif.Lemmas.Missing
import Verif.Props.CalmSea
import Verif.Props.Calm

set_option autoImplicit false
set_option linter.unusedSectionVars false

/-! # C207: a step never completes with a missing number in the wave forcing -/

namespace Verif.Props
open Verif Verif.Model Verif.Spec Fl

section
variable {K : Type} [Field K] [LinearOrder K] [IsStrictOrderedRing K]

/-- C207 for one step: on a coast of at least three transects a morphology step that completes was given no missing longshore transport, and no missing cross-shore transport at any
transect between the ends. -/
theorem C207_step {pp : PhysPars K} {j1 j2 : ℕ → Bool} {a : MorIn K} {o : MorOut K} (h : updateMorphology pp j1 j2 a = .ok o) (hn : 3 ≤ a.rows.length) :
    (∀ v ∈ a.LST, v ≠ nan) ∧ ∀ (i : ℕ) (v : Fl K), 0 < i → i + 1 < a.rows.length → a.CST[i]? = some v → v ≠ nan := by
  refine ⟨fun v hv e => ?_, fun i v h0 h1 hv e => update_nan h h0 h1 (Or.inr (e ▸ hv))⟩
  subst e
  obtain ⟨j, hj⟩ := List.mem_iff_getElem?.mp hv
  rcases Nat.eq_zero_or_pos j with rfl | h0
  · exact update_nan h (i := 1) Nat.one_pos (by omega) (Or.inl (Or.inl hj))
  · by_cases h1 : j + 1 < a.rows.length
    · exact update_nan h h0 h1 (Or.inl (Or.inr hj))
    · have hlen : a.LST.length + 1 = a.rows.length := by
        obtain ⟨X0, s0, _, _, _, g0, _⟩ := update_inv h
        obtain ⟨rb, cells', R, R', rate, hp, hall, _⟩ := force_inv g0
        unfold allRates at hall
        simp only [bind_ok] at hall
        obtain ⟨R1, _, ⟨R2, c2⟩, g2, _⟩ := hall
        unfold lstRates at g2
        simp only [bind_ok] at g2
        obtain ⟨y0, hy, _⟩ := g2
        unfold lstInterior at hy
        simp only [List.length_mapIdx] at hy
        split at hy
        · cases hy
        · next k => exact not_not.mp k
      have := (List.getElem?_eq_some_iff.mp hj).1
      omega

variable [FloorRing K]

/-- C207 for whole runs: no pass of a run on a coast of at least three transects had a missing longshore transport, or a missing cross-shore transport between the ends. -/
theorem C207_run {e : Env K} {s0 s : CoreSt K} {tr : List (CoreSt K × PassOut K × CoreSt K)} (hrun : Run e s0 tr s) (hn : 3 ≤ s0.rows.length) :
    ∀ x ∈ tr, (∀ v ∈ x.2.1.LST, v ≠ nan) ∧ ∀ (i : ℕ) (v : Fl K), 0 < i → i + 1 < s0.rows.length → x.2.1.CST[i]? = some v → v ≠ nan := by
  suffices H : s.rows.length = s0.rows.length ∧ ∀ x ∈ tr, (∀ v ∈ x.2.1.LST, v ≠ nan) ∧
      ∀ (i : ℕ) (v : Fl K), 0 < i → i + 1 < s0.rows.length → x.2.1.CST[i]? = some v → v ≠ nan from H.2
  induction hrun with
  | start => exact ⟨rfl, by simp⟩
  | @pass tr s s' p _ _ hp ih =>
    obtain ⟨k1, k2⟩ := ih
    obtain ⟨⟨_, _, hc⟩, ha⟩ := pass_inv hp
    have hlen : p.mor.rows.length = s.rows.length := by simpa [morIn] using congrArg List.length (C72_positions hc.mor)
    refine ⟨by rw [ha.rows, hlen, k1], fun x hx => ?_⟩
    rcases List.mem_append.mp hx with hx | hx
    · exact k2 x hx
    · rw [List.mem_singleton] at hx
      subst hx
      have := C207_step hc.mor (by show 3 ≤ s.rows.length; omega)
      rw [← k1]
      exact this

end

/-- Missing wave data give missing transport along the whole coast. -/
theorem lst_missing {P : PhysPars ℝ} {ys : List (Fl ℝ)} {Dx W T L d : Fl ℝ} (h : W = nan ∨ T = nan ∨ L = nan ∨ d = nan) :
    ∀ v ∈ longShoreTransport ys Dx W T L d P, v = nan := by
  intro v hv
  unfold longShoreTransport at hv
  simp only [List.mem_map] at hv
  obtain ⟨u, ⟨⟨y, y'⟩, _, rfl⟩, rfl⟩ := hv
  rcases h with rfl | rfl | rfl | rfl
  · simp
  · have : celerityRatio W nan L P = nan := by unfold celerityRatio; simp
    rw [this]; simp
  · have : celerityRatio W T nan P = nan := by
      unfold celerityRatio
      have : (npTanh nan : Fl ℝ) = nan := rfl
      simp [this]
    rw [this]; simp
  · unfold localEDir
    have : (npCos nan : Fl ℝ) = nan := rfl
    simp [this]

/-- C207 for the wave record: with the functions of coast.py a run on a coast of at least three transects passes no wave record with a missing power, period, wave length or direction, and
none of a calm sea with period zero. -/
theorem C207_waves {e : Env ℝ} {s0 s : CoreSt ℝ} {tr : List (CoreSt ℝ × PassOut ℝ × CoreSt ℝ)} (hrun : Run e s0 tr s) (hn : 3 ≤ s0.rows.length)
    {np : NumPars} {solver : Solver} (hparts : e.parts = realParts e.pp np e.Dx e.tp.HydDt solver) (hh : 0 < e.pp.WaveDataDepth) :
    ∀ x ∈ tr, x.2.1.wave.WavePower ≠ nan ∧ x.2.1.wave.WavePeriod ≠ nan ∧ x.2.1.wave.Wlen_h ≠ nan ∧ x.2.1.wave.EDir_h ≠ nan ∧
      ∀ L : ℝ, 0 ≤ L → ¬ (x.2.1.wave.WavePower = fin 0 ∧ x.2.1.wave.WavePeriod = fin 0 ∧ x.2.1.wave.Wlen_h = fin L) := by
  suffices H : s.rows.length = s0.rows.length ∧ ∀ x ∈ tr, ∃ v, v ∈ x.2.1.LST ∧ v ≠ nan ∧
      x.2.1.LST = e.parts.lst (x.1.rows.map (·.y0)) x.2.1.wave by
    intro x hx
    obtain ⟨v, hv, hne, hl⟩ := H.2 x hx
    rw [hl, hparts] at hv
    simp only [realParts] at hv
    refine ⟨fun k => hne (lst_missing (Or.inl k) v hv), fun k => hne (lst_missing (Or.inr (Or.inl k)) v hv), fun k => hne (lst_missing (Or.inr (Or.inr (Or.inl k))) v hv),
      fun k => hne (lst_missing (Or.inr (Or.inr (Or.inr k))) v hv), ?_⟩
    rintro L hL ⟨k1, k2, k3⟩
    rw [k1, k2, k3, C206_refuted e.pp hh _ _ _ L hL] at hv
    exact hne (List.eq_of_mem_replicate hv)
  induction hrun with
  | start => exact ⟨rfl, by simp⟩
  | @pass tr s s' p _ _ hp ih =>
    obtain ⟨k1, k2⟩ := ih
    obtain ⟨⟨_, _, hc⟩, ha⟩ := pass_inv hp
    have hlen : p.mor.rows.length = s.rows.length := by simpa [morIn] using congrArg List.length (C72_positions hc.mor)
    refine ⟨by rw [ha.rows, hlen, k1], fun x hx => ?_⟩
    rcases List.mem_append.mp hx with hx | hx
    · exact k2 x hx
    · rw [List.mem_singleton] at hx
      subst hx
      have h3 : 3 ≤ s.rows.length := by omega
      have g := (C207_step hc.mor h3).1
      have hl := hc.lst
      have hll : p.LST.length = s.rows.length - 1 := by
        rw [hl, hparts]
        simp [realParts, longShoreTransport]
      obtain ⟨v, hv⟩ := List.exists_mem_of_length_pos (l := p.LST) (by omega)
      exact ⟨v, hv, g v hv, hl⟩

/-- C207, overtopping: with a missing runup or sea level `overtopping` fails with an AssertionError before it returns anything, on any coast with at least one transect. -/
theorem C207_overtopping {P : PhysPars ℝ} (hexp : P.OT_exp ≠ 0) {Runup Sea : Fl ℝ} {rows : List (Transect ℝ)} (hr : rows ≠ []) (h : Runup = nan ∨ Sea = nan) :
    overtopping Runup Sea rows P = .error .assertion := by
  have hn : ∀ t, cstTot Runup Sea P t = nan := by
    intro t
    unfold cstTot overtopPotential
    have : npmax (Runup + Sea - t.z0) (fin 0) = nan := by
      rcases h with rfl | rfl <;> simp <;> rfl
    rw [this, npPow_nan hexp]
    simp
  obtain ⟨t, ts, rfl⟩ := List.exists_cons_of_ne_nil hr
  unfold overtopping
  simp only [List.map_cons, List.all_cons, hn, ble_nan, Bool.false_and]
  rfl

/-- C207 for the rest of the forcing: with the functions of coast.py no run passes a wave record without offshore wave height, or a time without sea level. -/
theorem C207_sea {e : Env ℝ} {s0 s : CoreSt ℝ} {tr : List (CoreSt ℝ × PassOut ℝ × CoreSt ℝ)} (hrun : Run e s0 tr s) (hn : s0.rows ≠ [])
    {np : NumPars} {solver : Solver} (hparts : e.parts = realParts e.pp np e.Dx e.tp.HydDt solver) (hexp : e.pp.OT_exp ≠ 0) :
    ∀ x ∈ tr, x.2.1.wave.Hsig_Offshore ≠ nan ∧ x.2.1.wave.WavePeriod ≠ nan ∧ x.2.1.sea ≠ nan := by
  suffices H : s.rows.length = s0.rows.length ∧ ∀ x ∈ tr, x.2.1.wave.Hsig_Offshore ≠ nan ∧ x.2.1.wave.WavePeriod ≠ nan ∧ x.2.1.sea ≠ nan from H.2
  have h0 := List.length_pos_iff.mpr hn
  induction hrun with
  | start => exact ⟨rfl, by simp⟩
  | @pass tr s s' p _ _ hp ih =>
    obtain ⟨k1, k2⟩ := ih
    obtain ⟨⟨_, _, hc⟩, ha⟩ := pass_inv hp
    have hlen : p.mor.rows.length = s.rows.length := by simpa [morIn] using congrArg List.length (C72_positions hc.mor)
    refine ⟨by rw [ha.rows, hlen, k1], fun x hx => ?_⟩
    rcases List.mem_append.mp hx with hx | hx
    · exact k2 x hx
    · rw [List.mem_singleton] at hx
      subst hx
      have hne : s.rows ≠ [] := List.length_pos_iff.mp (by omega)
      have g := hc.cst
      rw [hparts] at g
      simp only [realParts] at g
      have key : ¬ (runup p.wave.WavePeriod p.wave.Hsig_Offshore (fin np.BeachSlope) = nan ∨ p.sea = nan) := by
        intro k
        rw [C207_overtopping hexp hne k] at g
        cases g
      refine ⟨fun k => key (Or.inl ?_), fun k => key (Or.inl ?_), fun k => key (Or.inr k)⟩
      · unfold runup; rw [k]; simp
      · unfold runup; rw [k]; simp

/-- Concrete case: the sample run of C205 has at least three transects, so C207 applies to it. -/
example : ∃ s0 s tr, initial caEnv coLoad = .ok s0 ∧ Run caEnv s0 tr s ∧ tr.length = 2 ∧ 3 ≤ s0.rows.length := by
  have h : okAnd (initial caEnv coLoad) (fun s0 => okAnd (trace caEnv s0 2) (fun _ => decide (3 ≤ s0.rows.length))) = true := by decide +kernel
  obtain ⟨s0, h0, h⟩ := okAnd_iff.mp h
  obtain ⟨⟨tr, s⟩, h1, h⟩ := okAnd_iff.mp h
  obtain ⟨r, l⟩ := trace_run h1
  exact ⟨s0, s, tr, h0, r, l, of_decide_eq_true h⟩

/-- Concrete case: a single missing transport in the middle of the sample of C155 stops the step, and so does a single missing cross-shore transport; without them it completes. -/
example : okAnd (updateMorphology moPP cleanMem cleanMem spIn) (fun _ => decide (3 ≤ spIn.rows.length)) = true ∧
    updateMorphology moPP cleanMem cleanMem { spIn with LST := spIn.LST.set 3 nan } = .error .assertion ∧
    updateMorphology moPP cleanMem cleanMem { spIn with CST := spIn.CST.set 3 nan } = .error .assertion := by decide +kernel

end Verif.Props
