import Verif.Lemmas.Coast
import Verif.Props.Spit

set_option autoImplicit false
set_option linter.unusedSectionVars false

/-! # C206: a calm sea moves no sediment along the coast -/

namespace Verif.Props
open Verif Verif.Model Verif.Spec Fl

/-- C206, the part that holds: with wave power zero, but a wave period and a wave length, there is no longshore transport anywhere on any coast.
Missing: records with period zero, refuted below. -/
theorem C206_partial (P : PhysPars ℝ) (hg : 0 < P.Gravity) (hh : 0 < P.WaveDataDepth) (ys : List ℝ) (Dx T L dir : ℝ) (hD : Dx ≠ 0) (hT : 0 < T) (hL : 0 < L) :
    longShoreTransport (ys.map fin) (fin Dx) (fin 0) (fin T) (fin L) (fin dir) P = List.replicate (ys.length - 1) (fin 0) := by
  have hr : celerityRatio (fin 0) (fin T) (fin L) P = fin 0 := by
    have hpi := Real.pi_pos
    unfold celerityRatio
    simp only [mul_fin, mul_zero]
    rw [npPow_nonneg le_rfl (by norm_num), Real.zero_rpow (by norm_num), mul_fin, mul_zero, npPow_nonneg le_rfl (by norm_num), Real.zero_rpow (by norm_num),
      div_fin _ _ (by positivity), div_fin _ _ hL.ne', npTanh_fin, mul_fin, div_fin, zero_div]
    have : 0 < Real.tanh (2 * Real.pi * P.WaveDataDepth / L) := by
      rw [Real.tanh_eq_sinh_div_cosh]
      exact div_pos (Real.sinh_pos_iff.mpr (by positivity)) (Real.cosh_pos _)
    positivity
  have hall : ∀ v ∈ longShoreTransport (ys.map fin) (fin Dx) (fin 0) (fin T) (fin L) (fin dir) P, v = fin 0 := by
    intro v hv
    unfold longShoreTransport at hv
    simp only [List.mem_map] at hv
    obtain ⟨u, ⟨⟨y, y'⟩, hyy, rfl⟩, rfl⟩ := hv
    obtain ⟨h1, h2⟩ := List.of_mem_zip hyy
    obtain ⟨y, _, rfl⟩ := List.mem_map.mp (List.dropLast_subset _ h1)
    obtain ⟨y', _, rfl⟩ := List.mem_map.mp (List.mem_of_mem_tail h2)
    rw [hr]
    unfold localEDir
    rw [sub_fin, div_fin _ _ hD, npArctan_fin, sub_fin, npSin_fin, mul_fin, mul_zero, npArcsin_fin (by simp), npCos_fin, Real.arcsin_zero, npSin_fin, neg_fin]
    simp
  have hlen : (longShoreTransport (ys.map fin) (fin Dx) (fin 0) (fin T) (fin L) (fin dir) P).length = ys.length - 1 := by
    unfold longShoreTransport
    simp
  rw [← hlen]
  exact List.eq_replicate_of_mem hall

/-- C206 is false of the code: with a record of calm sea that has period zero (and any wave length) every longshore transport on every coast is nan, because the ratio of wave speeds is
zero divided by zero. -/
theorem C206_refuted (P : PhysPars ℝ) (hh : 0 < P.WaveDataDepth) (ys : List (Fl ℝ)) (Dx dir : Fl ℝ) (L : ℝ) (hL : 0 ≤ L) :
    longShoreTransport ys Dx (fin 0) (fin 0) (fin L) dir P = List.replicate (ys.length - 1) nan := by
  have hr : celerityRatio (fin 0) (fin 0) (fin L) P = nan := by
    have hpi := Real.pi_pos
    unfold celerityRatio
    simp only [mul_fin, mul_zero]
    rw [npPow_nonneg le_rfl (by norm_num), Real.zero_rpow (by norm_num), mul_fin, mul_zero, npPow_nonneg le_rfl (by norm_num), Real.zero_rpow (by norm_num),
      div_fin _ _ (by positivity), zero_div]
    obtain ⟨t, ht⟩ : ∃ t, npTanh (fin (2 * Real.pi * P.WaveDataDepth) / fin L) = fin t := by
      rcases eq_or_lt_of_le hL with rfl | hL
      · have : (fin (2 * Real.pi * P.WaveDataDepth) / fin (0 : ℝ) : Fl ℝ) = pinf := by
          have : 0 < 2 * Real.pi * P.WaveDataDepth := by positivity
          show Fl.div _ _ = _
          simp [Fl.div, Fl.infOfSign, this, hh.ne']
        exact ⟨1, by rw [this]; rfl⟩
      · exact ⟨_, by rw [div_fin _ _ hL.ne', npTanh_fin]⟩
    rw [ht, mul_fin, zero_mul]
    show Fl.div _ _ = _
    simp [Fl.div, Fl.infOfSign]
  have hall : ∀ v ∈ longShoreTransport ys Dx (fin 0) (fin 0) (fin L) dir P, v = nan := by
    intro v hv
    unfold longShoreTransport at hv
    simp only [List.mem_map] at hv
    obtain ⟨u, _, rfl⟩ := hv
    rw [hr]
    simp
  have hlen : (longShoreTransport ys Dx (fin 0) (fin 0) (fin L) dir P).length = ys.length - 1 := by
    unfold longShoreTransport
    simp
  rw [← hlen]
  exact List.eq_replicate_of_mem hall

/-- After that the step fails: the sample of C155 and the closed sample with such transport. -/
theorem C206_refuted_step : updateMorphology moPP cleanMem cleanMem { spIn with LST := List.replicate 8 nan } = .error .assertion ∧
    updateMorphology moPP cleanMem cleanMem { moClosed with LST := List.replicate (moClosed.rows.length - 1) nan } = .error .assertion := by decide +kernel

/-- Concrete case for `C206_partial`: an oblique calm sea with period 8 s and wave length 80 m before a coast with a headland. -/
example (P : PhysPars ℝ) (h : P.Gravity = 9.81 ∧ P.WaveDataDepth = 10) :
    longShoreTransport [fin 0, fin 10, fin 0] (fin 20) (fin 0) (fin 8) (fin 80) (fin (1/2)) P = [fin 0, fin 0] := by
  have := C206_partial P (by rw [h.1]; norm_num) (by rw [h.2]; norm_num) [0, 10, 0] 20 8 80 (1/2) (by norm_num) (by norm_num) (by norm_num)
  simpa using this

/-- Concrete case for `C206_refuted`. -/
example (P : PhysPars ℝ) (h : P.WaveDataDepth = 10) : longShoreTransport [fin 0, fin 10, fin 0] (fin 20) (fin 0) (fin 0) (fin 0) (fin 0) P = [nan, nan] := by
  have := C206_refuted P (by rw [h]; norm_num) [fin 0, fin 10, fin 0] (fin 20) (fin 0) 0 le_rfl
  simpa using this

end Verif.Props
