import Verif.Props.Coast

set_option autoImplicit false
set_option linter.unusedSectionVars false

/-! # C215: the laws of runup and overtopping -/

namespace Verif.Props
open Verif Verif.Model Verif.Spec Fl Real

/-- C215, runup: proportional to wave period and wave height and to the square root of the slope of the beach. -/
theorem C215_runup (T H S a b c : ℝ) (hS : 0 ≤ S) (hc : 0 ≤ c) : ∃ r, runup (fin T) (fin H) (fin S) = fin r ∧ runup (fin (a * T)) (fin (b * H)) (fin (c * S)) = fin (a * b * √c * r) := by
  refine ⟨0.49 * S ^ (0.5 : ℝ) * T * H, ?_, ?_⟩
  · simp only [runup]
    rw [npPow_nonneg hS (by norm_num)]
    simp
  · simp only [runup]
    rw [npPow_nonneg (mul_nonneg hc hS) (by norm_num), mul_rpow hc hS, sqrt_eq_rpow, show (0.5 : ℝ) = 1/2 by norm_num]
    simp only [mul_fin]
    congr 1
    ring

/-- C215, overtopping: at a transect over whose crest the waves would run up `c` times as high, `c` to the power OT_exp times as much is carried over the barrier, and nothing if nothing was before. -/
theorem C215_overtopping (R S R' S' c : ℝ) (hc : 0 < c) (Shore : List (Transect ℝ)) (P : PhysPars ℝ) (he : 0 < P.OT_exp) (cst cst' : List (Fl ℝ)) (ow ow' : List Bool)
    (h : overtopping (fin R) (fin S) Shore P = .ok (cst, ow)) (h' : overtopping (fin R') (fin S') Shore P = .ok (cst', ow')) (i : ℕ) (t : Transect ℝ) (ht : Shore[i]? = some t) (z : ℝ) (hz : t.z0 = fin z)
    (hx : R' + S' - z = c * (R + S - z)) : ∃ q, cst[i]? = some (fin q) ∧ cst'[i]? = some (fin (c ^ P.OT_exp * q)) := by
  have e := (overtopping_ok _ _ _ _ _ _ h).1
  have e' := (overtopping_ok _ _ _ _ _ _ h').1
  refine ⟨P.OT_coef * (max (R + S - z) 0) ^ P.OT_exp, ?_, ?_⟩
  · rw [e, List.getElem?_map, ht, Option.map_some, cstTot_fin R S z P t hz he]
  · rw [e', List.getElem?_map, ht, Option.map_some, cstTot_fin R' S' z P t hz he, hx]
    congr 2
    have : max (c * (R + S - z)) 0 = c * max (R + S - z) 0 := by rw [mul_max_of_nonneg _ _ hc.le, mul_zero]
    rw [this, mul_rpow hc.le (le_max_right _ _)]
    ring

/-- Concrete case: waves 1.5 times as high with twice the period run up three times as high, 14.7 m instead of 4.9 m. -/
example : runup (fin 10) (fin 2) (fin (1/4)) = fin 4.9 ∧ runup (fin 20) (fin 3) (fin (1/4)) = fin 14.7 := by
  obtain ⟨r, h1, h2⟩ := C215_runup 10 2 (1/4) 2 1.5 1 (by norm_num) (by norm_num)
  have h3 : runup (fin 10) (fin 2) (fin (1/4)) = fin 4.9 := by
    simp only [runup]
    rw [npPow_nonneg (by norm_num) (by norm_num), show (1/4 : ℝ) = (1/2) ^ (2 : ℝ) by norm_num, ← rpow_mul (by norm_num)]
    norm_num
  refine ⟨h3, ?_⟩
  rw [h1] at h3
  cases h3
  rw [show (20 : ℝ) = 2 * 10 by norm_num, show (3 : ℝ) = 1.5 * 2 by norm_num, show (1/4 : ℝ) = 1 * (1/4) by norm_num, h2, sqrt_one]
  norm_num

/-- Concrete case: waves that would run up 3 m over a crest at 4 m instead of 1 m carry nine times as much over it, if the exponent is 2. -/
example (t : Transect ℝ) (ht : t.z0 = fin 4) : ∃ ow ow', overtopping (fin 3) (fin 2) [t] { demoPars with OT_coef := 1/2, OT_exp := 2 } = .ok ([fin (1/2)], ow) ∧
    overtopping (fin 5) (fin 2) [t] { demoPars with OT_coef := 1/2, OT_exp := 2 } = .ok ([fin (9/2)], ow') := by
  have hz : ∀ u ∈ [t], ∃ z, u.z0 = fin z := by
    intro u hu
    rw [List.mem_singleton] at hu
    exact ⟨4, by rw [hu, ht]⟩
  obtain ⟨c, ow, h, _⟩ := C10_flux 3 2 [t] { demoPars with OT_coef := 1/2, OT_exp := 2 } (by norm_num) (by norm_num) hz
  obtain ⟨c', ow', h', _⟩ := C10_flux 5 2 [t] { demoPars with OT_coef := 1/2, OT_exp := 2 } (by norm_num) (by norm_num) hz
  obtain ⟨q, k1, k2⟩ := C215_overtopping 3 2 5 2 3 (by norm_num) [t] _ (by norm_num) c c' ow ow' h h' 0 t rfl 4 ht (by norm_num)
  have e := (overtopping_ok _ _ _ _ _ _ h).1
  have e' := (overtopping_ok _ _ _ _ _ _ h').1
  have hq : cstTot (fin 3) (fin 2) { demoPars with OT_coef := 1/2, OT_exp := 2 } t = fin (1/2) := by
    rw [cstTot_fin 3 2 4 _ t ht (by norm_num)]
    norm_num
  rw [List.map_singleton, hq] at e
  rw [List.map_singleton] at e'
  rw [e] at h k1
  cases k1
  rw [e'] at h' k2
  simp only [List.getElem?_cons_zero, Option.some.injEq] at k2
  rw [k2] at h'
  refine ⟨ow, ow', h, h'.trans ?_⟩
  norm_num

end Verif.Props
