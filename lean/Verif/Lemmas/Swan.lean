import Verif.Model.Swan
import Verif.Spec.Swan
import Verif.Lemmas.Coast

set_option autoImplicit false

namespace Verif.Model
open Verif Verif.Spec Fl Real

/-- The reduced angle. -/
theorem swanAngle_spec (normal : ℝ) (r : SwanRow) : ∃ (θ : ℝ) (k : ℤ), swanAngle normal r = fin θ ∧
    θ = (normal - r.Dir) * (π / 180) + k * (2 * π) ∧ -(π / 2) ≤ θ ∧ θ < 3 * (π / 2) := by
  have hp : (0 : ℝ) < 2 * π := by positivity
  set x := normal * (π / 180) - r.Dir * (π / 180) + π / 2 with hx
  refine ⟨x - 2 * π * (⌊x / (2 * π)⌋ : ℝ) - π / 2, -⌊x / (2 * π)⌋, ?_, ?_, ?_, ?_⟩
  · unfold swanAngle
    rw [← hx]
    simp only [flMod, if_neg hp.ne', sub_fin]
  · rw [hx]; push_cast; ring
  · have := Int.floor_le (x / (2 * π))
    rw [le_div_iff₀ hp] at this
    linarith
  · have := Int.lt_floor_add_one (x / (2 * π))
    rw [div_lt_iff₀ hp] at this
    linarith

theorem swanOnshore_iff {normal θ : ℝ} {r : SwanRow} (h : swanAngle normal r = fin θ) : swanOnshore normal r = true ↔ |θ| < π / 2 := by
  unfold swanOnshore
  rw [h]
  simp

theorem kd_pos {L d : ℝ} (hL : 0 < L) (hd : 0 < d) : 0 < 2 * (2 * π / L) * d := by positivity

theorem groupRatio_bounds {L d : ℝ} (hL : 0 < L) (hd : 0 < d) : 1 / 2 < groupRatio L d ∧ groupRatio L d < 1 := by
  have hk := kd_pos hL hd
  have hs := self_lt_sinh_iff.mpr hk
  have hs0 : 0 < sinh (2 * (2 * π / L) * d) := sinh_pos_iff.mpr hk
  have h1 : 0 < 2 * (2 * π / L) * d / sinh (2 * (2 * π / L) * d) := div_pos hk hs0
  have h2 : 2 * (2 * π / L) * d / sinh (2 * (2 * π / L) * d) < 1 := (div_lt_one hs0).mpr hs
  unfold groupRatio
  constructor <;> linarith

theorem swanN_eq {r : SwanRow} (hL : 0 < r.Wlen) (hd : 0 < r.Depth) : swanN r = fin (groupRatio r.Wlen r.Depth) := by
  have hk := kd_pos hL hd
  have hs0 : 0 < sinh (2 * (2 * π / r.Wlen) * r.Depth) := sinh_pos_iff.mpr hk
  unfold swanN swanK groupRatio
  rw [div_fin _ _ hL.ne', mul_fin, mul_fin]
  change fin (1 / 2) * (fin 1 + fin _ / fin _) = _
  rw [div_fin _ _ hs0.ne', add_fin, mul_fin]
  congr 1
  ring

theorem swanLoff_eq {r : SwanRow} (hL : 0 < r.Wlen) (hd : 0 < r.Depth) : swanLoff r = fin (1 / tanh (2 * π * r.Depth / r.Wlen)) := by
  have ht : 0 < tanh (2 * π * r.Depth / r.Wlen) := tanh_pos' (by positivity)
  unfold swanLoff
  rw [div_fin _ _ hL.ne', npTanh_fin, div_fin _ _ ht.ne']

theorem clip_eq (x : ℝ) : npmax (npmin (fin x) (fin 1)) (fin (-1)) = fin (max (min x 1) (-1)) := by
  have h1 : npmin (fin x) (fin 1) = fin (min x 1) := by
    by_cases h : 1 < x
    · simp [npmin, Fl.isnan, h, h.le]
    · simp [npmin, Fl.isnan, h, not_lt.mp h]
  rw [h1]
  by_cases h : min x 1 < -1
  · simp only [npmax, Fl.isnan, blt_fin, h, decide_true, if_true, Bool.false_eq_true, if_false]
    rw [max_eq_right h.le]
  · simp only [npmax, Fl.isnan, blt_fin, h, decide_false, Bool.false_eq_true, if_false]
    rw [max_eq_left (not_lt.mp h)]

theorem swanThetaOff_eq {normal θ : ℝ} {r : SwanRow} (hL : 0 < r.Wlen) (hd : 0 < r.Depth) (h : swanTheta normal r = fin θ) :
    swanThetaOff normal r = fin (arcsin (max (min (sin θ / tanh (2 * π * r.Depth / r.Wlen)) 1) (-1))) := by
  unfold swanThetaOff
  rw [swanLoff_eq hL hd, h, npSin_fin, mul_fin, clip_eq, npArcsin_fin]
  · congr 4
    ring
  · rw [abs_le]
    exact ⟨le_max_right _ _, max_le (min_le_right _ _) (by norm_num)⟩

end Verif.Model
