import Verif.Num
import Mathlib.Analysis.SpecialFunctions.Pow.Real
import Mathlib.Analysis.SpecialFunctions.Trigonometric.Arctan
import Mathlib.Analysis.SpecialFunctions.Trigonometric.Inverse

set_option autoImplicit false

/-! # numpy's transcendental functions on float values without rounding -/

namespace Verif.Fl
open Real

/-- `np.sin` (nan at infinities). -/
noncomputable def npSin : Fl ℝ → Fl ℝ
  | fin x => fin (sin x)
  | _ => nan

/-- `np.cos` (nan at infinities). -/
noncomputable def npCos : Fl ℝ → Fl ℝ
  | fin x => fin (cos x)
  | _ => nan

/-- `np.arctan`. -/
noncomputable def npArctan : Fl ℝ → Fl ℝ
  | nan => nan
  | pinf => fin (π / 2)
  | ninf => fin (-(π / 2))
  | fin x => fin (arctan x)

/-- `np.tanh`. -/
noncomputable def npTanh : Fl ℝ → Fl ℝ
  | nan => nan
  | pinf => fin 1
  | ninf => fin (-1)
  | fin x => fin (tanh x)

/-- `np.arcsin` (nan outside [-1, 1]). -/
noncomputable def npArcsin : Fl ℝ → Fl ℝ
  | fin x => if |x| ≤ 1 then fin (arcsin x) else nan
  | _ => nan

/-- `np.sqrt` (nan for negative numbers). -/
noncomputable def npSqrt : Fl ℝ → Fl ℝ
  | nan => nan
  | ninf => nan
  | pinf => pinf
  | fin x => if 0 ≤ x then fin (√x) else nan

/-- `np.exp`. -/
noncomputable def npExp : Fl ℝ → Fl ℝ
  | nan => nan
  | ninf => fin 0
  | pinf => pinf
  | fin x => fin (exp x)

open Classical in
/-- `x ** b` for numpy floats and a finite exponent `b` (C99 `pow`). A negative base gives
nan unless the exponent is an integer; `0 ** b` is `inf` for negative `b` (zero counts as
`+0`). -/
noncomputable def npPow (a : Fl ℝ) (b : ℝ) : Fl ℝ :=
  if b = 0 then fin 1 else
  match a with
  | nan => nan
  | ninf => if 0 < b then (if ∃ n : ℤ, b = 2 * n + 1 then ninf else pinf) else fin 0
  | pinf => if 0 < b then pinf else fin 0
  | fin x =>
    if 0 < x then fin (x ^ b)
    else if x = 0 then (if 0 < b then fin 0 else pinf)
    else if ∃ n : ℤ, b = n then fin (x ^ b) else nan

@[simp] theorem npSin_fin (x : ℝ) : npSin (fin x) = fin (sin x) := rfl
@[simp] theorem npCos_fin (x : ℝ) : npCos (fin x) = fin (cos x) := rfl
@[simp] theorem npArctan_fin (x : ℝ) : npArctan (fin x) = fin (arctan x) := rfl
@[simp] theorem npTanh_fin (x : ℝ) : npTanh (fin x) = fin (tanh x) := rfl
@[simp] theorem npExp_fin (x : ℝ) : npExp (fin x) = fin (exp x) := rfl
@[simp] theorem npSin_nan : npSin nan = nan := rfl
@[simp] theorem npCos_nan : npCos nan = nan := rfl
@[simp] theorem npArctan_nan : npArctan nan = nan := rfl
@[simp] theorem npArcsin_nan : npArcsin nan = nan := rfl
@[simp] theorem npSqrt_nan : npSqrt nan = nan := rfl

theorem npSqrt_fin {x : ℝ} (h : 0 ≤ x) : npSqrt (fin x) = fin (√x) := by simp [npSqrt, h]
theorem npArcsin_fin {x : ℝ} (h : |x| ≤ 1) : npArcsin (fin x) = fin (arcsin x) := by simp [npArcsin, h]

theorem npPow_nonneg {x b : ℝ} (hx : 0 ≤ x) (hb : 0 < b) : npPow (fin x) b = fin (x ^ b) := by
  unfold npPow
  rw [if_neg hb.ne']
  rcases hx.lt_or_eq with h | h
  · simp [h]
  · subst h; simp [hb, Real.zero_rpow hb.ne']

theorem npPow_pos {x b : ℝ} (hx : 0 < x) : npPow (fin x) b = fin (x ^ b) := by
  unfold npPow
  by_cases hb : b = 0
  · simp [hb]
  · simp [hb, hx]

theorem npPow_nan {b : ℝ} (hb : b ≠ 0) : npPow nan b = nan := by simp [npPow, hb]

theorem npPow_neg {x b : ℝ} (hx : x < 0) (hb : b ≠ 0) (hb' : ¬ ∃ n : ℤ, b = n) : npPow (fin x) b = nan := by
  simp only [npPow, if_neg hb, if_neg hx.not_gt, if_neg hx.ne, if_neg hb']


end Verif.Fl
