import Verif.Model.Coast
import Verif.Spec.Coast
import Mathlib.Analysis.SpecialFunctions.Trigonometric.DerivHyp

set_option autoImplicit false

set_option linter.unusedSectionVars false

namespace Verif.Model
open Verif Fl Real

theorem dropLast_zip_tail {α : Type} (l : List α) : l.dropLast.zip l.tail = l.zip l.tail := by
  induction l with
  | nil => rfl
  | cons a l ih =>
    cases l with
    | nil => rfl
    | cons b l => simpa using ih

/-- The value of one segment as a function of its two end positions. -/
noncomputable def lstSeg (Dx WavePower WavePeriod Wlen_h EDir_h : Fl ℝ) (P : PhysPars ℝ) (ya yb : Fl ℝ) : Fl ℝ :=
  (-(fin P.K2coef)) * WavePower * npCos (localEDir Dx EDir_h ya yb) *
    npSin (npArcsin (npSin (localEDir Dx EDir_h ya yb) * celerityRatio WavePower WavePeriod Wlen_h P))

theorem longShoreTransport_eq (ys : List (Fl ℝ)) (Dx WP T L E : Fl ℝ) (P : PhysPars ℝ) :
    longShoreTransport ys Dx WP T L E P =
      (ys.zip ys.tail).map (fun p => lstSeg Dx WP T L E P p.1 p.2) := by
  unfold longShoreTransport
  simp only [dropLast_zip_tail, List.map_map]
  rfl

theorem longShoreTransport_get (ys : List (Fl ℝ)) (Dx WP T L E : Fl ℝ) (P : PhysPars ℝ) (i : ℕ)
    (ya yb : Fl ℝ) (ha : ys[i]? = some ya) (hb : ys[i+1]? = some yb) :
    (longShoreTransport ys Dx WP T L E P)[i]? = some (lstSeg Dx WP T L E P ya yb) := by
  rw [longShoreTransport_eq, List.getElem?_map]
  have : (ys.zip ys.tail)[i]? = some (ya, yb) := by
    rw [List.getElem?_zip_eq_some]
    exact ⟨ha, by rw [List.getElem?_tail]; exact hb⟩
  rw [this]; rfl

theorem tanh_pos' {x : ℝ} (h : 0 < x) : 0 < tanh x := by
  rw [Real.tanh_eq_sinh_div_cosh]
  exact div_pos (Real.sinh_pos_iff.mpr h) (Real.cosh_pos x)

theorem waveSpeed_pos (w : Spec.Waves) (hv : w.Valid) :
    0 < Spec.waveSpeed w.g w.period w.length w.depth := by
  obtain ⟨hg, hbr, hk, hd, hp, ht, hl⟩ := hv
  unfold Spec.waveSpeed
  have := Real.pi_pos
  exact mul_pos (by positivity) (tanh_pos' (by positivity))

theorem shallowSpeed_pos (w : Spec.Waves) (hv : w.Valid) :
    0 < Spec.shallowSpeed w.g w.breakDepth := by
  obtain ⟨hg, hbr, hk, hd, hp, ht, hl⟩ := hv
  unfold Spec.shallowSpeed Spec.Waves.breakDepth
  exact Real.sqrt_pos.mpr (mul_pos hg (Real.rpow_pos_of_pos (by positivity) _))

/-- The physical parameters agree with the wave description `w`. -/
def Describes (w : Spec.Waves) (P : PhysPars ℝ) : Prop :=
  P.Gravity = w.g ∧ P.BreakerCoef = w.breaker ∧ P.K2coef = w.k2 ∧ P.WaveDataDepth = w.depth

theorem celerityRatio_eq (w : Spec.Waves) (hv : w.Valid) (P : PhysPars ℝ) (hP : Describes w P) :
    celerityRatio (fin w.power) (fin w.period) (fin w.length) P =
      fin (Spec.shallowSpeed w.g w.breakDepth / Spec.waveSpeed w.g w.period w.length w.depth) := by
  have hw := waveSpeed_pos w hv
  obtain ⟨hg, hbr, hk, hd, hp, ht, hl⟩ := hv
  obtain ⟨e1, e2, e3, e4⟩ := hP
  have hpi := Real.pi_pos
  unfold celerityRatio
  simp only [e1, e2, e4, mul_fin]
  rw [npPow_pos (by positivity), mul_fin, npPow_pos (by positivity), div_fin _ _ (by positivity),
    div_fin _ _ hl.ne', npTanh_fin, mul_fin]
  have hw' : w.g * w.period / (2 * π) * tanh (2 * π * w.depth / w.length) =
    Spec.waveSpeed w.g w.period w.length w.depth := rfl
  rw [hw', div_fin _ _ hw.ne']
  congr 2
  unfold Spec.shallowSpeed Spec.Waves.breakDepth
  rw [Real.sqrt_eq_rpow]
  norm_num

/-- Closed form of a segment value when refraction has a solution. -/
theorem lstSeg_eq (w : Spec.Waves) (hv : w.Valid) (P : PhysPars ℝ) (hP : Describes w P) (dx ya yb : ℝ)
    (hdx : dx ≠ 0) (hr : w.Refracts (Spec.waveAngle dx w.dir ya yb)) :
    lstSeg (fin dx) (fin w.power) (fin w.period) (fin w.length) (fin w.dir) P (fin ya) (fin yb) =
      fin (-(w.k2 * w.power * cos (Spec.waveAngle dx w.dir ya yb) * (sin (Spec.waveAngle dx w.dir ya yb) *
        (Spec.shallowSpeed w.g w.breakDepth / Spec.waveSpeed w.g w.period w.length w.depth)))) := by
  have hw := waveSpeed_pos w hv
  have hs := shallowSpeed_pos w hv
  unfold lstSeg
  rw [celerityRatio_eq w hv P hP]
  have hang : localEDir (fin dx) (fin w.dir) (fin ya) (fin yb) = fin (Spec.waveAngle dx w.dir ya yb) := by
    simp [localEDir, Spec.waveAngle, hdx]
  rw [hang]
  set a := Spec.waveAngle dx w.dir ya yb
  have hle : |sin a * (Spec.shallowSpeed w.g w.breakDepth / Spec.waveSpeed w.g w.period w.length w.depth)| ≤ 1 := by
    rw [abs_mul, abs_of_pos (div_pos hs hw), ← mul_div_assoc, div_le_one hw]
    exact hr
  obtain ⟨h1, h2⟩ := abs_le.mp hle
  simp only [npSin_fin, npCos_fin, mul_fin, npArcsin_fin hle, neg_fin, sin_arcsin h1 h2, hP.2.2.1]
  congr 1; ring

theorem longShoreTransport_get_eq (w : Spec.Waves) (hv : w.Valid) (P : PhysPars ℝ) (hP : Describes w P)
    (ys : List ℝ) (dx : ℝ) (hdx : dx ≠ 0) (i : ℕ) (ya yb : ℝ) (ha : ys[i]? = some ya) (hb : ys[i+1]? = some yb)
    (hr : w.Refracts (Spec.waveAngle dx w.dir ya yb)) :
    (longShoreTransport (ys.map fin) (fin dx) (fin w.power) (fin w.period) (fin w.length) (fin w.dir) P)[i]? =
      some (fin (-(w.k2 * w.power * cos (Spec.waveAngle dx w.dir ya yb) * (sin (Spec.waveAngle dx w.dir ya yb) *
        (Spec.shallowSpeed w.g w.breakDepth / Spec.waveSpeed w.g w.period w.length w.depth))))) := by
  rw [longShoreTransport_get _ _ _ _ _ _ _ i (fin ya) (fin yb) (by simp [ha]) (by simp [hb]),
      lstSeg_eq w hv P hP dx ya yb hdx hr]

theorem lstSeg_nan (w : Spec.Waves) (hv : w.Valid) (P : PhysPars ℝ) (hP : Describes w P) (dx ya yb : ℝ)
    (hdx : dx ≠ 0) (hr : ¬ w.Refracts (Spec.waveAngle dx w.dir ya yb)) :
    lstSeg (fin dx) (fin w.power) (fin w.period) (fin w.length) (fin w.dir) P (fin ya) (fin yb) = nan := by
  have hw := waveSpeed_pos w hv
  have hs := shallowSpeed_pos w hv
  unfold lstSeg
  rw [celerityRatio_eq w hv P hP]
  have hang : localEDir (fin dx) (fin w.dir) (fin ya) (fin yb) = fin (Spec.waveAngle dx w.dir ya yb) := by
    simp [localEDir, Spec.waveAngle, hdx]
  rw [hang]
  set a := Spec.waveAngle dx w.dir ya yb
  have hle : ¬ |sin a * (Spec.shallowSpeed w.g w.breakDepth / Spec.waveSpeed w.g w.period w.length w.depth)| ≤ 1 := by
    rw [abs_mul, abs_of_pos (div_pos hs hw), ← mul_div_assoc, div_le_one hw]
    exact hr
  simp only [npSin_fin, npCos_fin, mul_fin, npArcsin, if_neg hle, npSin_nan, mul_nan]

/-! ### Mirror symmetry -/

theorem Fl_neg_sub (a b : Fl ℝ) : -(a - b) = (-a) - (-b) := by
  cases a <;> cases b <;> first | rfl | (simp; ring)

theorem Fl_sub_comm_neg (a b : Fl ℝ) : a - b = -(b - a) := by
  cases a <;> cases b <;> first | rfl | simp

theorem infOfSign_neg (x : ℝ) : infOfSign (-x) = -(infOfSign x) := by
  unfold infOfSign
  rcases lt_trichotomy x 0 with h | h | h
  · simp [h.ne, h, h.not_gt]; rfl
  · simp [h]
  · simp [h.ne', h, h.not_gt]; rfl

theorem Fl_neg_neg (a : Fl ℝ) : -(-a) = a := by
  cases a <;> first | rfl | simp

theorem Fl_neg_div (a b : Fl ℝ) : (-a) / b = -(a / b) := by
  cases a with
  | nan => simp
  | pinf =>
    cases b with
    | fin y => show (if 0 ≤ y then (ninf : Fl ℝ) else pinf) = -(if 0 ≤ y then (pinf : Fl ℝ) else ninf)
               split <;> rfl
    | _ => rfl
  | ninf =>
    cases b with
    | fin y => show (if 0 ≤ y then (pinf : Fl ℝ) else ninf) = -(if 0 ≤ y then (ninf : Fl ℝ) else pinf)
               split <;> rfl
    | _ => rfl
  | fin x =>
    cases b with
    | fin y =>
      rw [neg_fin, div_fin_def, div_fin_def]
      split
      · exact infOfSign_neg x
      · simp [neg_div]
    | nan => rfl
    | pinf => show (fin 0 : Fl ℝ) = -(fin 0); simp
    | ninf => show (fin 0 : Fl ℝ) = -(fin 0); simp

theorem Fl_neg_mul (a b : Fl ℝ) : (-a) * b = -(a * b) := by
  cases a with
  | nan => simp
  | pinf =>
    cases b with
    | fin y => exact infOfSign_neg y
    | _ => rfl
  | ninf =>
    cases b with
    | fin y => show infOfSign y = -(infOfSign (-y)); rw [infOfSign_neg, Fl_neg_neg]
    | _ => rfl
  | fin x =>
    cases b with
    | fin y => simp
    | nan => rfl
    | pinf => exact infOfSign_neg x
    | ninf => show infOfSign (-(-x)) = -(infOfSign (-x)); rw [infOfSign_neg (-x)]

theorem Fl_mul_comm (a b : Fl ℝ) : a * b = b * a := by
  cases a <;> cases b <;> first | rfl | (simp [mul_comm])

theorem Fl_mul_neg (a b : Fl ℝ) : a * (-b) = -(a * b) := by
  rw [Fl_mul_comm, Fl_neg_mul, Fl_mul_comm]

theorem npSin_neg (a : Fl ℝ) : npSin (-a) = -(npSin a) := by
  cases a <;> first | rfl | simp
theorem npCos_neg (a : Fl ℝ) : npCos (-a) = npCos a := by
  cases a <;> first | rfl | simp
theorem npArctan_neg (a : Fl ℝ) : npArctan (-a) = -(npArctan a) := by
  cases a with
  | nan => rfl
  | pinf => rfl
  | ninf => show fin (π/2) = -(fin (-(π/2))); simp
  | fin x => simp [arctan_neg]
theorem npArcsin_neg (a : Fl ℝ) : npArcsin (-a) = -(npArcsin a) := by
  cases a with
  | fin x => simp only [neg_fin, npArcsin, abs_neg, arcsin_neg]; split <;> simp
  | _ => rfl

theorem lstSeg_mirror (Dx WP T L E : Fl ℝ) (P : PhysPars ℝ) (ya yb : Fl ℝ) :
    lstSeg Dx WP T L (-E) P yb ya = -(lstSeg Dx WP T L E P ya yb) := by
  have h : localEDir Dx (-E) yb ya = -(localEDir Dx E ya yb) := by
    unfold localEDir
    rw [Fl_neg_sub, Fl_sub_comm_neg yb ya, Fl_neg_div, npArctan_neg]
  unfold lstSeg
  rw [h, npSin_neg, npCos_neg, Fl_neg_mul (npSin _), npArcsin_neg, npSin_neg, Fl_mul_neg]

theorem zip_tail_reverse {α : Type} (l : List α) :
    l.reverse.zip l.reverse.tail = ((l.zip l.tail).map Prod.swap).reverse := by
  induction l with
  | nil => rfl
  | cons a l ih =>
    cases l with
    | nil => rfl
    | cons b l =>
      have hz : (a :: b :: l).zip (a :: b :: l).tail = (a, b) :: (b :: l).zip (b :: l).tail := rfl
      rw [hz, List.map_cons, List.reverse_cons (a := Prod.swap _), ← ih]
      obtain ⟨c, m, hc⟩ : ∃ c m, (b :: l).reverse = c :: m := by
        cases h : (b :: l).reverse with
        | nil => simp at h
        | cons c m => exact ⟨c, m, rfl⟩
      have hlast : (b :: l).reverse = l.reverse ++ [b] := by simp
      rw [List.reverse_cons (a := a)]
      rw [hlast]
      generalize l.reverse = m
      clear ih hc hlast hz
      induction m with
      | nil => rfl
      | cons d m ih2 =>
        cases m with
        | nil => rfl
        | cons e m => simpa using ih2

/-! ### Overtopping -/

theorem overtopPotential_fin (r s z : ℝ) (t : Transect ℝ) (h : t.z0 = fin z) :
    overtopPotential (fin r) (fin s) t = fin (max (r + s - z) 0) := by
  simp [overtopPotential, h]

theorem cstTot_fin (r s z : ℝ) (P : PhysPars ℝ) (t : Transect ℝ) (h : t.z0 = fin z) (he : 0 < P.OT_exp) :
    cstTot (fin r) (fin s) P t = fin (P.OT_coef * (max (r + s - z) 0) ^ P.OT_exp) := by
  unfold cstTot
  rw [overtopPotential_fin r s z t h, npPow_nonneg (le_max_right _ _) he, mul_fin]

theorem overtopping_eq (r s : Fl ℝ) (Shore : List (Transect ℝ)) (P : PhysPars ℝ) :
    overtopping r s Shore P =
      if (Shore.map (cstTot r s P)).all (fun c => fin 0 ≤? c) = true
      then .ok (Shore.map (cstTot r s P), Shore.map (overwashProp P)) else .error .assertion := by
  unfold overtopping
  simp only [pyAssert]
  split <;> rfl

theorem overtopping_ok (r s : Fl ℝ) (Shore : List (Transect ℝ)) (P : PhysPars ℝ) (cst : List (Fl ℝ)) (ow : List Bool)
    (h : overtopping r s Shore P = .ok (cst, ow)) :
    cst = Shore.map (cstTot r s P) ∧ ow = Shore.map (overwashProp P) := by
  rw [overtopping_eq] at h
  split at h
  · cases h; exact ⟨rfl, rfl⟩
  · cases h

end Verif.Model
