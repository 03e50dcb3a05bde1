import Verif.Lemmas.Swan
import Mathlib.Analysis.SpecialFunctions.Artanh

set_option autoImplicit false

/-! # C112-C115: waves from SWAN output -/

namespace Verif.Props
open Verif Verif.Model Verif.Spec Fl Real

/-! ## C112: back-calculation to deep water conserves energy -/

/-- Claim C112 in full: the offshore height is that of the deep water wave the wave at the output point comes from. -/
def C112 : Prop :=
  ∀ (normal θ : ℝ) (r : SwanRow), 0 < r.Wlen → 0 < r.Depth → 0 ≤ r.Hsig → swanAngle normal r = fin θ → |θ| < π / 2 →
    |sin θ| < tanh (2 * π * r.Depth / r.Wlen) →
    ∃ H0 θ0 L0, swanHoff normal r = fin H0 ∧ FromDeepWater r.Hsig θ r.Wlen r.Depth H0 θ0 L0

theorem cos_onshore {θ : ℝ} (h : |θ| < π / 2) : 0 < cos θ := cos_pos_of_mem_Ioo ⟨by linarith [(abs_lt.mp h).1], (abs_lt.mp h).2⟩

theorem clip_id {x : ℝ} (h : |x| < 1) : max (min x 1) (-1) = x := by
  rw [abs_lt] at h
  rw [min_eq_left h.2.le, max_eq_left h.1.le]

theorem swanHoff_eq {normal θ : ℝ} {r : SwanRow} (hL : 0 < r.Wlen) (hd : 0 < r.Depth) (hθ : swanAngle normal r = fin θ) (hon : |θ| < π / 2)
    (hs : |sin θ| < tanh (2 * π * r.Depth / r.Wlen)) :
    swanHoff normal r = fin (r.Hsig / √(1 / 2 * groupRatio r.Wlen r.Depth * (1 / tanh (2 * π * r.Depth / r.Wlen)) *
      (cos (arcsin (sin θ / tanh (2 * π * r.Depth / r.Wlen))) / cos θ))) := by
  have ht : 0 < tanh (2 * π * r.Depth / r.Wlen) := tanh_pos' (by positivity)
  have hn := (groupRatio_bounds hL hd).1
  have hc := cos_onshore hon
  have hsh := (swanOnshore_iff hθ).mpr hon
  have hθ' : swanTheta normal r = fin θ := by unfold swanTheta; rw [hsh, if_pos rfl, hθ]
  have hs1 : |sin θ / tanh (2 * π * r.Depth / r.Wlen)| < 1 := by rw [abs_div, abs_of_pos ht, div_lt_one ht]; exact hs
  have hc0 : 0 < cos (arcsin (sin θ / tanh (2 * π * r.Depth / r.Wlen))) := by
    rw [cos_arcsin]
    apply sqrt_pos.mpr
    have := (sq_lt_one_iff_abs_lt_one _).mpr hs1
    linarith
  unfold swanHoff swanHeight
  rw [hsh, if_pos rfl, swanN_eq hL hd, swanLoff_eq hL hd, swanThetaOff_eq hL hd hθ', clip_id hs1, hθ', npCos_fin, npCos_fin, div_fin _ _ hc.ne',
    mul_fin, mul_fin, mul_fin]
  have hA : 0 < 1 / 2 * groupRatio r.Wlen r.Depth * (1 / tanh (2 * π * r.Depth / r.Wlen)) *
      (cos (arcsin (sin θ / tanh (2 * π * r.Depth / r.Wlen))) / cos θ) := by positivity
  rw [npSqrt_fin hA.le, div_fin _ _ (sqrt_pos.mpr hA).ne']

/-- The deep water wave a wave comes from is unique. -/
theorem deepWater_unique {H θ L d H0 θ0 L0 : ℝ} (hL : 0 < L) (hd : 0 < d) (hon : |θ| < π / 2) (hs : |sin θ| < tanh (2 * π * d / L)) (hH : 0 ≤ H)
    (h : FromDeepWater H θ L d H0 θ0 L0) :
    H0 = groupRatio L d * (H / √(1 / 2 * groupRatio L d * (1 / tanh (2 * π * d / L)) * (cos (arcsin (sin θ / tanh (2 * π * d / L))) / cos θ))) := by
  have ht : 0 < tanh (2 * π * d / L) := tanh_pos' (by positivity)
  set t := tanh (2 * π * d / L) with ht'
  have hn := (groupRatio_bounds hL hd).1
  set n := groupRatio L d with hn'
  have hc := cos_onshore hon
  have hc0 := cos_onshore h.onshore
  have hL0 : L0 = L / t := by rw [eq_div_iff ht.ne']; exact h.dispersion.symm
  have hsin : sin θ0 = sin θ / t := by
    have h1 := h.snell
    rw [hL0] at h1
    field_simp at h1 ⊢
    linarith
  have hθ0 : arcsin (sin θ / t) = θ0 := by
    rw [← hsin]
    exact arcsin_sin (by linarith [(abs_lt.mp h.onshore).1]) (abs_lt.mp h.onshore).2.le
  rw [hθ0]
  have hA : 0 < 1 / 2 * n * (1 / t) * (cos θ0 / cos θ) := by
    have : 0 < n := by linarith
    positivity
  have hn0 : 0 < n := by linarith
  have hpos : 0 ≤ n * (H / √(1 / 2 * n * (1 / t) * (cos θ0 / cos θ))) := by positivity
  rw [← sq_eq_sq₀ h.height hpos, mul_pow, div_pow, sq_sqrt hA.le]
  have he := h.energy
  rw [hL0, ← hn'] at he
  field_simp at he ⊢
  linarith

/-- A deep water wave exists. -/
theorem deepWater_exists {H θ L d : ℝ} (hL : 0 < L) (hd : 0 < d) (hon : |θ| < π / 2) (hs : |sin θ| < tanh (2 * π * d / L)) (hH : 0 ≤ H) :
    ∃ θ0 L0, FromDeepWater H θ L d (groupRatio L d * (H / √(1 / 2 * groupRatio L d * (1 / tanh (2 * π * d / L)) *
      (cos (arcsin (sin θ / tanh (2 * π * d / L))) / cos θ)))) θ0 L0 := by
  have ht : 0 < tanh (2 * π * d / L) := tanh_pos' (by positivity)
  have hs1 : |sin θ / tanh (2 * π * d / L)| < 1 := by rw [abs_div, abs_of_pos ht, div_lt_one ht]; exact hs
  have hn := (groupRatio_bounds hL hd).1
  have hc := cos_onshore hon
  have hsin := sin_arcsin (abs_lt.mp hs1).1.le (abs_lt.mp hs1).2.le
  have hb : |arcsin (sin θ / tanh (2 * π * d / L))| < π / 2 := abs_lt.mpr ⟨neg_pi_div_two_lt_arcsin.mpr (abs_lt.mp hs1).1, arcsin_lt_pi_div_two.mpr (abs_lt.mp hs1).2⟩
  have hc0 := cos_onshore hb
  refine ⟨arcsin (sin θ / tanh (2 * π * d / L)), L / tanh (2 * π * d / L), ⟨?_, ?_, hb, ?_, ?_⟩⟩
  · have : 0 < groupRatio L d := by linarith
    positivity
  · field_simp
  · rw [hsin]; field_simp
  · generalize arcsin (sin θ / tanh (2 * π * d / L)) = θ0 at *
    generalize tanh (2 * π * d / L) = t at *
    generalize groupRatio L d = n at *
    have hn0 : 0 < n := by linarith
    have hA : 0 < 1 / 2 * n * (1 / t) * (cos θ0 / cos θ) := by positivity
    rw [mul_pow, div_pow, sq_sqrt hA.le]
    field_simp

/-- C112 fails for every onshore wave: the offshore height is too large, by a factor between 1 and 2 (in deep water it is doubled). -/
theorem C112_refuted_general {normal θ : ℝ} {r : SwanRow} (hL : 0 < r.Wlen) (hd : 0 < r.Depth) (hH : 0 < r.Hsig) (hθ : swanAngle normal r = fin θ)
    (hon : |θ| < π / 2) (hs : |sin θ| < tanh (2 * π * r.Depth / r.Wlen)) {H0 θ0 L0 : ℝ} (h : FromDeepWater r.Hsig θ r.Wlen r.Depth H0 θ0 L0) :
    ∃ H, swanHoff normal r = fin H ∧ H0 < H ∧ H < 2 * H0 := by
  refine ⟨_, swanHoff_eq hL hd hθ hon hs, ?_⟩
  have hu := deepWater_unique hL hd hon hs hH.le h
  obtain ⟨h1, h2⟩ := groupRatio_bounds hL hd
  have ht : 0 < tanh (2 * π * r.Depth / r.Wlen) := tanh_pos' (by positivity)
  have hs1 : |sin θ / tanh (2 * π * r.Depth / r.Wlen)| < 1 := by rw [abs_div, abs_of_pos ht, div_lt_one ht]; exact hs
  have hc := cos_onshore hon
  have hb : |arcsin (sin θ / tanh (2 * π * r.Depth / r.Wlen))| < π / 2 := abs_lt.mpr ⟨neg_pi_div_two_lt_arcsin.mpr (abs_lt.mp hs1).1, arcsin_lt_pi_div_two.mpr (abs_lt.mp hs1).2⟩
  have hc0 := cos_onshore hb
  have hn0 : 0 < groupRatio r.Wlen r.Depth := by linarith
  have hx : 0 < r.Hsig / √(1 / 2 * groupRatio r.Wlen r.Depth * (1 / tanh (2 * π * r.Depth / r.Wlen)) *
      (cos (arcsin (sin θ / tanh (2 * π * r.Depth / r.Wlen))) / cos θ)) := by positivity
  rw [hu]
  constructor <;> nlinarith

/-- C112, partial: the offshore height is exactly that of the deep water wave divided by the ratio of group speed to wave speed, and the
deep water wave exists.  Missing: the ratio is multiplied with where it should divide, so energy is not conserved (`C112_refuted_general`). -/
theorem C112_partial {normal θ : ℝ} {r : SwanRow} (hL : 0 < r.Wlen) (hd : 0 < r.Depth) (hH : 0 ≤ r.Hsig) (hθ : swanAngle normal r = fin θ)
    (hon : |θ| < π / 2) (hs : |sin θ| < tanh (2 * π * r.Depth / r.Wlen)) :
    ∃ H H0 θ0 L0, swanHoff normal r = fin H ∧ FromDeepWater r.Hsig θ r.Wlen r.Depth H0 θ0 L0 ∧ H * groupRatio r.Wlen r.Depth = H0 := by
  obtain ⟨θ0, L0, h⟩ := deepWater_exists hL hd hon hs hH
  exact ⟨_, _, θ0, L0, swanHoff_eq hL hd hθ hon hs, h, mul_comm _ _⟩

/-- Waves of 1 m height and 10 m length in 10 m of water, arriving from `dir` degrees. -/
noncomputable def swRow (dir : ℝ) : SwanRow := ⟨2000, 1, 1, 0, 30, 1, 5, dir, 10, 10, -1, 0⟩

theorem sw_angle {normal dir : ℝ} (h1 : -90 ≤ normal - dir) (h2 : normal - dir < 270) : swanAngle normal (swRow dir) = fin ((normal - dir) * (π / 180)) := by
  obtain ⟨θ, k, h, e, b1, b2⟩ := swanAngle_spec normal (swRow dir)
  have hp := pi_pos
  change θ = (normal - dir) * (π / 180) + k * (2 * π) at e
  have k1 : ((k : ℤ) : ℝ) < 1 := by
    by_contra hk
    have : (2 * π) * 1 ≤ (2 * π) * k := mul_le_mul_of_nonneg_left (not_lt.mp hk) (by positivity)
    have : (-90) * (π / 180) ≤ (normal - dir) * (π / 180) := mul_le_mul_of_nonneg_right h1 (by positivity)
    linarith
  have k2 : (-1 : ℝ) < k := by
    by_contra hk
    have : (2 * π) * k ≤ (2 * π) * (-1) := mul_le_mul_of_nonneg_left (not_lt.mp hk) (by positivity)
    have : (normal - dir) * (π / 180) < 270 * (π / 180) := mul_lt_mul_of_pos_right h2 (by positivity)
    linarith
  have k0 : k = 0 := by
    have a : k < 1 := by exact_mod_cast k1
    have b : -1 < k := by exact_mod_cast k2
    omega
  rw [h, e, k0]
  simp

/-- C112 refuted: waves at right angles to the shore. -/
theorem C112_refuted : ¬ C112 := by
  intro h
  have hθ : swanAngle 128 (swRow 128) = fin 0 := by rw [sw_angle (by norm_num) (by norm_num)]; simp
  have ht : |sin (0 : ℝ)| < tanh (2 * π * (swRow 128).Depth / (swRow 128).Wlen) := by
    rw [sin_zero, abs_zero]
    exact tanh_pos' (by unfold swRow; positivity)
  have hon : |(0 : ℝ)| < π / 2 := by rw [abs_zero]; positivity
  have hL : 0 < (swRow 128).Wlen := by unfold swRow; norm_num
  have hd : 0 < (swRow 128).Depth := by unfold swRow; norm_num
  have hH : 0 < (swRow 128).Hsig := by unfold swRow; norm_num
  obtain ⟨H0, θ0, L0, h1, h2⟩ := h 128 0 (swRow 128) hL hd hH.le hθ hon ht
  obtain ⟨H, h3, h4, _⟩ := C112_refuted_general hL hd hH hθ hon ht h2
  rw [h1] at h3
  cases h3
  exact lt_irrefl _ h4

/-! ## C113: the offshore height is a number -/

/-- Claim C113 in full: for every record with positive wave length and depth the offshore height is a non-negative number. -/
def C113 : Prop := ∀ (normal : ℝ) (r : SwanRow), 0 < r.Wlen → 0 < r.Depth → 0 ≤ r.Hsig → ∃ H, swanHoff normal r = fin H ∧ 0 ≤ H

/-- C113 fails for onshore waves more oblique than any deep water wave can become at that depth: division by zero. -/
theorem C113_refuted_general {normal θ : ℝ} {r : SwanRow} (hL : 0 < r.Wlen) (hd : 0 < r.Depth) (hH : 0 < r.Hsig) (hθ : swanAngle normal r = fin θ)
    (hon : |θ| < π / 2) (hs : tanh (2 * π * r.Depth / r.Wlen) ≤ |sin θ|) : swanHoff normal r = pinf := by
  have ht : 0 < tanh (2 * π * r.Depth / r.Wlen) := tanh_pos' (by positivity)
  have hc := cos_onshore hon
  have hsh := (swanOnshore_iff hθ).mpr hon
  have hθ' : swanTheta normal r = fin θ := by unfold swanTheta; rw [hsh, if_pos rfl, hθ]
  have hcos : cos (arcsin (max (min (sin θ / tanh (2 * π * r.Depth / r.Wlen)) 1) (-1))) = 0 := by
    rcases le_abs.mp hs with h | h
    · have : 1 ≤ sin θ / tanh (2 * π * r.Depth / r.Wlen) := (one_le_div ht).mpr h
      rw [min_eq_right this, max_eq_left (by norm_num), arcsin_one, cos_pi_div_two]
    · have : sin θ / tanh (2 * π * r.Depth / r.Wlen) ≤ -1 := by rw [div_le_iff₀ ht]; linarith
      rw [min_eq_left (by linarith), max_eq_right this, arcsin_neg_one, cos_neg, cos_pi_div_two]
  unfold swanHoff swanHeight
  rw [hsh, if_pos rfl, swanN_eq hL hd, swanLoff_eq hL hd, swanThetaOff_eq hL hd hθ', hθ', npCos_fin, npCos_fin, hcos, div_fin _ _ hc.ne',
    mul_fin, mul_fin, mul_fin, zero_div, mul_zero, npSqrt_fin le_rfl, sqrt_zero, div_fin_def, if_pos rfl]
  simp [infOfSign, hH.ne', hH]

/-- C113, partial: it holds for onshore waves less oblique than that, and for waves directed offshore, whose height becomes 0.  Missing: the
waves of `C113_refuted_general`. -/
theorem C113_partial {normal θ : ℝ} {r : SwanRow} (hL : 0 < r.Wlen) (hd : 0 < r.Depth) (hH : 0 ≤ r.Hsig) (hθ : swanAngle normal r = fin θ) :
    (|θ| < π / 2 → |sin θ| < tanh (2 * π * r.Depth / r.Wlen) → ∃ H, swanHoff normal r = fin H ∧ 0 ≤ H ∧ (H = 0 ↔ r.Hsig = 0)) ∧
    (π / 2 ≤ |θ| → swanHoff normal r = fin 0) := by
  constructor
  · intro hon hs
    have ht : 0 < tanh (2 * π * r.Depth / r.Wlen) := tanh_pos' (by positivity)
    have hs1 : |sin θ / tanh (2 * π * r.Depth / r.Wlen)| < 1 := by rw [abs_div, abs_of_pos ht, div_lt_one ht]; exact hs
    have hc := cos_onshore hon
    have hb : |arcsin (sin θ / tanh (2 * π * r.Depth / r.Wlen))| < π / 2 := abs_lt.mpr ⟨neg_pi_div_two_lt_arcsin.mpr (abs_lt.mp hs1).1, arcsin_lt_pi_div_two.mpr (abs_lt.mp hs1).2⟩
    have hc0 := cos_onshore hb
    have hn0 : 0 < groupRatio r.Wlen r.Depth := by linarith [(groupRatio_bounds hL hd).1]
    have hA : 0 < √(1 / 2 * groupRatio r.Wlen r.Depth * (1 / tanh (2 * π * r.Depth / r.Wlen)) *
      (cos (arcsin (sin θ / tanh (2 * π * r.Depth / r.Wlen))) / cos θ)) := by positivity
    exact ⟨_, swanHoff_eq hL hd hθ hon hs, div_nonneg hH hA.le, by rw [div_eq_zero_iff, or_iff_left hA.ne']⟩
  · intro hoff
    have hsh : swanOnshore normal r = false := by
      rw [Bool.eq_false_iff]
      intro h
      exact absurd ((swanOnshore_iff hθ).mp h) (not_lt.mpr hoff)
    have ht : 0 < tanh (2 * π * r.Depth / r.Wlen) := tanh_pos' (by positivity)
    have hn0 : 0 < groupRatio r.Wlen r.Depth := by linarith [(groupRatio_bounds hL hd).1]
    have hθ' : swanTheta normal r = fin 0 := by unfold swanTheta; rw [hsh]; rfl
    unfold swanHoff swanHeight
    rw [hsh, swanN_eq hL hd, swanLoff_eq hL hd, swanThetaOff_eq hL hd hθ', hθ', npCos_fin, npCos_fin, sin_zero, zero_div, clip_id (by norm_num), arcsin_zero,
      cos_zero, div_fin _ _ one_ne_zero, mul_fin, mul_fin, mul_fin]
    have hA : 0 < 1 / 2 * groupRatio r.Wlen r.Depth * (1 / tanh (2 * π * r.Depth / r.Wlen)) * (1 / 1) := by positivity
    rw [npSqrt_fin hA.le]
    change fin 0 / _ = _
    rw [div_fin _ _ (sqrt_pos.mpr hA).ne', zero_div]

/-- Waves from 30 degrees off the shore normal where the refraction coefficient is 1/2. -/
noncomputable def swShallow : SwanRow := { swRow 98 with Wlen := 2 * π, Depth := artanh (1 / 2) }

theorem swShallow_tanh : tanh (2 * π * swShallow.Depth / swShallow.Wlen) = 1 / 2 := by
  change tanh (2 * π * artanh (1 / 2) / (2 * π)) = 1 / 2
  rw [mul_div_cancel_left₀ _ (by positivity), tanh_artanh ⟨by norm_num, by norm_num⟩]

/-- C113 refuted. -/
theorem C113_refuted : ¬ C113 := by
  intro h
  have hθ : swanAngle 128 swShallow = fin (π / 6) := by
    have := sw_angle (normal := 128) (dir := 98) (by norm_num) (by norm_num)
    change swanAngle 128 (swRow 98) = _
    rw [this]
    congr 1
    ring
  have hL : 0 < swShallow.Wlen := by change 0 < 2 * π; positivity
  have hd : 0 < swShallow.Depth := artanh_pos ⟨by norm_num, by norm_num⟩
  have hH : 0 < swShallow.Hsig := by change (0 : ℝ) < 1; norm_num
  have hon : |π / 6| < π / 2 := by rw [abs_of_pos (by positivity)]; linarith [pi_pos]
  have hbad := C113_refuted_general hL hd hH hθ hon (by rw [swShallow_tanh, sin_pi_div_six, abs_of_pos (by norm_num)])
  obtain ⟨H, h1, _⟩ := h 128 swShallow hL hd hH.le
  rw [hbad] at h1
  cases h1

/-- Waves from straight off the shore meet the hypotheses of the partial theorems, waves from behind are directed offshore. -/
example : (∃ H, swanHoff 128 (swRow 128) = fin H ∧ 0 < H) ∧ swanHoff 128 (swRow (-52)) = fin 0 := by
  have hθ : swanAngle 128 (swRow 128) = fin 0 := by rw [sw_angle (by norm_num) (by norm_num)]; simp
  have hθ2 : swanAngle 128 (swRow (-52)) = fin π := by
    rw [sw_angle (by norm_num) (by norm_num)]
    congr 1
    ring
  have pos : ∀ x, 0 < (swRow x).Wlen ∧ 0 < (swRow x).Depth ∧ 0 < (swRow x).Hsig := by
    intro x
    unfold swRow
    norm_num
  constructor
  · obtain ⟨H, h1, h2, h3⟩ := (C113_partial (pos 128).1 (pos 128).2.1 (pos 128).2.2.le hθ).1 (by rw [abs_zero]; positivity)
      (by rw [sin_zero, abs_zero]; exact tanh_pos' (by unfold swRow; positivity))
    exact ⟨H, h1, lt_of_le_of_ne h2 (fun h => (pos 128).2.2.ne' (h3.mp h.symm))⟩
  · exact (C113_partial (pos (-52)).1 (pos (-52)).2.1 (pos (-52)).2.2.le hθ2).2 (by rw [abs_of_pos pi_pos]; linarith [pi_pos])

/-! ## C114: wave power and its direction -/

/-- C114: wave power is not negative, its direction is in [0, 360) degrees, and together they give back the energy transport (which points
to where the waves go, while the direction is where they come from). -/
theorem C114_power (r : SwanRow) : ∃ D, swanDir r = fin D ∧ 0 ≤ D ∧ D < 360 ∧ 0 ≤ swanPower r ∧
    1025 * (981 / 100) * r.X = -(swanPower r * sin (D * (π / 180))) ∧ 1025 * (981 / 100) * r.Y = -(swanPower r * cos (D * (π / 180))) := by
  set a := arctan2 r.X r.Y with ha
  set x := a * (180 / π) - 180 with hx
  have e : swanDir r = fin (x - 360 * (⌊x / 360⌋ : ℝ)) := by
    unfold swanDir
    rw [← ha, ← hx]
    simp [flMod]
  have hp := pi_pos
  have h1 := Int.floor_le (x / 360)
  have h2 := Int.lt_floor_add_one (x / 360)
  rw [le_div_iff₀ (by norm_num)] at h1
  rw [div_lt_iff₀ (by norm_num)] at h2
  have hang : (x - 360 * (⌊x / 360⌋ : ℝ)) * (π / 180) = a - π - (⌊x / 360⌋ : ℤ) * (2 * π) := by
    rw [hx]
    field_simp
    ring
  have hn : √(r.X ^ 2 + r.Y ^ 2) = ‖(⟨r.Y, r.X⟩ : ℂ)‖ := by
    rw [Complex.norm_def, Complex.normSq_mk]; congr 1; ring
  have c1 : ‖(⟨r.Y, r.X⟩ : ℂ)‖ * cos a = r.Y := by rw [ha]; unfold arctan2; rw [Complex.norm_mul_cos_arg]
  have c2 : ‖(⟨r.Y, r.X⟩ : ℂ)‖ * sin a = r.X := by rw [ha]; unfold arctan2; rw [Complex.norm_mul_sin_arg]
  refine ⟨_, e, by linarith, by linarith, by unfold swanPower; positivity, ?_, ?_⟩
  · rw [hang, sin_sub_int_mul_two_pi, sin_sub_pi]
    unfold swanPower
    rw [hn]
    linear_combination -(1025 * (981 / 100)) * c2
  · rw [hang, cos_sub_int_mul_two_pi, cos_sub_pi]
    unfold swanPower
    rw [hn]
    linear_combination -(1025 * (981 / 100)) * c1

/-- Transport to the west: waves come from the east. -/
example : swanDir (swRow 0) = fin 90 := by
  have h : arctan2 (-1) 0 = -(π / 2) := by
    unfold arctan2
    rw [show (⟨0, -1⟩ : ℂ) = -Complex.I from Complex.ext (by simp) (by simp), Complex.arg_neg_I]
  have hf : ⌊(-(π / 2) * (180 / π) - 180) / 360⌋ = -1 := by
    have : (-(π / 2) * (180 / π) - 180) / 360 = (-3 / 4 : ℝ) := by
      have := pi_pos
      field_simp
      norm_num
    rw [this]
    norm_num [Int.floor_eq_iff]
  unfold swanDir
  change flMod (fin (arctan2 (-1) 0 * (180 / π) - 180)) 360 = _
  rw [h]
  simp only [flMod, hf]
  have := pi_pos
  rw [if_neg (by norm_num)]
  congr 1
  field_simp
  norm_num

/-! ## C115: times of the records -/

/-- Claim C115 in full: every record is labelled with its time. -/
def C115 : Prop := ∀ (T : Type) (stamp : ℕ → ℕ → ℕ → ℕ → ℕ → T) (r : SwanRow), swanTime stamp r = stamp r.year r.month r.day r.hour r.min

/-- C115 fails for every record that is not on the hour: its minutes are dropped, so records of the same hour get the same time. -/
theorem C115_refuted_general {T : Type} {stamp : ℕ → ℕ → ℕ → ℕ → ℕ → T} {r : SwanRow}
    (hinj : stamp r.year r.month r.day r.hour r.min = stamp r.year r.month r.day r.hour 0 → r.min = 0) (h : r.min ≠ 0) :
    swanTime stamp r ≠ stamp r.year r.month r.day r.hour r.min ∧
    ∀ s : SwanRow, s.year = r.year → s.month = r.month → s.day = r.day → s.hour = r.hour → swanTime stamp s = swanTime stamp r := by
  refine ⟨fun he => h (hinj he.symm), ?_⟩
  intro s h1 h2 h3 h4
  unfold swanTime
  rw [h1, h2, h3, h4]

/-- C115 refuted: a record at half past. -/
theorem C115_refuted : ¬ C115 := fun h =>
  (C115_refuted_general (stamp := fun y m d hh mm => (y, m, d, hh, mm)) (r := swRow 0) (fun he => (Prod.ext_iff.mp (Prod.ext_iff.mp (Prod.ext_iff.mp (Prod.ext_iff.mp he).2).2).2).2)
    (by decide : (30 : ℕ) ≠ 0)).1 (h _ _ _)

/-- C115, partial: records on the hour.  Missing: all others. -/
theorem C115_partial {T : Type} {stamp : ℕ → ℕ → ℕ → ℕ → ℕ → T} {r : SwanRow} (h : r.min = 0) :
    swanTime stamp r = stamp r.year r.month r.day r.hour r.min := by
  unfold swanTime
  rw [h]

example : swanTime (fun y m d hh mm => (y, m, d, hh, mm)) { swRow 0 with min := 0 } = (2000, 1, 1, 0, 0) := C115_partial rfl

end Verif.Props
