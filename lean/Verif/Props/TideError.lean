import Verif.Props.Forcing
import Verif.Props.Synth
import Mathlib.Analysis.Convex.Deriv
import Mathlib.Analysis.Real.Pi.Bounds
import Mathlib.Analysis.SpecialFunctions.Trigonometric.Bounds

set_option autoImplicit false
set_option linter.unusedSectionVars false

/-! # C218: the sea level between the records of the synthetic tide -/

namespace Verif.Spec

/-- The tide with the mean sea level `m` and the range `r` that is rising through `m` at the time `S`; its period is 12 h 25.2 min. -/
noncomputable def trueTide (S : ℤ) (m r : ℝ) (t : ℤ) : ℝ := m + r / 2 * Real.sin (2 * Real.pi * ((t - S : ℤ) : ℝ) / ((12 * 60 + 25.2) * 60 * 10 ^ 9))

/-- What fraction of the range a straight line over a time `d` can miss: an eighth of the square of the phase, of half the range. -/
noncomputable def tideMiss (d : ℤ) : ℝ := (2 * Real.pi * (d : ℝ) / ((12 * 60 + 25.2) * 60 * 10 ^ 9)) ^ 2 / 16

end Verif.Spec

namespace Verif.Props
open Verif Verif.Model Verif.Spec Fl

/-- A sine, up or down, with half a square added is convex. -/
theorem sin_square_convex (c : ℝ) (hc : |c| ≤ 1) : ConvexOn ℝ Set.univ fun x : ℝ => c * Real.sin x + x ^ 2 / 2 := by
  have hder : ∀ x : ℝ, HasDerivAt (fun x : ℝ => c * Real.sin x + x ^ 2 / 2) (c * Real.cos x + x) x := by
    intro x
    have h1 := (Real.hasDerivAt_sin x).const_mul c
    have h2 := (hasDerivAt_pow 2 x).div_const 2
    exact (h1.add h2).congr_deriv (by norm_num)
  apply Monotone.convexOn_univ_of_deriv (fun x => (hder x).differentiableAt)
  have e : deriv (fun x : ℝ => c * Real.sin x + x ^ 2 / 2) = fun x => c * Real.cos x + x := funext fun x => (hder x).deriv
  rw [e]
  intro x y hxy
  have h1 : |c * (Real.cos x - Real.cos y)| ≤ y - x := by
    rw [abs_mul, ← abs_of_nonneg (sub_nonneg.mpr hxy), abs_sub_comm y x]
    exact (mul_le_mul hc (Real.abs_cos_sub_cos_le x y) (abs_nonneg _) zero_le_one).trans_eq (one_mul _)
  have h2 := (abs_le.mp h1).2
  simp only
  linarith

/-- How far a chord of the sine is from it. -/
theorem sin_chord (a b s : ℝ) (s0 : 0 ≤ s) (s1 : s ≤ 1) :
    |(1 - s) * Real.sin a + s * Real.sin b - Real.sin ((1 - s) * a + s * b)| ≤ (b - a) ^ 2 / 8 := by
  have key : ∀ c : ℝ, |c| ≤ 1 → c * Real.sin ((1 - s) * a + s * b) - c * ((1 - s) * Real.sin a + s * Real.sin b) ≤ (b - a) ^ 2 / 8 := by
    intro c hc
    have h := (sin_square_convex c hc).2 (Set.mem_univ a) (Set.mem_univ b) (sub_nonneg.mpr s1) s0 (by ring)
    simp only [smul_eq_mul] at h
    have h2 : s * (1 - s) * (b - a) ^ 2 ≤ 1 / 4 * (b - a) ^ 2 := mul_le_mul_of_nonneg_right (by nlinarith [sq_nonneg (s - 1 / 2)]) (sq_nonneg _)
    nlinarith
  have k1 := key 1 (by norm_num)
  have k2 := key (-1) (by norm_num)
  rw [abs_le]
  constructor <;> linarith

/-- The records of the synthetic tide. -/
theorem tide_given {S E d : ℤ} {m r : ℝ} (hd : 0 < d) {ts : Series ℝ} (h : harmonicTide S E d m r = .ok ts) :
    ∃ l : List ℤ, ts = finSeries (l.map fun t => (t, trueTide S m r t)) ∧ Increasing (l.map fun t => (t, trueTide S m r t)) ∧
      ∀ (i : ℕ) (t : ℤ), l[i]? = some t ↔ t = S + i * d ∧ t ≤ E := by
  have hP : (periodNs : ℝ) = (12 * 60 + 25.2) * 60 * 10 ^ 9 := by unfold periodNs; norm_num
  obtain ⟨l, hl, hget⟩ := dateRange_ok (a := S) (b := E) hd
  obtain ⟨l', hl', h1⟩ := bind_ok.mp h
  rw [hl] at hl'
  cases hl'
  have h1 := pure_ok.mp h1
  refine ⟨l, ?_, ?_, hget⟩
  · have : ts = l.map fun t => (t, fin (trueTide S m r t)) := by
      have hv : ∀ x ∈ ts, x = (x.1, fin (trueTide S m r x.1)) := by
        rintro ⟨t, v⟩ hx
        have := tide_value h hx
        rw [hP] at this
        rw [this]
        rfl
      rw [← h1] at hv ⊢
      apply List.map_congr_left
      intro t hm
      exact hv _ (List.mem_map.mpr ⟨t, hm, rfl⟩)
    rw [this]
    simp [finSeries, List.map_map, Function.comp_def]
  · unfold Increasing
    rw [List.pairwise_map, List.pairwise_iff_getElem]
    intro i j hi hj hij
    have g1 := ((hget i _).mp (List.getElem?_eq_getElem hi)).1
    have g2 := ((hget j _).mp (List.getElem?_eq_getElem hj)).1
    rw [g1, g2]
    have : (i : ℤ) * d < j * d := mul_lt_mul_of_pos_right (by exact_mod_cast hij) hd
    omega

/-- **C218**: at every time at which the synthetic tide is interpolated, the sea level differs from the true tide by at most the fraction `tideMiss` of the range,
which decreases with the square of the interval of the records. -/
theorem C218_tide {S E d : ℤ} {m r : ℝ} (hd : 0 < d) {ts : Series ℝ} (h : harmonicTide S E d m r = .ok ts) {req : List ℤ} (hr : req.Pairwise (· ≤ ·)) {out : List (Fl ℝ)}
    (ho : interpolateAt ts req = .ok out) : List.Forall₂ (fun t v => ∃ z, v = fin z ∧ |z - trueTide S m r t| ≤ tideMiss d * |r|) req out := by
  obtain ⟨l, e, hinc, hget⟩ := tide_given hd h
  rw [e] at ho
  obtain ⟨n0, n1⟩ := interp_inside hr ho
  obtain ⟨vs, hv, hF⟩ := C52_linear hinc n0 hr n1
  rw [hv] at ho
  cases ho
  rw [List.forall₂_map_right_iff]
  refine hF.imp ?_
  intro t v hlin
  refine ⟨v, rfl, ?_⟩
  rcases hlin with hm | ⟨i, t1, t2, v1, v2, g1, g2, l1, l2, hline⟩
  · obtain ⟨t', _, h3⟩ := List.mem_map.mp hm
    cases h3
    rw [sub_self, abs_zero]
    unfold tideMiss
    positivity
  · rw [List.getElem?_map, Option.map_eq_some_iff] at g1 g2
    obtain ⟨t1', g1, h3⟩ := g1
    obtain ⟨t2', g2, h4⟩ := g2
    cases h3
    cases h4
    have k1 := ((hget _ _).mp g1).1
    have k2 := ((hget _ _).mp g2).1
    have kd : t2 - t1 = d := by rw [k1, k2]; push_cast; ring
    have kdr : (t2 : ℝ) = t1 + d := by rw [← kd]; push_cast; ring
    have dpos : (0 : ℝ) < d := by exact_mod_cast hd
    have l1' : (t1 : ℝ) < t := by exact_mod_cast l1
    have l2' : (t : ℝ) < t2 := by exact_mod_cast l2
    obtain ⟨s, hs⟩ : ∃ s : ℝ, s = ((t : ℝ) - t1) / d := ⟨_, rfl⟩
    have hsd : (t : ℝ) = t1 + s * d := by rw [hs]; field_simp; ring
    have s0 : 0 ≤ s := by rw [hs]; exact div_nonneg (by linarith) dpos.le
    have s1 : s ≤ 1 := by rw [hs, div_le_one dpos]; linarith
    have hvv : v = (1 - s) * trueTide S m r t1 + s * trueTide S m r t2 := by
      have h5 : (v - trueTide S m r t1) * (d : ℝ) = (trueTide S m r t2 - trueTide S m r t1) * (s * d) := by
        rw [kdr, hsd] at hline
        simpa using hline
      have h6 := mul_right_cancel₀ dpos.ne' (h5.trans (mul_assoc _ _ _).symm)
      linarith
    obtain ⟨P, hPdef⟩ : ∃ P : ℝ, P = (12 * 60 + 25.2) * 60 * 10 ^ 9 := ⟨_, rfl⟩
    have hP0 : P ≠ 0 := by rw [hPdef]; norm_num
    have c := sin_chord (2 * Real.pi * ((t1 - S : ℤ) : ℝ) / P) (2 * Real.pi * ((t2 - S : ℤ) : ℝ) / P) s s0 s1
    have ea : (1 - s) * (2 * Real.pi * ((t1 - S : ℤ) : ℝ) / P) + s * (2 * Real.pi * ((t2 - S : ℤ) : ℝ) / P) = 2 * Real.pi * ((t - S : ℤ) : ℝ) / P := by
      push_cast
      rw [kdr, hsd]
      field_simp
      ring
    have eb : 2 * Real.pi * ((t2 - S : ℤ) : ℝ) / P - 2 * Real.pi * ((t1 - S : ℤ) : ℝ) / P = 2 * Real.pi * (d : ℝ) / P := by
      push_cast
      rw [kdr]
      field_simp
      ring
    rw [ea, eb] at c
    rw [hvv]
    unfold trueTide tideMiss
    rw [← hPdef]
    have ec : (1 - s) * (m + r / 2 * Real.sin (2 * Real.pi * ((t1 - S : ℤ) : ℝ) / P)) + s * (m + r / 2 * Real.sin (2 * Real.pi * ((t2 - S : ℤ) : ℝ) / P)) -
        (m + r / 2 * Real.sin (2 * Real.pi * ((t - S : ℤ) : ℝ) / P)) = r / 2 * ((1 - s) * Real.sin (2 * Real.pi * ((t1 - S : ℤ) : ℝ) / P) +
        s * Real.sin (2 * Real.pi * ((t2 - S : ℤ) : ℝ) / P) - Real.sin (2 * Real.pi * ((t - S : ℤ) : ℝ) / P)) := by ring
    rw [ec, abs_mul, abs_div, abs_two]
    calc _ ≤ |r| / 2 * ((2 * Real.pi * (d : ℝ) / P) ^ 2 / 8) := mul_le_mul_of_nonneg_left c (by positivity)
      _ = _ := by ring

/-- With records every 15 minutes the sea level is right to a thousandth of the range and a little. -/
theorem C218_quarter : tideMiss (15 * 60 * 10 ^ 9) ≤ 0.00101 := by
  unfold tideMiss
  have h1 := Real.pi_lt_d4
  have h0 := Real.pi_pos
  have e : 2 * Real.pi * (((15 * 60 * 10 ^ 9 : ℤ)) : ℝ) / ((12 * 60 + 25.2) * 60 * 10 ^ 9) = Real.pi * (1800 / 44712) := by push_cast; ring
  rw [e, mul_pow]
  have h2 : Real.pi ^ 2 ≤ 3.1416 ^ 2 := pow_le_pow_left₀ h0.le h1.le 2
  nlinarith

/-- A tide of 2 m over half a day, with records every 15 minutes, can be interpolated at times between the records. -/
example : ∃ ts out, harmonicTide 0 (12 * 3600 * 10 ^ 9) (15 * 60 * 10 ^ 9) 0 2 = .ok ts ∧ interpolateAt ts [5 * 60 * 10 ^ 9, 70 * 60 * 10 ^ 9] = .ok out := by
  obtain ⟨ts, h, _⟩ := C64_times (S := 0) (E := 12 * 3600 * 10 ^ 9) (m := 0) (r := 2) (d := 15 * 60 * 10 ^ 9) (by norm_num)
  obtain ⟨l, rfl, hi, hg⟩ := tide_given (by norm_num) h
  have m0 := List.mem_of_getElem? ((hg 0 0).mpr ⟨by norm_num, by norm_num⟩)
  have m1 := List.mem_of_getElem? ((hg 48 (12 * 3600 * 10 ^ 9)).mpr ⟨by norm_num, by norm_num⟩)
  obtain ⟨vs, hv, _⟩ := C52_linear hi (req := [5 * 60 * 10 ^ 9, 70 * 60 * 10 ^ 9]) (by simp) (by norm_num) (fun t ht =>
    ⟨⟨_, List.mem_map.mpr ⟨_, m0, rfl⟩, by simp at ht; rcases ht with rfl | rfl <;> norm_num⟩,
      _, List.mem_map.mpr ⟨_, m1, rfl⟩, by simp at ht; rcases ht with rfl | rfl <;> norm_num⟩)
  exact ⟨_, _, h, hv⟩

end Verif.Props
