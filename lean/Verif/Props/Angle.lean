import Verif.Props.Coast
import Mathlib.Analysis.SpecialFunctions.Trigonometric.Bounds
import Mathlib.Analysis.SpecialFunctions.Trigonometric.ArctanDeriv

set_option autoImplicit false
set_option linter.unusedSectionVars false

/-! # C185, C186: longshore transport and the angle of the waves -/

namespace Verif.Props
open Verif Verif.Model Verif.Spec Fl Real

/-- The same waves from another direction. -/
def fromDir (w : Waves) (d : ℝ) : Waves := { w with dir := d }

/-- The transport of a segment by its wave angle. -/
theorem lst_sin (w : Waves) (hv : w.Valid) (P : PhysPars ℝ) (hP : Describes w P) (dx : ℝ) (hdx : 0 < dx) (d : ℝ) (ys : List ℝ) (i : ℕ) (ya yb : ℝ)
    (ha : ys[i]? = some ya) (hb : ys[i+1]? = some yb) (hr : w.Refracts (waveAngle dx d ya yb)) (q : ℝ)
    (hq : (lst ys dx (fromDir w d) P)[i]? = some (fin q)) :
    q = -(w.k2 * w.power * (shallowSpeed w.g w.breakDepth / waveSpeed w.g w.period w.length w.depth) / 2) * sin (2 * waveAngle dx d ya yb) := by
  have h := longShoreTransport_get_eq (fromDir w d) hv P hP ys dx hdx.ne' i ya yb ha hb hr
  rw [lst, h] at hq
  simp only [Option.some.injEq, Fl.fin.injEq] at hq
  rw [← hq, sin_two_mul]
  simp only [fromDir, Waves.breakDepth]
  ring

theorem lst_const_pos (w : Waves) (hv : w.Valid) :
    0 < w.k2 * w.power * (shallowSpeed w.g w.breakDepth / waveSpeed w.g w.period w.length w.depth) / 2 := by
  have hs := shallowSpeed_pos w hv
  have hw := waveSpeed_pos w hv
  obtain ⟨hg, hbr, hk, hd, hp, ht, hl⟩ := hv
  positivity

theorem abs_sin_two (a : ℝ) (h : |a| ≤ π / 2) : |sin (2 * a)| = sin (2 * |a|) := by
  rcases abs_cases a with ⟨e, h0⟩ | ⟨e, h0⟩ <;> rw [e] at h ⊢
  · exact abs_of_nonneg (sin_nonneg_of_nonneg_of_le_pi (by linarith) (by linarith))
  · rw [show 2 * -a = -(2 * a) by ring, sin_neg]
    exact abs_of_nonpos (by
      have := sin_nonneg_of_nonneg_of_le_pi (x := -(2*a)) (by linarith) (by linarith)
      rw [sin_neg] at this; linarith)

/-- C185: of two segments, of the same or different shorelines, under the same waves from the same or different directions within 90° of
the shore-normals, the one met at the larger angle has the larger transport up to 45°, and the smaller transport beyond.  -/
theorem C185_angle (w : Waves) (hv : w.Valid) (P : PhysPars ℝ) (hP : Describes w P) (dx : ℝ) (hdx : 0 < dx)
    (d e : ℝ) (ys zs : List ℝ) (i j : ℕ) (ya yb za zb : ℝ) (ha : ys[i]? = some ya) (hb : ys[i+1]? = some yb)
    (hc : zs[j]? = some za) (hd : zs[j+1]? = some zb)
    (hr : w.Refracts (waveAngle dx d ya yb)) (hr' : w.Refracts (waveAngle dx e za zb)) (q r : ℝ)
    (hq : (lst ys dx (fromDir w d) P)[i]? = some (fin q)) (hr2 : (lst zs dx (fromDir w e) P)[j]? = some (fin r)) :
    (|waveAngle dx d ya yb| < |waveAngle dx e za zb| → |waveAngle dx e za zb| ≤ π / 4 → |q| < |r|) ∧
    (π / 4 ≤ |waveAngle dx d ya yb| → |waveAngle dx d ya yb| < |waveAngle dx e za zb| → |waveAngle dx e za zb| ≤ π / 2 → |r| < |q|) := by
  have hpi := pi_pos
  have h1 := lst_sin w hv P hP dx hdx d ys i ya yb ha hb hr q hq
  have h2 := lst_sin w hv P hP dx hdx e zs j za zb hc hd hr' r hr2
  have hk := lst_const_pos w hv
  set k := w.k2 * w.power * (shallowSpeed w.g w.breakDepth / waveSpeed w.g w.period w.length w.depth) / 2
  set a := waveAngle dx d ya yb
  set b := waveAngle dx e za zb
  have e1 : |q| = k * |sin (2 * a)| := by rw [h1, abs_mul, abs_neg, abs_of_pos hk]
  have e2 : |r| = k * |sin (2 * b)| := by rw [h2, abs_mul, abs_neg, abs_of_pos hk]
  have pa := abs_nonneg a
  have pb := abs_nonneg b
  rw [e1, e2]
  constructor
  · intro hab hb4
    rw [abs_sin_two a (by linarith), abs_sin_two b (by linarith)]
    exact mul_lt_mul_of_pos_left (sin_lt_sin_of_lt_of_le_pi_div_two (by linarith) (by linarith) (by linarith)) hk
  · intro ha4 hab hb2
    rw [abs_sin_two a (by linarith), abs_sin_two b hb2, ← sin_pi_sub (2 * |a|), ← sin_pi_sub (2 * |b|)]
    exact mul_lt_mul_of_pos_left (sin_lt_sin_of_lt_of_le_pi_div_two (by linarith) (by linarith) (by linarith)) hk

/-- C185, the largest: no segment has more transport than one that the same waves meet at 45°. -/
theorem C185_largest (w : Waves) (hv : w.Valid) (P : PhysPars ℝ) (hP : Describes w P) (dx : ℝ) (hdx : 0 < dx)
    (d e : ℝ) (ys zs : List ℝ) (i j : ℕ) (ya yb za zb : ℝ) (ha : ys[i]? = some ya) (hb : ys[i+1]? = some yb)
    (hc : zs[j]? = some za) (hd : zs[j+1]? = some zb)
    (hr : w.Refracts (waveAngle dx d ya yb)) (hr' : w.Refracts (waveAngle dx e za zb)) (q r : ℝ)
    (hq : (lst ys dx (fromDir w d) P)[i]? = some (fin q)) (hr2 : (lst zs dx (fromDir w e) P)[j]? = some (fin r))
    (h45 : |waveAngle dx e za zb| = π / 4) : |q| ≤ |r| := by
  have hpi := pi_pos
  have h1 := lst_sin w hv P hP dx hdx d ys i ya yb ha hb hr q hq
  have h2 := lst_sin w hv P hP dx hdx e zs j za zb hc hd hr' r hr2
  have hk := lst_const_pos w hv
  set k := w.k2 * w.power * (shallowSpeed w.g w.breakDepth / waveSpeed w.g w.period w.length w.depth) / 2
  have e1 : |q| = k * |sin (2 * waveAngle dx d ya yb)| := by rw [h1, abs_mul, abs_neg, abs_of_pos hk]
  have e2 : |r| = k * |sin (2 * waveAngle dx e za zb)| := by rw [h2, abs_mul, abs_neg, abs_of_pos hk]
  rw [e1, e2, abs_sin_two (waveAngle dx e za zb) (by linarith), h45, show 2 * (π/4) = π/2 by ring, sin_pi_div_two]
  exact mul_le_mul_of_nonneg_left (abs_sin_le_one _) hk.le

theorem arctan_lip (x y : ℝ) : |arctan x - arctan y| ≤ |x - y| := by
  have key : ∀ x y : ℝ, x ≤ y → arctan y - arctan x ≤ y - x := by
    intro x y hxy
    have hm : Monotone (fun t : ℝ => t - arctan t) := by
      apply monotone_of_deriv_nonneg
      · exact differentiable_id.sub differentiable_arctan
      · intro t
        have : HasDerivAt (fun t : ℝ => t - arctan t) (1 - 1 / (1 + t^2)) t := (hasDerivAt_id t).sub (hasDerivAt_arctan t)
        rw [this.deriv, sub_nonneg, div_le_one (by positivity)]
        nlinarith [sq_nonneg t]
    have := hm hxy
    simp only at this
    linarith
  rcases le_total x y with h | h
  · rw [abs_sub_comm, abs_of_nonneg (sub_nonneg.mpr (arctan_strictMono.monotone h)), abs_sub_comm, abs_of_nonneg (sub_nonneg.mpr h)]
    exact key x y h
  · rw [abs_of_nonneg (sub_nonneg.mpr (arctan_strictMono.monotone h)), abs_of_nonneg (sub_nonneg.mpr h)]
    exact key y x h

/-- C186: the transport of a segment changes by no more than a fixed multiple of the turn of the waves plus the turn of the shoreline. -/
theorem C186_gradual (w : Waves) (hv : w.Valid) (P : PhysPars ℝ) (hP : Describes w P) (dx : ℝ) (hdx : 0 < dx)
    (d e : ℝ) (ys zs : List ℝ) (i : ℕ) (ya yb za zb : ℝ) (ha : ys[i]? = some ya) (hb : ys[i+1]? = some yb)
    (hc : zs[i]? = some za) (hd : zs[i+1]? = some zb)
    (hr : w.Refracts (waveAngle dx d ya yb)) (hr' : w.Refracts (waveAngle dx e za zb)) (q r : ℝ)
    (hq : (lst ys dx (fromDir w d) P)[i]? = some (fin q)) (hr2 : (lst zs dx (fromDir w e) P)[i]? = some (fin r)) :
    |q - r| ≤ w.k2 * w.power * (shallowSpeed w.g w.breakDepth / waveSpeed w.g w.period w.length w.depth)
      * (|d - e| + (|ya - za| + |yb - zb|) / dx) := by
  have h1 := lst_sin w hv P hP dx hdx d ys i ya yb ha hb hr q hq
  have h2 := lst_sin w hv P hP dx hdx e zs i za zb hc hd hr' r hr2
  have hk := lst_const_pos w hv
  set k := w.k2 * w.power * (shallowSpeed w.g w.breakDepth / waveSpeed w.g w.period w.length w.depth) with hkd
  have e1 : q - r = -(k/2) * (sin (2 * waveAngle dx d ya yb) - sin (2 * waveAngle dx e za zb)) := by rw [h1, h2]; ring
  have e2 : |q - r| = k/2 * |sin (2 * waveAngle dx d ya yb) - sin (2 * waveAngle dx e za zb)| := by
    rw [e1, abs_mul, abs_neg, abs_of_pos hk]
  have l1 := abs_sin_sub_sin_le (2 * waveAngle dx d ya yb) (2 * waveAngle dx e za zb)
  have l2 : |2 * waveAngle dx d ya yb - 2 * waveAngle dx e za zb| ≤ 2 * (|d - e| + (|ya - za| + |yb - zb|) / dx) := by
    rw [← mul_sub, abs_mul, abs_two]
    apply mul_le_mul_of_nonneg_left _ (by norm_num)
    unfold waveAngle
    have t := arctan_lip ((za - zb)/dx) ((ya - yb)/dx)
    have t2 : |(za - zb)/dx - (ya - yb)/dx| ≤ (|ya - za| + |yb - zb|) / dx := by
      rw [← sub_div, abs_div, abs_of_pos hdx]
      apply div_le_div_of_nonneg_right _ hdx.le
      calc |za - zb - (ya - yb)| = |-(ya - za) + (yb - zb)| := by congr 1; ring
        _ ≤ |-(ya - za)| + |yb - zb| := abs_add_le _ _
        _ = _ := by rw [abs_neg]
    calc |d - arctan ((ya - yb)/dx) - (e - arctan ((za - zb)/dx))|
        = |(d - e) + (arctan ((za - zb)/dx) - arctan ((ya - yb)/dx))| := by congr 1; ring
      _ ≤ |d - e| + |arctan ((za - zb)/dx) - arctan ((ya - yb)/dx)| := abs_add_le _ _
      _ ≤ _ := by linarith
  rw [e2]
  calc k/2 * |sin (2 * waveAngle dx d ya yb) - sin (2 * waveAngle dx e za zb)|
      ≤ k/2 * (2 * (|d - e| + (|ya - za| + |yb - zb|) / dx)) := mul_le_mul_of_nonneg_left (l1.trans l2) hk.le
    _ = _ := by ring

/-- The hypotheses are met: a straight shore under waves at 30°, 45° and 60°. -/
example : ∃ q r s : ℝ, (lst [0, 0] 1 (fromDir (demoWaves 0) (π/6)) demoPars)[0]? = some (fin q) ∧
    (lst [0, 0] 1 (fromDir (demoWaves 0) (π/4)) demoPars)[0]? = some (fin r) ∧
    (lst [0, 0] 1 (fromDir (demoWaves 0) (π/3)) demoPars)[0]? = some (fin s) ∧ |q| < |r| ∧ |s| < |r| := by
  have hpi := pi_pos
  have ang : ∀ d : ℝ, waveAngle 1 d 0 0 = d := fun d => by simp [waveAngle]
  have g : ∀ d, (demoWaves 0).Refracts (waveAngle 1 d 0 0) := fun d => demo_refracts 0 _
  have get : ∀ d, ∃ q, (lst [0, 0] 1 (fromDir (demoWaves 0) d) demoPars)[0]? = some (fin q) := fun d =>
    ⟨_, longShoreTransport_get_eq (fromDir (demoWaves 0) d) (demo_valid 0) demoPars (demo_describes 0) [0, 0] 1 one_ne_zero 0 0 0 rfl rfl (g d)⟩
  obtain ⟨q, hq⟩ := get (π/6)
  obtain ⟨r, hr⟩ := get (π/4)
  obtain ⟨s, hs⟩ := get (π/3)
  refine ⟨q, r, s, hq, hr, hs, ?_, ?_⟩
  · refine (C185_angle (demoWaves 0) (demo_valid 0) demoPars (demo_describes 0) 1 one_pos (π/6) (π/4) [0,0] [0,0] 0 0 0 0 0 0 rfl rfl rfl rfl
      (g _) (g _) q r hq hr).1 ?_ ?_
    · rw [ang, ang, abs_of_pos (by positivity), abs_of_pos (by positivity)]; linarith
    · rw [ang, abs_of_pos (by positivity)]
  · refine (C185_angle (demoWaves 0) (demo_valid 0) demoPars (demo_describes 0) 1 one_pos (π/4) (π/3) [0,0] [0,0] 0 0 0 0 0 0 rfl rfl rfl rfl
      (g _) (g _) r s hr hs).2 ?_ ?_ ?_
    · rw [ang, abs_of_pos (by positivity)]
    · rw [ang, ang, abs_of_pos (by positivity), abs_of_pos (by positivity)]; linarith
    · rw [ang, abs_of_pos (by positivity)]; linarith

end Verif.Props
