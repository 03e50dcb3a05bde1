import Verif.Props.Forcing

set_option autoImplicit false
set_option linter.unusedSectionVars false

/-! # C219: how far the forcing can be off -/

namespace Verif.Spec

variable {K : Type} [Field K] [LinearOrder K]

/-- A quantity that changes by at most `L` per nanosecond. -/
def Gradual (L : K) (f : ℤ → K) : Prop := ∀ t u : ℤ, |f t - f u| ≤ L * |(t : K) - (u : K)|

/-- Records of the quantity `f` with errors of at most `err`, at times at most `gap` apart. -/
structure Measured (f : ℤ → K) (err gap : K) (ts : List (ℤ × K)) : Prop where
  near : ∀ a ∈ ts, |a.2 - f a.1| ≤ err
  gaps : ∀ (i : ℕ) (a b : ℤ × K), ts[i]? = some a → ts[i + 1]? = some b → (b.1 : K) - a.1 ≤ gap

end Verif.Spec

namespace Verif.Props
open Verif Verif.Model Verif.Spec Fl

variable {K : Type} [Field K] [LinearOrder K] [IsStrictOrderedRing K] [FloorRing K]

/-- On the straight line between records. -/
theorem linear_near {f : ℤ → K} {L err gap : K} (hL : 0 ≤ L) (hg : 0 ≤ gap) (hf : Gradual L f) {ts : List (ℤ × K)} (hm : Measured f err gap ts) {t : ℤ} {v : K}
    (h : LinearAt ts t v) : |v - f t| ≤ err + L * gap / 2 := by
  have hLg : 0 ≤ L * gap / 2 := div_nonneg (mul_nonneg hL hg) (by norm_num)
  rcases h with h | ⟨i, t1, t2, v1, v2, h1, h2, l1, l2, hline⟩
  · have := hm.near _ h
    simp only at this
    linarith
  · have n1 := hm.near _ (List.mem_of_getElem? h1)
    have n2 := hm.near _ (List.mem_of_getElem? h2)
    have hgap := hm.gaps i _ _ h1 h2
    simp only at n1 n2 hgap
    have l1' : (t1 : K) < t := by exact_mod_cast l1
    have l2' : (t : K) < t2 := by exact_mod_cast l2
    have k1 := hf t1 t
    have k2 := hf t2 t
    rw [abs_of_neg (sub_neg.mpr l1')] at k1
    rw [abs_of_pos (sub_pos.mpr l2')] at k2
    obtain ⟨D, hD⟩ : ∃ D : K, D = (t2 : K) - t1 := ⟨_, rfl⟩
    have hD0 : 0 < D := by rw [hD]; linarith
    obtain ⟨s, hs⟩ : ∃ s : K, s = ((t : K) - t1) / D := ⟨_, rfl⟩
    have e1 : (t : K) - t1 = s * D := by rw [hs]; field_simp
    have e2 : (t2 : K) - t = (1 - s) * D := by rw [sub_mul, ← e1, hD]; ring
    have s0 : 0 ≤ s := by rw [hs]; exact div_nonneg (by linarith) hD0.le
    have s1 : s ≤ 1 := by rw [hs, div_le_one hD0, hD]; linarith
    have hv : v = (1 - s) * v1 + s * v2 := by
      rw [← hD, e1] at hline
      have := mul_right_cancel₀ hD0.ne' (hline.trans (mul_assoc _ _ _).symm)
      linarith
    have a1 : |v1 - f t| ≤ err + L * (s * D) := by
      have := abs_sub_le v1 (f t1) (f t)
      have e : -((t1 : K) - t) = s * D := by rw [← e1]; ring
      rw [e] at k1
      linarith
    have a2 : |v2 - f t| ≤ err + L * ((1 - s) * D) := by
      have := abs_sub_le v2 (f t2) (f t)
      rw [e2] at k2
      linarith
    have e : v - f t = (1 - s) * (v1 - f t) + s * (v2 - f t) := by rw [hv]; ring
    have q : L * D * (2 * (s * (1 - s))) ≤ L * gap * (1 / 2) := by
      refine mul_le_mul (mul_le_mul_of_nonneg_left (by rw [hD]; exact hgap) hL) ?_ ?_ (mul_nonneg hL hg)
      · nlinarith [sq_nonneg (2 * s - 1)]
      · exact mul_nonneg (by norm_num) (mul_nonneg s0 (by linarith))
    calc |v - f t| ≤ |(1 - s) * (v1 - f t)| + |s * (v2 - f t)| := by rw [e]; exact abs_add_le _ _
      _ = (1 - s) * |v1 - f t| + s * |v2 - f t| := by rw [abs_mul, abs_mul, abs_of_nonneg (sub_nonneg.mpr s1), abs_of_nonneg s0]
      _ ≤ (1 - s) * (err + L * (s * D)) + s * (err + L * ((1 - s) * D)) :=
        add_le_add (mul_le_mul_of_nonneg_left a1 (sub_nonneg.mpr s1)) (mul_le_mul_of_nonneg_left a2 s0)
      _ = err + L * D * (2 * (s * (1 - s))) := by ring
      _ ≤ err + L * gap / 2 := by linarith

/-- **C219**: if the records of a quantity that changes by at most `L` per nanosecond have errors of at most `err` and are at most `gap` apart, then the values
interpolated at any times are off by at most `err + L gap / 2`. -/
theorem C219_interpolated {f : ℤ → K} {L err gap : K} (hL : 0 ≤ L) (hg : 0 ≤ gap) (hf : Gradual L f) {s : Series K} {ts : List (ℤ × K)} (hs : Gives s ts)
    (hm : Measured f err gap ts) {req : List ℤ} (hr : req.Pairwise (· ≤ ·)) {out : List (Fl K)} (h : interpolateAt s req = .ok out) :
    List.Forall₂ (fun t v => ∃ x, v = fin x ∧ |x - f t| ≤ err + L * gap / 2) req out := by
  obtain ⟨rfl, hi⟩ := hs
  obtain ⟨h0, h1⟩ := interp_inside hr h
  obtain ⟨vs, hv, hF⟩ := C52_linear hi h0 hr h1
  rw [hv] at h
  cases h
  rw [List.forall₂_map_right_iff]
  exact hF.imp fun t v hl => ⟨v, rfl, linear_near hL hg hf hm hl⟩

/-- At another time. -/
theorem later_near {f : ℤ → K} {L c v : K} (hf : Gradual L f) {t u : ℤ} (h : |v - f t| ≤ c) : |v - f u| ≤ c + L * |(u : K) - t| := by
  have h1 := abs_sub_le v (f t) (f u)
  have h2 := hf t u
  rw [abs_sub_comm (t : K)] at h2
  linarith

/-- **C219** for the records of a pass: river flow, sea level and wave height in a record that the pass writes are off, from what they truly are at the time of the
record, by at most the error of interpolation and what can change in the time by which they are late (C128): for flow and sea level from the last hydraulic step,
for waves from the begin of the pass. -/
theorem C219_record {e : Env K} {s s' : CoreSt K} {p : PassOut K} (hd : 0 ≤ s.dt) (hh : 0 < e.tp.HydDt) (h : pass e s = .ok (p, s'))
    {f g w : ℤ → K} {L err gap L' err' gap' L2 err2 gap2 : K} (hL : 0 ≤ L) (hg : 0 ≤ gap) (hf : Gradual L f) (hL' : 0 ≤ L') (hg' : 0 ≤ gap') (hf' : Gradual L' g)
    (hL2 : 0 ≤ L2) (hg2 : 0 ≤ gap2) (hf2 : Gradual L2 w) {fl se hs : List (ℤ × K)} (h1 : Gives e.flow fl) (m1 : Measured f err gap fl) (h2 : Gives e.sea se)
    (m2 : Measured g err' gap' se) (h3 : Gives (waveCol e.waves (·.Hsig_Offshore)) hs) (m3 : Measured w err2 gap2 hs) {r : Snapshot K} (hr : s'.outs = s.outs ++ [r]) :
    ∃ q z H : K, r.RivFlow = fin q ∧ r.SeaLevel = fin z ∧ r.Hs_offshore = fin H ∧
      |q - f r.time| ≤ err + L * gap / 2 + L * |(r.time : K) - ((s.time + (s.dt - s.dt % e.tp.HydDt) : ℤ) : K)| ∧
      |z - g r.time| ≤ err' + L' * gap' / 2 + L' * |(r.time : K) - ((s.time + (s.dt - s.dt % e.tp.HydDt) : ℤ) : K)| ∧
      |H - w r.time| ≤ err2 + L2 * gap2 / 2 + L2 * |(r.time : K) - (s.time : K)| := by
  obtain ⟨_, a, b, c, _⟩ := (C128_partial hd hh h).1 r hr
  obtain ⟨q, e1, k1⟩ := a _ h1
  obtain ⟨z, e2, k2⟩ := b _ h2
  obtain ⟨H, e3, k3⟩ := c _ h3
  exact ⟨q, z, H, e1, e2, e3, later_near hf (linear_near hL hg hf m1 k1), later_near hf' (linear_near hL' hg' hf' m2 k2),
    later_near hf2 (linear_near hL2 hg2 hf2 m3 k3)⟩

/-- A zigzag, measured at its lows only: halfway the values are off by as much as they may be. -/
def deSig (t : ℤ) : ℚ := if t % 4 = 0 then 0 else if t % 4 = 2 then 2 else 1

theorem de_gradual : Gradual 1 deSig := by
  have step : ∀ t : ℤ, |deSig (t + 1) - deSig t| ≤ 1 := by
    intro t
    unfold deSig
    rcases (show t % 4 = 0 ∨ t % 4 = 1 ∨ t % 4 = 2 ∨ t % 4 = 3 by omega) with h | h | h | h
    · rw [if_neg (show ¬ (t + 1) % 4 = 0 by omega), if_neg (show ¬ (t + 1) % 4 = 2 by omega), if_pos h]; norm_num
    · rw [if_neg (show ¬ (t + 1) % 4 = 0 by omega), if_pos (show (t + 1) % 4 = 2 by omega), if_neg (show ¬ t % 4 = 0 by omega), if_neg (show ¬ t % 4 = 2 by omega)]; norm_num
    · rw [if_neg (show ¬ (t + 1) % 4 = 0 by omega), if_neg (show ¬ (t + 1) % 4 = 2 by omega), if_neg (show ¬ t % 4 = 0 by omega), if_pos h]; norm_num
    · rw [if_pos (show (t + 1) % 4 = 0 by omega), if_neg (show ¬ t % 4 = 0 by omega), if_neg (show ¬ t % 4 = 2 by omega)]; norm_num
  have up : ∀ (n : ℕ) (t : ℤ), |deSig (t + n) - deSig t| ≤ n := by
    intro n
    induction n with
    | zero => intro t; simp
    | succ n ih =>
      intro t
      have h1 := ih t
      have h2 := step (t + n)
      have h3 := abs_sub_le (deSig (t + n + 1)) (deSig (t + n)) (deSig t)
      rw [show t + ((n + 1 : ℕ) : ℤ) = t + n + 1 by push_cast; ring]
      push_cast
      linarith
  intro t u
  rw [one_mul]
  rcases le_total t u with h | h
  · obtain ⟨n, rfl⟩ := Int.le.dest h
    rw [abs_sub_comm]
    refine (up n t).trans ?_
    push_cast
    rw [abs_sub_comm, add_sub_cancel_left]
    exact le_abs_self _
  · obtain ⟨n, rfl⟩ := Int.le.dest h
    refine (up n u).trans ?_
    push_cast
    rw [add_sub_cancel_left]
    exact le_abs_self _

example : Gives (finSeries [((0 : ℤ), (0 : ℚ)), (4, 0), (8, 0)]) [(0, 0), (4, 0), (8, 0)] ∧ Measured deSig 0 4 [(0, 0), (4, 0), (8, 0)] ∧
    interpolateAt (finSeries [((0 : ℤ), (0 : ℚ)), (4, 0), (8, 0)]) [1, 2, 6] = .ok [fin 0, fin 0, fin 0] ∧ |0 - deSig 2| = 0 + 1 * 4 / 2 := by
  refine ⟨⟨rfl, by simp [Increasing]⟩, ⟨?_, ?_⟩, by decide +kernel, by unfold deSig; norm_num⟩
  · intro a ha
    simp only [List.mem_cons, List.not_mem_nil, or_false] at ha
    rcases ha with rfl | rfl | rfl <;> simp [deSig]
  · intro i a b ha hb
    match i, ha, hb with
    | 0, ha, hb => cases ha; cases hb; norm_num
    | 1, ha, hb => cases ha; cases hb; norm_num
    | (n + 2), ha, hb => simp at hb

/-- A quantity that rises steadily. -/
theorem steady_gradual (a b : ℚ) (hb : 0 ≤ b) : Gradual b fun t : ℤ => a + b * t := by
  intro t u
  rw [show a + b * (t : ℚ) - (a + b * u) = b * ((t : ℚ) - u) by ring, abs_mul, abs_of_nonneg hb]

/-- The rising river and waves of C128, with flows from a rise of 1 per second, sea level 0 and waves that rise by 1/100 per second: the record at 120 s. -/
example : ∃ (s0 s1 : CoreSt ℚ) (p : PassOut ℚ) (r : Snapshot ℚ), initial coStorm coLoad = .ok s0 ∧ 0 ≤ s0.dt ∧ 0 < coStorm.tp.HydDt ∧ pass coStorm s0 = .ok (p, s1) ∧
    s1.outs = s0.outs ++ [r] ∧ r.time = 120 * sec ∧
    (∃ fl, Gives coStorm.flow fl ∧ Measured (fun t : ℤ => 50 + 1 / 10 ^ 9 * (t : ℚ)) 0 (2000 * 10 ^ 9) fl) ∧
    (∃ hs, Gives (waveCol coStorm.waves (·.Hsig_Offshore)) hs ∧ Measured (fun t : ℤ => 0 + 1 / 10 ^ 11 * (t : ℚ)) 0 (1000 * 10 ^ 9) hs) := by
  obtain ⟨s0, s1, p, r, tf, th, h0, h1, h2, _, _, h5, _⟩ := C128_refuted
  have hdt : okAnd (initial coStorm coLoad) (fun s0 => decide (0 ≤ s0.dt)) = true := by decide +kernel
  obtain ⟨s0', h0', hdt⟩ := okAnd_iff.mp hdt
  rw [h0] at h0'
  cases h0'
  refine ⟨s0, s1, p, r, h0, of_decide_eq_true hdt, by decide +kernel, h1, h2, h5, ⟨[(0, 50), (2000 * sec, 2050)], ⟨rfl, by simp [Increasing, sec]⟩, ?_, ?_⟩,
    ⟨[(0, 0), (1000 * sec, 10)], ⟨rfl, by simp [Increasing, sec]⟩, ?_, ?_⟩⟩
  · intro a ha
    simp only [List.mem_cons, List.not_mem_nil, or_false] at ha
    rcases ha with rfl | rfl <;> norm_num [sec]
  · intro i a b ha hb
    match i, ha, hb with
    | 0, ha, hb => cases ha; cases hb; norm_num [sec]
    | (n + 1), ha, hb => simp at hb
  · intro a ha
    simp only [List.mem_cons, List.not_mem_nil, or_false] at ha
    rcases ha with rfl | rfl <;> norm_num [sec]
  · intro i a b ha hb
    match i, ha, hb with
    | 0, ha, hb => cases ha; cases hb; norm_num [sec]
    | (n + 1), ha, hb => simp at hb

end Verif.Props
