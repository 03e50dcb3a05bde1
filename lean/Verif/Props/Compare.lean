import Verif.Props.Straight

set_option autoImplicit false
set_option linter.unusedSectionVars false

/-! # C214: two coasts under the same waves do not drift apart -/

namespace Verif.Props
open Verif Verif.Model Verif.Spec Fl Real

/-- For waves from the front the difference of the transport along any two segments is a multiple of the difference of their slopes. -/
theorem seg_between (w : Waves) (hv : w.Valid) (dx : ℝ) (hdx : 0 < dx) (ya yb ya' yb' : ℝ) (f : Frontal dx w.dir ya yb) (f' : Frontal dx w.dir ya' yb') :
    ∃ θ, 0 < θ ∧ θ ≤ w.drift / dx ∧ segRate w dx ya yb - segRate w dx ya' yb' = θ * ((ya - yb) - (ya' - yb')) := by
  have e1 : waveAngle dx w.dir (ya - yb) 0 = waveAngle dx w.dir ya yb := by unfold waveAngle; rw [sub_zero]
  have e2 : waveAngle dx w.dir 0 (-(ya' - yb')) = waveAngle dx w.dir ya' yb' := by unfold waveAngle; rw [zero_sub, neg_neg]
  obtain ⟨θ, t1, t2, t3⟩ := seg_law w hv dx hdx (ya - yb) 0 (-(ya' - yb')) (by unfold Frontal; rw [e1]; exact f) (by unfold Frontal; rw [e2]; exact f')
  refine ⟨θ, t1, t2, ?_⟩
  unfold segRate at t3 ⊢
  rw [e1, e2] at t3
  rw [t3]
  ring

/-- C214: of two closed lagoons with the same waves, spacing, beach height and overtopping at a transect on a wide barrier, both reached by waves from the front, in steps of the same length that is short enough for
waves and spacing, how far the one shoreline lies seaward of the other after the step is no less than the least and no more than the most that it did at the transect and its two neighbours before. -/
theorem C214_apart {pp : PhysPars ℝ} {a a' : MorIn ℝ} {w : Waves} {ys ys' : List ℝ} {hs hs' cs cs' : ℕ → ℝ} (W : WaveStep pp a w ys hs cs) (W' : WaveStep pp a' w ys' hs' cs') {j1 j2 j1' j2' : ℕ → Bool}
    {o o' : MorOut ℝ} (h : updateMorphology pp j1 j2 a = .ok o) (h' : updateMorphology pp j1' j2' a' = .ok o') {i : ℕ} {r r' : Transect ℝ} (hr : a.rows[i+1]? = some r) (hr' : a'.rows[i+1]? = some r')
    {yl y yr yl' y' yr' : ℝ} (h1 : ys[i]? = some yl) (h2 : ys[i+1]? = some y) (h3 : ys[i+2]? = some yr) (h1' : ys'[i]? = some yl') (h2' : ys'[i+1]? = some y') (h3' : ys'[i+2]? = some yr')
    (hw : WideBarrier a.MaxMorChange r y) (hw' : WideBarrier a'.MaxMorChange r' y') (hdx : a'.Dx = a.Dx) (hh : hs' (i+1) = hs (i+1)) (hc : cs' (i+1) = cs (i+1)) (ht : secs o'.MorDt = secs o.MorDt)
    (f1 : Frontal a.Dx w.dir yl y) (f2 : Frontal a.Dx w.dir y yr) (f1' : Frontal a.Dx w.dir yl' y') (f2' : Frontal a.Dx w.dir y' yr')
    (hx : |segRate w a.Dx yl y - segRate w a.Dx y yr - a.Dx * cs (i+1)| * (secs o.MorDt : ℝ) ≤ a.MaxMorChange * hs (i+1) * a.Dx)
    (hx' : |segRate w a.Dx yl' y' - segRate w a.Dx y' yr' - a.Dx * cs (i+1)| * (secs o.MorDt : ℝ) ≤ a'.MaxMorChange * hs (i+1) * a.Dx)
    (hshort : 2 * w.drift * (secs o.MorDt : ℝ) ≤ hs (i+1) * a.Dx ^ 2) :
    ∃ s n s' n', o.rows[i+1]? = some s ∧ s.y0 = fin n ∧ o'.rows[i+1]? = some s' ∧ s'.y0 = fin n' ∧
      min (yl' - yl) (min (y' - y) (yr' - yr)) ≤ n' - n ∧ n' - n ≤ max (yl' - yl) (max (y' - y) (yr' - yr)) := by
  have hl := W.len
  have hl' := W'.len
  have hi := (List.getElem?_eq_some_iff.mp h3).1
  have hi' := (List.getElem?_eq_some_iff.mp h3').1
  have g1 : ys.getD i 0 = yl := by rw [List.getD_eq_getElem?_getD, h1]; rfl
  have g2 : ys.getD (i+1) 0 = y := by rw [List.getD_eq_getElem?_getD, h2]; rfl
  have g3 : ys.getD (i+1+1) 0 = yr := by rw [List.getD_eq_getElem?_getD, h3]; rfl
  have g1' : ys'.getD i 0 = yl' := by rw [List.getD_eq_getElem?_getD, h1']; rfl
  have g2' : ys'.getD (i+1) 0 = y' := by rw [List.getD_eq_getElem?_getD, h2']; rfl
  have g3' : ys'.getD (i+1+1) 0 = yr' := by rw [List.getD_eq_getElem?_getD, h3']; rfl
  have hd := W.dx
  have hp := W.pos (i+1)
  have hse : (0:ℝ) ≤ (secs o.MorDt : ℝ) := secs_nonneg o.MorDt
  obtain ⟨s, n, e1, e2, e3⟩ := C146_partial_closed pp j1 j2 a o h hs _ cs (W.beach (by intro h0; rw [h0] at hr; simp at hr)) W.limit W.regular W.closed (i+1) (by omega) (by omega)
    r hr y hw (by
      simp only [Nat.add_sub_cancel, g1, g2, g3]
      exact hx)
  obtain ⟨s', n', e1', e2', e3'⟩ := C146_partial_closed pp j1' j2' a' o' h' hs' _ cs' (W'.beach (by intro h0; rw [h0] at hr'; simp at hr')) W'.limit W'.regular W'.closed (i+1) (by omega) (by omega)
    r' hr' y' hw' (by
      simp only [Nat.add_sub_cancel, g1', g2', g3', hdx, hh, hc, ht]
      exact hx')
  simp only [Nat.add_sub_cancel, g1, g2, g3] at e3
  simp only [Nat.add_sub_cancel, g1', g2', g3', hdx, hh, hc, ht] at e3'
  obtain ⟨θ, t1, t2, t3⟩ := seg_between w W.valid a.Dx hd yl' y' yl y f1' f1
  obtain ⟨φ, p1, p2, p3⟩ := seg_between w W.valid a.Dx hd y' yr' y yr f2' f2
  refine ⟨s, n, s', n', e1, e2, e1', e2', ?_⟩
  set k := θ * (secs o.MorDt : ℝ) / (hs (i+1) * a.Dx) with hk
  set m := φ * (secs o.MorDt : ℝ) / (hs (i+1) * a.Dx) with hm
  have hpd : 0 < hs (i+1) * a.Dx := mul_pos hp hd
  have k0 : 0 ≤ k := by positivity
  have m0 : 0 ≤ m := by positivity
  have kk : k * (hs (i+1) * a.Dx) = θ * (secs o.MorDt : ℝ) := by rw [hk]; field_simp
  have mm : m * (hs (i+1) * a.Dx) = φ * (secs o.MorDt : ℝ) := by rw [hm]; field_simp
  have km : k + m ≤ 1 := by
    refine le_of_mul_le_mul_right ?_ hpd
    rw [add_mul, kk, mm, one_mul]
    rw [le_div_iff₀ hd] at t2 p2
    have u1 := mul_le_mul_of_nonneg_right t2 hse
    have u2 := mul_le_mul_of_nonneg_right p2 hse
    refine le_of_mul_le_mul_right ?_ hd
    nlinarith
  have ee : n' - n = k * (yl' - yl) + (1 - (k + m)) * (y' - y) + m * (yr' - yr) := by
    refine mul_right_cancel₀ hpd.ne' ?_
    have x1 := congrArg (· * (secs o.MorDt : ℝ)) t3
    have x2 := congrArg (· * (secs o.MorDt : ℝ)) p3
    calc (n' - n) * (hs (i+1) * a.Dx) = (y' - y) * (hs (i+1) * a.Dx) + θ * (secs o.MorDt : ℝ) * (yl' - y' - (yl - y)) - φ * (secs o.MorDt : ℝ) * (y' - yr' - (y - yr)) := by linarith
      _ = (k * (yl' - yl) + (1 - (k + m)) * (y' - y) + m * (yr' - yr)) * (hs (i+1) * a.Dx) := by rw [← kk, ← mm]; ring
  have b1 : min (yl' - yl) (min (y' - y) (yr' - yr)) ≤ yl' - yl := min_le_left _ _
  have b2 : min (yl' - yl) (min (y' - y) (yr' - yr)) ≤ y' - y := (min_le_right _ _).trans (min_le_left _ _)
  have b3 : min (yl' - yl) (min (y' - y) (yr' - yr)) ≤ yr' - yr := (min_le_right _ _).trans (min_le_right _ _)
  have c1 : yl' - yl ≤ max (yl' - yl) (max (y' - y) (yr' - yr)) := le_max_left _ _
  have c2 : y' - y ≤ max (yl' - yl) (max (y' - y) (yr' - yr)) := (le_max_left _ _).trans (le_max_right _ _)
  have c3 : yr' - yr ≤ max (yl' - yl) (max (y' - y) (yr' - yr)) := (le_max_right _ _).trans (le_max_right _ _)
  generalize min (yl' - yl) (min (y' - y) (yr' - yr)) = lo at b1 b2 b3 ⊢
  generalize max (yl' - yl) (max (y' - y) (yr' - yr)) = hi at c1 c2 c3 ⊢
  rw [ee]
  constructor
  · have := mul_le_mul_of_nonneg_left b1 k0
    have := mul_le_mul_of_nonneg_left b3 m0
    have := mul_le_mul_of_nonneg_left b2 (show 0 ≤ 1 - (k + m) by linarith)
    linarith
  · have := mul_le_mul_of_nonneg_left c1 k0
    have := mul_le_mul_of_nonneg_left c3 m0
    have := mul_le_mul_of_nonneg_left c2 (show 0 ≤ 1 - (k + m) by linarith)
    linarith

/-- Concrete case: the headland of C169 and the slanting coast of C208, 30 m seaward of it at the headland and its left neighbour and 50 m at the right one; after the step the one is between 30 and 50 m
seaward of the other. -/
example : ∃ o o' s n s' n', updateMorphology (zigRP (1/10)) cleanMem cleanMem (zigR (1/10)) = .ok o ∧ updateMorphology (zigRP (1/10)) cleanMem cleanMem (obR (1/10)) = .ok o' ∧
    o.rows[4]? = some s ∧ s.y0 = fin n ∧ o'.rows[4]? = some s' ∧ s'.y0 = fin n' ∧ 30 ≤ n' - n ∧ n' - n ≤ 50 := by
  obtain ⟨o, _, h1, _, s1, _⟩ := zig_new (1/10) (110 - 24/140) (by decide +kernel)
  obtain ⟨q, hq, t⟩ := okAnd_iff.mp (show okAnd (updateMorphology (zigPP (1/10)) cleanMem cleanMem (obIn (1/10))) (fun o => decide (secs o.MorDt = 240)) = true by decide +kernel)
  have s2 : secs (ocv qr q).MorDt = 240 := of_decide_eq_true t
  have h2 : updateMorphology (zigRP (1/10)) cleanMem cleanMem (obR (1/10)) = .ok (ocv qr q) := by
    unfold zigRP obR
    rw [update_cv, hq]; rfl
  have W : WaveStep (zigRP (1/10)) (zigR (1/10)) (zigWaves (1/10)) zigYs (fun _ => 14) (fun _ => 0) := by simpa using zig_step (1/10) (by norm_num) (by decide +kernel)
  have W' : WaveStep (zigRP (1/10)) (obR (1/10)) (zigWaves (1/10)) obYs (fun _ => 14) (fun _ => 0) := by simpa using ob_step (1/10) (by norm_num) (by decide +kernel)
  obtain ⟨r, g1, g2⟩ := zig_row (1/10)
  have e : (obIn (1/10)).rows[4]? = some { brRow 0 with x := 0, y0 := fin (140 + 0) } := by
    show (obIn 0).rows[4]? = _
    decide +kernel
  have g3 : (obR (1/10)).rows[4]? = some (tcv qr { brRow 0 with x := 0, y0 := fin (140 + 0) }) := by
    show ((obIn (1/10)).rows.map (tcv qr))[4]? = _
    rw [List.getElem?_map, e]; rfl
  have g4 : WideBarrier (obR (1/10)).MaxMorChange (tcv qr { brRow 0 with x := 0, y0 := fin (140 + 0) }) 140 := by
    refine ⟨?_, rfl, rfl, 20, 0, ?_, ?_, ?_, ?_⟩ <;> simp [tcv, brRow, cv_fin, obR, icv, obIn, zigIn] <;> norm_num
  have hdx : (zigR (1/10)).Dx = 10 := by
    have e : (zigIn (1/10)).Dx = 10 := rfl
    simp only [zigR, icv, e, qr_eq]; norm_num
  have hdx' : (obR (1/10)).Dx = 10 := by
    have e : (obIn (1/10)).Dx = 10 := rfl
    simp only [obR, icv, e, qr_eq]; norm_num
  have hm : (zigR (1/10)).MaxMorChange = 30 := by simp [zigR, icv, zigIn]
  have hm' : (obR (1/10)).MaxMorChange = 30 := by simp [obR, icv, obIn, zigIn]
  have fr : ∀ y : ℝ, Frontal 10 (zigWaves (1/10)).dir y (y + 10) := by
    intro y
    have := (zig_front (1/10)).1
    unfold Frontal waveAngle at this ⊢
    rw [show y - (y + 10) = 100 - 110 by ring]
    exact this
  have sg : segRate (zigWaves (1/10)) 10 130 140 = segRate (zigWaves (1/10)) 10 140 150 := by
    unfold segRate waveAngle
    norm_num
  obtain ⟨s, n, s', n', k1, k2, k3, k4, k5, k6⟩ := C214_apart W W' h1 h2 (i := 3) g1 g3 (yl := 100) (y := 110) (yr := 100) (yl' := 130) (y' := 140) (yr' := 150) rfl rfl rfl rfl rfl rfl g2 g4
    (hdx'.trans hdx.symm) rfl rfl (s2.trans s1.symm) (by rw [hdx]; exact (zig_front _).1) (by rw [hdx]; exact (zig_front _).2)
    (by rw [hdx]; have := fr 130; norm_num at this ⊢; exact this) (by rw [hdx]; have := fr 140; norm_num at this ⊢; exact this)
    (by rw [hdx, hm, zig_up, zig_down, s1]; norm_num [abs_of_nonpos]) (by rw [hdx, hm', sg, s1]; norm_num) (by rw [hdx, zig_drift, s1]; norm_num)
  refine ⟨o, _, s, n, s', n', h1, h2, k1, k2, k3, k4, ?_, ?_⟩
  · refine le_trans ?_ k5
    norm_num
  · refine le_trans k6 ?_
    norm_num

end Verif.Props
