import Verif.Props.Smooth

set_option autoImplicit false
set_option linter.unusedSectionVars false

/-! # C211: stronger waves reshape the coast faster in a fixed proportion -/

namespace Verif.Props
open Verif Verif.Model Verif.Spec Fl Real

theorem times_seg (w : Waves) (hv : w.Valid) (c : ℝ) (hc : 0 < c) (dx ya yb : ℝ) : segRate (Waves.times w c) dx ya yb = c ^ (6/5 : ℝ) * segRate w dx ya yb := by
  unfold segRate Waves.drift
  rw [times_speed w hv c hc, show (6/5 : ℝ) = 1 + 1/5 by norm_num, rpow_add hc, rpow_one]
  simp only [Waves.times]
  ring

/-- C211: of two completed steps of the same closed lagoon, the second under waves with `c` times the power of the first and otherwise the same, the second moves the shoreline of a transect on a wide barrier, which no
waves get over, the 6/5 power of `c` times as far per second of the step, in the same direction, as long as neither movement is beyond MaxMorChange. -/
theorem C211_step {pp : PhysPars ℝ} {a : MorIn ℝ} {LST' : List (Fl ℝ)} {w : Waves} {c : ℝ} (hc : 0 < c) {ys : List ℝ} {hs cs : ℕ → ℝ} (W : WaveStep pp a w ys hs cs)
    (W' : WaveStep pp { a with LST := LST' } (Waves.times w c) ys hs cs) {j1 j2 j1' j2' : ℕ → Bool} {o o' : MorOut ℝ}
    (h : updateMorphology pp j1 j2 a = .ok o) (h' : updateMorphology pp j1' j2' { a with LST := LST' } = .ok o') {i : ℕ} {r : Transect ℝ} (hr : a.rows[i+1]? = some r) {yl y yr : ℝ}
    (h1 : ys[i]? = some yl) (h2 : ys[i+1]? = some y) (h3 : ys[i+2]? = some yr) (hw : WideBarrier a.MaxMorChange r y) (hover : cs (i+1) = 0)
    (hx : |segRate w a.Dx yl y - segRate w a.Dx y yr| * (secs o.MorDt : ℝ) ≤ a.MaxMorChange * hs (i+1) * a.Dx)
    (hx' : c ^ (6/5 : ℝ) * |segRate w a.Dx yl y - segRate w a.Dx y yr| * (secs o'.MorDt : ℝ) ≤ a.MaxMorChange * hs (i+1) * a.Dx) :
    ∃ r1 y1 r2 y2, o.rows[i+1]? = some r1 ∧ r1.y0 = fin y1 ∧ o'.rows[i+1]? = some r2 ∧ r2.y0 = fin y2 ∧
      (y2 - y) * (secs o.MorDt : ℝ) = c ^ (6/5 : ℝ) * ((y1 - y) * (secs o'.MorDt : ℝ)) := by
  have hl := W.len
  have hi := (List.getElem?_eq_some_iff.mp h3).1
  have g1 : ys.getD i 0 = yl := by rw [List.getD_eq_getElem?_getD, h1]; rfl
  have g2 : ys.getD (i+1) 0 = y := by rw [List.getD_eq_getElem?_getD, h2]; rfl
  have g3 : ys.getD (i+1+1) 0 = yr := by rw [List.getD_eq_getElem?_getD, h3]; rfl
  have hne : a.rows ≠ [] := by intro h0; rw [h0] at hr; simp at hr
  have hd := W.dx
  have hp := W.pos (i+1)
  have hk : (0:ℝ) < c ^ (6/5 : ℝ) := rpow_pos_of_pos hc _
  obtain ⟨r1, y1, e1, e2, e3⟩ := C146_partial_closed pp j1 j2 a o h hs _ cs (W.beach hne) W.limit W.regular W.closed (i+1) (by omega) (by omega)
    r hr y hw (by
      simp only [Nat.add_sub_cancel, g1, g2, g3, hover, mul_zero, sub_zero]
      exact hx)
  obtain ⟨r2, y2, f1, f2, f3⟩ := C146_partial_closed pp j1' j2' _ o' h' hs _ cs (W'.beach hne) W'.limit W'.regular W'.closed (i+1) (by omega)
    (by show i + 1 + 1 < a.rows.length; omega) r hr y hw (by
      simp only [Nat.add_sub_cancel, g1, g2, g3, hover, mul_zero, sub_zero, times_seg w W.valid c hc]
      rw [← mul_sub, abs_mul, abs_of_pos hk]
      exact hx')
  simp only [Nat.add_sub_cancel, g1, g2, g3, hover, mul_zero, sub_zero] at e3
  simp only [Nat.add_sub_cancel, g1, g2, g3, hover, mul_zero, sub_zero, times_seg w W.valid c hc] at f3
  refine ⟨r1, y1, r2, y2, e1, e2, f1, f2, ?_⟩
  have hpd : hs (i+1) * a.Dx ≠ 0 := (mul_pos hp hd).ne'
  refine mul_right_cancel₀ hpd ?_
  have k1 := congrArg (· * (c ^ (6/5 : ℝ) * (secs o'.MorDt : ℝ))) e3
  have k2 := congrArg (· * (secs o.MorDt : ℝ)) f3
  linarith

/-! ## The sample of C169 under waves of a 32nd of the power -/

theorem st_pow : ((1/32 : ℝ)) ^ (1/5 : ℝ) = 1/2 ∧ ((1/32 : ℝ)) ^ (6/5 : ℝ) = 1/64 := by
  have h : ((1/32 : ℝ)) = (1/2) ^ (5 : ℝ) := by norm_num
  constructor
  · rw [h, ← rpow_mul (by norm_num)]; norm_num
  · rw [h, ← rpow_mul (by norm_num), show (5 : ℝ) * (6/5) = ((6 : ℕ) : ℝ) by norm_num, rpow_natCast]; norm_num

theorem st_refracts (a : ℝ) : (Waves.times (zigWaves 1) (1/32)).Refracts a := by
  unfold Waves.Refracts
  rw [times_speed _ (zig_valid 1 one_pos) _ (by norm_num), st_pow.1]
  have h : |sin a| * shallowSpeed (zigWaves 1).g (zigWaves 1).breakDepth ≤ waveSpeed (zigWaves 1).g (zigWaves 1).period (zigWaves 1).length (zigWaves 1).depth := demo_refracts 0 a
  have h1 : shallowSpeed (zigWaves 1).g (zigWaves 1).breakDepth = 1 := (demo_speeds 0).1
  rw [h1] at h ⊢
  show _ ≤ waveSpeed (zigWaves 1).g (zigWaves 1).period (zigWaves 1).length (zigWaves 1).depth
  have := abs_nonneg (sin a)
  linarith

theorem st_transport (P : PhysPars ℝ) (hP : Describes (zigWaves 1) P) :
    longShoreTransport (zigYs.map fin) (fin 10) (fin (Waves.times (zigWaves 1) (1/32)).power) (fin (zigWaves 1).period) (fin (zigWaves 1).length) (fin (zigWaves 1).dir) P =
      [fin 0, fin 0, fin 0, fin (-(1/64/2)), fin (1/64/2), fin 0, fin 0, fin 0] := by
  have flat : segRate (zigWaves 1) 10 100 100 = 0 := by
    unfold segRate waveAngle
    rw [sub_self, zero_div, arctan_zero]
    simp [zigWaves, demoWaves]
  have key := fun (i : ℕ) (ya yb : ℝ) ha hb => lst_seg (Waves.times (zigWaves 1) (1/32)) (times_valid _ (zig_valid 1 one_pos) _ (by norm_num)) P hP zigYs 10 (by norm_num) i ya yb ha hb
    (st_refracts _)
  have hl : (longShoreTransport (zigYs.map fin) (fin 10) (fin (Waves.times (zigWaves 1) (1/32)).power) (fin (zigWaves 1).period) (fin (zigWaves 1).length) (fin (zigWaves 1).dir) P).length = 8 := by
    rw [longShoreTransport_eq]; rfl
  have k0 := key 0 100 100 rfl rfl
  have k1 := key 1 100 100 rfl rfl
  have k2 := key 2 100 100 rfl rfl
  have k3 := key 3 100 110 rfl rfl
  have k4 := key 4 110 100 rfl rfl
  have k5 := key 5 100 100 rfl rfl
  have k6 := key 6 100 100 rfl rfl
  have k7 := key 7 100 100 rfl rfl
  rw [times_seg _ (zig_valid 1 one_pos) _ (by norm_num), st_pow.2] at k0 k1 k2 k3 k4 k5 k6 k7
  rw [flat, mul_zero] at k0 k1 k2 k5 k6 k7
  rw [zig_up, show (1/64 : ℝ) * -(1/2) = -(1/64/2) by norm_num] at k3
  rw [zig_down, show (1/64 : ℝ) * (1/2) = 1/64/2 by norm_num] at k4
  unfold lst at k0 k1 k2 k3 k4 k5 k6 k7
  change (longShoreTransport (zigYs.map fin) (fin 10) (fin (Waves.times (zigWaves 1) (1/32)).power) (fin (zigWaves 1).period) (fin (zigWaves 1).length) (fin (zigWaves 1).dir) P)[_]? = _ at k0 k1 k2 k3 k4 k5 k6 k7
  generalize longShoreTransport (zigYs.map fin) (fin 10) (fin (Waves.times (zigWaves 1) (1/32)).power) (fin (zigWaves 1).period) (fin (zigWaves 1).length) (fin (zigWaves 1).dir) P = L at *
  match L, hl with
  | [a, b, c, d, e, f, g, h], _ =>
    simp only [List.getElem?_cons_zero, List.getElem?_cons_succ, Option.some.injEq] at k0 k1 k2 k3 k4 k5 k6 k7
    subst k0 k1 k2 k3 k4 k5 k6 k7
    rfl

/-- The step under the weaker waves. -/
noncomputable def stR : MorIn ℝ := { zigR 1 with LST := (zigR (1/64)).LST }
def stIn : MorIn ℚ := { zigIn 1 with LST := (zigIn (1/64)).LST }
theorem stR_eq : stR = icv qr stIn := rfl

theorem st_step (W : WaveStep (zigRP 1) (zigR 1) (zigWaves 1) zigYs (fun _ => 14) (fun _ => 0)) :
    WaveStep (zigRP 1) stR (Waves.times (zigWaves 1) (1/32)) zigYs (fun _ => 14) (fun _ => 0) where
  valid := times_valid _ W.valid _ (by norm_num)
  pars := W.pars
  shore := W.shore
  lst := by
    have hdx : stR.Dx = 10 := by
      have e : stIn.Dx = 10 := rfl
      simp [stR_eq, icv, e]
    have e : stR.rows.map (fun r => r.y0) = zigYs.map fin := W.shore
    rw [e, hdx]
    refine Eq.trans ?_ (st_transport _ W.pars).symm
    simp [stR_eq, icv, stIn, zigIn, cv_fin]
  refracts _ _ _ _ _ := st_refracts _
  height := W.height
  pos := W.pos
  cst := W.cst
  over := W.over
  dx := W.dx
  spread := W.spread
  limit := W.limit
  regular := regular_cv qr _ _ (show Regular (zigPP 1) stIn by decide +kernel)
  closed := W.closed

/-- Concrete case: the headland of C169 under waves of a 32nd of the power is worn down at a 64th of the speed. -/
example : ∃ o o' r1 y1 r2 y2, updateMorphology (zigRP 1) cleanMem cleanMem (zigR 1) = .ok o ∧ updateMorphology (zigRP 1) cleanMem cleanMem stR = .ok o' ∧ secs o.MorDt = 240 ∧ secs o'.MorDt = 240 ∧
    o.rows[4]? = some r1 ∧ r1.y0 = fin y1 ∧ o'.rows[4]? = some r2 ∧ r2.y0 = fin y2 ∧ y2 - 110 = 1/64 * (y1 - 110) := by
  obtain ⟨o, ho, t1⟩ := okAnd_iff.mp (show okAnd (updateMorphology (zigPP 1) cleanMem cleanMem (zigIn 1)) (fun o => decide (secs o.MorDt = 240)) = true by decide +kernel)
  obtain ⟨o', ho', t2⟩ := okAnd_iff.mp (show okAnd (updateMorphology (zigPP 1) cleanMem cleanMem stIn) (fun o => decide (secs o.MorDt = 240)) = true by decide +kernel)
  have s1 : secs (ocv qr o).MorDt = 240 := of_decide_eq_true t1
  have s2 : secs (ocv qr o').MorDt = 240 := of_decide_eq_true t2
  have h1 : updateMorphology (zigRP 1) cleanMem cleanMem (zigR 1) = .ok (ocv qr o) := by
    unfold zigRP zigR
    rw [update_cv, ho]; rfl
  have h2 : updateMorphology (zigRP 1) cleanMem cleanMem stR = .ok (ocv qr o') := by
    rw [stR_eq]
    unfold zigRP
    rw [update_cv, ho']; rfl
  have W : WaveStep (zigRP 1) (zigR 1) (zigWaves 1) zigYs (fun _ => 14) (fun _ => 0) := by simpa using zig_step 1 (by norm_num) (by decide +kernel)
  have hdx : (zigR 1).Dx = 10 := by
    have e : (zigIn 1).Dx = 10 := rfl
    simp [zigR, icv, e]
  have hm : (zigR 1).MaxMorChange = 30 := by simp [zigR, icv, zigIn]
  obtain ⟨r, g1, g2⟩ := zig_row 1
  obtain ⟨r1, y1, r2, y2, k1, k2, k3, k4, k5⟩ := C211_step (c := 1/32) (by norm_num) W (st_step W) h1 h2 (i := 3) g1 (yl := 100) (y := 110) (yr := 100) rfl rfl rfl g2 rfl
    (by rw [hdx, hm, zig_up, zig_down, s1]; norm_num [abs_of_nonpos])
    (by rw [hdx, hm, zig_up, zig_down, s2, st_pow.2]; norm_num [abs_of_nonpos])
  rw [s1, s2, st_pow.2] at k5
  refine ⟨_, _, r1, y1, r2, y2, h1, h2, s1, s2, k1, k2, k3, k4, ?_⟩
  push_cast at k5
  linarith

end Verif.Props
