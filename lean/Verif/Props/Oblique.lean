import Verif.Props.Straight

set_option autoImplicit false
set_option linter.unusedSectionVars false

/-! # C209: waves at a high angle build headlands out -/

namespace Verif.Spec
open Real

/-- The waves reach the segment between shoreline positions `ya` and `yb` from one side (`s` = 1) or the other (`s` = -1), at an angle of 45 to 135 degrees to its normal. -/
def HighAngle (s dx dir ya yb : ℝ) : Prop := π / 4 ≤ s * waveAngle dx dir ya yb ∧ s * waveAngle dx dir ya yb ≤ 3 * π / 4

end Verif.Spec

namespace Verif.Props
open Verif Verif.Model Verif.Spec Fl Real

theorem sin_falls {a b : ℝ} (h1 : π / 4 ≤ a) (h2 : a < b) (h3 : b ≤ 3 * π / 4) : sin (2 * b) < sin (2 * a) := by
  have e : ∀ t, sin (2 * t) = cos (2 * t - π / 2) := fun t => by rw [← cos_pi_div_two_sub, ← cos_neg, neg_sub]
  rw [e, e]
  exact strictAntiOn_cos ⟨by linarith, by linarith⟩ ⟨by linarith, by linarith⟩ (by linarith)

/-- Where waves arrive at a high angle, less is taken to a headland than leaves a bay. -/
theorem seg_high (w : Waves) (hv : w.Valid) (dx : ℝ) (hdx : 0 < dx) (s yl y yr : ℝ) (hs : s = 1 ∨ s = -1) (f1 : HighAngle s dx w.dir yl y) (f2 : HighAngle s dx w.dir y yr) :
    ((yl + yr) / 2 < y → segRate w dx y yr < segRate w dx yl y) ∧ (y < (yl + yr) / 2 → segRate w dx yl y < segRate w dx y yr) := by
  have hd : 0 < w.drift := by
    obtain ⟨hg, hbr, hk, hd, hp, ht, hl⟩ := hv
    have : 0 < w.breakDepth := by unfold Waves.breakDepth; positivity
    have h1 : 0 < shallowSpeed w.g w.breakDepth := by unfold shallowSpeed; positivity
    have h2 : 0 < waveSpeed w.g w.period w.length w.depth := by
      unfold waveSpeed
      have := pi_pos
      have : 0 < tanh (2 * π * w.depth / w.length) := tanh_pos' (by positivity)
      positivity
    unfold Waves.drift
    positivity
  have mono : ∀ p q : ℝ, p < q → arctan (p / dx) < arctan (q / dx) := fun p q h => arctan_strictMono (by gcongr)
  have key : ∀ ya yb yc yd, HighAngle s dx w.dir ya yb → HighAngle s dx w.dir yc yd → ya - yb < yc - yd → segRate w dx yc yd < segRate w dx ya yb := by
    intro ya yb yc yd g1 g2 h
    have h' := mono _ _ h
    unfold segRate
    unfold HighAngle at g1 g2
    have hlt : waveAngle dx w.dir yc yd < waveAngle dx w.dir ya yb := by unfold waveAngle; linarith
    have : sin (2 * waveAngle dx w.dir ya yb) < sin (2 * waveAngle dx w.dir yc yd) := by
      rcases hs with rfl | rfl
      · rw [one_mul] at g1 g2
        exact sin_falls g2.1 hlt g1.2
      · have := sin_falls (a := -waveAngle dx w.dir ya yb) (b := -waveAngle dx w.dir yc yd) (by linarith [g1.1]) (by linarith) (by linarith [g2.2])
        rw [mul_neg, mul_neg, sin_neg, sin_neg] at this
        linarith
    have := mul_lt_mul_of_pos_left this hd
    linarith
  exact ⟨fun h => key _ _ _ _ f1 f2 (by linarith), fun h => key _ _ _ _ f2 f1 (by linarith)⟩

/-- C209: in a completed step of a closed lagoon, a headland on a wide barrier that waves reach from one side at more than 45 degrees grows, and a bay deepens, as long as neither moves by more than MaxMorChange,
no waves get over the barrier and the step has a whole second or more (see C144). -/
theorem C209_step {pp : PhysPars ℝ} {a : MorIn ℝ} {w : Waves} {ys : List ℝ} {hs cs : ℕ → ℝ} (W : WaveStep pp a w ys hs cs) {j1 j2 : ℕ → Bool} {o : MorOut ℝ}
    (h : updateMorphology pp j1 j2 a = .ok o) {i : ℕ} {r : Transect ℝ} (hr : a.rows[i+1]? = some r) {yl y yr : ℝ}
    (h1 : ys[i]? = some yl) (h2 : ys[i+1]? = some y) (h3 : ys[i+2]? = some yr) (hw : WideBarrier a.MaxMorChange r y)
    {s : ℝ} (hside : s = 1 ∨ s = -1) (f1 : HighAngle s a.Dx w.dir yl y) (f2 : HighAngle s a.Dx w.dir y yr) (hover : cs (i+1) = 0) (hsec : 0 < secs o.MorDt)
    (hx : |segRate w a.Dx yl y - segRate w a.Dx y yr| * (secs o.MorDt : ℝ) ≤ a.MaxMorChange * hs (i+1) * a.Dx) :
    ∃ r' y', o.rows[i+1]? = some r' ∧ r'.y0 = fin y' ∧ ((yl + yr) / 2 < y → y < y') ∧ (y < (yl + yr) / 2 → y' < y) := by
  have hl := W.len
  have hi := (List.getElem?_eq_some_iff.mp h3).1
  have g1 : ys.getD i 0 = yl := by rw [List.getD_eq_getElem?_getD, h1]; rfl
  have g2 : ys.getD (i+1) 0 = y := by rw [List.getD_eq_getElem?_getD, h2]; rfl
  have g3 : ys.getD (i+1+1) 0 = yr := by rw [List.getD_eq_getElem?_getD, h3]; rfl
  have hd := W.dx
  have hp := W.pos (i+1)
  have hse : (0:ℝ) < (secs o.MorDt : ℝ) := by exact_mod_cast hsec
  obtain ⟨r', y', e1, e2, e3⟩ := C146_partial_closed pp j1 j2 a o h hs _ cs (W.beach (by intro h0; rw [h0] at hr; simp at hr)) W.limit W.regular W.closed (i+1) (by omega) (by omega)
    r hr y hw (by
      simp only [Nat.add_sub_cancel, g1, g2, g3, hover, mul_zero, sub_zero]
      exact hx)
  simp only [Nat.add_sub_cancel, g1, g2, g3, hover, mul_zero, sub_zero] at e3
  obtain ⟨q1, q2⟩ := seg_high w W.valid a.Dx hd s yl y yr hside f1 f2
  have hpd : 0 < hs (i+1) * a.Dx := mul_pos hp hd
  refine ⟨r', y', e1, e2, fun k => ?_, fun k => ?_⟩
  · have := mul_pos (sub_pos.mpr (q1 k)) hse
    by_contra hc
    have : (y' - y) * (hs (i+1) * a.Dx) ≤ 0 := mul_nonpos_of_nonpos_of_nonneg (by linarith) hpd.le
    linarith
  · have := mul_pos (sub_pos.mpr (q2 k)) hse
    by_contra hc
    have : 0 ≤ (y' - y) * (hs (i+1) * a.Dx) := mul_nonneg (by linarith) hpd.le
    linarith

/-! ## The sample: a coast at 63 degrees to the waves of C169, with one steeper segment -/

def hiQ : List ℚ := [100, 120, 140, 160, 190, 210, 230, 250, 270]
def hiIn : MorIn ℚ :=
  { zigIn 1 with
    rows := hiQ.mapIdx (fun i y => { brRow 0 with x := 10 * (i : ℚ) - 40, y0 := fin y })
    LST := [2/5, 2/5, 2/5, 3/10, 2/5, 2/5, 2/5, 2/5].map (fun q => fin (-q)) }
def hiYs : List ℝ := [100, 120, 140, 160, 190, 210, 230, 250, 270]
noncomputable def hiR : MorIn ℝ := icv qr hiIn

theorem hi_rows : hiIn.rows.map (fun r => r.y0) = [fin 100, fin 120, fin 140, fin 160, fin 190, fin 210, fin 230, fin 250, fin 270] := by decide +kernel

theorem hi_shore : hiR.rows.map (fun r => r.y0) = hiYs.map fin := by
  have e : hiR.rows.map (fun r => r.y0) = (hiIn.rows.map (fun r => r.y0)).map (cv qr) := by
    show (hiIn.rows.map (tcv qr)).map (fun r => r.y0) = _
    rw [List.map_map, List.map_map]; rfl
  rw [e, hi_rows]
  simp [cv_fin, qr_eq, hiYs]

theorem hi_seg (c ya yb t : ℝ) (h : (ya - yb) / 10 = -t) : segRate (zigWaves c) 10 ya yb = -(c * (t / (1 + t ^ 2))) := by
  unfold segRate waveAngle
  have hp : 0 < 1 + t ^ 2 := by positivity
  have h0 : (zigWaves c).dir = 0 := rfl
  rw [h, arctan_neg, h0, zero_sub, neg_neg, sin_two_mul, sin_arctan, cos_arctan, zig_drift]
  have : √(1 + t ^ 2) * √(1 + t ^ 2) = 1 + t ^ 2 := mul_self_sqrt hp.le
  have hs : √(1 + t ^ 2) ≠ 0 := (sqrt_pos.mpr hp).ne'
  have e : t / √(1 + t ^ 2) * (1 / √(1 + t ^ 2)) = t / (1 + t ^ 2) := by
    rw [div_mul_div_comm, mul_one, this]
  rw [show 2 * (t / √(1 + t ^ 2)) * (1 / √(1 + t ^ 2)) = 2 * (t / √(1 + t ^ 2) * (1 / √(1 + t ^ 2))) by ring, e]
  ring

theorem hi_transport (P : PhysPars ℝ) (hP : Describes (zigWaves 1) P) :
    longShoreTransport (hiYs.map fin) (fin 10) (fin (zigWaves 1).power) (fin (zigWaves 1).period) (fin (zigWaves 1).length) (fin (zigWaves 1).dir) P =
      [fin (-(2/5)), fin (-(2/5)), fin (-(2/5)), fin (-(3/10)), fin (-(2/5)), fin (-(2/5)), fin (-(2/5)), fin (-(2/5))] := by
  have key := fun (i : ℕ) (ya yb : ℝ) ha hb => lst_seg (zigWaves 1) (zig_valid 1 one_pos) P hP hiYs 10 (by norm_num) i ya yb ha hb (demo_refracts 0 _)
  have hl : (longShoreTransport (hiYs.map fin) (fin 10) (fin (zigWaves 1).power) (fin (zigWaves 1).period) (fin (zigWaves 1).length) (fin (zigWaves 1).dir) P).length = 8 := by
    rw [longShoreTransport_eq]; rfl
  have two : ∀ ya yb : ℝ, yb = ya + 20 → segRate (zigWaves 1) 10 ya yb = -(2/5) := fun ya yb e => by rw [hi_seg 1 ya yb 2 (by rw [e]; ring)]; norm_num
  have k0 := key 0 100 120 rfl rfl
  have k1 := key 1 120 140 rfl rfl
  have k2 := key 2 140 160 rfl rfl
  have k3 := key 3 160 190 rfl rfl
  have k4 := key 4 190 210 rfl rfl
  have k5 := key 5 210 230 rfl rfl
  have k6 := key 6 230 250 rfl rfl
  have k7 := key 7 250 270 rfl rfl
  rw [two _ _ (by norm_num)] at k0 k1 k2 k4 k5 k6 k7
  rw [hi_seg 1 160 190 3 (by norm_num), show (-(1 * (3 / (1 + 3 ^ 2))) : ℝ) = -(3/10) by norm_num] at k3
  unfold lst at k0 k1 k2 k3 k4 k5 k6 k7
  generalize longShoreTransport (hiYs.map fin) (fin 10) (fin (zigWaves 1).power) (fin (zigWaves 1).period) (fin (zigWaves 1).length) (fin (zigWaves 1).dir) P = L at *
  match L, hl with
  | [a, b, c, d, e, f, g, h], _ =>
    simp only [List.getElem?_cons_zero, List.getElem?_cons_succ, Option.some.injEq] at k0 k1 k2 k3 k4 k5 k6 k7
    subst k0 k1 k2 k3 k4 k5 k6 k7
    rfl

theorem hi_step : WaveStep (zigRP 1) hiR (zigWaves 1) hiYs (fun _ => 14) (fun _ => 0) := by
  have hP : Describes (zigWaves 1) (zigRP 1) := by
    refine ⟨?_, ?_, ?_, ?_⟩ <;> simp [zigRP, ppcv, zigPP, zigWaves, demoWaves, qr_eq]
  have hdx : hiR.Dx = 10 := by
    have e : hiIn.Dx = 10 := rfl
    simp [hiR, icv, e, qr_eq]
  refine ⟨zig_valid _ one_pos, hP, hi_shore, ?_, fun _ _ _ _ _ => demo_refracts 0 _, ?_, fun _ => by norm_num, ?_, fun _ => le_refl _, ?_, ?_, ?_, regular_cv qr _ _ (by decide +kernel), rfl⟩
  · rw [hi_shore, hdx, hi_transport _ hP]
    simp [hiR, icv, hiIn, cv_fin, qr_eq]
  · intro i r hr
    have e1 : hiR.rows[i]? = (hiIn.rows[i]?).map (tcv qr) := List.getElem?_map ..
    rw [e1] at hr
    obtain ⟨q, hq, rfl⟩ := Option.map_eq_some_iff.mp hr
    have hz : ∀ q ∈ hiIn.rows, q.z0 = fin 4 := by decide +kernel
    have e2 : (zigRP 1).ClosureDepth = 10 := by simp [zigRP, ppcv, zigPP, moPP, qr_eq]
    show cv qr q.z0 = _
    rw [hz q (List.mem_of_getElem? hq), e2, cv_fin, qr_eq]
    norm_num
  · intro i hi
    have e1 : hiR.CST = List.replicate 9 (fin 0) := by simp [hiR, icv, hiIn, zigIn, cv_fin, qr_eq]
    have e2 : hiR.rows.length = 9 := by simp [hiR, icv, hiIn, hiQ]
    rw [e1, List.getElem?_replicate, if_pos (by omega)]
  · rw [hdx]; norm_num
  · have : (zigRP 1).OutletSedSpreadDist = 20 := by simp [zigRP, ppcv, zigPP, moPP, chPP, qr_eq]
    rw [this]; norm_num
  · have : hiR.MaxMorChange = 30 := by simp [hiR, icv, hiIn, zigIn, qr_eq]
    rw [this]; norm_num

/-- Concrete case: the transect seaward of the line between its neighbours grows by 17 cm in a step of four minutes. -/
example : ∃ o r r' y', updateMorphology (zigRP 1) cleanMem cleanMem hiR = .ok o ∧ hiR.rows[4]? = some r ∧ WideBarrier hiR.MaxMorChange r 190 ∧
    HighAngle 1 hiR.Dx (zigWaves 1).dir 160 190 ∧ HighAngle 1 hiR.Dx (zigWaves 1).dir 190 210 ∧ secs o.MorDt = 240 ∧ o.rows[4]? = some r' ∧ r'.y0 = fin y' ∧ 190 < y' := by
  obtain ⟨o, ho, h24⟩ := okAnd_iff.mp (show okAnd (updateMorphology (zigPP 1) cleanMem cleanMem hiIn) (fun o => decide (secs o.MorDt = 240)) = true by decide +kernel)
  have h24 := of_decide_eq_true h24
  have h1 : updateMorphology (zigRP 1) cleanMem cleanMem hiR = .ok (ocv qr o) := by
    unfold zigRP hiR
    rw [update_cv, ho]; rfl
  have hdx : hiR.Dx = 10 := by
    have e : hiIn.Dx = 10 := rfl
    simp [hiR, icv, e, qr_eq]
  have hm : hiR.MaxMorChange = 30 := by simp [hiR, icv, hiIn, zigIn, qr_eq]
  have e : hiIn.rows[4]? = some { brRow 0 with x := 0, y0 := fin 190 } := by decide +kernel
  have g1 : hiR.rows[4]? = some (tcv qr { brRow 0 with x := 0, y0 := fin 190 }) := by
    show (hiIn.rows.map (tcv qr))[4]? = _
    rw [List.getElem?_map, e]; rfl
  have g2 : WideBarrier hiR.MaxMorChange (tcv qr { brRow 0 with x := 0, y0 := fin 190 }) 190 := by
    refine ⟨?_, rfl, rfl, 20, 0, ?_, ?_, ?_, ?_⟩ <;> simp [tcv, brRow, cv_fin, qr_eq, hiR, icv, hiIn, zigIn] <;> norm_num
  have high : ∀ t : ℝ, 1 ≤ t → ∀ ya yb : ℝ, (ya - yb) / 10 = -t → HighAngle 1 10 (zigWaves 1).dir ya yb := by
    intro t ht ya yb h
    have h0 : (zigWaves 1).dir = 0 := rfl
    unfold HighAngle waveAngle
    rw [h, arctan_neg, h0, zero_sub, neg_neg, one_mul, ← arctan_one]
    refine ⟨arctan_strictMono.monotone ht, ?_⟩
    have := arctan_lt_pi_div_two t
    have := pi_pos
    linarith
  have q1 : HighAngle 1 hiR.Dx (zigWaves 1).dir 160 190 := by rw [hdx]; exact high 3 (by norm_num) _ _ (by norm_num)
  have q2 : HighAngle 1 hiR.Dx (zigWaves 1).dir 190 210 := by rw [hdx]; exact high 2 (by norm_num) _ _ (by norm_num)
  have h3 : secs (ocv qr o).MorDt = 240 := h24
  obtain ⟨r', y', k1, k2, k3, _⟩ := C209_step hi_step h1 (i := 3) g1 (yl := 160) (y := 190) (yr := 210) rfl rfl rfl g2 (Or.inl rfl) q1 q2 rfl (by rw [h3]; norm_num)
    (by
      rw [hdx, hm, hi_seg 1 160 190 3 (by norm_num), hi_seg 1 190 210 2 (by norm_num), h3]
      norm_num [abs_of_nonneg])
  exact ⟨_, _, r', y', h1, g1, g2, q1, q2, h3, k1, k2, k3 (by norm_num)⟩

end Verif.Props
