import Verif.Props.Smooth
import Mathlib.Tactic.IntervalCases

set_option autoImplicit false
set_option linter.unusedSectionVars false

/-! # C208: waves leave a straight beach where it is -/

namespace Verif.Props
open Verif Verif.Model Verif.Spec Fl Real

/-- C208, transport: on two segments of the coast with the same slope longshore transport is the same, whatever the waves (including those for which it is not a number). -/
theorem C208_transport (P : PhysPars ℝ) (ys : List ℝ) (Dx W T L d : Fl ℝ) (i j : ℕ) (ya yb yc yd : ℝ) (ha : ys[i]? = some ya) (hb : ys[i+1]? = some yb)
    (hc : ys[j]? = some yc) (hd : ys[j+1]? = some yd) (hs : yb - ya = yd - yc) :
    ∃ q, (longShoreTransport (ys.map fin) Dx W T L d P)[i]? = some q ∧ (longShoreTransport (ys.map fin) Dx W T L d P)[j]? = some q := by
  have key : ∀ (k : ℕ) (y y' : ℝ), ys[k]? = some y → ys[k+1]? = some y' → y' - y = yb - ya →
      (longShoreTransport (ys.map fin) Dx W T L d P)[k]? = some (lstSeg Dx W T L d P (fin ya) (fin yb)) := by
    intro k y y' h1 h2 h3
    have e : ((ys.map fin).zip (ys.map fin).tail)[k]? = some (fin y, fin y') := by
      rw [List.getElem?_zip_eq_some]
      refine ⟨by rw [List.getElem?_map, h1]; rfl, by rw [List.getElem?_tail, List.getElem?_map, h2]; rfl⟩
    rw [longShoreTransport_eq, List.getElem?_map, e]
    have hl : localEDir Dx d (fin y) (fin y') = localEDir Dx d (fin ya) (fin yb) := by
      unfold localEDir
      rw [sub_fin, sub_fin, show y - y' = ya - yb by linarith]
    simp only [Option.map_some, lstSeg, hl]
  exact ⟨_, key i ya yb ha hb rfl, key j yc yd hc hd hs.symm⟩

/-- C208, a whole step: in a completed step of a closed lagoon a transect on a wide barrier that is in line with its two neighbours, at whatever angle to the waves, does not move, except that it recedes by what the
waves carry over the barrier. -/
theorem C208_step {pp : PhysPars ℝ} {a : MorIn ℝ} {w : Waves} {ys : List ℝ} {hs cs : ℕ → ℝ} (W : WaveStep pp a w ys hs cs) {j1 j2 : ℕ → Bool} {o : MorOut ℝ}
    (h : updateMorphology pp j1 j2 a = .ok o) {i : ℕ} {r : Transect ℝ} (hr : a.rows[i+1]? = some r) {yl y yr : ℝ}
    (h1 : ys[i]? = some yl) (h2 : ys[i+1]? = some y) (h3 : ys[i+2]? = some yr) (hw : WideBarrier a.MaxMorChange r y) (hline : y - yl = yr - y)
    (hx : cs (i+1) * (secs o.MorDt : ℝ) ≤ a.MaxMorChange * hs (i+1)) :
    ∃ r', o.rows[i+1]? = some r' ∧ r'.y0 = fin (y - cs (i+1) * (secs o.MorDt : ℝ) / hs (i+1)) := by
  have hl := W.len
  have hi := (List.getElem?_eq_some_iff.mp h3).1
  have g1 : ys.getD i 0 = yl := by rw [List.getD_eq_getElem?_getD, h1]; rfl
  have g2 : ys.getD (i+1) 0 = y := by rw [List.getD_eq_getElem?_getD, h2]; rfl
  have g3 : ys.getD (i+1+1) 0 = yr := by rw [List.getD_eq_getElem?_getD, h3]; rfl
  have hd := W.dx
  have hp := W.pos (i+1)
  have hc := W.over (i+1)
  have hse : (0:ℝ) ≤ (secs o.MorDt : ℝ) := by exact_mod_cast secs_nonneg o.MorDt
  have he : segRate w a.Dx yl y = segRate w a.Dx y yr := by
    unfold segRate waveAngle
    rw [show yl - y = y - yr by linarith]
  obtain ⟨r', y', e1, e2, e3⟩ := C146_partial_closed pp j1 j2 a o h hs _ cs (W.beach (by intro h0; rw [h0] at hr; simp at hr)) W.limit W.regular W.closed (i+1) (by omega) (by omega)
    r hr y hw (by
      simp only [Nat.add_sub_cancel, g1, g2, g3]
      rw [he, sub_self, zero_sub, abs_neg, abs_of_nonneg (by positivity)]
      nlinarith)
  simp only [Nat.add_sub_cancel, g1, g2, g3] at e3
  rw [he, sub_self, zero_sub] at e3
  refine ⟨r', e1, ?_⟩
  rw [e2]
  congr 1
  have : (y' - y) * hs (i+1) = -(cs (i+1) * (secs o.MorDt : ℝ)) := by
    have k : ((y' - y) * hs (i+1)) * a.Dx = (-(cs (i+1) * (secs o.MorDt : ℝ))) * a.Dx := by linarith
    exact mul_right_cancel₀ hd.ne' k
  field_simp
  linarith

/-- C208 for a straight coast: in a completed step of a closed lagoon behind a straight shoreline, at whatever angle to the waves, over whose barrier no waves get, no transect on a wide barrier moves but
the two ends. -/
theorem C208_coast {pp : PhysPars ℝ} {a : MorIn ℝ} {w : Waves} {ys : List ℝ} {hs : ℕ → ℝ} (W : WaveStep pp a w ys hs (fun _ => 0)) {j1 j2 : ℕ → Bool} {o : MorOut ℝ}
    (h : updateMorphology pp j1 j2 a = .ok o) (y0 slope : ℝ) (hline : ∀ (i : ℕ) y, ys[i]? = some y → y = y0 + slope * i)
    (i : ℕ) (hi0 : 0 < i) (hi1 : i + 1 < a.rows.length) (r : Transect ℝ) (hr : a.rows[i]? = some r) (hw : WideBarrier a.MaxMorChange r (y0 + slope * i)) :
    ∃ r', o.rows[i]? = some r' ∧ r'.y0 = r.y0 := by
  have hl := W.len
  obtain ⟨k, rfl⟩ : ∃ k, i = k + 1 := ⟨i - 1, by omega⟩
  have get : ∀ j, j < ys.length → ys[j]? = some (y0 + slope * j) := by
    intro j hj
    rw [List.getElem?_eq_getElem hj]
    exact congrArg some (hline j _ (List.getElem?_eq_getElem hj))
  obtain ⟨r', e1, e2⟩ := C208_step W h hr (get k (by omega)) (get (k+1) (by omega)) (get (k+2) (by omega)) hw (by push_cast; ring)
    (by have := mul_nonneg W.limit (W.pos (k+1)).le; simpa using this)
  refine ⟨r', e1, ?_⟩
  have s : a.rows.map (fun r => r.y0) = ys.map fin := W.shore
  have s' := congrArg (fun l => l[k+1]?) s
  simp only [List.getElem?_map, hr, get (k+1) (by omega), Option.map_some, Option.some.injEq] at s'
  rw [e2, s']
  simp

/-- Concrete case: beside the headland of the sample of C169 the coast is straight; the third transect stays where it is in a step that wears down the headland. -/
example : ∃ o r r', WaveStep (zigRP (1/10)) (zigR (1/10)) (zigWaves (1/10)) zigYs (fun _ => 14) (fun _ => 0) ∧ updateMorphology (zigRP (1/10)) cleanMem cleanMem (zigR (1/10)) = .ok o ∧
    (zigR (1/10)).rows[2]? = some r ∧ WideBarrier (zigR (1/10)).MaxMorChange r 100 ∧ o.rows[2]? = some r' ∧ r'.y0 = fin 100 := by
  obtain ⟨o, _, h1, _⟩ := zig_new (1/10) (110 - 24/140) (by decide +kernel)
  have W : WaveStep (zigRP (1/10)) (zigR (1/10)) (zigWaves (1/10)) zigYs (fun _ => 14) (fun _ => 0) := by simpa using zig_step (1/10) (by norm_num) (by decide +kernel)
  obtain ⟨r, g1, g2⟩ : ∃ r, (zigR (1/10)).rows[2]? = some r ∧ WideBarrier (zigR (1/10)).MaxMorChange r 100 := by
    have e : (zigIn (1/10)).rows[2]? = some { brRow 0 with x := -20, y0 := fin 100 } := by
      show (zigIn 0).rows[2]? = _
      decide +kernel
    refine ⟨tcv qr { brRow 0 with x := -20, y0 := fin 100 }, ?_, ?_⟩
    · show ((zigIn (1/10)).rows.map (tcv qr))[2]? = _
      rw [List.getElem?_map, e]; rfl
    · refine ⟨?_, rfl, rfl, 20, 0, ?_, ?_, ?_, ?_⟩ <;> simp [tcv, brRow, cv_fin, qr_eq, zigR, icv, zigIn] <;> norm_num
  have hm : (zigR (1/10)).MaxMorChange = 30 := by simp [zigR, icv, zigIn, qr_eq]
  obtain ⟨r', k1, k2⟩ := C208_step W h1 (i := 1) g1 (yl := 100) (y := 100) (yr := 100) rfl rfl rfl g2 (by norm_num) (by rw [hm]; norm_num)
  exact ⟨o, r, r', W, h1, g1, g2, k1, by rw [k2]; simp⟩

/-- A straight coast at 45 degrees to the waves of C169. -/
def obIn (c : ℚ) : MorIn ℚ :=
  { zigIn c with
    rows := [-40, -30, -20, -10, 0, 10, 20, 30, 40].map (fun x => { brRow 0 with x := x, y0 := fin (140 + x) })
    LST := List.replicate 8 (fin (-(c/2))) }
def obYs : List ℝ := [100, 110, 120, 130, 140, 150, 160, 170, 180]
noncomputable def obR (c : ℚ) : MorIn ℝ := icv qr (obIn c)

theorem ob_rows (c : ℚ) : (obIn c).rows.map (fun r => r.y0) = [fin 100, fin 110, fin 120, fin 130, fin 140, fin 150, fin 160, fin 170, fin 180] := by
  show (obIn 0).rows.map (fun r => r.y0) = _
  decide +kernel

theorem ob_shore (c : ℚ) : (obR c).rows.map (fun r => r.y0) = obYs.map fin := by
  have e : (obR c).rows.map (fun r => r.y0) = ((obIn c).rows.map (fun r => r.y0)).map (cv qr) := by
    show ((obIn c).rows.map (tcv qr)).map (fun r => r.y0) = _
    rw [List.map_map, List.map_map]; rfl
  rw [e, ob_rows]
  simp [cv_fin, qr_eq, obYs]

theorem ob_line (i : ℕ) (y : ℝ) (h : obYs[i]? = some y) : y = 100 + 10 * i := by
  have hi : i < 9 := (List.getElem?_eq_some_iff.mp h).1
  unfold obYs at h
  interval_cases i <;> simp at h <;> rw [← h] <;> norm_num

theorem ob_transport (c : ℝ) (hc : 0 < c) (P : PhysPars ℝ) (hP : Describes (zigWaves c) P) :
    longShoreTransport (obYs.map fin) (fin 10) (fin (zigWaves c).power) (fin (zigWaves c).period) (fin (zigWaves c).length) (fin (zigWaves c).dir) P =
      List.replicate 8 (fin (-(c/2))) := by
  have hl : (longShoreTransport (obYs.map fin) (fin 10) (fin (zigWaves c).power) (fin (zigWaves c).period) (fin (zigWaves c).length) (fin (zigWaves c).dir) P).length = 8 := by
    rw [longShoreTransport_eq]; rfl
  refine (List.eq_replicate_iff.mpr ⟨hl, ?_⟩)
  intro v hv
  obtain ⟨i, hi⟩ := List.mem_iff_getElem?.mp hv
  have h8 : i < 8 := hl ▸ (List.getElem?_eq_some_iff.mp hi).1
  obtain ⟨ya, ha⟩ : ∃ ya, obYs[i]? = some ya := ⟨_, List.getElem?_eq_getElem (by show i < 9; omega)⟩
  obtain ⟨yb, hb⟩ : ∃ yb, obYs[i+1]? = some yb := ⟨_, List.getElem?_eq_getElem (by show i + 1 < 9; omega)⟩
  have k := lst_seg (zigWaves c) (zig_valid c hc) P hP obYs 10 (by norm_num) i ya yb ha hb (demo_refracts 0 _)
  unfold lst at k
  rw [k] at hi
  cases hi
  have e : ya - yb = 100 - 110 := by rw [ob_line _ _ ha, ob_line _ _ hb]; push_cast; ring
  have := zig_up c
  unfold segRate waveAngle at this ⊢
  rw [e, this]

theorem ob_step (c : ℚ) (hc : 0 < c) (hreg : Regular (zigPP c) (obIn c)) : WaveStep (zigRP c) (obR c) (zigWaves c) obYs (fun _ => 14) (fun _ => 0) := by
  have hP : Describes (zigWaves (c:ℝ)) (zigRP c) := by
    refine ⟨?_, ?_, ?_, ?_⟩ <;> simp [zigRP, ppcv, zigPP, zigWaves, demoWaves, qr_eq]
  have hdx : (obR c).Dx = 10 := by
    have e : (obIn c).Dx = 10 := rfl
    simp [obR, icv, e, qr_eq]
  refine ⟨zig_valid _ (by exact_mod_cast hc), hP, ob_shore c, ?_, fun _ _ _ _ _ => demo_refracts 0 _, ?_, fun _ => by norm_num, ?_, fun _ => le_refl _, ?_, ?_, ?_, regular_cv qr _ _ hreg, rfl⟩
  · rw [ob_shore, hdx, ob_transport _ (by exact_mod_cast hc) _ hP]
    simp [obR, icv, obIn, cv_fin, qr_eq]
  · intro i r hr
    have e1 : (obR c).rows[i]? = ((obIn c).rows[i]?).map (tcv qr) := List.getElem?_map ..
    rw [e1] at hr
    obtain ⟨q, hq, rfl⟩ := Option.map_eq_some_iff.mp hr
    have hz : ∀ q ∈ (obIn c).rows, q.z0 = fin 4 := by
      show ∀ q ∈ (obIn 0).rows, q.z0 = fin 4
      decide +kernel
    have e2 : (zigRP c).ClosureDepth = 10 := by simp [zigRP, ppcv, zigPP, moPP, qr_eq]
    show cv qr q.z0 = _
    rw [hz q (List.mem_of_getElem? hq), e2, cv_fin, qr_eq]
    norm_num
  · intro i hi
    have e1 : (obR c).CST = List.replicate 9 (fin 0) := by simp [obR, icv, obIn, zigIn, cv_fin, qr_eq]
    have e2 : (obR c).rows.length = 9 := by simp [obR, icv, obIn]
    rw [e1, List.getElem?_replicate, if_pos (by omega)]
  · rw [hdx]; norm_num
  · have : (zigRP c).OutletSedSpreadDist = 20 := by simp [zigRP, ppcv, zigPP, moPP, chPP, qr_eq]
    rw [this]; norm_num
  · have : (obR c).MaxMorChange = 30 := by simp [obR, icv, obIn, zigIn, qr_eq]
    rw [this]; norm_num

/-- Concrete case for `C208_coast`: a coast at 45 degrees to waves that move half a cubic metre a second along all of it; the sixth transect, for one, stays where it is. -/
example : ∃ o r, WaveStep (zigRP 1) (obR 1) (zigWaves 1) obYs (fun _ => 14) (fun _ => 0) ∧ updateMorphology (zigRP 1) cleanMem cleanMem (obR 1) = .ok o ∧
    (obR 1).rows[5]? = some r ∧ WideBarrier (obR 1).MaxMorChange r (100 + 10 * (5 : ℕ)) ∧ r.y0 = fin 150 ∧ ∃ r', o.rows[5]? = some r' ∧ r'.y0 = r.y0 := by
  obtain ⟨o, ho⟩ : ∃ o, updateMorphology (zigPP 1) cleanMem cleanMem (obIn 1) = .ok o := by
    obtain ⟨o, ho, _⟩ := okAnd_iff.mp (show okAnd (updateMorphology (zigPP 1) cleanMem cleanMem (obIn 1)) (fun _ => true) = true by decide +kernel)
    exact ⟨o, ho⟩
  have h1 : updateMorphology (zigRP 1) cleanMem cleanMem (obR 1) = .ok (ocv qr o) := by
    unfold zigRP obR
    rw [update_cv, ho]; rfl
  have W : WaveStep (zigRP 1) (obR 1) (zigWaves 1) obYs (fun _ => 14) (fun _ => 0) := by simpa using ob_step 1 (by norm_num) (by decide +kernel)
  have e : (obIn 1).rows[5]? = some { brRow 0 with x := 10, y0 := fin (140 + 10) } := by
    show (obIn 0).rows[5]? = _
    decide +kernel
  have g1 : (obR 1).rows[5]? = some (tcv qr { brRow 0 with x := 10, y0 := fin (140 + 10) }) := by
    show ((obIn 1).rows.map (tcv qr))[5]? = _
    rw [List.getElem?_map, e]; rfl
  have g2 : WideBarrier (obR 1).MaxMorChange (tcv qr { brRow 0 with x := 10, y0 := fin (140 + 10) }) (100 + 10 * (5 : ℕ)) := by
    refine ⟨?_, rfl, rfl, 20, 0, ?_, ?_, ?_, ?_⟩ <;> simp [tcv, brRow, cv_fin, qr_eq, obR, icv, obIn, zigIn] <;> norm_num
  have hlen : (obR 1).rows.length = 9 := by simp [obR, icv, obIn]
  exact ⟨_, _, W, h1, g1, g2, by simp [tcv, cv_fin, qr_eq]; norm_num, C208_coast W h1 100 10 ob_line 5 (by norm_num) (by rw [hlen]; norm_num) _ g1 g2⟩

end Verif.Props
