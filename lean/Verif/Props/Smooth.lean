import Verif.Spec.Smooth
import Verif.Props.Coast
import Verif.Props.Budget
import Verif.Lemmas.Transfer
import Mathlib.Analysis.SpecialFunctions.Trigonometric.ArctanDeriv
import Mathlib.Analysis.SpecialFunctions.Trigonometric.Bounds
import Mathlib.Analysis.Calculus.MeanValue

set_option autoImplicit false
set_option linter.unusedSectionVars false

/-! # Properties C168 to C170: waves wear down headlands, fill bays and do not overshoot; C170: transport and wave power -/

namespace Verif.Props
open Verif Verif.Model Verif.Spec Fl Real

theorem arctan_sub_le (s t : ℝ) : |arctan s - arctan t| ≤ |s - t| := by
  have h : LipschitzWith 1 arctan := by
    apply lipschitzWith_of_nnnorm_deriv_le differentiable_arctan
    intro x
    rw [← NNReal.coe_le_coe]
    simp only [coe_nnnorm, Real.norm_eq_abs, NNReal.coe_one, (hasDerivAt_arctan x).deriv]
    rw [abs_of_nonneg (by positivity), div_le_one (by positivity)]
    nlinarith [sq_nonneg x]
  have := h.dist_le_mul s t
  simpa [Real.dist_eq] using this

/-- The transport along one segment. -/
noncomputable def segRate (w : Waves) (dx ya yb : ℝ) : ℝ := -(w.drift * sin (2 * waveAngle dx w.dir ya yb) / 2)

theorem lst_seg (w : Waves) (hv : w.Valid) (P : PhysPars ℝ) (hP : Describes w P) (ys : List ℝ) (dx : ℝ) (hdx : 0 < dx) (i : ℕ) (ya yb : ℝ)
    (ha : ys[i]? = some ya) (hb : ys[i+1]? = some yb) (hr : w.Refracts (waveAngle dx w.dir ya yb)) : (lst ys dx w P)[i]? = some (fin (segRate w dx ya yb)) := by
  rw [lst, longShoreTransport_get_eq w hv P hP ys dx hdx.ne' i ya yb ha hb hr]
  congr 2
  unfold segRate Waves.drift
  rw [sin_two_mul]
  ring

theorem drift_pos (w : Waves) (hv : w.Valid) : 0 < w.drift := by
  have hs := shallowSpeed_pos w hv
  have hw := waveSpeed_pos w hv
  obtain ⟨hg, hbr, hk, hd, hp, ht, hl⟩ := id hv
  unfold Waves.drift
  positivity

/-- For waves from the front the difference of the transport along two neighbouring segments is a multiple of how far the middle transect lags behind its neighbours. -/
theorem seg_law (w : Waves) (hv : w.Valid) (dx : ℝ) (hdx : 0 < dx) (yl y yr : ℝ) (f1 : Frontal dx w.dir yl y) (f2 : Frontal dx w.dir y yr) :
    ∃ θ, 0 < θ ∧ θ ≤ w.drift / dx ∧ segRate w dx yl y - segRate w dx y yr = θ * (yl - 2 * y + yr) := by
  have hd := drift_pos w hv
  have lip : |segRate w dx yl y - segRate w dx y yr| ≤ w.drift / dx * |yl - 2 * y + yr| := by
    unfold segRate
    have h1 := abs_sin_sub_sin_le (2 * waveAngle dx w.dir y yr) (2 * waveAngle dx w.dir yl y)
    have h2 : |2 * waveAngle dx w.dir y yr - 2 * waveAngle dx w.dir yl y| = 2 * |arctan ((yl - y) / dx) - arctan ((y - yr) / dx)| := by
      rw [← abs_two (α := ℝ), ← abs_mul, abs_two]
      congr 1
      unfold waveAngle
      ring
    have h3 := arctan_sub_le ((yl - y) / dx) ((y - yr) / dx)
    have h4 : |(yl - y) / dx - (y - yr) / dx| = |yl - 2 * y + yr| / dx := by
      rw [← sub_div, abs_div, abs_of_pos hdx]
      congr 2
      ring
    rw [show -(w.drift * sin (2 * waveAngle dx w.dir yl y) / 2) - -(w.drift * sin (2 * waveAngle dx w.dir y yr) / 2) =
      w.drift / 2 * (sin (2 * waveAngle dx w.dir y yr) - sin (2 * waveAngle dx w.dir yl y)) by ring, abs_mul, abs_of_pos (by linarith)]
    calc w.drift / 2 * |sin (2 * waveAngle dx w.dir y yr) - sin (2 * waveAngle dx w.dir yl y)| ≤ w.drift / 2 * (2 * (|yl - 2 * y + yr| / dx)) := by
          apply mul_le_mul_of_nonneg_left _ (by linarith)
          linarith
      _ = w.drift / dx * |yl - 2 * y + yr| := by ring
  have mono : ∀ a b, |a| ≤ π / 4 → |b| ≤ π / 4 → a < b → sin (2 * a) < sin (2 * b) := by
    intro a b ha hb hab
    rw [abs_le] at ha hb
    exact sin_lt_sin_of_lt_of_le_pi_div_two (by linarith) (by linarith) (by linarith)
  have ang : waveAngle dx w.dir y yr < waveAngle dx w.dir yl y ↔ yl - 2 * y + yr < 0 := by
    unfold waveAngle
    rw [sub_lt_sub_iff_left, arctan_lt_arctan_iff, div_lt_div_iff_of_pos_right hdx]
    constructor <;> intro h <;> linarith
  have ang' : waveAngle dx w.dir yl y < waveAngle dx w.dir y yr ↔ 0 < yl - 2 * y + yr := by
    unfold waveAngle
    rw [sub_lt_sub_iff_left, arctan_lt_arctan_iff, div_lt_div_iff_of_pos_right hdx]
    constructor <;> intro h <;> linarith
  rcases lt_trichotomy (yl - 2 * y + yr) 0 with h | h | h
  · have s := mono _ _ f2 f1 (ang.mpr h)
    have hneg : segRate w dx yl y - segRate w dx y yr < 0 := by
      unfold segRate
      nlinarith
    refine ⟨(segRate w dx yl y - segRate w dx y yr) / (yl - 2 * y + yr), div_pos_of_neg_of_neg hneg h, ?_, by field_simp [h.ne]⟩
    rw [div_le_iff_of_neg h]
    rw [abs_of_neg hneg, abs_of_neg h] at lip
    linarith
  · refine ⟨w.drift / dx, by positivity, le_rfl, ?_⟩
    rw [h, abs_zero, mul_zero] at lip
    rw [h, mul_zero]
    exact abs_eq_zero.mp (le_antisymm lip (abs_nonneg _))
  · have s := mono _ _ f1 f2 (ang'.mpr h)
    have hpos : 0 < segRate w dx yl y - segRate w dx y yr := by
      unfold segRate
      nlinarith
    refine ⟨(segRate w dx yl y - segRate w dx y yr) / (yl - 2 * y + yr), div_pos hpos h, ?_, by field_simp [h.ne']⟩
    rw [div_le_iff₀ h]
    rwa [abs_of_pos hpos, abs_of_pos h] at lip

/-- C168, partial: where the waves come in within 45 degrees of the normals of both segments and refraction has a solution, more sediment leaves a headland than comes in,
less leaves a bay, and as much leaves a straight shore. Missing: waves from further to the side, for which it is false. -/
theorem C168_partial (w : Waves) (hv : w.Valid) (P : PhysPars ℝ) (hP : Describes w P) (ys : List ℝ) (dx : ℝ) (hdx : 0 < dx) (i : ℕ) (yl y yr : ℝ)
    (h1 : ys[i]? = some yl) (h2 : ys[i+1]? = some y) (h3 : ys[i+2]? = some yr) (f1 : Frontal dx w.dir yl y) (f2 : Frontal dx w.dir y yr)
    (r1 : w.Refracts (waveAngle dx w.dir yl y)) (r2 : w.Refracts (waveAngle dx w.dir y yr)) :
    ∃ q q', (lst ys dx w P)[i]? = some (fin q) ∧ (lst ys dx w P)[i+1]? = some (fin q') ∧
      ((yl + yr) / 2 < y → q < q') ∧ (y < (yl + yr) / 2 → q' < q) ∧ (y = (yl + yr) / 2 → q = q') := by
  obtain ⟨θ, hθ, -, e⟩ := seg_law w hv dx hdx yl y yr f1 f2
  refine ⟨_, _, lst_seg w hv P hP ys dx hdx i yl y h1 h2 r1, lst_seg w hv P hP ys dx hdx (i+1) y yr h2 h3 r2, fun h => ?_, fun h => ?_, fun h => ?_⟩
  · have : θ * (yl - 2 * y + yr) < 0 := mul_neg_of_pos_of_neg hθ (by linarith)
    linarith
  · have : 0 < θ * (yl - 2 * y + yr) := mul_pos hθ (by linarith)
    linarith
  · have h0 : yl - 2 * y + yr = 0 := by linarith
    rw [h0, mul_zero] at e
    linarith

/-- Concrete case: a headland, waves from straight ahead. -/
example : ∃ q q', (lst [0, 1/2, 0] 1 (demoWaves 0) demoPars)[0]? = some (fin q) ∧ (lst [0, 1/2, 0] 1 (demoWaves 0) demoPars)[1]? = some (fin q') ∧ q < q' := by
  have f : ∀ s : ℝ, |s| ≤ 1 → |arctan s| ≤ π / 4 := by
    intro s hs
    rw [abs_le] at hs ⊢
    have a := arctan_mono hs.1
    have b := arctan_mono hs.2
    rw [arctan_neg, arctan_one] at a
    rw [arctan_one] at b
    exact ⟨a, b⟩
  have g : ∀ a b : ℝ, |a - b| ≤ 1 → Frontal 1 (demoWaves 0).dir a b := by
    intro a b h
    unfold Frontal waveAngle
    simp only [demoWaves, zero_sub, abs_neg, div_one]
    exact f _ h
  obtain ⟨q, q', e1, e2, h, -, -⟩ := C168_partial (demoWaves 0) (demo_valid 0) demoPars (demo_describes 0) [0, 1/2, 0] 1 one_pos 0 0 (1/2) 0 rfl rfl rfl
    (g _ _ (by norm_num [abs_le])) (g _ _ (by norm_num [abs_le])) (demo_refracts _ _) (demo_refracts _ _)
  exact ⟨q, q', e1, e2, h (by norm_num)⟩

/-- C168 is false of the code for waves from the side: with waves at 45 degrees to the shore on the right of a headland and along the shore on its left, sediment comes to the headland
from the right and none leaves it. -/
theorem C168_refuted : (lst [0, 1, 1] 1 (demoWaves (π/4)) demoPars)[0]? = some (fin (0:ℝ)) ∧ (lst [0, 1, 1] 1 (demoWaves (π/4)) demoPars)[1]? = some (fin (-(1/2) : ℝ)) ∧
    ((0:ℝ) + 1) / 2 < 1 := by
  have hd : (demoWaves (π/4)).drift = 1 := by
    unfold Waves.drift
    rw [(demo_speeds _).1, (demo_speeds _).2]
    norm_num [demoWaves]
  refine ⟨?_, ?_, by norm_num⟩
  · rw [lst_seg _ (demo_valid _) _ (demo_describes _) [0, 1, 1] 1 one_pos 0 (0:ℝ) 1 rfl rfl (demo_refracts _ _)]
    unfold segRate waveAngle
    rw [hd, show ((0:ℝ) - 1) / 1 = -1 by norm_num, arctan_neg, arctan_one, show 2 * ((demoWaves (π/4)).dir - -(π/4)) = π by simp only [demoWaves]; ring, sin_pi]
    norm_num
  · rw [lst_seg _ (demo_valid _) _ (demo_describes _) [0, 1, 1] 1 one_pos 1 (1:ℝ) 1 rfl rfl (demo_refracts _ _)]
    unfold segRate waveAngle
    rw [hd, show ((1:ℝ) - 1) / 1 = 0 by norm_num, arctan_zero, show 2 * ((demoWaves (π/4)).dir - 0) = π/2 by simp only [demoWaves]; ring, sin_pi_div_two]
    norm_num

section
variable {K : Type} [Field K] [LinearOrder K] [IsStrictOrderedRing K]

/-- A whole morphological step of a closed lagoon, where the difference of the transport along the two segments at a transect is `θ` times how far it lags behind its neighbours:
the new shoreline in terms of the old one. -/
theorem smooth_step (pp : PhysPars K) (j1 j2 : ℕ → Bool) (a : MorIn K) (o : MorOut K) (h : updateMorphology pp j1 j2 a = .ok o) (hs ls cs : ℕ → K)
    (B : Beach pp a hs ls cs) (hB : 0 ≤ a.MaxMorChange) (hreg : Regular pp a) (hc : a.Closed = true) (i : ℕ) (hi : i + 2 < a.rows.length) (r : Transect K)
    (hr : a.rows[i+1]? = some r) (yl y yr θ : K) (hw : WideBarrier a.MaxMorChange r y) (hlaw : ls i - ls (i+1) = θ * (yl - 2 * y + yr))
    (hx : |ls i - ls (i+1) - a.Dx * cs (i+1)| * (secs o.MorDt : K) ≤ a.MaxMorChange * hs (i+1) * a.Dx) :
    ∃ r' y', o.rows[i+1]? = some r' ∧ r'.y0 = fin y' ∧
      y' = y + θ * (secs o.MorDt : K) / (hs (i+1) * a.Dx) * (yl - 2 * y + yr) - cs (i+1) * (secs o.MorDt : K) / hs (i+1) := by
  obtain ⟨r', y', h1, h2, h3⟩ := C146_partial_closed pp j1 j2 a o h hs ls cs B hB hreg hc (i+1) (by omega) (by omega) r hr y hw (by simpa using hx)
  refine ⟨r', y', h1, h2, ?_⟩
  have p1 := B.pos (i+1)
  have p2 := B.dx
  rw [Nat.add_sub_cancel, hlaw] at h3
  field_simp
  linarith
end

theorem secs_nonneg (dt : ℤ) : (0:ℝ) ≤ (secs dt : ℝ) := by
  have : 0 ≤ secs dt := by unfold secs; omega
  exact_mod_cast this

/-- The waves `w` and the coast `ys` of a closed lagoon at a morphological step. -/
structure WaveStep (pp : PhysPars ℝ) (a : MorIn ℝ) (w : Waves) (ys : List ℝ) (hs cs : ℕ → ℝ) : Prop where
  valid : w.Valid
  pars : Describes w pp
  shore : a.rows.map (fun r => r.y0) = ys.map fin
  lst : a.LST = longShoreTransport (a.rows.map (fun r => r.y0)) (fin a.Dx) (fin w.power) (fin w.period) (fin w.length) (fin w.dir) pp
  refracts : ∀ (i : ℕ) ya yb, ys[i]? = some ya → ys[i+1]? = some yb → w.Refracts (waveAngle a.Dx w.dir ya yb)
  height : ∀ (i : ℕ) r, a.rows[i]? = some r → r.z0 = fin (hs i - pp.ClosureDepth)
  pos : ∀ i, 0 < hs i
  cst : ∀ i, i < a.rows.length → a.CST[i]? = some (fin (cs i))
  over : ∀ i, 0 ≤ cs i
  dx : 0 < a.Dx
  spread : 0 < pp.OutletSedSpreadDist
  limit : 0 ≤ a.MaxMorChange
  regular : Regular pp a
  closed : a.Closed = true

theorem WaveStep.len {pp : PhysPars ℝ} {a : MorIn ℝ} {w : Waves} {ys : List ℝ} {hs cs : ℕ → ℝ} (W : WaveStep pp a w ys hs cs) : ys.length = a.rows.length := by
  have := congrArg List.length W.shore
  simpa using this.symm

theorem WaveStep.beach {pp : PhysPars ℝ} {a : MorIn ℝ} {w : Waves} {ys : List ℝ} {hs cs : ℕ → ℝ} (W : WaveStep pp a w ys hs cs) (hn : a.rows ≠ []) :
    Beach pp a hs (fun i => segRate w a.Dx (ys.getD i 0) (ys.getD (i+1) 0)) cs where
  height := W.height
  pos := W.pos
  lst i hi := by
    rw [W.lst, W.shore]
    have hl := W.len
    have e1 : ys[i]? = some (ys.getD i 0) := by rw [List.getD_eq_getElem?_getD, List.getElem?_eq_getElem (by omega)]; rfl
    have e2 : ys[i+1]? = some (ys.getD (i+1) 0) := by rw [List.getD_eq_getElem?_getD, List.getElem?_eq_getElem (by omega)]; rfl
    exact lst_seg w W.valid pp W.pars ys a.Dx W.dx i _ _ e1 e2 (W.refracts i _ _ e1 e2)
  lstLen := by
    rw [W.lst, longShoreTransport_eq, List.length_map, List.length_zip, List.length_tail, List.length_map]
    have := List.length_pos_iff.mpr hn
    omega
  cst := W.cst
  dx := W.dx
  spread := W.spread

theorem WaveStep.new {pp : PhysPars ℝ} {a : MorIn ℝ} {w : Waves} {ys : List ℝ} {hs cs : ℕ → ℝ} (W : WaveStep pp a w ys hs cs) {j1 j2 : ℕ → Bool} {o : MorOut ℝ}
    (h : updateMorphology pp j1 j2 a = .ok o) {i : ℕ} {r : Transect ℝ} (hr : a.rows[i+1]? = some r) {yl y yr : ℝ}
    (h1 : ys[i]? = some yl) (h2 : ys[i+1]? = some y) (h3 : ys[i+2]? = some yr) (hw : WideBarrier a.MaxMorChange r y) (f1 : Frontal a.Dx w.dir yl y) (f2 : Frontal a.Dx w.dir y yr)
    (hx : |segRate w a.Dx yl y - segRate w a.Dx y yr - a.Dx * cs (i+1)| * (secs o.MorDt : ℝ) ≤ a.MaxMorChange * hs (i+1) * a.Dx) :
    ∃ r' y' θ, o.rows[i+1]? = some r' ∧ r'.y0 = fin y' ∧ 0 < θ ∧ θ ≤ w.drift / a.Dx ∧
      y' = y + θ * (secs o.MorDt : ℝ) / (hs (i+1) * a.Dx) * (yl - 2 * y + yr) - cs (i+1) * (secs o.MorDt : ℝ) / hs (i+1) := by
  have hl := W.len
  have hi := (List.getElem?_eq_some_iff.mp h3).1
  obtain ⟨θ, t1, t2, t3⟩ := seg_law w W.valid a.Dx W.dx yl y yr f1 f2
  have g1 : ys.getD i 0 = yl := by rw [List.getD_eq_getElem?_getD, h1]; rfl
  have g2 : ys.getD (i+1) 0 = y := by rw [List.getD_eq_getElem?_getD, h2]; rfl
  have g3 : ys.getD (i+2) 0 = yr := by rw [List.getD_eq_getElem?_getD, h3]; rfl
  obtain ⟨r', y', e1, e2, e3⟩ := smooth_step pp j1 j2 a o h hs _ cs (W.beach (by intro h0; rw [h0] at hr; simp at hr)) W.limit W.regular W.closed i (by omega) r hr yl y yr θ hw
    (by simp only [g1, g2, show i + 1 + 1 = i + 2 from rfl, g3]; exact t3) (by simp only [g1, g2, show i + 1 + 1 = i + 2 from rfl, g3]; exact hx)
  exact ⟨r', y', θ, e1, e2, t1, t2, e3⟩

/-- C168 over a whole step, partial: in a completed step of a closed lagoon a headland on a wide barrier, reached by waves from the front, does not grow; a bay over whose barrier no waves get
does not deepen; as long as neither moves by more than MaxMorChange. -/
theorem C168_partial_step {pp : PhysPars ℝ} {a : MorIn ℝ} {w : Waves} {ys : List ℝ} {hs cs : ℕ → ℝ} (W : WaveStep pp a w ys hs cs) {j1 j2 : ℕ → Bool} {o : MorOut ℝ}
    (h : updateMorphology pp j1 j2 a = .ok o) {i : ℕ} {r : Transect ℝ} (hr : a.rows[i+1]? = some r) {yl y yr : ℝ}
    (h1 : ys[i]? = some yl) (h2 : ys[i+1]? = some y) (h3 : ys[i+2]? = some yr) (hw : WideBarrier a.MaxMorChange r y) (f1 : Frontal a.Dx w.dir yl y) (f2 : Frontal a.Dx w.dir y yr)
    (hx : |segRate w a.Dx yl y - segRate w a.Dx y yr - a.Dx * cs (i+1)| * (secs o.MorDt : ℝ) ≤ a.MaxMorChange * hs (i+1) * a.Dx) :
    ∃ r' y', o.rows[i+1]? = some r' ∧ r'.y0 = fin y' ∧ ((yl + yr) / 2 ≤ y → y' ≤ y) ∧ (y ≤ (yl + yr) / 2 → cs (i+1) = 0 → y ≤ y') := by
  obtain ⟨r', y', θ, e1, e2, t1, -, e⟩ := W.new h hr h1 h2 h3 hw f1 f2 hx
  have hp := W.pos (i+1)
  have hd := W.dx
  have hse := secs_nonneg o.MorDt
  have hk : 0 ≤ θ * (secs o.MorDt : ℝ) / (hs (i+1) * a.Dx) := by positivity
  refine ⟨r', y', e1, e2, fun hh => ?_, fun hh h0 => ?_⟩
  · have : 0 ≤ cs (i+1) * (secs o.MorDt : ℝ) / hs (i+1) := div_nonneg (mul_nonneg (W.over _) hse) hp.le
    have := mul_nonpos_of_nonneg_of_nonpos hk (show yl - 2 * y + yr ≤ 0 by linarith)
    linarith
  · rw [h0] at e
    have := mul_nonneg hk (show 0 ≤ yl - 2 * y + yr by linarith)
    rw [e]
    simp only [zero_mul, zero_div, sub_zero]
    linarith

/-- C169, partial: in a completed step of a closed lagoon, short enough for waves and spacing, the shoreline of a transect on a wide barrier that waves reach from the front but do not get over lies between
the most landward and the most seaward of the shorelines it and its neighbours had. Missing: longer steps, for which it is false. -/
theorem C169_partial {pp : PhysPars ℝ} {a : MorIn ℝ} {w : Waves} {ys : List ℝ} {hs cs : ℕ → ℝ} (W : WaveStep pp a w ys hs cs) {j1 j2 : ℕ → Bool} {o : MorOut ℝ}
    (h : updateMorphology pp j1 j2 a = .ok o) {i : ℕ} {r : Transect ℝ} (hr : a.rows[i+1]? = some r) {yl y yr : ℝ}
    (h1 : ys[i]? = some yl) (h2 : ys[i+1]? = some y) (h3 : ys[i+2]? = some yr) (hw : WideBarrier a.MaxMorChange r y) (f1 : Frontal a.Dx w.dir yl y) (f2 : Frontal a.Dx w.dir y yr)
    (hover : cs (i+1) = 0) (hx : |segRate w a.Dx yl y - segRate w a.Dx y yr| * (secs o.MorDt : ℝ) ≤ a.MaxMorChange * hs (i+1) * a.Dx)
    (hshort : 2 * w.drift * (secs o.MorDt : ℝ) ≤ hs (i+1) * a.Dx ^ 2) :
    ∃ r' y', o.rows[i+1]? = some r' ∧ r'.y0 = fin y' ∧ min yl (min y yr) ≤ y' ∧ y' ≤ max yl (max y yr) := by
  obtain ⟨r', y', θ, e1, e2, t1, t2, e⟩ := W.new h hr h1 h2 h3 hw f1 f2 (by rw [hover, mul_zero, sub_zero]; exact hx)
  have hp := W.pos (i+1)
  have hd := W.dx
  have hse := secs_nonneg o.MorDt
  refine ⟨r', y', e1, e2, ?_⟩
  rw [hover, zero_mul, zero_div, sub_zero] at e
  have k0 : 0 ≤ θ * (secs o.MorDt : ℝ) / (hs (i+1) * a.Dx) := by positivity
  have k1 : 2 * (θ * (secs o.MorDt : ℝ) / (hs (i+1) * a.Dx)) ≤ 1 := by
    rw [← mul_div_assoc, div_le_one (by positivity)]
    rw [le_div_iff₀ hd] at t2
    have := mul_le_mul_of_nonneg_right t2 hse
    have h' : 2 * (θ * (secs o.MorDt : ℝ)) * a.Dx ≤ hs (i+1) * a.Dx * a.Dx := by nlinarith
    exact le_of_mul_le_mul_right h' hd
  generalize θ * (secs o.MorDt : ℝ) / (hs (i+1) * a.Dx) = k at e k0 k1
  have b1 : min yl (min y yr) ≤ yl := min_le_left _ _
  have b2 : min yl (min y yr) ≤ y := (min_le_right _ _).trans (min_le_left _ _)
  have b3 : min yl (min y yr) ≤ yr := (min_le_right _ _).trans (min_le_right _ _)
  have c1 : yl ≤ max yl (max y yr) := le_max_left _ _
  have c2 : y ≤ max yl (max y yr) := (le_max_left _ _).trans (le_max_right _ _)
  have c3 : yr ≤ max yl (max y yr) := (le_max_right _ _).trans (le_max_right _ _)
  generalize min yl (min y yr) = m at b1 b2 b3 ⊢
  generalize max yl (max y yr) = M at c1 c2 c3 ⊢
  have ee : y' = k * yl + (1 - 2 * k) * y + k * yr := by rw [e]; ring
  constructor
  · have := mul_le_mul_of_nonneg_left b1 k0
    have := mul_le_mul_of_nonneg_left b3 k0
    have := mul_le_mul_of_nonneg_left b2 (show 0 ≤ 1 - 2 * k by linarith)
    rw [ee]; linarith
  · have := mul_le_mul_of_nonneg_left c1 k0
    have := mul_le_mul_of_nonneg_left c3 k0
    have := mul_le_mul_of_nonneg_left c2 (show 0 ≤ 1 - 2 * k by linarith)
    rw [ee]; linarith

/-- The rational numbers within the reals. -/
noncomputable def qr : ℚ →+*o ℝ := ⟨Rat.castHom ℝ, Rat.cast_mono⟩
theorem qr_eq (q : ℚ) : qr q = (q : ℝ) := rfl

/-- A closed lagoon behind a straight barrier with one headland of 10 m in the middle; waves from straight ahead, `c` times as strong as `demoWaves`, move `c/2` cubic metres a second off it to either side;
limit and minimum of the timestep are far from being reached. -/
def zigIn (c : ℚ) : MorIn ℚ :=
  { buIn with
    rows := [-40, -30, -20, -10, 0, 10, 20, 30, 40].map (fun x => { brRow 0 with x := x, y0 := if x = 0 then fin 110 else fin 100 })
    LST := [fin 0, fin 0, fin 0, fin (-(c/2)), fin (c/2), fin 0, fin 0, fin 0], CST := List.replicate 9 (fin 0)
    MorDt := 240000000000, MaxMorChange := 30 }
def zigPP (c : ℚ) : PhysPars ℚ := { moPP with Gravity := 1, BreakerCoef := 1, WaveDataDepth := 1, K2coef := c }
noncomputable def zigWaves (c : ℝ) : Waves := { demoWaves 0 with k2 := c }
def zigYs : List ℝ := [100, 100, 100, 100, 110, 100, 100, 100, 100]

theorem zig_valid (c : ℝ) (hc : 0 < c) : (zigWaves c).Valid := by
  have hp := pi_pos
  have ht : 0 < tanh (2 * π) := tanh_pos' (by positivity)
  refine ⟨?_, ?_, ?_, ?_, ?_, ?_, ?_⟩ <;> simp only [zigWaves, demoWaves] <;> positivity

theorem zig_drift (c : ℝ) : (zigWaves c).drift = c := by
  unfold Waves.drift
  have h1 : shallowSpeed (zigWaves c).g (zigWaves c).breakDepth = 1 := (demo_speeds 0).1
  have h2 : waveSpeed (zigWaves c).g (zigWaves c).period (zigWaves c).length (zigWaves c).depth = 1 := (demo_speeds 0).2
  rw [h1, h2]
  norm_num [zigWaves, demoWaves]

theorem zig_up (c : ℝ) : segRate (zigWaves c) 10 100 110 = -(c/2) := by
  unfold segRate waveAngle
  rw [show ((100:ℝ) - 110) / 10 = -1 by norm_num, arctan_neg, arctan_one, show 2 * ((zigWaves c).dir - -(π/4)) = π/2 by simp only [zigWaves, demoWaves]; ring, sin_pi_div_two, zig_drift]
  ring
theorem zig_down (c : ℝ) : segRate (zigWaves c) 10 110 100 = c/2 := by
  unfold segRate waveAngle
  rw [show ((110:ℝ) - 100) / 10 = 1 by norm_num, arctan_one, show 2 * ((zigWaves c).dir - π/4) = -(π/2) by simp only [zigWaves, demoWaves]; ring, sin_neg, sin_pi_div_two, zig_drift]
  ring

/-- The transport along that coast under those waves is what the step gets. -/
theorem zig_transport (c : ℝ) (hc : 0 < c) (P : PhysPars ℝ) (hP : Describes (zigWaves c) P) :
    longShoreTransport (zigYs.map fin) (fin 10) (fin (zigWaves c).power) (fin (zigWaves c).period) (fin (zigWaves c).length) (fin (zigWaves c).dir) P =
      [fin 0, fin 0, fin 0, fin (-(c/2)), fin (c/2), fin 0, fin 0, fin 0] := by
  have hr : ∀ a, (zigWaves c).Refracts a := demo_refracts 0
  have flat : segRate (zigWaves c) 10 100 100 = 0 := by
    unfold segRate waveAngle
    rw [sub_self, zero_div, arctan_zero]
    simp [zigWaves, demoWaves]
  have key := fun (i : ℕ) (ya yb : ℝ) ha hb => lst_seg (zigWaves c) (zig_valid c hc) P hP zigYs 10 (by norm_num) i ya yb ha hb (hr _)
  have hl : (longShoreTransport (zigYs.map fin) (fin 10) (fin (zigWaves c).power) (fin (zigWaves c).period) (fin (zigWaves c).length) (fin (zigWaves c).dir) P).length = 8 := by
    rw [longShoreTransport_eq]; rfl
  have k0 := key 0 100 100 rfl rfl
  have k1 := key 1 100 100 rfl rfl
  have k2 := key 2 100 100 rfl rfl
  have k3 := key 3 100 110 rfl rfl
  have k4 := key 4 110 100 rfl rfl
  have k5 := key 5 100 100 rfl rfl
  have k6 := key 6 100 100 rfl rfl
  have k7 := key 7 100 100 rfl rfl
  rw [flat] at k0 k1 k2 k5 k6 k7
  rw [zig_up] at k3
  rw [zig_down] at k4
  unfold lst at k0 k1 k2 k3 k4 k5 k6 k7
  generalize longShoreTransport (zigYs.map fin) (fin 10) (fin (zigWaves c).power) (fin (zigWaves c).period) (fin (zigWaves c).length) (fin (zigWaves c).dir) P = L at *
  match L, hl with
  | [a, b, c, d, e, f, g, h], _ =>
    simp only [List.getElem?_cons_zero, List.getElem?_cons_succ, Option.some.injEq] at k0 k1 k2 k3 k4 k5 k6 k7
    subst k0 k1 k2 k3 k4 k5 k6 k7
    rfl

/-- That coast over the real numbers. -/
noncomputable def zigR (c : ℚ) : MorIn ℝ := icv qr (zigIn c)
noncomputable def zigRP (c : ℚ) : PhysPars ℝ := ppcv qr (zigPP c)

theorem zig_rows (c : ℚ) : (zigIn c).rows.map (fun r => r.y0) = [fin 100, fin 100, fin 100, fin 100, fin 110, fin 100, fin 100, fin 100, fin 100] := by
  show (zigIn 0).rows.map (fun r => r.y0) = _
  decide +kernel

theorem zig_shore (c : ℚ) : (zigR c).rows.map (fun r => r.y0) = zigYs.map fin := by
  have e : (zigR c).rows.map (fun r => r.y0) = ((zigIn c).rows.map (fun r => r.y0)).map (cv qr) := by
    show ((zigIn c).rows.map (tcv qr)).map (fun r => r.y0) = _
    rw [List.map_map, List.map_map]; rfl
  rw [e, zig_rows]
  simp [cv_fin, qr_eq, zigYs]

theorem zig_step (c : ℚ) (hc : 0 < c) (hreg : Regular (zigPP c) (zigIn c)) : WaveStep (zigRP c) (zigR c) (zigWaves c) zigYs (fun _ => 14) (fun _ => 0) := by
  have hP : Describes (zigWaves (c:ℝ)) (zigRP c) := by
    refine ⟨?_, ?_, ?_, ?_⟩ <;> simp [zigRP, ppcv, zigPP, zigWaves, demoWaves, qr_eq]
  have hdx : (zigR c).Dx = 10 := by
    have e : (zigIn c).Dx = 10 := rfl
    simp [zigR, icv, e, qr_eq]
  refine ⟨zig_valid _ (by exact_mod_cast hc), hP, zig_shore c, ?_, fun _ _ _ _ _ => demo_refracts 0 _, ?_, fun _ => by norm_num, ?_, fun _ => le_refl _, ?_, ?_, ?_, regular_cv qr _ _ hreg, rfl⟩
  · rw [zig_shore, hdx, zig_transport _ (by exact_mod_cast hc) _ hP]
    simp [zigR, icv, zigIn, cv_fin, qr_eq]
  · intro i r hr
    have e1 : (zigR c).rows[i]? = ((zigIn c).rows[i]?).map (tcv qr) := List.getElem?_map ..
    rw [e1] at hr
    obtain ⟨q, hq, rfl⟩ := Option.map_eq_some_iff.mp hr
    have hz : ∀ q ∈ (zigIn c).rows, q.z0 = fin 4 := by
      show ∀ q ∈ (zigIn 0).rows, q.z0 = fin 4
      decide +kernel
    have e2 : (zigRP c).ClosureDepth = 10 := by simp [zigRP, ppcv, zigPP, moPP, qr_eq]
    show cv qr q.z0 = _
    rw [hz q (List.mem_of_getElem? hq), e2, cv_fin, qr_eq]
    norm_num
  · intro i hi
    have e1 : (zigR c).CST = List.replicate 9 (fin 0) := by simp [zigR, icv, zigIn, cv_fin, qr_eq]
    have e2 : (zigR c).rows.length = 9 := by simp [zigR, icv, zigIn]
    rw [e1, List.getElem?_replicate, if_pos (by omega)]
  · rw [hdx]; norm_num
  · have : (zigRP c).OutletSedSpreadDist = 20 := by simp [zigRP, ppcv, zigPP, moPP, chPP, qr_eq]
    rw [this]; norm_num
  · have : (zigR c).MaxMorChange = 30 := by simp [zigR, icv, zigIn, qr_eq]
    rw [this]; norm_num

theorem zig_front (c : ℝ) : Frontal 10 (zigWaves c).dir 100 110 ∧ Frontal 10 (zigWaves c).dir 110 100 := by
  have hp := pi_pos
  unfold Frontal waveAngle
  rw [show ((100:ℝ) - 110) / 10 = -1 by norm_num, show ((110:ℝ) - 100) / 10 = 1 by norm_num, arctan_neg, arctan_one]
  constructor
  · rw [show (zigWaves c).dir - -(π/4) = π/4 by simp only [zigWaves, demoWaves]; ring, abs_of_pos (by positivity)]
  · rw [show (zigWaves c).dir - π/4 = -(π/4) by simp only [zigWaves, demoWaves]; ring, abs_neg, abs_of_pos (by positivity)]

theorem zig_row (c : ℚ) : ∃ r, (zigR c).rows[4]? = some r ∧ WideBarrier (zigR c).MaxMorChange r 110 := by
  have e : (zigIn c).rows[4]? = some { brRow 0 with x := 0, y0 := fin 110 } := by
    show (zigIn 0).rows[4]? = _
    decide +kernel
  refine ⟨tcv qr { brRow 0 with x := 0, y0 := fin 110 }, ?_, ?_⟩
  · show ((zigIn c).rows.map (tcv qr))[4]? = _
    rw [List.getElem?_map, e]; rfl
  · refine ⟨?_, rfl, rfl, 20, 0, ?_, ?_, ?_, ?_⟩ <;> simp [tcv, brRow, cv_fin, qr_eq, zigR, icv, zigIn] <;> norm_num

/-- What the step makes of the headland, worked out with rational numbers. -/
theorem zig_new (c y : ℚ) (h : okAnd (updateMorphology (zigPP c) cleanMem cleanMem (zigIn c)) (fun o => !o.Breach && decide (secs o.MorDt = 240) &&
      (match o.rows[4]? with | some r => r.y0 == fin y | none => false)) = true) :
    ∃ o r, updateMorphology (zigRP c) cleanMem cleanMem (zigR c) = .ok o ∧ o.Breach = false ∧ secs o.MorDt = 240 ∧ o.rows[4]? = some r ∧ r.y0 = fin (y : ℝ) := by
  obtain ⟨o, ho, h⟩ := okAnd_iff.mp h
  simp only [Bool.and_eq_true, decide_eq_true_eq, Bool.not_eq_true'] at h
  obtain ⟨⟨h1, h2⟩, h⟩ := h
  split at h
  · next r hr =>
    refine ⟨ocv qr o, tcv qr r, ?_, h1, h2, ?_, ?_⟩
    · unfold zigRP zigR
      rw [update_cv, ho]; rfl
    · show (o.rows.map (tcv qr))[4]? = _
      rw [List.getElem?_map, hr]; rfl
    · show cv qr r.y0 = _
      rw [eq_of_beq h]; rfl
  · cases h

/-- C169 is false of the code for steps that are too long: the headland, 10 m seaward of all the rest, is 7 m landward of where all the rest was after a step of four minutes under waves that reach it from the
front and do not get over the barrier; no check prevents this. -/
theorem C169_refuted : WaveStep (zigRP 10) (zigR 10) (zigWaves 10) zigYs (fun _ => 14) (fun _ => 0) ∧
    (∃ r, (zigR 10).rows[4]? = some r ∧ WideBarrier (zigR 10).MaxMorChange r 110) ∧ Frontal (zigR 10).Dx (zigWaves 10).dir 100 110 ∧ Frontal (zigR 10).Dx (zigWaves 10).dir 110 100 ∧
    (∃ o r, updateMorphology (zigRP 10) cleanMem cleanMem (zigR 10) = .ok o ∧ o.Breach = false ∧ secs o.MorDt = 240 ∧ o.rows[4]? = some r ∧ r.y0 = fin (110 - 10 * 240 / 140 : ℝ)) ∧
    ¬ min (100:ℝ) (min 110 100) ≤ 110 - 10 * 240 / 140 := by
  have hdx : (zigR 10).Dx = 10 := by
    have e : (zigIn 10).Dx = 10 := rfl
    simp [zigR, icv, e, qr_eq]
  refine ⟨by simpa using zig_step 10 (by norm_num) (by decide +kernel), zig_row 10, ?_, ?_, ?_, by norm_num⟩
  · rw [hdx]; exact (zig_front 10).1
  · rw [hdx]; exact (zig_front 10).2
  · obtain ⟨o, r, h1, h2, h3, h4, h5⟩ := zig_new 10 (110 - 10 * 240 / 140) (by decide +kernel)
    exact ⟨o, r, h1, h2, h3, h4, by rw [h5]; norm_num⟩

/-- Concrete case for `C168_partial_step` and `C169_partial`: the same coast under waves a hundredth as strong; all their hypotheses hold, the headland is worn down by 17 cm, and stays between where it was
and its neighbours. -/
example : ∃ o r r', WaveStep (zigRP (1/10)) (zigR (1/10)) (zigWaves (1/10)) zigYs (fun _ => 14) (fun _ => 0) ∧ updateMorphology (zigRP (1/10)) cleanMem cleanMem (zigR (1/10)) = .ok o ∧
    (zigR (1/10)).rows[4]? = some r ∧ WideBarrier (zigR (1/10)).MaxMorChange r 110 ∧ Frontal (zigR (1/10)).Dx (zigWaves (1/10)).dir 100 110 ∧ Frontal (zigR (1/10)).Dx (zigWaves (1/10)).dir 110 100 ∧
    |segRate (zigWaves (1/10)) (zigR (1/10)).Dx 100 110 - segRate (zigWaves (1/10)) (zigR (1/10)).Dx 110 100| * (secs o.MorDt : ℝ) ≤ (zigR (1/10)).MaxMorChange * 14 * (zigR (1/10)).Dx ∧
    2 * (zigWaves (1/10)).drift * (secs o.MorDt : ℝ) ≤ 14 * (zigR (1/10)).Dx ^ 2 ∧ o.rows[4]? = some r' ∧ r'.y0 = fin (110 - 24/140 : ℝ) := by
  have hdx : (zigR (1/10)).Dx = 10 := by
    have e : (zigIn (1/10)).Dx = 10 := rfl
    simp only [zigR, icv, e, qr_eq]; norm_num
  have hm : (zigR (1/10)).MaxMorChange = 30 := by simp [zigR, icv, zigIn, qr_eq]
  obtain ⟨o, r', h1, h2, h3, h4, h5⟩ := zig_new (1/10) (110 - 24/140) (by decide +kernel)
  obtain ⟨r, g1, g2⟩ := zig_row (1/10)
  refine ⟨o, r, r', by simpa using zig_step (1/10) (by norm_num) (by decide +kernel), h1, g1, g2, ?_, ?_, ?_, ?_, h4, by rw [h5]; norm_num⟩
  · rw [hdx]; exact (zig_front _).1
  · rw [hdx]; exact (zig_front _).2
  · rw [hdx, hm, zig_up, zig_down, h3]; norm_num [abs_of_nonpos]
  · rw [hdx, zig_drift, h3]; norm_num

/-- The same waves with `c` times the power. -/
def Waves.times (w : Waves) (c : ℝ) : Waves := { w with power := c * w.power }

theorem times_valid (w : Waves) (hv : w.Valid) (c : ℝ) (hc : 0 < c) : (Waves.times w c).Valid := by
  obtain ⟨hg, hbr, hk, hd, hp, ht, hl⟩ := hv
  exact ⟨hg, hbr, hk, hd, mul_pos hc hp, ht, hl⟩

theorem times_speed (w : Waves) (hv : w.Valid) (c : ℝ) (hc : 0 < c) :
    shallowSpeed (Waves.times w c).g (Waves.times w c).breakDepth = c ^ (1/5 : ℝ) * shallowSpeed w.g w.breakDepth := by
  obtain ⟨hg, hbr, hk, hd, hp, ht, hl⟩ := hv
  unfold shallowSpeed Waves.breakDepth Waves.times
  simp only
  rw [show w.breaker * (c * w.power) = c * (w.breaker * w.power) by ring, mul_rpow hc.le (by positivity),
    show w.g * (c ^ (0.4:ℝ) * (w.breaker * w.power) ^ (0.4:ℝ)) = c ^ (0.4:ℝ) * (w.g * (w.breaker * w.power) ^ (0.4:ℝ)) by ring, sqrt_mul (by positivity)]
  congr 1
  rw [sqrt_eq_rpow, ← rpow_mul hc.le]
  norm_num

/-- C170, partial: with `c` times the wave power, everything else the same, longshore transport along every segment is the 6/5 power of `c` times what it was, as long as refraction has a solution
with the one and with the other. Missing: stronger waves, for which it is not a number. -/
theorem C170_partial (w : Waves) (hv : w.Valid) (P : PhysPars ℝ) (hP : Describes w P) (ys : List ℝ) (dx : ℝ) (hdx : 0 < dx) (c : ℝ) (hc : 0 < c) (i : ℕ) (ya yb : ℝ)
    (ha : ys[i]? = some ya) (hb : ys[i+1]? = some yb) (hr : w.Refracts (waveAngle dx w.dir ya yb)) (hr' : (Waves.times w c).Refracts (waveAngle dx w.dir ya yb)) :
    ∃ q, (lst ys dx w P)[i]? = some (fin q) ∧ (lst ys dx (Waves.times w c) P)[i]? = some (fin (c ^ (6/5 : ℝ) * q)) := by
  refine ⟨_, lst_seg w hv P hP ys dx hdx i ya yb ha hb hr, ?_⟩
  rw [lst_seg (Waves.times w c) (times_valid w hv c hc) P hP ys dx hdx i ya yb ha hb hr']
  congr 2
  unfold segRate Waves.drift
  rw [times_speed w hv c hc, show (6/5 : ℝ) = 1 + 1/5 by norm_num, rpow_add hc, rpow_one]
  simp only [Waves.times]
  ring

/-- Concrete case: twice the power, waves at an angle with sine 1/2 to the left of the normal. -/
example : ∃ q, (lst [0, 0] 1 (demoWaves (-(π/6))) demoPars)[0]? = some (fin q) ∧
    (lst [0, 0] 1 (Waves.times (demoWaves (-(π/6))) 2) demoPars)[0]? = some (fin (2 ^ (6/5 : ℝ) * q)) := by
  refine C170_partial _ (demo_valid _) _ (demo_describes _) [0, 0] 1 one_pos 2 (by norm_num) 0 0 0 rfl rfl (demo_refracts _ _) ?_
  unfold Waves.Refracts
  rw [times_speed _ (demo_valid _) 2 (by norm_num), (demo_speeds _).1, mul_one]
  show _ ≤ waveSpeed (demoWaves (-(π/6))).g (demoWaves (-(π/6))).period (demoWaves (-(π/6))).length (demoWaves (-(π/6))).depth
  rw [(demo_speeds _).2]
  unfold waveAngle
  rw [sub_self, zero_div, arctan_zero, sub_zero]
  simp only [demoWaves, sin_neg, sin_pi_div_six]
  have : (2:ℝ) ^ (1/5 : ℝ) ≤ 2 ^ (1:ℝ) := rpow_le_rpow_of_exponent_le (by norm_num) (by norm_num)
  rw [rpow_one] at this
  rw [show |-(1/2 : ℝ)| = 1/2 by norm_num [abs_of_nonneg]]
  linarith

/-- C170 is false of the code for waves so strong that they would break in deeper water than the data are for: with waves at 45 degrees and 32 times the power there is no number. -/
theorem C170_refuted : (lst [0, 0] 1 (demoWaves (-(π/4))) demoPars)[0]? = some (fin (1/2 : ℝ)) ∧
    (lst [0, 0] 1 (Waves.times (demoWaves (-(π/4))) 32) demoPars)[0]? = some nan := by
  constructor
  · rw [lst_seg _ (demo_valid _) _ (demo_describes _) [0, 0] 1 one_pos 0 0 0 rfl rfl (demo_refracts _ _)]
    unfold segRate waveAngle Waves.drift
    rw [(demo_speeds _).1, (demo_speeds _).2, sub_self, zero_div, arctan_zero, show 2 * ((demoWaves (-(π/4))).dir - 0) = -(π/2) by simp only [demoWaves]; ring, sin_neg, sin_pi_div_two]
    norm_num [demoWaves]
  · refine C05_no_solution_nan _ (times_valid _ (demo_valid _) 32 (by norm_num)) _ ⟨rfl, rfl, rfl, rfl⟩ [0, 0] 1 one_pos 0 0 0 rfl rfl ?_
    unfold Waves.Refracts
    rw [times_speed _ (demo_valid _) 32 (by norm_num), (demo_speeds _).1, mul_one, not_le]
    show waveSpeed (demoWaves (-(π/4))).g (demoWaves (-(π/4))).period (demoWaves (-(π/4))).length (demoWaves (-(π/4))).depth < _
    rw [(demo_speeds _).2]
    unfold waveAngle
    rw [sub_self, zero_div, arctan_zero, sub_zero]
    have h32 : (32:ℝ) ^ (1/5 : ℝ) = 2 := by
      rw [show (32:ℝ) = 2 ^ (5:ℝ) by norm_num, ← rpow_mul (by norm_num)]
      norm_num
    rw [h32]
    simp only [Waves.times, demoWaves, sin_neg, sin_pi_div_four, abs_neg]
    rw [abs_of_pos (by positivity)]
    have : 1 < √(2:ℝ) := by rw [lt_sqrt (by norm_num)]; norm_num
    linarith

end Verif.Props
