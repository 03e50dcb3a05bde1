import Verif.Lemmas.Coast

set_option autoImplicit false

set_option linter.unusedSectionVars false

/-! # Properties C05-C11: longshore transport, runup, overtopping -/

namespace Verif.Props
open Verif Verif.Model Verif.Spec Fl Real

/-- A shoreline of finite positions run through the modelled function. -/
noncomputable abbrev lst (ys : List ℝ) (dx : ℝ) (w : Waves) (P : PhysPars ℝ) : List (Fl ℝ) :=
  longShoreTransport (ys.map fin) (fin dx) (fin w.power) (fin w.period) (fin w.length) (fin w.dir) P

/-- C05: on a segment reached by waves from the seaward side (angle strictly within 90
degrees of the local shore-normal) where refraction has a solution, the transport is a
number; it is zero iff the waves are aligned with the shore-normal, positive iff they
arrive from the left (negative angle), and negative iff from the right. -/
theorem C05_direction (w : Waves) (hv : w.Valid) (P : PhysPars ℝ) (hP : Describes w P) (ys : List ℝ)
    (dx : ℝ) (hdx : 0 < dx) (i : ℕ) (ya yb : ℝ) (ha : ys[i]? = some ya) (hb : ys[i+1]? = some yb)
    (hsea : |waveAngle dx w.dir ya yb| < π / 2) (hr : w.Refracts (waveAngle dx w.dir ya yb)) :
    ∃ q, (lst ys dx w P)[i]? = some (fin q) ∧
      (q = 0 ↔ waveAngle dx w.dir ya yb = 0) ∧
      (0 < q ↔ waveAngle dx w.dir ya yb < 0) ∧
      (q < 0 ↔ 0 < waveAngle dx w.dir ya yb) := by
  have hs := shallowSpeed_pos w hv
  have hw := waveSpeed_pos w hv
  obtain ⟨hg, hbr, hk, hd, hp, ht, hl⟩ := id hv
  refine ⟨_, longShoreTransport_get_eq w hv P hP ys dx hdx.ne' i ya yb ha hb hr, ?_⟩
  obtain ⟨a1, a2⟩ := abs_lt.mp hsea
  set a := waveAngle dx w.dir ya yb
  have hcos : 0 < cos a := cos_pos_of_mem_Ioo ⟨a1, a2⟩
  set c := w.k2 * w.power * cos a * (shallowSpeed w.g w.breakDepth / waveSpeed w.g w.period w.length w.depth)
  have hc : 0 < c := by positivity
  have e : -(w.k2 * w.power * cos a * (sin a * (shallowSpeed w.g w.breakDepth /
      waveSpeed w.g w.period w.length w.depth))) = -(c * sin a) := by simp only [c]; ring
  rw [e]
  have hpos : 0 < a → 0 < sin a := fun h => sin_pos_of_pos_of_lt_pi h (by linarith [pi_pos])
  have hneg : a < 0 → sin a < 0 := fun h => sin_neg_of_neg_of_neg_pi_lt h (by linarith [pi_pos])
  rcases lt_trichotomy a 0 with h | h | h
  · have := mul_neg_of_pos_of_neg hc (hneg h)
    exact ⟨⟨fun _ => by linarith, fun _ => by linarith⟩, ⟨fun _ => h, fun _ => by linarith⟩,
      ⟨fun _ => by linarith, fun _ => by linarith⟩⟩
  · simp [h]
  · have := mul_pos hc (hpos h)
    exact ⟨⟨fun _ => by linarith, fun _ => by linarith⟩, ⟨fun _ => by linarith, fun _ => by linarith⟩,
      ⟨fun _ => h, fun _ => by linarith⟩⟩

/-- C05: where refraction has no solution the function returns nan, never a wrong number. -/
theorem C05_no_solution_nan (w : Waves) (hv : w.Valid) (P : PhysPars ℝ) (hP : Describes w P) (ys : List ℝ)
    (dx : ℝ) (hdx : 0 < dx) (i : ℕ) (ya yb : ℝ) (ha : ys[i]? = some ya) (hb : ys[i+1]? = some yb)
    (hr : ¬ w.Refracts (waveAngle dx w.dir ya yb)) : (lst ys dx w P)[i]? = some nan := by
  rw [lst, longShoreTransport_get _ _ _ _ _ _ _ i (fin ya) (fin yb) (by simp [ha]) (by simp [hb]),
      lstSeg_nan w hv P hP dx ya yb hdx.ne' hr]

/-- Wave conditions in which both wave speeds are 1, used as a concrete case below. -/
noncomputable def demoWaves (dir : ℝ) : Waves :=
  { g := 1, breaker := 1, k2 := 1, depth := 1, power := 1, period := 2 * π / tanh (2 * π), length := 1, dir := dir }

/-- Parameters matching `demoWaves` (the other entries are not used by the function). -/
noncomputable def demoPars : PhysPars ℝ :=
  { Gravity := 1, RhoRiv := 1000, RhoSed := 2650, GrainSize := 0.032, CritShieldsStress := 0.047,
    VoidRatio := 0.3, RoughnessManning := 0.03, GrainRoughness := 0.03, MPM_coef := 8, MPM_exp := 1.5,
    K2coef := 1, BreakerCoef := 1, WaveDataDepth := 1, OT_coef := 1, OT_exp := 1.5, BarRatSlope := 0.1,
    BarRatInt := 1, ClosureDepth := 5, BackshoreElev := 8, MaxOutletElev := 1, MinOutletWidth := 5,
    RiverWidth := 50, SpitWidth := 10, OutletBankEroFac := 0.5, OutletSedSpreadDist := 50,
    WidthDepthRatio := 20, BeachTopElev := 3, ShorelineErosionRate := 0 }

theorem demo_valid (dir : ℝ) : (demoWaves dir).Valid := by
  have := pi_pos
  have h : 0 < tanh (2 * π) := tanh_pos' (by positivity)
  refine ⟨?_, ?_, ?_, ?_, ?_, ?_, ?_⟩ <;> simp only [demoWaves] <;> positivity

theorem demo_describes (dir : ℝ) : Describes (demoWaves dir) demoPars := ⟨rfl, rfl, rfl, rfl⟩

theorem demo_speeds (dir : ℝ) : shallowSpeed (demoWaves dir).g (demoWaves dir).breakDepth = 1 ∧
    waveSpeed (demoWaves dir).g (demoWaves dir).period (demoWaves dir).length (demoWaves dir).depth = 1 := by
  have := pi_pos
  have h : 0 < tanh (2 * π) := tanh_pos' (by positivity)
  constructor
  · simp [shallowSpeed, Waves.breakDepth, demoWaves]
  · simp only [waveSpeed, demoWaves]; field_simp

theorem demo_refracts (dir a : ℝ) : (demoWaves dir).Refracts a := by
  unfold Waves.Refracts
  rw [(demo_speeds dir).1, (demo_speeds dir).2, mul_one]
  exact abs_le.mpr ⟨neg_one_le_sin a, sin_le_one a⟩

/-- Concrete case: a straight shore with waves from 45 degrees on the left moves sediment
to the right at rate 1/2. -/
example : (lst [0, 0] 1 (demoWaves (-(π/4))) demoPars)[0]? = some (fin (1/2)) := by
  rw [lst, longShoreTransport_get _ _ _ _ _ _ _ 0 (fin 0) (fin 0) (by simp) (by simp),
      lstSeg_eq _ (demo_valid _) _ (demo_describes _) 1 0 0 one_ne_zero (demo_refracts _ _),
      (demo_speeds _).1, (demo_speeds _).2]
  simp only [waveAngle, demoWaves]
  norm_num [cos_pi_div_four, sin_pi_div_four, arctan_zero]
  rw [div_mul_div_comm, mul_self_sqrt (by norm_num)]; norm_num

/-- C06: mirroring the shoreline and the wave direction reverses the order and the sign.
Holds for every input, missing and infinite values included. -/
theorem C06_mirror (ys : List (Fl ℝ)) (Dx WP T L E : Fl ℝ) (P : PhysPars ℝ) :
    longShoreTransport ys.reverse Dx WP T L (-E) P =
      ((longShoreTransport ys Dx WP T L E P).map (fun q => -q)).reverse := by
  rw [longShoreTransport_eq, longShoreTransport_eq, zip_tail_reverse, List.map_reverse, List.map_map,
    List.map_map]
  congr 1
  apply List.map_congr_left
  intro p _
  exact lstSeg_mirror Dx WP T L E P p.1 p.2

/-- C07 is false: on every segment whose waves travel offshore (angle strictly between 90
and 180 degrees) and where refraction has a solution, the transport is not zero. -/
theorem C07_refuted_offshore_nonzero (w : Waves) (hv : w.Valid) (P : PhysPars ℝ) (hP : Describes w P)
    (ys : List ℝ) (dx : ℝ) (hdx : 0 < dx) (i : ℕ) (ya yb : ℝ) (ha : ys[i]? = some ya)
    (hb : ys[i+1]? = some yb) (hoff : π / 2 < |waveAngle dx w.dir ya yb|)
    (hpi : |waveAngle dx w.dir ya yb| < π) (hr : w.Refracts (waveAngle dx w.dir ya yb)) :
    ∃ q, (lst ys dx w P)[i]? = some (fin q) ∧ q ≠ 0 := by
  have hs := shallowSpeed_pos w hv
  have hw := waveSpeed_pos w hv
  obtain ⟨hg, hbr, hk, hd, hp, ht, hl⟩ := id hv
  refine ⟨_, longShoreTransport_get_eq w hv P hP ys dx hdx.ne' i ya yb ha hb hr, ?_⟩
  set a := waveAngle dx w.dir ya yb
  have hcos : cos a ≠ 0 := by
    have : cos a < 0 := by
      rw [← cos_abs]
      exact cos_neg_of_pi_div_two_lt_of_lt hoff (by linarith [pi_pos])
    exact this.ne
  have hsin : sin a ≠ 0 := by
    have h0 : sin |a| ≠ 0 := (sin_pos_of_pos_of_lt_pi (by linarith [pi_pos]) hpi).ne'
    rcases abs_choice a with h | h
    · rwa [h] at h0
    · rw [h, sin_neg] at h0; simpa using h0
  have hq : shallowSpeed w.g w.breakDepth / waveSpeed w.g w.period w.length w.depth ≠ 0 := (div_pos hs hw).ne'
  exact neg_ne_zero.mpr (mul_ne_zero (mul_ne_zero (mul_ne_zero hk.ne' hp.ne') hcos) (mul_ne_zero hsin hq))

/-- Witness for the refutation of C07: waves 135 degrees from the shore-normal of a
straight shore still move sediment (rate 1/2). -/
theorem C07_refuted_witness :
    (lst [0, 0] 1 (demoWaves (3 * π / 4)) demoPars)[0]? = some (fin (1/2)) ∧
    π / 2 < |waveAngle 1 (demoWaves (3 * π / 4)).dir 0 0| := by
  have hpi := pi_pos
  constructor
  · rw [lst, longShoreTransport_get _ _ _ _ _ _ _ 0 (fin 0) (fin 0) (by simp) (by simp),
      lstSeg_eq _ (demo_valid _) _ (demo_describes _) 1 0 0 one_ne_zero (demo_refracts _ _),
      (demo_speeds _).1, (demo_speeds _).2]
    simp only [waveAngle, demoWaves]
    have h1 : (3 * π / 4 - arctan ((0 - 0) / 1)) = π - π / 4 := by norm_num; ring
    rw [h1, cos_pi_sub, sin_pi_sub, cos_pi_div_four, sin_pi_div_four]
    congr 2
    have : √2 * √2 = (2 : ℝ) := mul_self_sqrt (by norm_num)
    linear_combination (1/4) * this
  · simp only [waveAngle, demoWaves]
    norm_num
    rw [abs_of_pos (by positivity)]; linarith

/-- C07, the part that holds: transport is zero when the waves run exactly along the shore
(90 degrees), and reversed in sense beyond: the angle past 90 degrees on the right gives
rightward (positive) transport.  Missing: zero transport strictly beyond 90 degrees
(refuted above). -/
theorem C07_partial (w : Waves) (hv : w.Valid) (P : PhysPars ℝ) (hP : Describes w P) (ys : List ℝ)
    (dx : ℝ) (hdx : 0 < dx) (i : ℕ) (ya yb : ℝ) (ha : ys[i]? = some ya) (hb : ys[i+1]? = some yb)
    (hpar : |waveAngle dx w.dir ya yb| = π / 2) (hr : w.Refracts (waveAngle dx w.dir ya yb)) :
    (lst ys dx w P)[i]? = some (fin 0) := by
  rw [lst, longShoreTransport_get _ _ _ _ _ _ _ i (fin ya) (fin yb) (by simp [ha]) (by simp [hb]),
      lstSeg_eq w hv P hP dx ya yb hdx.ne' hr]
  have : cos (waveAngle dx w.dir ya yb) = 0 := by rw [← cos_abs, hpar, cos_pi_div_two]
  rw [this]; simp

/-- C08: every number returned is at most `K2coef * WavePower` in magnitude. Wave power and
parameters are finite; the shoreline may contain missing values. -/
theorem C08_bound (ys : List (Fl ℝ)) (Dx T L E : Fl ℝ) (wp : ℝ) (hwp : 0 ≤ wp) (P : PhysPars ℝ)
    (hk : 0 ≤ P.K2coef) (i : ℕ) (q : ℝ)
    (h : (longShoreTransport ys Dx (fin wp) T L E P)[i]? = some (fin q)) :
    |q| ≤ P.K2coef * wp := by
  rw [longShoreTransport_eq, List.getElem?_map] at h
  obtain ⟨p, _, hq⟩ := Option.map_eq_some_iff.mp h
  have key : ∀ a b : Fl ℝ, ∀ c : ℝ, 0 ≤ c → fin (-c) * npCos a * npSin b = fin q → |q| ≤ c := by
    intro a b c hc hab
    cases a <;> cases b <;> simp only [npCos, npSin, mul_nan, nan_mul, mul_fin, fin.injEq, reduceCtorEq] at hab
    rename_i x y
    rw [← hab, abs_mul, abs_mul, abs_neg, abs_of_nonneg hc]
    have h1 : |cos x| ≤ 1 := abs_cos_le_one x
    have h2 : |sin y| ≤ 1 := abs_sin_le_one y
    calc c * |cos x| * |sin y| ≤ c * 1 * 1 := by gcongr
      _ = c := by ring
  apply key (localEDir Dx E p.1 p.2) (npArcsin (npSin (localEDir Dx E p.1 p.2) *
    celerityRatio (fin wp) T L P)) (P.K2coef * wp) (mul_nonneg hk hwp)
  rw [← hq]
  simp [lstSeg]

/-- C08: multiplying the coefficient `K2coef` by `c` multiplies every returned number by `c`. -/
theorem C08_proportional (ys : List (Fl ℝ)) (Dx T L E : Fl ℝ) (wp c : ℝ) (P : PhysPars ℝ) :
    longShoreTransport ys Dx (fin wp) T L E { P with K2coef := c * P.K2coef } =
      (longShoreTransport ys Dx (fin wp) T L E P).map (fun q => fin c * q) := by
  rw [longShoreTransport_eq, longShoreTransport_eq, List.map_map]
  apply List.map_congr_left
  intro p _
  simp only [Function.comp, lstSeg]
  have hr : celerityRatio (fin wp) T L { P with K2coef := c * P.K2coef } = celerityRatio (fin wp) T L P := rfl
  rw [hr]
  generalize npArcsin _ = b
  generalize localEDir _ _ _ _ = a
  cases a <;> cases b <;> simp [npCos, npSin, mul_assoc]

/-- C08: the value of a segment depends only on the two shoreline positions bounding it. -/
theorem C08_local (ys ys' : List (Fl ℝ)) (Dx WP T L E : Fl ℝ) (P : PhysPars ℝ) (i : ℕ)
    (hi : i + 1 < ys.length) (h0 : ys[i]? = ys'[i]?) (h1 : ys[i+1]? = ys'[i+1]?) :
    (longShoreTransport ys Dx WP T L E P)[i]? = (longShoreTransport ys' Dx WP T L E P)[i]? := by
  have e0 : ys[i]? = some ys[i] := List.getElem?_eq_getElem (by omega)
  have e1 : ys[i+1]? = some ys[i+1] := List.getElem?_eq_getElem hi
  rw [longShoreTransport_get ys _ _ _ _ _ _ i _ _ e0 e1,
    longShoreTransport_get ys' _ _ _ _ _ _ i _ _ (h0 ▸ e0) (h1 ▸ e1)]

/-- C08: there is exactly one value per shore segment. -/
theorem C08_length (ys : List (Fl ℝ)) (Dx WP T L E : Fl ℝ) (P : PhysPars ℝ) :
    (longShoreTransport ys Dx WP T L E P).length = ys.length - 1 := by
  rw [longShoreTransport_eq]; simp

/-- Concrete case for C08: the bound is attained up to the factor 1/2 by `demoWaves`. -/
example : ∃ q : ℝ, (lst [0, 0] 1 (demoWaves (3 * π / 4)) demoPars)[0]? = some (fin q) ∧ q = 1/2 :=
  ⟨_, C07_refuted_witness.1, rfl⟩

/-! ### Runup -/

/-- C09: runup is a non-negative number for non-negative inputs. -/
theorem C09_nonneg (T H S : ℝ) (hT : 0 ≤ T) (hH : 0 ≤ H) (hS : 0 ≤ S) :
    ∃ r, runup (fin T) (fin H) (fin S) = fin r ∧ 0 ≤ r := by
  refine ⟨0.49 * S ^ (0.5 : ℝ) * T * H, ?_, by positivity⟩
  simp only [runup]
  rw [npPow_nonneg hS (by norm_num)]
  simp

/-- C09: no waves (zero height or zero period) give zero runup. -/
theorem C09_zero (T H S : ℝ) (hS : 0 ≤ S) (h : T = 0 ∨ H = 0) :
    runup (fin T) (fin H) (fin S) = fin 0 := by
  simp only [runup]
  rw [npPow_nonneg hS (by norm_num)]
  rcases h with h | h <;> simp [h]

/-- C09: runup never decreases when period, height or slope increase. -/
theorem C09_monotone (T H S T' H' S' : ℝ) (hT : 0 ≤ T) (hH : 0 ≤ H) (hS : 0 ≤ S)
    (h1 : T ≤ T') (h2 : H ≤ H') (h3 : S ≤ S') :
    ∃ r r', runup (fin T) (fin H) (fin S) = fin r ∧ runup (fin T') (fin H') (fin S') = fin r' ∧ r ≤ r' := by
  refine ⟨0.49 * S ^ (0.5 : ℝ) * T * H, 0.49 * S' ^ (0.5 : ℝ) * T' * H', ?_, ?_, ?_⟩
  · simp only [runup]; rw [npPow_nonneg hS (by norm_num)]; simp
  · simp only [runup]; rw [npPow_nonneg (hS.trans h3) (by norm_num)]; simp
  · have : S ^ (0.5 : ℝ) ≤ S' ^ (0.5 : ℝ) := Real.rpow_le_rpow hS h3 (by norm_num)
    have h4 : (0:ℝ) ≤ S' ^ (0.5 : ℝ) := Real.rpow_nonneg (hS.trans h3) _
    have h5 : 0 ≤ T' := hT.trans h1
    gcongr

/-- C09: runup is strictly positive when there are waves on a sloping beach, so it is not
identically zero. -/
theorem C09_positive (T H S : ℝ) (hT : 0 < T) (hH : 0 < H) (hS : 0 < S) :
    ∃ r, runup (fin T) (fin H) (fin S) = fin r ∧ 0 < r := by
  refine ⟨0.49 * S ^ (0.5 : ℝ) * T * H, ?_, by positivity⟩
  simp only [runup]
  rw [npPow_nonneg hS.le (by norm_num)]
  simp

/-- Concrete case: 10 s, 2 m waves on a 1:4 beach run up 4.9 m. -/
example : runup (fin 10) (fin 2) (fin (1/4)) = fin 4.9 := by
  simp only [runup]
  rw [npPow_nonneg (by norm_num) (by norm_num)]
  have : ((1:ℝ)/4) ^ (0.5 : ℝ) = 1/2 := by
    rw [show (0.5 : ℝ) = 1/2 by norm_num, ← Real.sqrt_eq_rpow, Real.sqrt_eq_iff_mul_self_eq] <;> norm_num
  rw [this]; norm_num

/-! ### Overtopping -/

/-- C10: with valid parameters and defined crests the checks never fire, and at each
transect the flux is zero iff runup + sea level does not exceed the crest, and positive
otherwise. -/
theorem C10_flux (r s : ℝ) (Shore : List (Transect ℝ)) (P : PhysPars ℝ) (hc : 0 < P.OT_coef)
    (he : 1 ≤ P.OT_exp) (hz : ∀ t ∈ Shore, ∃ z, t.z0 = fin z) :
    ∃ cst ow, overtopping (fin r) (fin s) Shore P = .ok (cst, ow) ∧
      List.Forall₂ (fun (t : Transect ℝ) c => ∃ z q, t.z0 = fin z ∧ c = fin q ∧
        (r + s ≤ z → q = 0) ∧ (z < r + s → 0 < q)) Shore cst := by
  have hall : ∀ t ∈ Shore, ∃ z, t.z0 = fin z ∧ cstTot (fin r) (fin s) P t =
      fin (P.OT_coef * (max (r + s - z) 0) ^ P.OT_exp) := by
    intro t ht
    obtain ⟨z, hz⟩ := hz t ht
    exact ⟨z, hz, cstTot_fin r s z P t hz (by linarith)⟩
  refine ⟨Shore.map (cstTot (fin r) (fin s) P), Shore.map (overwashProp P), ?_, ?_⟩
  · rw [overtopping_eq]
    have : (Shore.map (cstTot (fin r) (fin s) P)).all (fun c => fin 0 ≤? c) = true := by
      rw [List.all_eq_true]
      intro c hcm
      obtain ⟨t, ht, rfl⟩ := List.mem_map.mp hcm
      obtain ⟨z, _, e⟩ := hall t ht
      rw [e, ble_fin, decide_eq_true_eq]
      exact mul_nonneg hc.le (Real.rpow_nonneg (le_max_right _ _) _)
    rw [if_pos this]
  · rw [List.forall₂_map_right_iff, List.forall₂_same]
    intro t ht
    obtain ⟨z, hz, e⟩ := hall t ht
    refine ⟨z, _, hz, e, ?_, ?_⟩
    · intro h
      rw [max_eq_right (by linarith), Real.zero_rpow (by linarith)]; simp
    · intro h
      rw [max_eq_left (by linarith)]
      exact mul_pos hc (Real.rpow_pos_of_pos (by linarith) _)

/-- C10: raising the runup or the sea level never reduces any flux. -/
theorem C10_monotone (r s r' s' : ℝ) (hr : r ≤ r') (hs : s ≤ s') (Shore : List (Transect ℝ)) (P : PhysPars ℝ)
    (hc : 0 < P.OT_coef) (he : 1 ≤ P.OT_exp) (hz : ∀ t ∈ Shore, ∃ z, t.z0 = fin z) :
    ∃ cst cst' ow ow', overtopping (fin r) (fin s) Shore P = .ok (cst, ow) ∧
      overtopping (fin r') (fin s') Shore P = .ok (cst', ow') ∧
      List.Forall₂ (fun c c' => ∃ q q', c = fin q ∧ c' = fin q' ∧ q ≤ q') cst cst' := by
  obtain ⟨cst, ow, h1, _⟩ := C10_flux r s Shore P hc he hz
  obtain ⟨cst', ow', h2, _⟩ := C10_flux r' s' Shore P hc he hz
  refine ⟨cst, cst', ow, ow', h1, h2, ?_⟩
  have e1 := (overtopping_ok _ _ _ _ _ _ h1).1
  have e2 := (overtopping_ok _ _ _ _ _ _ h2).1
  rw [e1, e2, List.forall₂_map_left_iff, List.forall₂_map_right_iff, List.forall₂_same]
  intro t ht
  obtain ⟨z, hz⟩ := hz t ht
  refine ⟨_, _, cstTot_fin r s z P t hz (by linarith), cstTot_fin r' s' z P t hz (by linarith), ?_⟩
  have : max (r + s - z) 0 ≤ max (r' + s' - z) 0 := max_le_max (by linarith) le_rfl
  have := Real.rpow_le_rpow (le_max_right _ _) this (by linarith : 0 ≤ P.OT_exp)
  gcongr

/-- C10: an undefined crest always trips the internal check (it is never silently treated as
zero flux). -/
theorem C10_nan_crest_rejected (r s : ℝ) (Shore : List (Transect ℝ)) (P : PhysPars ℝ) (he : 1 ≤ P.OT_exp)
    (t : Transect ℝ) (ht : t ∈ Shore) (hz : t.z0 = nan) :
    overtopping (fin r) (fin s) Shore P = .error .assertion := by
  rw [overtopping_eq]
  have hn : cstTot (fin r) (fin s) P t = nan := by
    unfold cstTot overtopPotential
    rw [hz]; simp only [add_fin, sub_nan, npmax, isnan_nan, if_true]
    rw [npPow_nan (by linarith), mul_nan]
  have : (Shore.map (cstTot (fin r) (fin s) P)).all (fun c => fin 0 ≤? c) = false := by
    rw [List.all_eq_false]
    exact ⟨nan, List.mem_map.mpr ⟨t, ht, hn⟩, by simp⟩
  rw [if_neg (by simp [this])]

/-- A barrier transect used as a concrete case: crest 3 m, lagoon behind, no outlet. -/
noncomputable def demoTransect : Transect ℝ :=
  { x := 0, y0 := fin 0, y1 := nan, y2 := nan, y3 := fin (-30), y4 := fin (-100), z0 := fin 3, z1 := nan,
    z2 := nan, z3 := fin 0 }

/-- Concrete case for C10: 2 m of overtopping on the crest gives a positive flux. -/
example : ∃ q, cstTot (fin 4) (fin 1) demoPars demoTransect = fin q ∧ 0 < q := by
  refine ⟨_, cstTot_fin 4 1 3 demoPars demoTransect rfl (by norm_num [demoPars]), ?_⟩
  have : max ((4:ℝ) + 1 - 3) 0 = 2 := by norm_num
  rw [this]
  exact mul_pos (by norm_num [demoPars]) (Real.rpow_pos_of_pos (by norm_num) _)

section
variable {K : Type} [Field K] [LinearOrder K] [IsStrictOrderedRing K]

/-- C11: rule where no outlet channel is present: overwash iff there is a lagoon and the
crest is higher than the target height for its width (at least 1 mm). -/
theorem C11_no_outlet (P : PhysPars K) (t : Transect K) (y0 y3 y4 z0 : K) (h1 : t.y1 = nan)
    (e0 : t.y0 = fin y0) (e3 : t.y3 = fin y3) (e4 : t.y4 = fin y4) (ez : t.z0 = fin z0) :
    overwashProp P t = true ↔
      y4 < y3 ∧ max (y0 - y3) (1/1000) * P.BarRatSlope + P.BarRatInt < z0 := by
  simp only [overwashProp, h1, e0, e3, e4, ez, isnan_nan, Bool.not_true, sub_fin, npmax_fin, mul_fin,
    add_fin, blt_fin, ble_fin, Bool.false_eq_true, if_false, decide_eq_true_eq]
  by_cases h : y3 ≤ y4
  · simp [h, not_lt.mpr h]
  · simp [h, not_le.mp h]

/-- C11: rule where an outlet channel is present: overwash iff the channel has no width left
or the crest is higher than the target height for its width. -/
theorem C11_outlet (P : PhysPars K) (t : Transect K) (y0 y1 y2 z0 : K)
    (e0 : t.y0 = fin y0) (e1 : t.y1 = fin y1) (e2 : t.y2 = fin y2) (ez : t.z0 = fin z0) :
    overwashProp P t = true ↔
      y1 ≤ y2 ∨ (y0 - y1) * P.BarRatSlope + P.BarRatInt < z0 := by
  simp only [overwashProp, e0, e1, e2, ez, isnan_fin, Bool.not_false, sub_fin, mul_fin,
    add_fin, blt_fin, ble_fin, Bool.false_eq_true, if_false, if_true, decide_eq_true_eq]
  by_cases h : y1 ≤ y2 <;> simp [h]

end

/-- C11: the overwash flags returned by the function are exactly the transect-by-transect rule
of the two theorems above, one per transect, all or nothing. -/
theorem C11_flags (r s : Fl ℝ) (Shore : List (Transect ℝ)) (P : PhysPars ℝ) (cst : List (Fl ℝ)) (ow : List Bool)
    (h : overtopping r s Shore P = .ok (cst, ow)) :
    List.Forall₂ (fun t o => o = overwashProp P t) Shore ow := by
  have e := (overtopping_ok _ _ _ _ _ _ h).2
  rw [e, List.forall₂_map_right_iff, List.forall₂_same]
  intro t _; rfl

/-- Concrete cases for C11: a wide low crest does not overwash, a narrow high one does, and a
closed channel always does. -/
example :
    overwashProp (K := ℝ) demoPars demoTransect = false ∧
    overwashProp (K := ℝ) demoPars { demoTransect with z0 := fin 5 } = true ∧
    overwashProp (K := ℝ) demoPars { demoTransect with y1 := fin (-10), y2 := fin (-10) } = true := by
  refine ⟨?_, ?_, ?_⟩
  · rw [← Bool.not_eq_true, C11_no_outlet _ _ 0 (-30) (-100) 3 rfl rfl rfl rfl rfl]
    norm_num [demoPars]
  · rw [C11_no_outlet _ _ 0 (-30) (-100) 5 rfl rfl rfl rfl rfl]
    norm_num [demoPars]
  · rw [C11_outlet _ _ 0 (-10) (-10) 3 rfl rfl rfl rfl]
    norm_num [demoPars]

end Verif.Props
