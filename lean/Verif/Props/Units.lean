import Verif.Spec.Units
import Verif.Props.Stretch
import Verif.Props.Coast
import Verif.Props.Steady

set_option autoImplicit false
set_option linter.unusedSectionVars false

/-! # C178: the units of measurement do not matter -/

namespace Verif.Props
open Verif Fl Verif.Model Verif.Spec Real

section units
variable {L T M : ℝ} (hL : 0 < L) (hT : 0 < T) (hM : 0 < M) (P : PhysPars ℝ)

/-! ## Bedload -/

include hL hT hM in
theorem node_units (s : ℝ) (B h V : Fl ℝ) :
    nodeBedload (inUnits L T M P) (L ^ 2 / T * s) (sc L B) (sc L h) (sc (L / T) V) = sc (L ^ 3 / T) (nodeBedload P s B h V) := by
  have h3 : 0 < L ^ (1 / 3 : ℝ) := rpow_pos_of_pos hL _
  have h4 : 0 < L ^ (4 / 3 : ℝ) := rpow_pos_of_pos hL _
  have a3 : L ^ (1 / 3 : ℝ) * L ^ (1 / 3 : ℝ) * L ^ (4 / 3 : ℝ) = L ^ 2 := by
    rw [← rpow_add hL, ← rpow_add hL]; norm_num
  have hv : 0 < L / T := by positivity
  have hr : 0 < T / L ^ (1 / 3 : ℝ) := by positivity
  have eG : fin (inUnits L T M P).GrainRoughness = sc (T / L ^ (1 / 3 : ℝ)) (fin P.GrainRoughness) := rfl
  have eS : (sc (L / T) V * sc (L / T) V) * (fin (inUnits L T M P).GrainRoughness * fin (inUnits L T M P).GrainRoughness) / npPow (sc L h) (4/3) =
      (V * V) * (fin P.GrainRoughness * fin P.GrainRoughness) / npPow h (4/3) := by
    rw [eG, sc_mul2 hv hv, sc_mul2 hr hr, sc_mul2 (by positivity) (by positivity), sc_pow hL, sc_div2 (by positivity) h4]
    have e : L / T * (L / T) * (T / L ^ (1 / 3 : ℝ) * (T / L ^ (1 / 3 : ℝ))) / L ^ (4 / 3 : ℝ) = 1 := by
      rw [div_eq_one_iff_eq h4.ne']
      field_simp
      nlinarith [a3]
    rw [e, sc_one]
  have hD : 0 < M / L ^ 3 * (L / T ^ 2) := by positivity
  have eR : fin (inUnits L T M P).RhoRiv * fin (inUnits L T M P).Gravity = sc (M / L ^ 3 * (L / T ^ 2)) (fin P.RhoRiv * fin P.Gravity) :=
    sc_mul2 (by positivity) (by positivity) (fin P.RhoRiv) (fin P.Gravity)
  have eD : (fin (inUnits L T M P).RhoSed - fin (inUnits L T M P).RhoRiv) * fin (inUnits L T M P).Gravity * fin (inUnits L T M P).GrainSize =
      sc (M / L ^ 3 * (L / T ^ 2) * L) ((fin P.RhoSed - fin P.RhoRiv) * fin P.Gravity * fin P.GrainSize) := by
    show (sc (M / L ^ 3) (fin P.RhoSed) - sc (M / L ^ 3) (fin P.RhoRiv)) * sc (L / T ^ 2) (fin P.Gravity) * sc L (fin P.GrainSize) = _
    rw [← sc_sub, sc_mul2 (by positivity) (by positivity), sc_mul2 hD hL]
  have eV : (sc (L / T) V <? fin 0) = (V <? fin 0) := by rw [← sc_zero (L / T), sc_blt _ hv, sc_zero]
  have hq : 0 < L ^ 3 / T := by positivity
  unfold nodeBedload
  dsimp only
  rw [eS, eR, eD, eV, sc_mul2 hD hL, ← sc_mul_left _ (by positivity), sc_div2 (by positivity) (by positivity), div_self (by positivity), sc_one]
  show (if _ then fin P.MPM_coef * npPow (npmax (_ - fin P.CritShieldsStress) _) P.MPM_exp * _ * _ / (fin 1 - fin P.VoidRatio) * _ else
    fin P.MPM_coef * npPow (npmax (_ - fin P.CritShieldsStress) _) P.MPM_exp * _ * _ / (fin 1 - fin P.VoidRatio)) = _
  rw [← sc_mul_right L hL, ← sc_fin (L ^ 2 / T) s, sc_mul2 hL (by positivity), show L * (L ^ 2 / T) = L ^ 3 / T by ring, ← sc_div _ hq, ← sc_mul_left _ hq, apply_ite (sc (L ^ 3 / T))]

include hL hT hM in
/-- C178, bedload: in other units `calcBedload` gives the same bedload, or the same error. -/
theorem C178_bedload (Psi : ℝ) (B h V : List (Fl ℝ)) :
    calcBedload (B.map (times L)) (h.map (times L)) (V.map (times (L / T))) (inUnits L T M P) Psi = (calcBedload B h V P Psi).map (List.map (times (L ^ 3 / T))) := by
  have hq : 0 < L ^ 3 / T := by positivity
  have hD : 0 < M / L ^ 3 := by positivity
  have et : ∀ q : ℝ, times q = sc q := fun q => funext (times_eq q)
  rw [et, et, et]
  unfold calcBedload
  have f1 : (inUnits L T M P).RhoRiv = M / L ^ 3 * P.RhoRiv := rfl
  by_cases h0 : P.RhoRiv = 0
  · rw [if_pos (by rw [f1, h0, mul_zero]), if_pos h0]; rfl
  · rw [if_neg (by rw [f1]; exact mul_ne_zero hD.ne' h0), if_neg h0]
    dsimp only
    have eb : ((inUnits L T M P).RhoSed / (inUnits L T M P).RhoRiv - 1) * (inUnits L T M P).Gravity * (inUnits L T M P).GrainSize ^ 3 =
        (L ^ 2 / T) ^ 2 * ((P.RhoSed / P.RhoRiv - 1) * P.Gravity * P.GrainSize ^ 3) := by
      show (M / L ^ 3 * P.RhoSed / (M / L ^ 3 * P.RhoRiv) - 1) * (L / T ^ 2 * P.Gravity) * (L * P.GrainSize) ^ 3 = _
      rw [mul_div_mul_left _ _ hD.ne']
      field_simp
    have hd3 : 0 < (L ^ 2 / T) ^ 2 := by positivity
    rw [eb]
    by_cases h1 : (P.RhoSed / P.RhoRiv - 1) * P.Gravity * P.GrainSize ^ 3 < 0
    · rw [if_pos h1, if_pos (by nlinarith)]; rfl
    · rw [if_neg h1, if_neg (by push Not at h1 ⊢; positivity)]
      push Not at h1
      have es : ((L ^ 2 / T) ^ 2 * ((P.RhoSed / P.RhoRiv - 1) * P.Gravity * P.GrainSize ^ 3)) ^ (0.5 : ℝ) =
          L ^ 2 / T * ((P.RhoSed / P.RhoRiv - 1) * P.Gravity * P.GrainSize ^ 3) ^ (0.5 : ℝ) := by
        rw [mul_rpow hd3.le h1]
        congr 1
        rw [← rpow_natCast, ← rpow_mul (by positivity)]
        norm_num
      rw [es]
      generalize ((P.RhoSed / P.RhoRiv - 1) * P.Gravity * P.GrainSize ^ 3) ^ (0.5 : ℝ) = s
      show Except.ok _ = Except.ok _
      refine congrArg Except.ok ?_
      have en : ((B.map (sc L)).zip ((h.map (sc L)).zip (V.map (sc (L / T))))).map (fun t => nodeBedload (inUnits L T M P) (L ^ 2 / T * s) t.1 t.2.1 t.2.2) =
          ((B.zip (h.zip V)).map (fun t => nodeBedload P s t.1 t.2.1 t.2.2)).map (sc (L ^ 3 / T)) := by
        rw [List.zip_map, List.zip_map, List.map_map, List.map_map]
        refine List.map_congr_left (fun t _ => ?_)
        exact node_units hL hT hM P s t.1 t.2.1 t.2.2
      rw [en, ← List.map_dropLast, ← List.map_tail, List.zip_map, List.map_map, List.map_map]
      refine List.map_congr_left (fun t _ => ?_)
      show (fin 1 - fin Psi) * sc _ t.1 + fin Psi * sc _ t.2 = sc _ ((fin 1 - fin Psi) * t.1 + fin Psi * t.2)
      rw [sc_add, sc_mul_right _ hq, sc_mul_right _ hq]

/-! ## Longshore transport -/

include hL in
theorem angle_units (Dx E a b : Fl ℝ) : localEDir (sc L Dx) E (sc L a) (sc L b) = localEDir Dx E a b := by
  unfold localEDir
  rw [← sc_sub, sc_div2 hL hL, div_self hL.ne', sc_one]

include hL hT hM in
theorem celerity_units (W Tz Wl : Fl ℝ) :
    celerityRatio (sc (M * L / T ^ 3) W) (sc T Tz) (sc L Wl) (inUnits L T M P) = celerityRatio W Tz Wl P := by
  have h32 : 0 < L ^ (3 / 2 : ℝ) := rpow_pos_of_pos hL _
  have hg : 0 < L / T ^ 2 := by positivity
  have e1 : fin (inUnits L T M P).BreakerCoef * sc (M * L / T ^ 3) W = sc (L ^ (5 / 2 : ℝ)) (fin P.BreakerCoef * W) := by
    show sc (L ^ (3 / 2 : ℝ) * T ^ 3 / M) (fin P.BreakerCoef) * _ = _
    rw [sc_mul2 (by positivity) (by positivity)]
    congr 1
    have : L ^ (5 / 2 : ℝ) = L ^ (3 / 2 : ℝ) * L := by
      nth_rewrite 3 [← rpow_one L]
      rw [← rpow_add hL]; norm_num
    rw [this]
    field_simp
  have e2 : npPow (fin (inUnits L T M P).BreakerCoef * sc (M * L / T ^ 3) W) 0.4 = sc L (npPow (fin P.BreakerCoef * W) 0.4) := by
    rw [e1, sc_pow (rpow_pos_of_pos hL _), ← rpow_mul hL.le]
    norm_num
  have e3 : npPow (fin (inUnits L T M P).Gravity * sc L (npPow (fin P.BreakerCoef * W) 0.4)) 0.5 = sc (L / T) (npPow (fin P.Gravity * npPow (fin P.BreakerCoef * W) 0.4) 0.5) := by
    show npPow (sc (L / T ^ 2) (fin P.Gravity) * _) 0.5 = _
    rw [sc_mul2 hg hL, sc_pow (by positivity), show L / T ^ 2 * L = (L / T) ^ 2 by field_simp, ← rpow_natCast, ← rpow_mul (by positivity)]
    norm_num
  have e4 : fin (inUnits L T M P).Gravity * sc T Tz / (fin 2 * fin π) = sc (L / T) (fin P.Gravity * Tz / (fin 2 * fin π)) := by
    show sc (L / T ^ 2) (fin P.Gravity) * _ / _ = _
    rw [sc_mul2 hg hT, ← sc_div _ (by positivity)]
    congr 1
    field_simp
  have e5 : fin 2 * fin π * fin (inUnits L T M P).WaveDataDepth / sc L Wl = fin 2 * fin π * fin P.WaveDataDepth / Wl := by
    show fin 2 * fin π * sc L (fin P.WaveDataDepth) / _ = _
    rw [← sc_mul_right L hL (fin 2 * fin π), sc_div2 hL hL, div_self hL.ne', sc_one]
  have hv : 0 < L / T := by positivity
  unfold celerityRatio
  dsimp only
  rw [e2, e3, e4, e5, ← sc_mul_left _ hv, sc_div2 hv hv, div_self hv.ne', sc_one]

include hL hT hM in
/-- C178, longshore transport: in other units `longShoreTransport` gives the same transport in every segment. -/
theorem C178_longshore (Y : List (Fl ℝ)) (Dx W Tz Wl E : Fl ℝ) :
    longShoreTransport (Y.map (times L)) (times L Dx) (times (M * L / T ^ 3) W) (times T Tz) (times L Wl) E (inUnits L T M P) =
      (longShoreTransport Y Dx W Tz Wl E P).map (times (L ^ 3 / T)) := by
  have et : ∀ q : ℝ, times q = sc q := fun q => funext (times_eq q)
  have hq : 0 < L ^ 3 / T := by positivity
  rw [et, et, et, et]
  unfold longShoreTransport
  dsimp only
  rw [celerity_units hL hT hM, ← List.map_dropLast, ← List.map_tail, List.zip_map, List.map_map, List.map_map, List.map_map, List.map_map]
  refine List.map_congr_left (fun t _ => ?_)
  show -(sc (L ^ 2 * T ^ 2 / M) (fin P.K2coef)) * sc (M * L / T ^ 3) W * npCos (localEDir (sc L Dx) E (sc L t.1) (sc L t.2)) *
      npSin (npArcsin (npSin (localEDir (sc L Dx) E (sc L t.1) (sc L t.2)) * _)) =
    sc (L ^ 3 / T) (-(fin P.K2coef) * W * npCos (localEDir Dx E t.1 t.2) * npSin (npArcsin (npSin (localEDir Dx E t.1 t.2) * _)))
  rw [angle_units hL, ← sc_neg, sc_mul2 (by positivity) (by positivity), show L ^ 2 * T ^ 2 / M * (M * L / T ^ 3) = L ^ 3 / T by field_simp, ← sc_mul_left _ hq, ← sc_mul_left _ hq]

include hL hT hM in
/-- C178, derived coefficients: from a configuration in other units loadModel calculates the coefficients of longshore transport of that configuration in those units
(as in `inUnits`), or fails with the same error. -/
theorem C178_coefficients (v v' : Conf ℝ) (h1 : Restated v v' "RhoSed" (M / L ^ 3)) (h2 : Restated v v' "RhoSea" (M / L ^ 3)) (h3 : Restated v v' "Gravity" (L / T ^ 2))
    (h4 : Restated v v' "VoidRatio" 1) (h5 : Restated v v' "Kcoef" 1) (h6 : Restated v v' "GammaRatio" 1) (hg : ∀ g, v "PhysicalParameters" "Gravity" = .flt (fin g) → 0 ≤ g) :
    lstPars (fun x => x ^ (3 / 2 : ℝ)) v' = (lstPars (fun x => x ^ (3 / 2 : ℝ)) v).map (fun c => (L ^ 2 * T ^ 2 / M * c.1, L ^ (3 / 2 : ℝ) * T ^ 3 / M * c.2)) := by
  obtain ⟨rs, a1, b1⟩ := h1
  obtain ⟨ro, a2, b2⟩ := h2
  obtain ⟨g, a3, b3⟩ := h3
  obtain ⟨vo, a4, b4⟩ := h4
  obtain ⟨kc, a5, b5⟩ := h5
  obtain ⟨ga, a6, b6⟩ := h6
  have hg0 := hg g a3
  have h32 : 0 < L ^ (3 / 2 : ℝ) := rpow_pos_of_pos hL _
  have eg : (L / T ^ 2 * g) ^ (3 / 2 : ℝ) = L ^ (3 / 2 : ℝ) / T ^ 3 * g ^ (3 / 2 : ℝ) := by
    rw [mul_rpow (by positivity) hg0, div_rpow hL.le (by positivity), ← rpow_natCast T 2, ← rpow_mul hT.le]
    norm_num
  have c1 : (M / L ^ 3 * rs - M / L ^ 3 * ro) * (L / T ^ 2 * g) * (1 - 1 * vo) = M / (L ^ 2 * T ^ 2) * ((rs - ro) * g * (1 - vo)) := by
    rw [one_mul]; field_simp
  have c2 : M / L ^ 3 * ro * (L / T ^ 2 * g) ^ (3 / 2 : ℝ) * (1 * ga * (1 * ga)) = M / (L ^ (3 / 2 : ℝ) * T ^ 3) * (ro * g ^ (3 / 2 : ℝ) * (ga * ga)) := by
    rw [eg, one_mul]
    have : L ^ 3 = L ^ (3 / 2 : ℝ) * L ^ (3 / 2 : ℝ) := by rw [← rpow_add hL]; norm_num
    rw [this]
    field_simp
  have p1 : M / (L ^ 2 * T ^ 2) ≠ 0 := by positivity
  have p2 : M / (L ^ (3 / 2 : ℝ) * T ^ 3) ≠ 0 := by positivity
  have hn : ∀ (w : Conf ℝ) k x, w "PhysicalParameters" k = .flt (fin x) → w.num "PhysicalParameters" k = .ok x := fun w k x e => by
    unfold Conf.num; rw [e]
  unfold lstPars
  rw [hn v _ _ a1, hn v _ _ a2, hn v _ _ a3, hn v _ _ a4, hn v _ _ a5, hn v _ _ a6, hn v' _ _ b1, hn v' _ _ b2, hn v' _ _ b3, hn v' _ _ b4, hn v' _ _ b5, hn v' _ _ b6]
  simp only [bind, Except.bind, pure, Except.pure]
  rw [c1, c2]
  simp only [mul_eq_zero, p1, p2, false_or]
  by_cases z1 : ((rs - ro = 0 ∨ g = 0) ∨ 1 - vo = 0)
  · rw [if_pos z1, if_pos z1]; rfl
  · rw [if_neg z1, if_neg z1]
    split_ifs
    · rfl
    · show Except.ok _ = Except.ok _
      refine congrArg Except.ok (Prod.ext ?_ ?_)
      · show 1 * kc / _ = _ * (kc / _)
        rw [one_mul]; field_simp
      · show 8 / _ = _ * (8 / _)
        field_simp
/-! ## Overtopping -/

theorem sc_ble {q : ℝ} (hq : 0 < q) (a b : Fl ℝ) : (sc q a ≤? sc q b) = (a ≤? b) := by
  cases a <;> cases b <;> first | rfl | exact decide_eq_decide.mpr (mul_le_mul_iff_right₀ hq)

include hL hT in
theorem cst_units (R S : Fl ℝ) (t : Transect ℝ) : cstTot (sc L R) (sc L S) (inUnits L T M P) (unitTransect L t) = sc (L ^ 2 / T) (cstTot R S P t) := by
  have e1 : overtopPotential (sc L R) (sc L S) (unitTransect L t) = sc L (overtopPotential R S t) := by
    unfold overtopPotential
    show npmax (sc L R + sc L S - times L t.z0) (fin 0) = _
    rw [times_eq, sc_npmax _ hL, sc_sub, sc_add, sc_zero]
  have h2 : 0 < L ^ (2 - P.OT_exp) := rpow_pos_of_pos hL _
  have h3 : 0 < L ^ P.OT_exp := rpow_pos_of_pos hL _
  unfold cstTot
  rw [e1, sc_pow hL]
  show sc (L ^ (2 - P.OT_exp) / T) (fin P.OT_coef) * sc (L ^ P.OT_exp) _ = _
  rw [sc_mul2 (by positivity) h3]
  congr 1
  rw [div_mul_eq_mul_div, ← rpow_add hL, sub_add_cancel]
  norm_num

/-- The barrier is at least 1 mm and one thousandth of the new unit wide where there is a lagoon without a channel. -/
def BroadEnough (L : ℝ) (t : Transect ℝ) : Prop :=
  t.y1.isnan = true → (t.y3 ≤? t.y4) = false → ∃ y0 y3, t.y0 = fin y0 ∧ t.y3 = fin y3 ∧ 1 / 1000 ≤ y0 - y3 ∧ 1 / 1000 ≤ L * (y0 - y3)

include hL in
theorem flag_units (t : Transect ℝ) (hb : BroadEnough L t) : overwashProp (inUnits L T M P) (unitTransect L t) = overwashProp P t := by
  have eb : ∀ c : Fl ℝ, (sc L c * fin P.BarRatSlope + sc L (fin P.BarRatInt) <? sc L t.z0) = (c * fin P.BarRatSlope + fin P.BarRatInt <? t.z0) := fun c => by
    rw [← sc_mul_left _ hL, ← sc_add, sc_blt _ hL]
  have hn : (times L t.y1).isnan = t.y1.isnan := by rw [times_eq, sc_isnan]
  have hl : (times L t.y3 ≤? times L t.y4) = (t.y3 ≤? t.y4) := by rw [times_eq, times_eq, sc_ble hL]
  have hz : (times L t.y1 ≤? times L t.y2) = (t.y1 ≤? t.y2) := by rw [times_eq, times_eq, sc_ble hL]
  unfold overwashProp
  dsimp only [unitTransect]
  rw [hn, hl, hz]
  cases h1 : t.y1.isnan with
  | false =>
    simp only [Bool.not_false, if_true]
    rw [times_eq, times_eq, times_eq, ← sc_sub]
    show (if _ then true else if _ then false else (sc L _ * fin P.BarRatSlope + sc L (fin P.BarRatInt) <? _)) = _
    rw [eb]
  | true =>
    simp only [Bool.not_true]
    cases h2 : (t.y3 ≤? t.y4) with
    | true => simp
    | false =>
      obtain ⟨y0, y3, e0, e3, b1, b2⟩ := hb h1 h2
      have m1 : npmax (t.y0 - t.y3) (fin (1/1000)) = fin (y0 - y3) := by
        rw [e0, e3, sub_fin, npmax_fin, max_eq_left b1]
      have m2 : npmax (times L t.y0 - times L t.y3) (fin (1/1000)) = sc L (fin (y0 - y3)) := by
        rw [times_eq, times_eq, ← sc_sub, e0, e3, sub_fin, sc_fin, npmax_fin, max_eq_left b2]
      rw [m1, m2, times_eq L t.z0]
      simp only [Bool.false_eq_true, if_false]
      exact eb _

include hL hT in
/-- C178, overtopping: in other units `overtopping` gives the same fluxes and carries them to the same places, or fails alike. Missing: barriers narrower than 1 mm or
than one thousandth of the new unit. -/
theorem C178_overtopping_partial (R S : Fl ℝ) (Shore : List (Transect ℝ)) (hb : ∀ t ∈ Shore, BroadEnough L t) :
    overtopping (times L R) (times L S) (Shore.map (unitTransect L)) (inUnits L T M P) =
      (overtopping R S Shore P).map (fun r => (r.1.map (times (L ^ 2 / T)), r.2)) := by
  have hq : 0 < L ^ 2 / T := by positivity
  have e1 : (Shore.map (unitTransect L)).map (cstTot (times L R) (times L S) (inUnits L T M P)) = (Shore.map (cstTot R S P)).map (sc (L ^ 2 / T)) := by
    rw [List.map_map, List.map_map]
    refine List.map_congr_left (fun t _ => ?_)
    rw [Function.comp_apply, times_eq, times_eq]
    exact cst_units hL hT P R S t
  have e2 : (Shore.map (unitTransect L)).map (overwashProp (inUnits L T M P)) = Shore.map (overwashProp P) := by
    rw [List.map_map]
    exact List.map_congr_left (fun t ht => flag_units hL P t (hb t ht))
  have e3 : ((Shore.map (cstTot R S P)).map (sc (L ^ 2 / T))).all (fun c => fin 0 ≤? c) = (Shore.map (cstTot R S P)).all (fun c => fin 0 ≤? c) := by
    rw [List.all_map]
    congr 1
    funext c
    show (fin 0 ≤? sc _ c) = _
    rw [← sc_zero (L ^ 2 / T), sc_ble hq, sc_zero]
  unfold overtopping
  dsimp only
  rw [e1, e2, e3, show times (L ^ 2 / T) = sc (L ^ 2 / T) from funext (times_eq _)]
  unfold pyAssert
  split_ifs <;> rfl
end units

/-! ## Steady flow -/

/-- C178, steady flow: in units in which the number of gravity is the same, `solveSteady` gives the same flow, or the same error. Missing: all other units. -/
theorem C178_flow_partial {T : ℝ} (hT : 0 < T) (p : SteadyPars) (dx z B : List (Fl ℝ)) :
    solveSteady (flowUnits (T ^ 2) T p) (dx.map (times (T ^ 2))) (z.map (times (T ^ 2))) (B.map (times (T ^ 2))) =
      (solveSteady p dx z B).map (fun (d, u) => (d.map (times (T ^ 2)), u.map (times (T ^ 2 / T)))) := by
  have hL : 0 < T ^ 2 := by positivity
  have hs : √(T ^ 2) = T := sqrt_sq hT.le
  have e : flowUnits (T ^ 2) T p = scalePars (T ^ 2) (T ^ 2) (T ^ 2) p := by
    have e1 : T / (T ^ 2) ^ (1 / 3 : ℝ) * p.n = p.n * (T ^ 2) ^ (2 / 3 : ℝ) / T := by
      have h3 : 0 < (T ^ 2) ^ (1 / 3 : ℝ) := rpow_pos_of_pos hL _
      have h5 : (T ^ 2) ^ (1 / 3 : ℝ) * (T ^ 2) ^ (2 / 3 : ℝ) = T ^ 2 := by rw [← rpow_add hL]; norm_num
      rw [eq_div_iff hT.ne', div_mul_eq_mul_div, div_mul_eq_mul_div, div_eq_iff h3.ne']
      linear_combination (-p.n) * h5
    have e2 : (T ^ 2) ^ (3 / 2 : ℝ) = T ^ 3 := by
      rw [← rpow_natCast T 2, ← rpow_mul hT.le]
      norm_num
    unfold flowUnits scalePars
    rw [hs, e1, e2]
    congr 1
    field_simp
  have := C175_flow (T ^ 2) (T ^ 2) (T ^ 2) hL hL hL p dx z B
  rw [hs] at this
  rw [e, this, show T ^ 2 / T = T by field_simp]

/-- C178 is false of steady flow wherever the number of gravity changes with the units, as `solveSteady` calculates with 9.81 in any units: where the water falls freely into
the sea, the depth there is not the same. -/
theorem C178_refuted_general {L T : ℝ} (hL : 0 < L) (hT : 0 < T) (hg : L ≠ T ^ 2) (p : SteadyPars) (hQ : p.Q ≠ 0) (dx z B : List ℝ) (c : IsChannel dx z B) (zN : ℝ)
    (hz : z.getLast? = some zN) (hsea : p.DsWL ≤ zN) (d u d' u' : List (Fl ℝ)) (h : steady p dx z B = .ok (d, u))
    (h' : steady (flowUnits L T p) (dx.map (L * ·)) (z.map (L * ·)) (B.map (L * ·)) = .ok (d', u')) : d' ≠ d.map (times L) := by
  have hBne : B ≠ [] := by
    intro hB
    have := c.hB
    rw [hB] at this
    exact c.ne (List.length_eq_zero_iff.mp this.symm)
  have c' : IsChannel (dx.map (L * ·)) (z.map (L * ·)) (B.map (L * ·)) :=
    ⟨by simpa using c.ne, by simpa using c.hB, by simpa using c.hdx, fun b hb => by
      obtain ⟨a, ha, rfl⟩ := List.mem_map.mp hb
      exact mul_pos hL (c.pos a ha)⟩
  have hBl := List.getLast?_eq_some_getLast hBne
  have hb0 := c.pos _ (List.getLast_mem hBne)
  generalize B.getLast hBne = b at hBl hb0
  have hQ' : (flowUnits L T p).Q ≠ 0 := mul_ne_zero (by positivity) hQ
  obtain ⟨x, x0, hx, hxl⟩ := (C17_partial p hQ dx z B c _ _ h).1 _ _ hz hBl
  obtain ⟨y, y0, hy, hyl⟩ := (C17_partial _ hQ' _ _ _ c' _ _ h').1 (L * zN) (L * b) (by rw [List.getLast?_map, hz]; rfl) (by rw [List.getLast?_map, hBl]; rfl)
  intro hd
  rw [hd, List.getLast?_map, hxl] at hyl
  have e1 : max (p.DsWL - zN) x = x := max_eq_right (by linarith)
  have e2 : max ((flowUnits L T p).DsWL - L * zN) y = y := max_eq_right (by
    show L * p.DsWL - L * zN ≤ y
    nlinarith)
  rw [e1, e2] at hyl
  have e3 : y = L * x := by
    have : times L (fin x) = fin y := Option.some.inj hyl
    exact (Fl.fin.inj this).symm
  unfold Critical at hx hy
  have hy2 : (L ^ 3 / T * p.Q) ^ 2 = 9.81 * (L * b) ^ 2 * y ^ 3 := hy
  rw [e3, mul_pow, hx] at hy2
  have hk : (0:ℝ) < 9.81 * b ^ 2 * x ^ 3 := by positivity
  have : (L ^ 3 / T) ^ 2 = L ^ 5 := by
    have : ((L ^ 3 / T) ^ 2 - L ^ 5) * (9.81 * b ^ 2 * x ^ 3) = 0 := by linear_combination hy2
    rcases mul_eq_zero.mp this with h | h
    · linarith
    · exact absurd h hk.ne'
  rw [div_pow, div_eq_iff (by positivity)] at this
  apply hg
  have h5 : L ^ 5 ≠ 0 := by positivity
  exact mul_left_cancel₀ h5 (by linear_combination this)

/-- One section at the sea, in metres and in feet: 100 m³/s through 10 m falling freely. In feet the depth would have to be 3.28 times the number of metres. -/
theorem C178_refuted : ∃ d u d' u', steady ⟨1/20, 100, 0, 1.05, 1/1000, 30⟩ [] [0] [10] = .ok (d, u) ∧
    steady (flowUnits (1250 / 381) 1 ⟨1/20, 100, 0, 1.05, 1/1000, 30⟩) [] [0] [10 * (1250 / 381)] = .ok (d', u') ∧ d' ≠ d.map (times (1250 / 381)) := by
  have h : ∀ (p : SteadyPars) (z b : ℝ), ∃ d u, steady p [] [z] [b] = .ok (d, u) := fun p z b => ⟨_, _, rfl⟩
  obtain ⟨d, u, h1⟩ := h ⟨1/20, 100, 0, 1.05, 1/1000, 30⟩ 0 10
  obtain ⟨d', u', h2⟩ := h (flowUnits (1250 / 381) 1 ⟨1/20, 100, 0, 1.05, 1/1000, 30⟩) 0 (10 * (1250 / 381))
  refine ⟨d, u, d', u', h1, h2, C178_refuted_general (L := 1250 / 381) (T := 1) (by norm_num) one_pos (by norm_num) ⟨1/20, 100, 0, 1.05, 1/1000, 30⟩ (by norm_num) [] [0] [10]
    ⟨by simp, rfl, rfl, by simp⟩ 0 rfl le_rfl _ _ _ u' h1 ?_⟩
  rw [← h2]
  simp [mul_comm]

/-! ## Runup -/

/-- C178 is false of `runup` whenever the unit of time changes. -/
theorem C178_refuted_runup {L T : ℝ} (hL : 0 < L) {Tz H S : ℝ} (hTz : 0 < Tz) (hH : 0 < H) (hS : 0 < S) :
    runup (times T (fin Tz)) (times L (fin H)) (fin S) = times L (runup (fin Tz) (fin H) (fin S)) ↔ T = 1 := by
  have h5 : 0 < S ^ (0.5 : ℝ) := rpow_pos_of_pos hS _
  simp only [runup, times]
  rw [npPow_nonneg hS.le (by norm_num)]
  simp only [mul_fin, fin.injEq]
  constructor
  · intro h
    have : (0.49 * S ^ (0.5 : ℝ) * Tz * H * L) * (T - 1) = 0 := by linear_combination h
    rcases mul_eq_zero.mp this with h | h
    · exact absurd h (by positivity)
    · linarith
  · rintro rfl
    ring

/-- C178 is false of `overtopping` where the barrier is narrower than 1 mm: half a millimetre of barrier 0.7 mm high beside a lagoon, measured in millimetres. -/
theorem C178_refuted_crest : overwashProp (inUnits 1000 1 1 { demoPars with BarRatSlope := 1, BarRatInt := 0 }) (unitTransect 1000 ⟨0, fin 0, nan, nan, fin (-0.0005), fin (-1), fin 0.0007, nan, nan, fin 0⟩) = true ∧
    overwashProp { demoPars with BarRatSlope := 1, BarRatInt := 0 } ⟨0, fin 0, nan, nan, fin (-0.0005), fin (-1), fin 0.0007, nan, nan, fin 0⟩ = false := by
  constructor
  · simp only [overwashProp, unitTransect, times, inUnits, isnan, sub_fin, npmax_fin, mul_fin, add_fin, blt_fin, ble_fin]
    norm_num
  · simp only [overwashProp, isnan, sub_fin, npmax_fin, mul_fin, add_fin, blt_fin, ble_fin]
    norm_num

/-! ## Examples -/

/-- The sand of C12, 3 m³/s in metres and seconds, is 60000 times 3 litres in decimetres and minutes. -/
example : calcBedload [fin 10, fin 10] [fin 10, fin 10] [fin 1200, fin 1200] (inUnits 10 (1 / 60) 1000 demoSedPars) 0 = .ok [fin 180000] := by
  have h0 : calcBedload [fin 1, fin 1] [fin 1, fin 1] [fin 2, fin 2] demoSedPars 0 = .ok [fin 3] := by
    have := calcBedload_eq demoSed demoSed_valid demoSedPars demoSedPars_ok [⟨1, 1, 2⟩, ⟨1, 1, 2⟩] (by simp) 0
    simp only [List.map_cons, List.map_nil] at this
    rw [this]
    simp only [List.tail_cons, List.zip_cons_cons, List.zip_nil_right, List.map_cons, List.map_nil, demoSed_capacity]
    norm_num
  have h := C178_bedload (L := 10) (T := 1 / 60) (M := 1000) (by norm_num) (by norm_num) (by norm_num) demoSedPars 0 [fin 1, fin 1] [fin 1, fin 1] [fin 2, fin 2]
  rw [h0] at h
  convert h using 1
  · simp only [List.map_cons, List.map_nil, times]
    norm_num
  · show _ = Except.ok [times _ (fin 3)]
    simp only [times]
    norm_num

/-- A barrier 30 m wide, in feet. -/
example : BroadEnough (1250 / 381) ⟨0, fin 0, nan, nan, fin (-30), fin (-50), fin 3, nan, nan, fin 0⟩ :=
  fun _ _ => ⟨0, -30, rfl, rfl, by norm_num, by norm_num⟩

/-- The coefficients of longshore transport of gravel in the sea on a planet with gravity 4, in metres and in centimetres. -/
example : ∃ v v' : Conf ℝ, lstPars (fun x => x ^ (3 / 2 : ℝ)) v = .ok (1 / 4000, 1 / 1000) ∧ lstPars (fun x => x ^ (3 / 2 : ℝ)) v' = .ok (10000 * (1 / 4000), 100 ^ (3 / 2 : ℝ) * (1 / 1000)) := by
  refine ⟨fun _ k => .flt (fin (if k = "RhoSed" then 2000 else if k = "RhoSea" then 1000 else if k = "Gravity" then 4 else if k = "VoidRatio" then 1 / 2 else if k = "Kcoef" then 1 / 2 else 1)),
    fun _ k => .flt (fin (if k = "RhoSed" then 1 / 100 ^ 3 * 2000 else if k = "RhoSea" then 1 / 100 ^ 3 * 1000 else if k = "Gravity" then 100 / 1 ^ 2 * 4 else if k = "VoidRatio" then 1 * (1 / 2)
      else if k = "Kcoef" then 1 * (1 / 2) else 1 * 1)), ?_⟩
  have h8 : (4 : ℝ) ^ (3 / 2 : ℝ) = 8 := by
    rw [show (4 : ℝ) = 2 ^ (2 : ℝ) by norm_num, ← rpow_mul (by norm_num)]
    norm_num
  have h : lstPars (fun x => x ^ (3 / 2 : ℝ)) (fun _ k => Val.flt (fin (if k = "RhoSed" then (2000:ℝ) else if k = "RhoSea" then 1000 else if k = "Gravity" then 4 else if k = "VoidRatio" then 1 / 2
      else if k = "Kcoef" then 1 / 2 else 1))) = .ok (1 / 4000, 1 / 1000) := by
    simp only [lstPars, Conf.num, bind, Except.bind, pure, Except.pure, String.reduceEq, if_true, if_false, h8]
    norm_num
  refine ⟨h, ?_⟩
  have := C178_coefficients (L := 100) (T := 1) (M := 1) (by norm_num) one_pos one_pos
    (fun _ k => Val.flt (fin (if k = "RhoSed" then (2000:ℝ) else if k = "RhoSea" then 1000 else if k = "Gravity" then 4 else if k = "VoidRatio" then 1 / 2 else if k = "Kcoef" then 1 / 2 else 1)))
    (fun _ k => .flt (fin (if k = "RhoSed" then 1 / 100 ^ 3 * 2000 else
    if k = "RhoSea" then 1 / 100 ^ 3 * 1000 else if k = "Gravity" then 100 / 1 ^ 2 * 4 else if k = "VoidRatio" then 1 * (1 / 2) else if k = "Kcoef" then 1 * (1 / 2) else 1 * 1)))
    ⟨2000, rfl, rfl⟩ ⟨1000, rfl, rfl⟩ ⟨4, rfl, rfl⟩ ⟨1 / 2, rfl, rfl⟩ ⟨1 / 2, rfl, rfl⟩ ⟨1, rfl, rfl⟩
    (fun g hg => by
      have : (4 : ℝ) = g := by simpa using hg
      rw [← this]; norm_num)
  refine this.trans ?_
  rw [h]
  show Except.ok _ = Except.ok _
  norm_num

end Verif.Props
