import Verif.Spec.ScaleModel
import Verif.Lemmas.Scale
import Verif.Lemmas.Moved
import Verif.Props.Backwater
import Verif.Props.Bedload

set_option autoImplicit false
set_option linter.unusedSectionVars false

/-! # C175: a scale model by Froude's law gives the flow and bedload of nature, to scale -/

namespace Verif.Props
open Verif Fl Verif.Model Verif.Spec Real

theorem times_eq (q : ℝ) (a : Fl ℝ) : times q a = sc q a := by cases a <;> rfl

section alg
variable {q r : ℝ} (hq : 0 < q) (hr : 0 < r)

theorem sc_sc (q r : ℝ) (a : Fl ℝ) : sc q (sc r a) = sc (q * r) a := by
  cases a <;> first | rfl | exact congrArg fin (mul_assoc q r _).symm

theorem sc_one (a : Fl ℝ) : sc 1 a = a := by
  cases a <;> first | rfl | exact congrArg fin (one_mul _)

include hq hr in
theorem sc_mul2 (a b : Fl ℝ) : sc q a * sc r b = sc (q * r) (a * b) := by
  rw [← sc_mul_left q hq, ← sc_mul_right r hr, sc_sc]

include hr in
theorem div_sc (a b : Fl ℝ) : a / sc r b = sc r⁻¹ (a / b) := by
  have hr' := inv_pos.mpr hr
  cases a <;> cases b <;> first
    | rfl
    | exact (sc_zero _).symm
    | skip
  case ninf.fin y =>
    show (if 0 ≤ r * y then ninf else pinf) = sc r⁻¹ (if 0 ≤ y then ninf else pinf)
    simp only [mul_nonneg_iff_of_pos_left hr]
    split_ifs <;> rfl
  case pinf.fin y =>
    show (if 0 ≤ r * y then pinf else ninf) = sc r⁻¹ (if 0 ≤ y then pinf else ninf)
    simp only [mul_nonneg_iff_of_pos_left hr]
    split_ifs <;> rfl
  case fin.fin x y =>
    show (if r * y = 0 then infOfSign x else fin (x / (r * y))) = sc r⁻¹ (if y = 0 then infOfSign x else fin (x / y))
    simp only [mul_eq_zero, hr.ne', false_or]
    split_ifs
    · rw [sc_infOfSign _ hr']
    · rw [sc_fin]; congr 1; field_simp

include hq hr in
theorem sc_div2 (a b : Fl ℝ) : sc q a / sc r b = sc (q / r) (a / b) := by
  rw [div_sc hr, ← sc_div q hq, sc_sc, div_eq_inv_mul]

open Classical in
include hq in
theorem sc_pow (a : Fl ℝ) (e : ℝ) : npPow (sc q a) e = sc (q ^ e) (npPow a e) := by
  unfold npPow
  by_cases he : e = 0
  · rw [if_pos he, if_pos he, he, rpow_zero, sc_one]
  · rw [if_neg he, if_neg he]
    cases a with
    | nan => rfl
    | pinf =>
      show (if 0 < e then pinf else fin 0) = sc _ (if 0 < e then pinf else fin 0)
      split_ifs
      · rfl
      · exact (sc_zero _).symm
    | ninf =>
      show (if 0 < e then (if ∃ n : ℤ, e = 2 * n + 1 then ninf else pinf) else fin 0) = sc _ (if 0 < e then (if ∃ n : ℤ, e = 2 * n + 1 then ninf else pinf) else fin 0)
      split_ifs
      · rfl
      · rfl
      · exact (sc_zero _).symm
    | fin x =>
      show (if 0 < q * x then fin ((q * x) ^ e) else if q * x = 0 then (if 0 < e then fin 0 else pinf) else if ∃ n : ℤ, e = n then fin ((q * x) ^ e) else nan) =
        sc _ (if 0 < x then fin (x ^ e) else if x = 0 then (if 0 < e then fin 0 else pinf) else if ∃ n : ℤ, e = n then fin (x ^ e) else nan)
      simp only [mul_pos_iff_of_pos_left hq, mul_eq_zero, hq.ne', false_or]
      split_ifs with h1 h2 h3 h4
      · rw [sc_fin, mul_rpow hq.le h1.le]
      · exact (sc_zero _).symm
      · rfl
      · obtain ⟨n, rfl⟩ := h4
        rw [sc_fin, rpow_intCast, rpow_intCast, rpow_intCast, mul_zpow]
      · rfl

theorem pow_scale {w : ℝ} (hw : 0 < w) (m : ℕ) (e : ℝ) (k : ℤ) (h : m * e = k) : (w ^ m) ^ e = w ^ k := by
  rw [← rpow_natCast w m, ← rpow_mul hw.le, h, rpow_intCast]
end alg

/-! ## Steady flow -/

section steady
variable {w u b : ℝ} (hw : 0 < w) (hu : 0 < u) (hb : 0 < b) (p : SteadyPars)

/-- The scale model with heights `w ^ 6` and lengths `u ^ 2` times those of nature. -/
noncomputable def roots (w u b : ℝ) (p : SteadyPars) : SteadyPars := { p with n := p.n * w ^ 4 / u, Q := b * w ^ 9 * p.Q, DsWL := w ^ 6 * p.DsWL, Tol := w ^ 6 * p.Tol }

theorem scale_roots (v l b : ℝ) (hv : 0 < v) (p : SteadyPars) : scalePars v l b p = roots (v ^ (1 / 6 : ℝ)) (√l) b p := by
  have e : ∀ m : ℕ, (v ^ (1 / 6 : ℝ)) ^ m = v ^ ((1 / 6 : ℝ) * m) := fun m => by rw [← rpow_natCast, ← rpow_mul hv.le]
  unfold scalePars roots
  rw [e 4, e 9, e 6]
  norm_num

theorem q_sc : fin (roots w u b p).Q = sc (b * w ^ 9) (fin p.Q) := rfl

include hw hb in
theorem crit_sc (B : Fl ℝ) : critDep (roots w u b p) (sc b B) = sc (w ^ 6) (critDep p B) := by
  have h1 : 0 < b * w ^ 9 := by positivity
  have h2 : 0 < b * b := by positivity
  unfold critDep
  rw [q_sc, sc_mul2 h1 h1, sc_mul2 hb hb, ← sc_mul_left _ h2, sc_div2 (by positivity) h2, sc_pow (by positivity)]
  congr 1
  have e : b * w ^ 9 * (b * w ^ 9) / (b * b) = w ^ 18 := by field_simp
  rw [e, pow_scale hw 18 (1/3) 6 (by norm_num)]
  norm_cast

include hw hb in
theorem vel_sc (B d : Fl ℝ) : steadyVel (roots w u b p) (sc b B) (sc (w ^ 6) d) = sc (w ^ 3) (steadyVel p B d) := by
  unfold steadyVel
  rw [q_sc, sc_mul2 hb (by positivity), sc_div2 (by positivity) (by positivity)]
  congr 1
  field_simp

include hw in
theorem energy_sc (z d vel : Fl ℝ) : steadyEnergy (roots w u b p) (sc (w ^ 6) z) (sc (w ^ 6) d) (sc (w ^ 3) vel) = sc (w ^ 6) (steadyEnergy p z d vel) := by
  have h3 : 0 < w ^ 3 := by positivity
  unfold steadyEnergy
  rw [sc_mul2 h3 h3, ← sc_mul_right _ (by positivity), ← sc_div _ (by positivity), ← pow_add, sc_add, sc_add]
  rfl

theorem n2_sc (hu : 0 < u) : fin ((roots w u b p).n ^ 2) = sc (w ^ 8 / u ^ 2) (fin (p.n ^ 2)) := by
  rw [sc_fin]
  congr 1
  show (p.n * w ^ 4 / u) ^ 2 = _
  field_simp

include hw hu in
theorem sf_sc (d vel : Fl ℝ) : steadySf (roots w u b p) (sc (w ^ 6) d) (sc (w ^ 3) vel) = sc (w ^ 6 / u ^ 2) (steadySf p d vel) := by
  have h3 : 0 < w ^ 3 := by positivity
  unfold steadySf
  rw [n2_sc p hu, sc_mul2 h3 h3, sc_mul2 (by positivity) (by positivity), sc_pow (by positivity), pow_scale hw 6 (4/3) 8 (by norm_num), sc_div2 (by positivity) (by positivity)]
  congr 1
  rw [zpow_ofNat]
  field_simp

include hw in
theorem depErr_sc (A Bc C h : Fl ℝ) : depErr (sc (w ^ 18) A) (sc (w ^ 26) Bc) (sc (w ^ 6) C) (sc (w ^ 6) h) = sc (w ^ 6) (depErr A Bc C h) := by
  unfold depErr
  rw [sc_pow (by positivity), sc_pow (by positivity), pow_scale hw 6 (-2) (-12) (by norm_num), pow_scale hw 6 (-10/3) (-20) (by norm_num),
    sc_mul2 (by positivity) (by positivity), sc_mul2 (by positivity) (by positivity)]
  have e1 : w ^ 18 * w ^ (-12 : ℤ) = w ^ 6 := by rw [zpow_neg]; field_simp
  have e2 : w ^ 26 * w ^ (-20 : ℤ) = w ^ 6 := by rw [zpow_neg]; field_simp
  rw [e1, e2, sc_add, sc_sub, sc_add]

include hw in
theorem depGrad_sc (A Bc h : Fl ℝ) : depGrad (sc (w ^ 18) A) (sc (w ^ 26) Bc) (sc (w ^ 6) h) = depGrad A Bc h := by
  unfold depGrad
  rw [sc_pow (by positivity), sc_pow (by positivity), pow_scale hw 6 (-3) (-18) (by norm_num), pow_scale hw 6 (-13/3) (-26) (by norm_num),
    ← sc_mul_right (w ^ 18) (by positivity), ← sc_mul_right (w ^ 26) (by positivity), sc_mul2 (by positivity) (by positivity), sc_mul2 (by positivity) (by positivity)]
  have e1 : w ^ 18 * w ^ (-18 : ℤ) = 1 := by rw [zpow_neg]; field_simp
  have e2 : w ^ 26 * w ^ (-26 : ℤ) = 1 := by rw [zpow_neg]; field_simp
  rw [e1, e2, sc_one, sc_one]

include hw in
theorem newton_sc (A Bc C : Fl ℝ) (Tol : ℝ) : ∀ (fuel : ℕ) (d e : Fl ℝ),
    steadyNewton (sc (w ^ 18) A) (sc (w ^ 26) Bc) (sc (w ^ 6) C) (w ^ 6 * Tol) fuel (sc (w ^ 6) d) (sc (w ^ 6) e) =
      (steadyNewton A Bc C Tol fuel d e).map (sc (w ^ 6)) := by
  have h6 : 0 < w ^ 6 := by positivity
  have hc : ∀ e : Fl ℝ, (fin (w ^ 6 * Tol) <? (sc (w ^ 6) e).abs) = (fin Tol <? e.abs) := by
    intro e; rw [← sc_abs _ h6, ← sc_fin, sc_blt _ h6]
  intro fuel
  induction fuel with
  | zero =>
    intro d e
    unfold steadyNewton
    rw [hc e]
    split <;> rfl
  | succ f ih =>
    intro d e
    unfold steadyNewton
    rw [hc e]
    split
    · dsimp only
      rw [depGrad_sc hw, ← sc_div _ h6, ← sc_sub, depErr_sc hw, ih]
    · rfl

include hw hu hb in
theorem depth_sc (dx z B z1 d1 e1 s1 : Fl ℝ) :
    steadyDepth (roots w u b p) (sc (u ^ 2) dx) (sc (w ^ 6) z) (sc b B) (sc (w ^ 6) z1) (sc (w ^ 6) d1) (sc (w ^ 6) e1) (sc (w ^ 6 / u ^ 2) s1) =
      (steadyDepth p dx z B z1 d1 e1 s1).map (sc (w ^ 6)) := by
  have h6 : 0 < w ^ 6 := by positivity
  have h1 : 0 < b * w ^ 9 := by positivity
  have hs : sc (w ^ 6 / u ^ 2) s1 * sc (u ^ 2) dx = sc (w ^ 6) (s1 * dx) := by
    rw [sc_mul2 (by positivity) (by positivity)]
    congr 1
    field_simp
  have hA : fin (roots w u b p).Beta * (fin (roots w u b p).Q * fin (roots w u b p).Q / (fin 2 * fin gravSteady * (sc b B * sc b B))) =
      sc (w ^ 18) (fin p.Beta * (fin p.Q * fin p.Q / (fin 2 * fin gravSteady * (B * B)))) := by
    rw [q_sc, sc_mul2 h1 h1, sc_mul2 hb hb, ← sc_mul_right _ (by positivity), sc_div2 (by positivity) (by positivity), ← sc_mul_right _ (by positivity)]
    congr 1
    field_simp
  have hB : sc (u ^ 2) dx * (fin (roots w u b p).Q * fin (roots w u b p).Q) * fin ((roots w u b p).n ^ 2) / (fin 2 * (sc b B * sc b B)) =
      sc (w ^ 26) (dx * (fin p.Q * fin p.Q) * fin (p.n ^ 2) / (fin 2 * (B * B))) := by
    rw [q_sc, n2_sc p hu, sc_mul2 h1 h1, sc_mul2 hb hb, sc_mul2 (by positivity) (by positivity), sc_mul2 (by positivity) (by positivity), ← sc_mul_right _ (by positivity),
      sc_div2 (by positivity) (by positivity)]
    congr 1
    field_simp
  have hC : sc (w ^ 6) z - sc (w ^ 6) (s1 * dx) / fin 2 - sc (w ^ 6) e1 = sc (w ^ 6) (z - s1 * dx / fin 2 - e1) := by
    rw [← sc_div _ h6, sc_sub, sc_sub]
  have hD : sc (w ^ 6) d1 + sc (w ^ 6) z1 - sc (w ^ 6) z + sc (w ^ 6) (s1 * dx) = sc (w ^ 6) (d1 + z1 - z + s1 * dx) := by
    rw [sc_add, sc_sub, sc_add]
  unfold steadyDepth
  dsimp only
  rw [hA, hB, hs, hC, hD, depErr_sc hw, crit_sc hw hb]
  show (steadyNewton _ _ _ (w ^ 6 * p.Tol) (p.MaxIt - 1) _ _ >>= _) = _
  rw [newton_sc hw]
  cases steadyNewton (fin p.Beta * (fin p.Q * fin p.Q / (fin 2 * fin gravSteady * (B * B)))) (dx * (fin p.Q * fin p.Q) * fin (p.n ^ 2) / (fin 2 * (B * B))) (z - s1 * dx / fin 2 - e1)
      p.Tol (p.MaxIt - 1) (d1 + z1 - z + s1 * dx)
      (depErr (fin p.Beta * (fin p.Q * fin p.Q / (fin 2 * fin gravSteady * (B * B)))) (dx * (fin p.Q * fin p.Q) * fin (p.n ^ 2) / (fin 2 * (B * B))) (z - s1 * dx / fin 2 - e1)
        (d1 + z1 - z + s1 * dx)) with
  | error e => rfl
  | ok d =>
    refine congrArg Except.ok ?_
    show (if sc (w ^ 6) d <? sc (w ^ 6) (critDep p B) then sc (w ^ 6) (critDep p B) else sc (w ^ 6) d) = sc (w ^ 6) (if d <? critDep p B then critDep p B else d)
    rw [sc_blt _ h6, apply_ite (sc (w ^ 6))]

/-- The four arrays of the scale model. -/
noncomputable def arrSc (w u : ℝ) (s : SteadyArr) : SteadyArr :=
  ⟨s.dep.map (sc (w ^ 6)), s.vel.map (sc (w ^ 3)), s.en.map (sc (w ^ 6)), s.sf.map (sc (w ^ 6 / u ^ 2))⟩

theorem get_map {α β : Type} (f : α → β) (l : List α) (i : ℕ) : ixGet (l.map f) i = (ixGet l i).map f := by
  unfold ixGet
  rw [List.getElem?_map]
  cases l[i]? <;> rfl

include hw hu hb in
theorem step_sc (dx z B : List (Fl ℝ)) (s : SteadyArr) (i : ℕ) :
    steadyStep (roots w u b p) (dx.map (sc (u ^ 2))) (z.map (sc (w ^ 6))) (B.map (sc b)) (arrSc w u s) i = (steadyStep p dx z B s i).map (arrSc w u) := by
  unfold steadyStep arrSc
  simp only [get_map]
  cases ixGet dx i with
  | error e => rfl
  | ok a1 =>
  cases ixGet z i with
  | error e => rfl
  | ok a2 =>
  cases ixGet B i with
  | error e => rfl
  | ok a3 =>
  cases ixGet z (i + 1) with
  | error e => rfl
  | ok a4 =>
  cases ixGet s.dep (i + 1) with
  | error e => rfl
  | ok a5 =>
  cases ixGet s.en (i + 1) with
  | error e => rfl
  | ok a6 =>
  cases ixGet s.sf (i + 1) with
  | error e => rfl
  | ok a7 =>
    show (steadyDepth (roots w u b p) (sc (u ^ 2) a1) (sc (w ^ 6) a2) (sc b a3) (sc (w ^ 6) a4) (sc (w ^ 6) a5) (sc (w ^ 6) a6) (sc (w ^ 6 / u ^ 2) a7) >>= _) =
      Except.map _ (steadyDepth p a1 a2 a3 a4 a5 a6 a7 >>= _)
    rw [depth_sc hw hu hb]
    cases steadyDepth p a1 a2 a3 a4 a5 a6 a7 with
    | error e => rfl
    | ok d =>
      show Except.ok _ = Except.ok _
      refine congrArg Except.ok ?_
      dsimp only
      rw [vel_sc hw hb, energy_sc hw, sf_sc hw hu]
      simp only [List.map_set]

include hw hu hb in
theorem steps_sc (dx z B : List (Fl ℝ)) : ∀ (ix : List ℕ) (s : SteadyArr),
    ix.foldlM (steadyStep (roots w u b p) (dx.map (sc (u ^ 2))) (z.map (sc (w ^ 6))) (B.map (sc b))) (arrSc w u s) =
      (ix.foldlM (steadyStep p dx z B) s).map (arrSc w u)
  | [], s => rfl
  | i :: ix, s => by
    rw [List.foldlM_cons, List.foldlM_cons, step_sc hw hu hb]
    cases steadyStep p dx z B s i with
    | error e => rfl
    | ok s' => exact steps_sc dx z B ix s'

theorem pyGet_map {α β : Type} (f : α → β) (l : List α) (i : ℤ) : pyGet (l.map f) i = (pyGet l i).map f := by
  unfold pyGet
  simp only [List.length_map]
  split_ifs <;> first | rfl | exact get_map f l _

include hw hu hb in
theorem solve_sc (dx z B : List (Fl ℝ)) :
    solveSteady (roots w u b p) (dx.map (sc (u ^ 2))) (z.map (sc (w ^ 6))) (B.map (sc b)) =
      (solveSteady p dx z B).map (fun (d, v) => (d.map (sc (w ^ 6)), v.map (sc (w ^ 3)))) := by
  unfold solveSteady
  simp only [pyGet_map, List.length_map]
  cases pyGet z (-1) with
  | error e => rfl
  | ok zN =>
  cases pyGet B (-1) with
  | error e => rfl
  | ok BN =>
    have hD : npmax (fin (roots w u b p).DsWL - sc (w ^ 6) zN) (critDep (roots w u b p) (sc b BN)) = sc (w ^ 6) (npmax (fin p.DsWL - zN) (critDep p BN)) := by
      rw [crit_sc hw hb, sc_npmax _ (by positivity), sc_sub]; rfl
    have hz : ∀ q : ℝ, List.replicate z.length (fin (0:ℝ)) = (List.replicate z.length (fin (0:ℝ))).map (sc q) := fun q => by
      rw [List.map_replicate, sc_zero]
    show (List.foldlM _ (⟨_, _, _, _⟩ : SteadyArr) _ >>= _) = Except.map _ (List.foldlM _ _ _ >>= _)
    have hs : (⟨(List.replicate z.length (fin 0)).set (z.length - 1) (npmax (fin (roots w u b p).DsWL - sc (w ^ 6) zN) (critDep (roots w u b p) (sc b BN))),
        (List.replicate z.length (fin 0)).set (z.length - 1) (steadyVel (roots w u b p) (sc b BN) (npmax (fin (roots w u b p).DsWL - sc (w ^ 6) zN) (critDep (roots w u b p) (sc b BN)))),
        (List.replicate z.length (fin 0)).set (z.length - 1) (steadyEnergy (roots w u b p) (sc (w ^ 6) zN) (npmax (fin (roots w u b p).DsWL - sc (w ^ 6) zN) (critDep (roots w u b p) (sc b BN)))
          (steadyVel (roots w u b p) (sc b BN) (npmax (fin (roots w u b p).DsWL - sc (w ^ 6) zN) (critDep (roots w u b p) (sc b BN))))),
        (List.replicate z.length (fin 0)).set (z.length - 1) (steadySf (roots w u b p) (npmax (fin (roots w u b p).DsWL - sc (w ^ 6) zN) (critDep (roots w u b p) (sc b BN)))
          (steadyVel (roots w u b p) (sc b BN) (npmax (fin (roots w u b p).DsWL - sc (w ^ 6) zN) (critDep (roots w u b p) (sc b BN)))))⟩ : SteadyArr) =
        arrSc w u ⟨(List.replicate z.length (fin 0)).set (z.length - 1) (npmax (fin p.DsWL - zN) (critDep p BN)),
          (List.replicate z.length (fin 0)).set (z.length - 1) (steadyVel p BN (npmax (fin p.DsWL - zN) (critDep p BN))),
          (List.replicate z.length (fin 0)).set (z.length - 1) (steadyEnergy p zN (npmax (fin p.DsWL - zN) (critDep p BN)) (steadyVel p BN (npmax (fin p.DsWL - zN) (critDep p BN)))),
          (List.replicate z.length (fin 0)).set (z.length - 1) (steadySf p (npmax (fin p.DsWL - zN) (critDep p BN)) (steadyVel p BN (npmax (fin p.DsWL - zN) (critDep p BN))))⟩ := by
      unfold arrSc
      rw [hD, vel_sc hw hb, energy_sc hw, sf_sc hw hu]
      simp only [List.map_set, List.map_replicate, sc_zero]
    rw [hs, steps_sc hw hu hb]
    cases (List.range (z.length - 1)).reverse.foldlM (steadyStep p dx z B) ⟨(List.replicate z.length (fin 0)).set (z.length - 1) (npmax (fin p.DsWL - zN) (critDep p BN)),
          (List.replicate z.length (fin 0)).set (z.length - 1) (steadyVel p BN (npmax (fin p.DsWL - zN) (critDep p BN))),
          (List.replicate z.length (fin 0)).set (z.length - 1) (steadyEnergy p zN (npmax (fin p.DsWL - zN) (critDep p BN)) (steadyVel p BN (npmax (fin p.DsWL - zN) (critDep p BN)))),
          (List.replicate z.length (fin 0)).set (z.length - 1) (steadySf p (npmax (fin p.DsWL - zN) (critDep p BN)) (steadyVel p BN (npmax (fin p.DsWL - zN) (critDep p BN))))⟩ with
    | error e => rfl
    | ok s => rfl
end steady

/-- C175, steady flow: in a scale model with heights `v` times, lengths `l` times and widths `b` times those of nature, with the flow and roughness of Froude's law, `solveSteady` finds
depths `v` times and velocities √v times those of nature, at every section, in as many iterations, or fails with the same error. -/
theorem C175_flow (v l b : ℝ) (hv : 0 < v) (hl : 0 < l) (hb : 0 < b) (p : SteadyPars) (dx z B : List (Fl ℝ)) :
    solveSteady (scalePars v l b p) (dx.map (times l)) (z.map (times v)) (B.map (times b)) =
      (solveSteady p dx z B).map (fun (d, u) => (d.map (times v), u.map (times √v))) := by
  have hw : 0 < v ^ (1 / 6 : ℝ) := rpow_pos_of_pos hv _
  have e : ∀ m : ℕ, (v ^ (1 / 6 : ℝ)) ^ m = v ^ ((1 / 6 : ℝ) * m) := fun m => by rw [← rpow_natCast, ← rpow_mul hv.le]
  have e6 : (v ^ (1 / 6 : ℝ)) ^ 6 = v := by rw [e 6]; norm_num
  have e3 : (v ^ (1 / 6 : ℝ)) ^ 3 = √v := by rw [e 3, sqrt_eq_rpow]; norm_num
  have el : √l ^ 2 = l := sq_sqrt hl.le
  have et : ∀ q : ℝ, times q = sc q := fun q => funext (times_eq q)
  have := solve_sc hw (sqrt_pos.mpr hl) hb p dx z B
  rw [e6, e3, el] at this
  rw [scale_roots v l b hv, et l, et v, et b, et √v]
  exact this

/-! ## Bedload -/

theorem node_sc {v d b : ℝ} (hv : 0 < v) (hd : 0 < d) (hb : 0 < b) (P : PhysPars ℝ) (s : ℝ) (B h V : Fl ℝ) :
    nodeBedload (scaleGrains v d P) (√d ^ 3 * s) (sc b B) (sc v h) (sc √v V) = sc (b * √d ^ 3) (nodeBedload P s B h V) := by
  have hsv := sqrt_pos.mpr hv
  have hsd := sqrt_pos.mpr hd
  have hv3 : 0 < v ^ (1 / 3 : ℝ) := rpow_pos_of_pos hv _
  have hv4 : 0 < v ^ (4 / 3 : ℝ) := rpow_pos_of_pos hv _
  have hr : 0 < √d / v ^ (1 / 3 : ℝ) := by positivity
  have eG : fin (scaleGrains v d P).GrainRoughness = sc (√d / v ^ (1 / 3 : ℝ)) (fin P.GrainRoughness) := by
    rw [sc_fin]; congr 1
    show P.GrainRoughness * √d / v ^ (1 / 3 : ℝ) = _
    ring
  have eD : fin (scaleGrains v d P).GrainSize = sc d (fin P.GrainSize) := rfl
  have eS : (sc √v V * sc √v V) * (fin (scaleGrains v d P).GrainRoughness * fin (scaleGrains v d P).GrainRoughness) / npPow (sc v h) (4/3) =
      sc (d / v) ((V * V) * (fin P.GrainRoughness * fin P.GrainRoughness) / npPow h (4/3)) := by
    rw [eG, sc_mul2 hsv hsv, sc_mul2 hr hr, sc_mul2 (by positivity) (by positivity), sc_pow hv, sc_div2 (by positivity) hv4]
    congr 1
    have a1 : √v * √v = v := mul_self_sqrt hv.le
    have a2 : √d * √d = d := mul_self_sqrt hd.le
    have a3 : v ^ (1 / 3 : ℝ) * v ^ (1 / 3 : ℝ) * v ^ (4 / 3 : ℝ) = v * v := by
      rw [← rpow_add hv, ← rpow_add hv]; norm_num; ring
    rw [a1, div_mul_div_comm, a2, div_eq_div_iff hv4.ne' hv.ne']
    field_simp
    nlinarith [a3]
  have eT : fin (scaleGrains v d P).RhoRiv * fin (scaleGrains v d P).Gravity * sc v h * sc (d / v) ((V * V) * (fin P.GrainRoughness * fin P.GrainRoughness) / npPow h (4/3)) =
      sc d (fin P.RhoRiv * fin P.Gravity * h * ((V * V) * (fin P.GrainRoughness * fin P.GrainRoughness) / npPow h (4/3))) := by
    show fin P.RhoRiv * fin P.Gravity * sc v h * sc (d / v) _ = _
    rw [← sc_mul_right v hv, sc_mul2 hv (by positivity)]
    congr 1
    field_simp
  have eV : (sc √v V <? fin 0) = (V <? fin 0) := by rw [← sc_zero √v, sc_blt _ hsv, sc_zero]
  have hq : 0 < b * √d ^ 3 := by positivity
  unfold nodeBedload
  dsimp only
  rw [eS, eT, eD, eV]
  have f1 : (scaleGrains v d P).RhoSed = P.RhoSed := rfl
  have f2 : (scaleGrains v d P).RhoRiv = P.RhoRiv := rfl
  have f3 : (scaleGrains v d P).Gravity = P.Gravity := rfl
  have f4 : (scaleGrains v d P).CritShieldsStress = P.CritShieldsStress := rfl
  have f5 : (scaleGrains v d P).VoidRatio = P.VoidRatio := rfl
  have f6 : (scaleGrains v d P).MPM_coef = P.MPM_coef := rfl
  have f7 : (scaleGrains v d P).MPM_exp = P.MPM_exp := rfl
  rw [f1, f2, f3, f4, f5, f6, f7, ← sc_mul_right d hd ((fin P.RhoSed - fin P.RhoRiv) * fin P.Gravity), sc_div2 hd hd, div_self hd.ne', sc_one]
  rw [← sc_mul_right b hb, ← sc_fin (√d ^ 3) s, sc_mul2 hb (by positivity), ← sc_div _ hq, ← sc_mul_left _ hq, apply_ite (sc (b * √d ^ 3))]

/-- C175, bedload: with grains `d` times as large, as rough as makes the dimensionless shear stress the same, heights `v` times, velocities √v times and widths `b` times those of nature,
`calcBedload` gives in every reach `b` d^(3/2) times the bedload of nature, or the same error. -/
theorem C175_bedload (v d b : ℝ) (hv : 0 < v) (hd : 0 < d) (hb : 0 < b) (P : PhysPars ℝ) (Psi : ℝ) (B h V : List (Fl ℝ)) :
    calcBedload (B.map (times b)) (h.map (times v)) (V.map (times √v)) (scaleGrains v d P) Psi =
      (calcBedload B h V P Psi).map (List.map (times (b * √d ^ 3))) := by
  have hq : 0 < b * √d ^ 3 := by have := sqrt_pos.mpr hd; positivity
  have et : ∀ q : ℝ, times q = sc q := fun q => funext (times_eq q)
  rw [et, et, et, et]
  unfold calcBedload
  by_cases h0 : P.RhoRiv = 0
  · rw [if_pos (show (scaleGrains v d P).RhoRiv = 0 from h0), if_pos h0]; rfl
  · rw [if_neg (show (scaleGrains v d P).RhoRiv ≠ 0 from h0), if_neg h0]
    dsimp only
    have eb : ((scaleGrains v d P).RhoSed / (scaleGrains v d P).RhoRiv - 1) * (scaleGrains v d P).Gravity * (scaleGrains v d P).GrainSize ^ 3 =
        d ^ 3 * ((P.RhoSed / P.RhoRiv - 1) * P.Gravity * P.GrainSize ^ 3) := by
      show (P.RhoSed / P.RhoRiv - 1) * P.Gravity * (d * P.GrainSize) ^ 3 = _
      ring
    have hd3 : 0 < d ^ 3 := by positivity
    rw [eb]
    by_cases h1 : (P.RhoSed / P.RhoRiv - 1) * P.Gravity * P.GrainSize ^ 3 < 0
    · rw [if_pos h1, if_pos (by nlinarith)]; rfl
    · rw [if_neg h1, if_neg (by push Not at h1 ⊢; positivity)]
      push Not at h1
      have es : (d ^ 3 * ((P.RhoSed / P.RhoRiv - 1) * P.Gravity * P.GrainSize ^ 3)) ^ (0.5 : ℝ) =
          √d ^ 3 * ((P.RhoSed / P.RhoRiv - 1) * P.Gravity * P.GrainSize ^ 3) ^ (0.5 : ℝ) := by
        rw [mul_rpow hd3.le h1]
        congr 1
        rw [sqrt_eq_rpow, ← rpow_natCast, ← rpow_natCast, ← rpow_mul hd.le, ← rpow_mul hd.le]
        norm_num
      rw [es]
      generalize ((P.RhoSed / P.RhoRiv - 1) * P.Gravity * P.GrainSize ^ 3) ^ (0.5 : ℝ) = s
      show Except.ok _ = Except.ok _
      refine congrArg Except.ok ?_
      have en : ((B.map (sc b)).zip ((h.map (sc v)).zip (V.map (sc √v)))).map (fun t => nodeBedload (scaleGrains v d P) (√d ^ 3 * s) t.1 t.2.1 t.2.2) =
          ((B.zip (h.zip V)).map (fun t => nodeBedload P s t.1 t.2.1 t.2.2)).map (sc (b * √d ^ 3)) := by
        rw [List.zip_map, List.zip_map, List.map_map, List.map_map]
        refine List.map_congr_left (fun t _ => ?_)
        exact node_sc hv hd hb P s t.1 t.2.1 t.2.2
      rw [en, ← List.map_dropLast, ← List.map_tail, List.zip_map, List.map_map, List.map_map]
      refine List.map_congr_left (fun t _ => ?_)
      show (fin 1 - fin Psi) * sc _ t.1 + fin Psi * sc _ t.2 = sc _ ((fin 1 - fin Psi) * t.1 + fin Psi * t.2)
      rw [sc_add, sc_mul_right _ hq, sc_mul_right _ hq]

/-- C175: flow and bedload together. The flow `solveSteady` finds in the scale model carries `b` d^(3/2) times the bedload of nature. -/
theorem C175_river (v l b d : ℝ) (hv : 0 < v) (hl : 0 < l) (hb : 0 < b) (hd : 0 < d) (p : SteadyPars) (P : PhysPars ℝ) (Psi : ℝ) (dx z B h V q : List (Fl ℝ))
    (hf : solveSteady p dx z B = .ok (h, V)) (hq : calcBedload B h V P Psi = .ok q) :
    ∃ h' V', solveSteady (scalePars v l b p) (dx.map (times l)) (z.map (times v)) (B.map (times b)) = .ok (h', V') ∧
      h' = h.map (times v) ∧ V' = V.map (times √v) ∧ calcBedload (B.map (times b)) h' V' (scaleGrains v d P) Psi = .ok (q.map (times (b * √d ^ 3))) :=
  ⟨_, _, by rw [C175_flow v l b hv hl hb, hf]; rfl, rfl, rfl, by rw [C175_bedload v d b hv hd hb, hq]; rfl⟩

/-- C175, a wider river: with all widths and the flow `b` times those of nature, depths and velocities stay as they are and the bedload is `b` times that of nature. -/
theorem C175_wider (b : ℝ) (hb : 0 < b) (p : SteadyPars) (P : PhysPars ℝ) (Psi : ℝ) (dx z B h V q : List (Fl ℝ))
    (hf : solveSteady p dx z B = .ok (h, V)) (hq : calcBedload B h V P Psi = .ok q) :
    solveSteady { p with Q := b * p.Q } dx z (B.map (times b)) = .ok (h, V) ∧ calcBedload (B.map (times b)) h V P Psi = .ok (q.map (times b)) := by
  have e1 : ∀ l : List (Fl ℝ), l.map (times 1) = l := fun l => by
    rw [show times (1:ℝ) = id from funext fun a => by rw [times_eq, sc_one]; rfl, List.map_id]
  have ep : scalePars 1 1 b p = { p with Q := b * p.Q } := by
    unfold scalePars
    simp only [one_rpow, sqrt_one, mul_one, div_one, one_mul]
  have eP : scaleGrains 1 1 P = P := by
    unfold scaleGrains
    simp only [one_rpow, sqrt_one, mul_one, div_one, one_mul]
  have a := C175_flow 1 1 b one_pos one_pos hb p dx z B
  have c := C175_bedload 1 1 b one_pos one_pos hb P Psi B h V
  rw [sqrt_one] at a c
  rw [ep, e1, e1, hf] at a
  rw [eP, e1, e1, hq, one_pow, mul_one] at c
  refine ⟨a.trans ?_, c⟩
  show Except.ok (h.map (times 1), V.map (times 1)) = _
  rw [e1, e1]

/-- A model at 1 : 64 of the outlet of C160 with the sea 8 m above its bed: a flow of 31 m³/s becomes one litre per second. -/
theorem model_pars : scalePars (1 / 64) (1 / 64) (1 / 64) (mouthPars 8) =
    { n := 1 / 40, Q := 31 / 32768, DsWL := 1 / 8, Beta := 1.05, Tol := 1 / 64000, MaxIt := 30 } := by
  have e1 : (1 / 64 : ℝ) ^ (2 / 3 : ℝ) = 1 / 16 := by
    rw [show (1 / 64 : ℝ) = (1 / 2) ^ (6 : ℝ) by norm_num, ← rpow_mul (by norm_num)]
    norm_num
  have e2 : (1 / 64 : ℝ) ^ (3 / 2 : ℝ) = 1 / 512 := by
    rw [show (1 / 64 : ℝ) = (1 / 2) ^ (6 : ℝ) by norm_num, ← rpow_mul (by norm_num)]
    norm_num
  have e3 : √(1 / 64 : ℝ) = 1 / 8 := by
    rw [show (1 / 64 : ℝ) = (1 / 8) ^ 2 by norm_num, sqrt_sq (by norm_num)]
  unfold scalePars mouthPars
  rw [e1, e2, e3]
  norm_num

/-- The 1 : 64 model of this outlet, 16 cm wide, in numbers. -/
example : ∃ (x : ℝ) (us : List (Fl ℝ)), 1 ≤ x ∧ steady (mouthPars 8) [20] [0, 0] [1000, 10] = .ok ([x, 8].map fin, us) ∧
    solveSteady { n := 1 / 40, Q := 31 / 32768, DsWL := 1 / 8, Beta := 1.05, Tol := 1 / 64000, MaxIt := 30 } [fin (20 / 64)] [fin 0, fin 0] [fin (1000 / 64), fin (10 / 64)] =
      .ok ([fin (x / 64), fin (8 / 64)], us.map (times (1 / 8))) := by
  have e8 : slopeAt (1/20) 31 10 8 = (1/20) ^ 2 * (31 / 10) ^ 2 / 2 ^ 10 := by
    rw [slopeAt_eq _ _ _ (by norm_num)]
    congr 1
    rw [show (8 : ℝ) = 2 ^ (3 : ℝ) by norm_num, ← Real.rpow_mul (by norm_num), show (3 * (10/3) : ℝ) = (10 : ℕ) by norm_num, Real.rpow_natCast]
  obtain ⟨x, us, x1, hr, -⟩ := mouth_run (S := 8) (by norm_num) rfl e8 (by positivity) (by unfold headAt energyLevel; norm_num)
    (by unfold headAt energyLevel; rw [abs_le]; constructor <;> norm_num)
  refine ⟨x, us, x1, hr, ?_⟩
  have h := C175_flow (1 / 64) (1 / 64) (1 / 64) (by norm_num) (by norm_num) (by norm_num) (mouthPars 8) ([20].map fin) ([0, 0].map fin) ([1000, 10].map fin)
  have e3 : √(1 / 64 : ℝ) = 1 / 8 := by
    rw [show (1 / 64 : ℝ) = (1 / 8) ^ 2 by norm_num, sqrt_sq (by norm_num)]
  rw [model_pars, show solveSteady (mouthPars 8) ([20].map fin) ([0, 0].map fin) ([1000, 10].map fin) = _ from hr, e3] at h
  convert h using 1
  · simp only [List.map_cons, List.map_nil, times]
    norm_num
  · show _ = Except.ok ([times (1/64) (fin x), times (1/64) (fin 8)], _)
    simp only [times]
    congr 6
    · ring
    · norm_num

/-- The sand of C12 moves at the rate 3 where 2 m/s flow 1 m deep, and at the rate 3 / 1024 in a model at 1 : 16 where 1/2 m/s flow 1/16 m deep. -/
example : calcBedload [fin 1, fin 1] [fin 1, fin 1] [fin 2, fin 2] demoSedPars 0 = .ok [fin 3] ∧
    calcBedload [fin (1 / 16), fin (1 / 16)] [fin (1 / 16), fin (1 / 16)] [fin (1 / 2), fin (1 / 2)] (scaleGrains (1 / 16) (1 / 16) demoSedPars) 0 = .ok [fin (3 / 1024)] := by
  have h0 : calcBedload [fin 1, fin 1] [fin 1, fin 1] [fin 2, fin 2] demoSedPars 0 = .ok [fin 3] := by
    have := calcBedload_eq demoSed demoSed_valid demoSedPars demoSedPars_ok [⟨1, 1, 2⟩, ⟨1, 1, 2⟩] (by simp) 0
    simp only [List.map_cons, List.map_nil] at this
    rw [this]
    simp only [List.tail_cons, List.zip_cons_cons, List.zip_nil_right, List.map_cons, List.map_nil, demoSed_capacity]
    norm_num
  refine ⟨h0, ?_⟩
  have e3 : √(1 / 16 : ℝ) = 1 / 4 := by
    rw [show (1 / 16 : ℝ) = (1 / 4) ^ 2 by norm_num, sqrt_sq (by norm_num)]
  have h := C175_bedload (1 / 16) (1 / 16) (1 / 16) (by norm_num) (by norm_num) (by norm_num) demoSedPars 0 [fin 1, fin 1] [fin 1, fin 1] [fin 2, fin 2]
  rw [h0, e3] at h
  convert h using 1
  · simp only [List.map_cons, List.map_nil, times]
    norm_num
  · show _ = Except.ok [times _ (fin 3)]
    simp only [times]
    norm_num

end Verif.Props
