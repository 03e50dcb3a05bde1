import Verif.Props.Backwater
import Mathlib.Tactic.LinearCombination

set_option autoImplicit false
set_option linter.unusedSectionVars false

/-! # C195: the energy of the steady flow -/

namespace Verif.Props
open Verif Verif.Model Verif.Spec Fl

theorem frictionSlope_nonneg (n v : ℝ) {h : ℝ} (hh : 0 < h) : 0 ≤ frictionSlope n h v := by
  unfold frictionSlope
  have := Real.rpow_pos_of_pos hh (4/3 : ℝ)
  positivity

/-- C195, partial: from any section to any section further downstream the energy level falls, or rises by no more than the tolerance for each reach, if on the way down to
the second one all depths are numbers, none of them critical.
Missing: stretches with sections where critical depth has been imposed (`C195_refuted`). -/
theorem C195_partial (p : SteadyPars) (hQ : p.Q ≠ 0) (dx z B : List ℝ) (c : IsChannel dx z B) (hdx : ∀ x ∈ dx, 0 ≤ x) (hs vs : List (Fl ℝ))
    (h : steady p dx z B = .ok (hs, vs)) (i m : ℕ)
    (hfree : ∀ k, i ≤ k → k < i + m → ∃ d b, hs[k]? = some (fin d) ∧ B[k]? = some b ∧ ¬ Critical 9.81 p.Q b d)
    (zi zj di dj vi vj : ℝ) (hzi : z[i]? = some zi) (hzj : z[i+m]? = some zj) (hdi : hs[i]? = some (fin di)) (hdj : hs[i+m]? = some (fin dj))
    (hvi : vs[i]? = some (fin vi)) (hvj : vs[i+m]? = some (fin vj)) :
    energyLevel 9.81 p.Beta zj dj vj ≤ energyLevel 9.81 p.Beta zi di vi + m * p.Tol := by
  induction m generalizing zj dj vj with
  | zero =>
    simp only [Nat.add_zero] at hzj hdj hvj
    rw [hzi] at hzj; rw [hdi] at hdj; rw [hvi] at hvj
    cases hzj; cases hdj; cases hvj
    simp
  | succ m ih =>
    have hlz := (List.getElem?_eq_some_iff.mp hzj).1
    have hzk : z[i+m]? = some (z[i+m]'(by omega)) := List.getElem?_eq_getElem (by omega)
    have hlx : i + m < dx.length := by have := c.hdx; omega
    have hxk : dx[i+m]? = some dx[i+m] := List.getElem?_eq_getElem hlx
    obtain ⟨d, b, hd, hb, hnc⟩ := hfree (i+m) (by omega) (by omega)
    rcases (C17_partial p hQ dx z B c hs vs h).2 (i+m) _ b zj _ hzk hb hzj hxk with hn | ⟨d0, d1, v0, v1, e0, e1, f0, f1, p0, p1, hcr | hbal⟩
    · rw [hd] at hn; cases hn
    · rw [hd] at e0; cases e0
      exact absurd hcr hnc
    · rw [show i + m + 1 = i + (m + 1) by omega, hdj] at e1
      rw [show i + m + 1 = i + (m + 1) by omega, hvj] at f1
      cases e1; cases f1
      have := ih (fun k h1 h2 => hfree k h1 (by omega)) _ d0 v0 hzk e0 f0
      have hx : 0 ≤ dx[i+m] := hdx _ (List.getElem_mem hlx)
      have g0 := frictionSlope_nonneg p.n v0 p0
      have g1 := frictionSlope_nonneg p.n vj p1
      have hloss : 0 ≤ dx[i+m] / 2 * (frictionSlope p.n d0 v0 + frictionSlope p.n dj vj) := by positivity
      have := (abs_le.mp hbal).1
      push_cast
      linarith

/-- A wide shallow lagoon that flows into a narrow outlet with a bed two metres lower, without friction. -/
noncomputable def sillPars : SteadyPars :=
  { n := 0, Q := 9.81 / 4 * (27 / 8 * (9.81 / 16)), DsWL := 27 / 8 * (9.81 / 16), Beta := 1, Tol := 0.0001, MaxIt := 20 }

theorem sill_run : steady sillPars [10] [26 / 8 * (9.81 / 16), 0] [27, 1] =
    .ok ([fin (1 / 4 * (9.81 / 16)), fin (27 / 8 * (9.81 / 16))], [fin (9.81 / 8), fin (9.81 / 4)]) := by
  have hc0 : critR sillPars 27 = 1 / 4 * (9.81 / 16) := by
    have h1 : sillPars.Q * sillPars.Q / (27 * 27 * gravSteady) = (1 / 4 * (9.81 / 16) : ℝ) ^ (3 : ℝ) := by
      norm_num [sillPars, gravSteady]
    unfold critR
    rw [h1, ← Real.rpow_mul (by norm_num)]
    norm_num
  have hc1 : critR sillPars 1 = 9 / 4 * (9.81 / 16) := by
    have h1 : sillPars.Q * sillPars.Q / (1 * 1 * gravSteady) = (9 / 4 * (9.81 / 16) : ℝ) ^ (3 : ℝ) := by
      norm_num [sillPars, gravSteady]
    unfold critR
    rw [h1, ← Real.rpow_mul (by norm_num)]
    norm_num
  have c0 : critDep sillPars (fin 27) = fin (1 / 4 * (9.81 / 16)) := by rw [critDep_fin _ (by norm_num), hc0]
  have c1 : critDep sillPars (fin 1) = fin (9 / 4 * (9.81 / 16)) := by rw [critDep_fin _ one_pos, hc1]
  have hg : gravSteady = 9.81 := rfl
  rw [steady, solveSteady_eq _ _ _ _ (by simp) (by simp) (by simp)]
  have hN : npmax (fin sillPars.DsWL - fin 0) (critDep sillPars (fin 1)) = fin (27 / 8 * (9.81 / 16)) := by
    rw [c1]; simp only [sub_fin, npmax_fin]; norm_num [sillPars]
  obtain ⟨ev, ee, es⟩ := mkPt_pos sillPars 0 (B := 1) (h := 27 / 8 * (9.81 / 16)) one_pos (by norm_num)
  have ev' : (mkPt sillPars (fin 0) (fin 1) (fin (27 / 8 * (9.81 / 16)))).vel = fin (9.81 / 4) := by
    rw [ev]; norm_num [sillPars]
  have ee' : (mkPt sillPars (fin 0) (fin 1) (fin (27 / 8 * (9.81 / 16)))).en = fin (31 / 8 * (9.81 / 16)) := by
    rw [ee]; norm_num [sillPars, gravSteady]
  have es' : (mkPt sillPars (fin 0) (fin 1) (fin (27 / 8 * (9.81 / 16)))).sf = fin 0 := by
    rw [es]; norm_num [sillPars]
  have hd : steadyDepth sillPars (fin 10) (fin (26 / 8 * (9.81 / 16))) (fin 27) (fin 0) (fin (27 / 8 * (9.81 / 16))) (fin (31 / 8 * (9.81 / 16))) (fin 0) =
      .ok (fin (1 / 4 * (9.81 / 16))) := by
    unfold steadyDepth
    have e1 : fin sillPars.Beta * (fin sillPars.Q * fin sillPars.Q / (fin 2 * fin gravSteady * (fin 27 * fin 27))) =
        fin ((9.81 / 16) ^ 3 / 128 : ℝ) := by
      simp only [mul_fin]
      rw [div_fin _ _ (by norm_num [gravSteady])]
      norm_num [sillPars, gravSteady]
    have e2 : fin 10 * (fin sillPars.Q * fin sillPars.Q) * fin (sillPars.n ^ 2) / (fin 2 * (fin 27 * fin 27)) = fin (0 : ℝ) := by
      simp only [mul_fin]
      rw [div_fin _ _ (by norm_num)]
      norm_num [sillPars]
    have e3 : (fin (26 / 8 * (9.81 / 16)) - fin 0 * fin 10 / fin 2 - fin (31 / 8 * (9.81 / 16)) : Fl ℝ) = fin (-(5/8) * (9.81 / 16)) := by
      simp only [mul_fin]
      rw [div_fin _ _ (by norm_num)]
      simp only [sub_fin]; norm_num
    have e4 : (fin (27 / 8 * (9.81 / 16)) + fin 0 - fin (26 / 8 * (9.81 / 16)) + fin 0 * fin 10 : Fl ℝ) = fin (1 / 8 * (9.81 / 16)) := by
      simp only [mul_fin, add_fin, sub_fin]; norm_num
    simp only [e1, e2, e3, e4]
    have f1 : depErr (fin ((9.81 / 16) ^ 3 / 128)) (fin 0) (fin (-(5/8) * (9.81 / 16))) (fin (1 / 8 * (9.81 / 16) : ℝ)) = fin 0 := by
      rw [depErr_pos _ _ _ (by norm_num)]
      unfold errR
      rw [Real.rpow_neg (by norm_num)]
      norm_num
    have hfuel : sillPars.MaxIt - 1 = 18 + 1 := rfl
    have hT : sillPars.Tol = 0.0001 := rfl
    rw [f1, hfuel, steadyNewton_succ, hT, if_neg (by simp only [abs_fin, blt_fin, decide_eq_true_eq]; norm_num)]
    simp only [bind, Except.bind, pure, Except.pure, c0, blt_fin]
    norm_num
  obtain ⟨gv, _, _⟩ := mkPt_pos sillPars (26 / 8 * (9.81 / 16)) (B := 27) (h := 1 / 4 * (9.81 / 16)) (by norm_num) (by norm_num)
  have gv' : (mkPt sillPars (fin (26 / 8 * (9.81 / 16))) (fin 27) (fin (1 / 4 * (9.81 / 16)))).vel = fin (9.81 / 8) := by
    rw [gv]; norm_num [sillPars]
  simp only [List.map_cons, List.map_nil, steadyProf]
  simp only [bind, Except.bind, pure, Except.pure, ee', es', hN]
  rw [show (mkPt sillPars (fin 0) (fin 1) (fin (27 / 8 * (9.81 / 16)))).dep = fin (27 / 8 * (9.81 / 16)) from rfl, hd]
  simp only [Except.map, List.map_cons, List.map_nil, ev', gv']
  rfl

/-- C195 is false of the code: the iteration may find the shallow of the two depths that carry the flow; critical depth is imposed in its place, and the energy level there is
15 cm lower than further downstream, though with the greater of the two depths it would be the same. -/
theorem C195_refuted : ∃ (p : SteadyPars) (dx z B : List ℝ) (d0 d1 v0 v1 z0 z1 b0 : ℝ), 0 < p.Q ∧ IsChannel dx z B ∧ (∀ x ∈ dx, 0 ≤ x) ∧ z = [z0, z1] ∧ B[0]? = some b0 ∧
    steady p dx z B = .ok ([fin d0, fin d1], [fin v0, fin v1]) ∧
    energyLevel 9.81 p.Beta z0 d0 v0 + 15/100 < energyLevel 9.81 p.Beta z1 d1 v1 ∧
    ∃ d, d0 < d ∧ energyLevel 9.81 p.Beta z0 d (p.Q / (b0 * d)) = energyLevel 9.81 p.Beta z1 d1 v1 := by
  refine ⟨sillPars, [10], [26 / 8 * (9.81 / 16), 0], [27, 1], _, _, _, _, _, _, 27, by norm_num [sillPars], ⟨by simp, rfl, rfl, by simp⟩, by simp, rfl, rfl, sill_run, ?_, ?_⟩
  · norm_num [energyLevel, sillPars]
  · have h2 : Real.sqrt 2 ^ 2 = 2 := Real.sq_sqrt (by norm_num)
    have h0 : 0 < Real.sqrt 2 := Real.sqrt_pos.mpr (by norm_num)
    set r := Real.sqrt 2
    refine ⟨(1 + r) / 4 * (9.81 / 16), by norm_num; linarith, ?_⟩
    have hne : 1 + r ≠ 0 := by positivity
    have e : sillPars.Q / (27 * ((1 + r) / 4 * (9.81 / 16))) = 9.81 / 8 / (1 + r) := by
      simp only [sillPars]
      field_simp
    have e2 : ((9.81:ℝ) / 8 / (1 + r)) ^ 2 = (9.81 / 8) ^ 2 * (3 - 2 * r) := by
      rw [div_pow, div_eq_iff (by positivity)]
      linear_combination (-(9.81 / 8) ^ 2 * (-4 + 3 - 2 * r)) * h2
    rw [energyLevel, e, e2, energyLevel]
    simp only [sillPars]
    norm_num
    ring

/-- The hypotheses of C195_partial are met by a lagoon behind a rough outlet. -/
example : (mouthPars 8).Q ≠ 0 ∧ IsChannel [20] [0, 0] [1000, 10] ∧ (∀ x ∈ ([20] : List ℝ), 0 ≤ x) ∧ ∃ x v0 v1 vs, steady (mouthPars 8) [20] [0, 0] [1000, 10] = .ok ([x, 8].map fin, vs) ∧
    (∀ k, 0 ≤ k → k < 0 + 1 → ∃ d b, ([x, 8].map fin)[k]? = some (fin d) ∧ ([1000, 10] : List ℝ)[k]? = some b ∧ ¬ Critical 9.81 (mouthPars 8).Q b d) ∧
    vs[0]? = some (fin v0) ∧ vs[1]? = some (fin v1) := by
  have e8 : slopeAt (1/20) 31 10 8 = (1/20) ^ 2 * (31 / 10) ^ 2 / 2 ^ 10 := by
    rw [slopeAt_eq _ _ _ (by norm_num)]
    congr 1
    rw [show (8 : ℝ) = 2 ^ (3 : ℝ) by norm_num, ← Real.rpow_mul (by norm_num), show (3 * (10/3) : ℝ) = (10 : ℕ) by norm_num, Real.rpow_natCast]
  obtain ⟨x, vs, x1, hr, -⟩ := mouth_run (S := 8) (by norm_num) rfl e8 (by positivity) (by unfold headAt energyLevel; norm_num)
    (by unfold headAt energyLevel; rw [abs_le]; constructor <;> norm_num)
  have hQ : (mouthPars 8).Q ≠ 0 := by norm_num [mouthPars]
  have c : IsChannel [20] [0, 0] [1000, 10] := ⟨by simp, rfl, rfl, by simp⟩
  rcases (C17_partial _ hQ _ _ _ c _ _ hr).2 0 0 1000 0 20 rfl rfl rfl rfl with hn | ⟨d0, d1, v0, v1, _, _, f0, f1, _⟩
  · simp at hn
  · refine ⟨hQ, c, by simp, x, v0, v1, vs, hr, ?_, f0, f1⟩
    intro k _ hk
    have : k = 0 := by omega
    subst this
    refine ⟨x, 1000, rfl, rfl, ?_⟩
    unfold Critical
    intro hc
    have : (1:ℝ) ≤ x ^ 3 := one_le_pow₀ x1
    norm_num [mouthPars] at hc
    nlinarith

end Verif.Props
