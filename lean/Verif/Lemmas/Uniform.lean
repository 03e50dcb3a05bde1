import Verif.Lemmas.Steady
import Verif.Spec.Steady
import Mathlib.Tactic.FieldSimp
import Mathlib.Tactic.Linarith

set_option autoImplicit false

set_option linter.unusedSectionVars false

namespace Verif.Model
open Verif Fl Real Verif.Spec

theorem crit_le {p : SteadyPars} {B h : ℝ} (hB : 0 < B) (hh : 0 < h) (hs : NotSupercritical gravSteady p.Q B h) : critR p B ≤ h := by
  unfold NotSupercritical at hs
  rw [critR_cube p hB] at hs
  have hg := grav_pos
  by_contra hc
  push Not at hc
  have : h ^ 3 < critR p B ^ 3 := by gcongr
  have h2 : 0 < gravSteady * B ^ 2 := by positivity
  nlinarith

/-- The residual vanishes at the normal depth. -/
theorem errR_uniform (p : SteadyPars) (B h V S dx z z1 : ℝ) (hB : 0 < B) (hh : 0 < h) (hQ : p.Q = V * B * h)
    (hS : S = p.n ^ 2 * V ^ 2 / h ^ (4/3 : ℝ)) (hz : z = z1 + S * dx) :
    errR (Ar p B) (Br p dx B) (z - S * dx / 2 - (z1 + h + p.Beta * V ^ 2 / (2 * gravSteady))) h = 0 := by
  have hg := grav_pos
  have e1 : h ^ (-2 : ℝ) = 1 / h ^ 2 := by
    rw [Real.rpow_neg hh.le, one_div]; norm_cast
  have e2 : h ^ (-10/3 : ℝ) = 1 / (h ^ 2 * h ^ (4/3 : ℝ)) := by
    rw [show (-10/3 : ℝ) = -(2 + 4/3) by norm_num, Real.rpow_neg hh.le, Real.rpow_add hh, one_div]; norm_cast
  have hp : 0 < h ^ (4/3 : ℝ) := by positivity
  unfold errR Ar Br
  rw [e1, e2, hQ, hz, hS]
  field_simp
  ring

theorem depth_uniform (p : SteadyPars) (hTol : 0 ≤ p.Tol) (B h V S dx z z1 : ℝ) (hB : 0 < B) (hh : 0 < h) (hQ : p.Q = V * B * h)
    (hS : S = p.n ^ 2 * V ^ 2 / h ^ (4/3 : ℝ)) (hz : z = z1 + S * dx) (hs : NotSupercritical gravSteady p.Q B h) :
    steadyDepth p (fin dx) (fin z) (fin B) (fin z1) (fin h) (fin (z1 + h + p.Beta * V ^ 2 / (2 * gravSteady))) (fin S) = .ok (fin h) := by
  have hg := grav_pos
  have hc := crit_le hB hh hs
  have hA : fin p.Beta * (fin p.Q * fin p.Q / (fin 2 * fin gravSteady * (fin B * fin B))) = fin (Ar p B) := by
    simp only [mul_fin]
    rw [div_fin _ _ (by positivity)]; rfl
  have hBc : fin dx * (fin p.Q * fin p.Q) * fin (p.n ^ 2) / (fin 2 * (fin B * fin B)) = fin (Br p dx B) := by
    simp only [mul_fin]
    rw [div_fin _ _ (by positivity)]; rfl
  have hC : (fin z - fin S * fin dx / fin 2 - fin (z1 + h + p.Beta * V ^ 2 / (2 * gravSteady)) : Fl ℝ) =
      fin (z - S * dx / 2 - (z1 + h + p.Beta * V ^ 2 / (2 * gravSteady))) := by
    simp only [mul_fin]
    rw [div_fin _ _ (by norm_num)]; simp
  have hd : (fin h + fin z1 - fin z + fin S * fin dx : Fl ℝ) = fin h := by
    simp only [mul_fin, add_fin, sub_fin, hz]; congr 1; ring
  unfold steadyDepth
  simp only [hA, hBc, hC, hd, depErr_pos _ _ _ hh, errR_uniform p B h V S dx z z1 hB hh hQ hS hz]
  have hn : ∀ fuel, steadyNewton (fin (Ar p B)) (fin (Br p dx B))
      (fin (z - S * dx / 2 - (z1 + h + p.Beta * V ^ 2 / (2 * gravSteady)))) p.Tol fuel (fin h) (fin 0) = .ok (fin h) := by
    intro fuel
    have : ((fin p.Tol <? (fin (0:ℝ)).abs)) = false := by simp [hTol]
    cases fuel with
    | zero => rw [steadyNewton_zero, this]; rfl
    | succ fuel => rw [steadyNewton_succ, this]; rfl
  rw [hn]
  simp only [bind, Except.bind, pure, Except.pure, critDep_fin p hB]
  simp [hc.not_gt]

/-- What a section of the uniform flow looks like. -/
theorem pt_uniform (p : SteadyPars) (B h V z : ℝ) (hB : 0 < B) (hh : 0 < h) (hQ : p.Q = V * B * h) :
    (mkPt p (fin z) (fin B) (fin h)).vel = fin V ∧
    (mkPt p (fin z) (fin B) (fin h)).en = fin (z + h + p.Beta * V ^ 2 / (2 * gravSteady)) ∧
    (mkPt p (fin z) (fin B) (fin h)).sf = fin (p.n ^ 2 * V ^ 2 / h ^ (4/3 : ℝ)) := by
  obtain ⟨a, b, c⟩ := mkPt_pos p z hB hh
  have e : p.Q / (B * h) = V := by rw [hQ]; field_simp
  rw [a, b, c, e]
  refine ⟨rfl, ?_, ?_⟩
  · congr 2; ring
  · congr 1; ring

theorem prof_uniform (p : SteadyPars) (hTol : 0 ≤ p.Tol) (B h V : ℝ) (hB : 0 < B) (hh : 0 < h) (hQ : p.Q = V * B * h)
    (hs : NotSupercritical gravSteady p.Q B h) (N : ℕ) (z dx : ℕ → ℝ)
    (hz : ∀ r < N, z r - z (r+1) = dx r * (p.n ^ 2 * V ^ 2 / h ^ (4/3 : ℝ))) (hsea : z N + h = p.DsWL) :
    steadyProf p ((List.range N).map (fun r => fin (dx r))) ((List.range (N+1)).map (fun k => fin (z k))) ((List.range (N+1)).map (fun _ => fin B)) =
      .ok ((List.range (N+1)).map (fun k => mkPt p (fin (z k)) (fin B) (fin h))) := by
  induction N generalizing z dx with
  | zero =>
    have : npmax (fin p.DsWL - fin (z 0)) (critDep p (fin B)) = fin h := by
      rw [critDep_fin p hB, sub_fin, npmax_fin, ← hsea]
      congr 1
      have := crit_le hB hh hs
      rw [add_sub_cancel_left]; exact max_eq_left this
    simp only [List.range_succ, List.range_zero, List.nil_append, List.map_cons, List.map_nil, steadyProf, this]
  | succ N ih =>
    have ih' := ih (fun k => z (k+1)) (fun r => dx (r+1)) (fun r hr => hz (r+1) (by omega)) hsea
    rw [List.range_succ_eq_map (n := N), List.range_succ_eq_map (n := N+1)]
    simp only [List.map_cons, List.map_map]
    have el : ∀ (α : Type) (f : ℕ → α), (List.range (N+1)).map (f ∘ Nat.succ) = f 1 :: (List.range N).map (fun k => f (k+2)) := by
      intro α f
      rw [List.range_succ_eq_map]; simp [Function.comp_def]
    have eB : List.map ((fun _ => fin B) ∘ Nat.succ) (List.range (N+1)) = (List.range (N+1)).map (fun _ => fin B) := rfl
    rw [el _ (fun k => fin (z k)), el _ (fun k => mkPt p (fin (z k)) (fin B) (fin h)), eB]
    have ez : fin (z 1) :: (List.range N).map (fun k => fin (z (k+2))) = (List.range (N+1)).map (fun k => fin (z (k+1))) := by
      rw [List.range_succ_eq_map]; simp [Function.comp_def]
    have ep : (List.range (N+1)).map (fun k => mkPt p (fin (z (k+1))) (fin B) (fin h)) =
        mkPt p (fin (z 1)) (fin B) (fin h) :: (List.range N).map (fun k => mkPt p (fin (z (k+2))) (fin B) (fin h)) := by
      rw [List.range_succ_eq_map]; simp [Function.comp_def]
    rw [steadyProf]
    rw [ez]
    have edx : List.map ((fun r => fin (dx r)) ∘ Nat.succ) (List.range N) = (List.range N).map (fun r => fin (dx (r+1))) := rfl
    rw [edx, ih', ep]
    obtain ⟨a, b, c⟩ := pt_uniform p B h V (z 1) hB hh hQ
    simp only [bind, Except.bind, b, c]
    have hd : (mkPt p (fin (z 1)) (fin B) (fin h)).dep = fin h := rfl
    rw [hd, depth_uniform p hTol B h V _ (dx 0) (z 0) (z 1) hB hh hQ rfl (by have := hz 0 (by omega); linarith) hs]
    rfl

end Verif.Model
