import Verif.Props.Solvable
import Verif.Spec.WaterBalance

set_option autoImplicit false
set_option linter.unusedSectionVars false

/-! # The last correction of an iteration and the balance it leaves -/

namespace Verif.Model
open Verif Fl Real Verif.Spec Verif.Props

/-- The state after a correction `y`, with the resets of depths and velocities. -/
noncomputable def bump (x y : ℕ → ℝ) (i : ℕ) : ℝ :=
  if i % 2 = 0 then (if x i - y i ≤ 0 then 0.0001 else x i - y i) else (if x i - y i = 0 then 0.0001 else x i - y i)

theorem bump_h (x y : ℕ → ℝ) (k : ℕ) : bump x y (2*k) = if x (2*k) - y (2*k) ≤ 0 then 0.0001 else x (2*k) - y (2*k) := by
  unfold bump; rw [if_pos (by omega)]
theorem bump_V (x y : ℕ → ℝ) (k : ℕ) : bump x y (2*k+1) = if x (2*k+1) - y (2*k+1) = 0 then 0.0001 else x (2*k+1) - y (2*k+1) := by
  unfold bump; rw [if_neg (by omega)]
theorem bump_pos (x y : ℕ → ℝ) (k : ℕ) : 0 < bump x y (2*k) := by
  rw [bump_h]; split
  · norm_num
  · linarith
theorem bump_ne (x y : ℕ → ℝ) (k : ℕ) : bump x y (2*k+1) ≠ 0 := by
  rw [bump_V]; split
  · norm_num
  · assumption

theorem gather_of {n : ℕ} (y : ℕ → ℝ) (ixs : List ℕ) (r : List (Fl ℝ)) (hi : ∀ i ∈ ixs, i < n)
    (h : gather ((List.range n).map (fun j => fin (y j))) ixs = .ok r) : r = ixs.map (fun i => fin (y i)) := by
  induction ixs generalizing r with
  | nil => cases h; rfl
  | cons j ixs ih =>
    simp only [gather, List.mapM_cons, bind, Except.bind, pure, Except.pure] at h
    split at h
    · cases h
    rename_i v hv
    split at h
    · cases h
    rename_i xs hxs
    cases h
    have hj := hi j (by simp)
    unfold ixGet at hv
    rw [List.getElem?_map, List.getElem?_range hj] at hv
    simp only [Option.map_some, Except.ok.injEq] at hv
    rw [List.map_cons, ← hv, ih _ (fun i hi' => hi i (List.mem_cons_of_mem _ hi')) hxs]

theorem update_of (p : PrePars) (st : PreStat) (N : ℕ) (x y : ℕ → ℝ) :
    List.zipWith (fun a (x : Fl ℝ × Fl ℝ) => preUpdate p a x.1 x.2) (nodesOf p st N x)
      ((((List.range N).map (fun i => 2 * i)).map (fun i => fin (y i))).zip (((List.range N).map (fun i => 2 * i + 1)).map (fun i => fin (y i)))) =
      nodesOf p st N (bump x y) := by
  apply List.ext_getElem
  · simp [nodesOf]
  · intro i h1 h2
    simp only [List.getElem_zipWith, List.getElem_zip, List.getElem_map, List.getElem_range, nodesOf, nodeOf, preUpdate, sub_fin, clampH_fin, clampV_fin, bump_h, bump_V]

/-- The last correction of an iteration. -/
theorem newton_last (p : PrePars) (st : PreStat) (N : ℕ) (hN : 2 ≤ N) (Closed : Bool) (solver : Solver)
    (hexact : ∀ band err d, solver band err = .ok d → SolvesBand (2*N) band err d) (hsing : ∀ band err, solver band err ≠ .singular)
    (Q Ds : ℝ) (fuel : ℕ) (hf : 0 < fuel) (s s' : PreState) (b : Bool) (x : ℕ → ℝ) (hn : s.nodes = nodesOf p st N x)
    (hx : ∀ k < N, 0 < x (2*k)) (hV : ∀ k < N, x (2*k+1) ≠ 0)
    (h : preNewton p Closed solver Q Ds (constsOf st N) (reachesOf st N) fuel s = .ok (s', b)) :
    ∃ x0 y : ℕ → ℝ, (∀ i < 2 * N, ∑ j ∈ Finset.range (2*N), jacR p st N Closed x0 (fun v => v) i j * y j = resR p st N Closed Q Ds x0 i) ∧
      s'.nodes = nodesOf p st N (bump x0 y) ∧ (b = true → ∀ j < 2 * N, |y j| < p.Tol) := by
  induction fuel generalizing s x with
  | zero => omega
  | succ fuel ih =>
    obtain ⟨err, band, d, dh, dV, he, hb, hd, g1, g2, hr⟩ := preNewton_succ p Closed solver Q Ds _ _ fuel s _ h
    replace hd : solver band err = .ok d := by
      rcases hd with hd | ⟨hd, _⟩
      · exact hd
      · exact absurd hd (hsing _ _)
    rw [hn] at he hb g1 g2 hr
    obtain ⟨e, he', _, hget⟩ := preErr_of p st N hN Closed Q Ds x hx
    rw [he] at he'
    cases he'
    obtain ⟨band', hb', hband⟩ := preBand_of p st N hN Closed x hx hV
    rw [hb] at hb'
    cases hb'
    obtain ⟨y, rfl, hy⟩ := (solves_iff (2*N) band _ _ err d hget hband (fun i j hi hj h => jacR_out p st N hN Closed x _ i j hi hj h) (by omega)).mp
      (hexact _ _ _ hd)
    have hl : (nodesOf p st N x).length = N := by simp [nodesOf]
    rw [hl] at g1 g2
    have e1 := gather_of y _ _ (by intro i hi; simp only [List.mem_map, List.mem_range] at hi; obtain ⟨a, ha, rfl⟩ := hi; omega) g1
    have e2 := gather_of y _ _ (by intro i hi; simp only [List.mem_map, List.mem_range] at hi; obtain ⟨a, ha, rfl⟩ := hi; omega) g2
    rw [e1, e2, update_of] at hr
    split at hr
    · rename_i hall
      cases hr
      refine ⟨x, y, hy, rfl, fun _ j hj => ?_⟩
      have := List.all_eq_true.mp hall (fin (y j)) (List.mem_map.mpr ⟨j, List.mem_range.mpr hj, rfl⟩)
      simpa using this
    · rcases Nat.eq_zero_or_pos fuel with rfl | hpos
      · rw [preNewton_zero] at hr
        cases hr
        exact ⟨x, y, hy, rfl, fun h => by cases h⟩
      · exact ih hpos _ (bump x y) rfl (fun k _ => bump_pos x y k) (fun k _ => bump_ne x y k) hr

/-- Continuity is bilinear in depths and velocities: an exact correction leaves only the products of the corrections. -/
theorem cont_left (p : PrePars) (st : PreStat) (N : ℕ) (Closed : Bool) (Q Ds : ℝ) (x y : ℕ → ℝ) (r : ℕ) (hr : r < N - 1)
    (h : ∑ j ∈ Finset.range (2*N), jacR p st N Closed x (fun v => v) (2*r+1) j * y j = resR p st N Closed Q Ds x (2*r+1)) :
    contR p st r (x (2*r) - y (2*r)) (x (2*r+1) - y (2*r+1)) (x (2*r+2) - y (2*r+2)) (x (2*r+3) - y (2*r+3)) =
      2 * st.dtdx r * p.Theta * (st.B (r+1) * y (2*r+2) * y (2*r+3) - st.B r * y (2*r) * y (2*r+1)) := by
  rw [row_cont p st N Closed x r hr] at h
  unfold resR at h
  rw [if_neg (by omega), if_neg (by omega), if_pos (by omega), show (2*r+1-1)/2 = r by omega, show 2*r+1-1 = 2*r by omega] at h
  simp only [derivR, contR, show 2*r+1+1 = 2*r+2 by omega, show 2*r+1+2 = 2*r+3 by omega] at h ⊢
  linear_combination (-1 : ℝ) * h

theorem us_left (p : PrePars) (st : PreStat) (N : ℕ) (hN : 2 ≤ N) (Closed : Bool) (Q Ds : ℝ) (x y : ℕ → ℝ)
    (h : ∑ j ∈ Finset.range (2*N), jacR p st N Closed x (fun v => v) 0 j * y j = resR p st N Closed Q Ds x 0) :
    (x 1 - y 1) * ((x 0 - y 0) * st.B 0) = Q + st.B 0 * y 0 * y 1 := by
  rw [row_us p st N Closed x hN] at h
  unfold resR at h
  rw [if_pos rfl] at h
  linear_combination (-1 : ℝ) * h

theorem ds_left (p : PrePars) (st : PreStat) (N : ℕ) (hN : 2 ≤ N) (Closed : Bool) (Q Ds : ℝ) (x y : ℕ → ℝ)
    (h : ∑ j ∈ Finset.range (2*N), jacR p st N Closed x (fun v => v) (2*N-1) j * y j = resR p st N Closed Q Ds x (2*N-1)) :
    (Closed = true → (x (2*N-1) - y (2*N-1)) * (x (2*N-2) - y (2*N-2)) = y (2*N-2) * y (2*N-1)) ∧
    (Closed = false → st.z (N-1) + (x (2*N-2) - y (2*N-2)) = Ds) := by
  rw [row_ds p st N Closed x hN] at h
  unfold resR at h
  rw [if_neg (show ¬ 2*N-1 = 0 by omega), if_pos (rfl : 2*N-1 = 2*N-1)] at h
  constructor
  · rintro rfl
    simp only [if_true] at h
    linear_combination (-1 : ℝ) * h
  · rintro rfl
    simp only [Bool.false_eq_true, if_false] at h
    linear_combination (-1 : ℝ) * h

open Finset in
/-- The balance with residuals `dt/dx` times twice the differences of `q`. -/
theorem balance_left (p : PrePars) (N : ℕ) (hN : 2 ≤ N) (c : ℕ → ChanNode ℝ) (dx : ℕ → ℝ) (hdx : ∀ r < N - 1, 0 < dx r) (C2 : ℕ → ℝ)
    (sea seaOld : ℝ) (h V h' V' q : ℕ → ℝ)
    (hres : ∀ r < N - 1, contR p (statOf p N c dx (fun r => c1R p (statOf p N c dx 0 0) sea seaOld r (h r) (V r) (h (r+1)) (V (r+1))) C2) r
      (h' r) (V' r) (h' (r+1)) (V' (r+1)) = 2 * (p.dt / dx r) * p.Theta * (q (r+1) - q r)) :
    (channelVolume N dx (fun k => (c k).B) h' + lagoonVolume N (fun k => (if k = 0 ∨ k = N - 1 then 1/2 else 1) * (c k).LagArea) h')
      - (channelVolume N dx (fun k => (c k).B) h + lagoonVolume N (fun k => (if k = 0 ∨ k = N - 1 then 1/2 else 1) * (c k).LagArea) h) =
    p.dt * (p.Theta * ((V' 0 * (h' 0 * (c 0).B) - q 0) - (V' (N-1) * (h' (N-1) * (c (N-1)).B) - q (N-1)))
        + (1 - p.Theta) * (V 0 * (h 0 * (c 0).B) - V (N-1) * (h (N-1) * (c (N-1)).B)))
      - p.dt * p.P * (p.Theta * seepHead N (fun k => (c k).LagLen) (fun k => (c k).z + h' k) sea
        + (1 - p.Theta) * seepHead N (fun k => (c k).LagLen) (fun k => (c k).z + h k) seaOld) := by
  have tel : ∀ g : ℕ → ℝ, g 0 - g (N-1) = ∑ r ∈ range (N-1), (g r - g (r+1)) := fun g => (sum_range_sub' g (N-1)).symm
  have lag : ∀ y : ℕ → ℝ, lagoonVolume N (fun k => (if k = 0 ∨ k = N - 1 then 1/2 else 1) * (c k).LagArea) y =
      ∑ r ∈ range (N - 1), dx r * (((c r).LagArea * y r / dx2R N dx r + (c (r+1)).LagArea * y (r+1) / dx2R N dx (r+1)) / 2) := by
    intro y
    rw [area_sum N hN dx hdx (fun k => (c k).LagArea * y k)]
    unfold lagoonVolume
    apply sum_congr rfl
    intro k _; ring
  have t1 := tel (fun k => V' k * (h' k * (c k).B) - q k)
  have t2 := tel (fun k => V k * (h k * (c k).B))
  rw [lag, lag, t1, t2]
  unfold channelVolume seepHead
  simp only [mul_sum, ← sum_add_distrib, ← sum_sub_distrib]
  apply sum_congr rfl
  intro r hr
  rw [mem_range] at hr
  have hd := (hdx r hr).ne'
  have e := hres r hr
  simp only [contR, c1R, statOf] at e
  generalize dx2R N dx r = d0 at *
  generalize dx2R N dx (r+1) = d1 at *
  have e2 : dx r / 2 * (h' (r+1) * ((c (r+1)).B + (c (r+1)).LagArea / d1) + h' r * ((c r).B + (c r).LagArea / d0)
      + 2 * (p.dt / dx r) * p.Theta * (V' (r+1) * (h' (r+1) * (c (r+1)).B) - V' r * (h' r * (c r).B))
      + ((c r).LagLen + (c (r+1)).LagLen) / (2 * dx r) * (p.dt * p.P * p.Theta) * (h' (r+1) + h' r)
      - (h (r+1) * ((c (r+1)).B + (c (r+1)).LagArea / d1) + h r * ((c r).B + (c r).LagArea / d0)
        - 2 * (p.dt / dx r) * (1 - p.Theta) * (V (r+1) * (h (r+1) * (c (r+1)).B) - V r * (h r * (c r).B))
        - ((c r).LagLen + (c (r+1)).LagLen) / (2 * dx r) * p.dt * p.P * ((c (r+1)).z + (c r).z - 2 * p.Theta * sea
          + (1 - p.Theta) * (h (r+1) + h r - 2 * seaOld)))) = dx r / 2 * (2 * (p.dt / dx r)) * p.Theta * (q (r+1) - q r) := by
    rw [e]; ring
  have k1 : dx r / 2 * (2 * (p.dt / dx r)) = p.dt := by field_simp
  have k2 : dx r / 2 * (((c r).LagLen + (c (r+1)).LagLen) / (2 * dx r)) = ((c r).LagLen + (c (r+1)).LagLen) / 4 := by
    field_simp; ring
  linear_combination e2 - (p.Theta * (V' (r+1) * (h' (r+1) * (c (r+1)).B) - V' r * (h' r * (c r).B)) + (1 - p.Theta) * (V (r+1) * (h (r+1) * (c (r+1)).B) - V r * (h r * (c r).B))) * k1
    + p.Theta * (q (r+1) - q r) * k1
    - (p.dt * p.P * p.Theta * (h' (r+1) + h' r) + p.dt * p.P * ((c (r+1)).z + (c r).z - 2 * p.Theta * sea
          + (1 - p.Theta) * (h (r+1) + h r - 2 * seaOld))) * k2

end Verif.Model
