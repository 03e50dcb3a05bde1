import Verif.Lemmas.PreissmannRun
import Verif.Spec.Flow

set_option autoImplicit false

set_option linter.unusedSectionVars false

namespace Verif.Model
open Verif Fl Real Verif.Spec

/-! ### Residuals when nothing changes -/

theorem cont_still (p : PrePars) (st : PreStat) (sea : ℝ) (r : ℕ) (h0 V0 h1 V1 : ℝ)
    (h : st.C1 r = c1R p st sea sea r h0 V0 h1 V1) :
    contR p st r h0 V0 h1 V1 = 2 * st.dtdx r * (V1 * (h1 * st.B (r+1)) - V0 * (h0 * st.B r))
      + st.SeepLen r * p.dt * p.P * (st.z (r+1) + h1 + (st.z r + h0) - 2 * sea) := by
  unfold contR
  rw [h]
  unfold c1R
  ring

theorem mom_still (p : PrePars) (st : PreStat) (r : ℕ) (h0 V0 h1 V1 : ℝ)
    (h : st.C2 r = c2R p st r h0 V0 h1 V1) :
    momR p st r h0 V0 h1 V1 = 2 * p.Beta * st.dtdx r * (V1 * |V1| * (h1 * st.B (r+1)) - V0 * |V0| * (h0 * st.B r))
      + p.g * st.dtdx r * (h1 * st.B (r+1) + h0 * st.B r) * (h1 - h0)
      - p.g * p.dt * (h1 * st.B (r+1) * (st.S0 r - sfR p h1 V1) + h0 * st.B r * (st.S0 r - sfR p h0 V0)) := by
  unfold momR
  rw [h]
  unfold c2R
  ring

/-- The flow held by a channel. -/
def flowOf (c : ℕ → ChanNode ℝ) (dx : ℕ → ℝ) : Flow :=
  { z := fun k => (c k).z, B := fun k => (c k).B, len := fun k => (c k).LagLen, h := fun k => (c k).h, V := fun k => (c k).V, dx := dx }

theorem cont_flow (p : PrePars) (N : ℕ) (c : ℕ → ChanNode ℝ) (dx : ℕ → ℝ) (C1 C2 : ℕ → ℝ) (sea : ℝ) (r : ℕ) (hdx : dx r ≠ 0)
    (h : C1 r = c1R p (statOf p N c dx C1 C2) sea sea r (c r).h (c r).V (c (r+1)).h (c (r+1)).V) :
    contR p (statOf p N c dx C1 C2) r (c r).h (c r).V (c (r+1)).h (c (r+1)).V =
      2 * p.dt / dx r * ((flowOf c dx).discharge (r+1) - (flowOf c dx).discharge r
        + p.P * (((flowOf c dx).len r + (flowOf c dx).len (r+1)) / 2)
          * (((flowOf c dx).level r + (flowOf c dx).level (r+1)) / 2 - sea)) := by
  rw [cont_still p (statOf p N c dx C1 C2) sea r _ _ _ _ h]
  simp only [statOf, flowOf, Flow.discharge, Flow.area, Flow.level]
  field_simp
  ring

theorem mom_flow (p : PrePars) (N : ℕ) (c : ℕ → ChanNode ℝ) (dx : ℕ → ℝ) (C1 C2 : ℕ → ℝ) (r : ℕ) (hdx : dx r ≠ 0)
    (h : C2 r = c2R p (statOf p N c dx C1 C2) r (c r).h (c r).V (c (r+1)).h (c (r+1)).V) :
    momR p (statOf p N c dx C1 C2) r (c r).h (c r).V (c (r+1)).h (c (r+1)).V =
      2 * p.dt / dx r * (p.Beta * ((flowOf c dx).discharge (r+1) * |(c (r+1)).V| - (flowOf c dx).discharge r * |(c r).V|)
        + p.g * (((flowOf c dx).area r + (flowOf c dx).area (r+1)) / 2) * ((flowOf c dx).level (r+1) - (flowOf c dx).level r)
        + p.g * dx r * (((flowOf c dx).area r * (flowOf c dx).friction p.n r
            + (flowOf c dx).area (r+1) * (flowOf c dx).friction p.n (r+1)) / 2)) := by
  rw [mom_still p (statOf p N c dx C1 C2) r _ _ _ _ h]
  simp only [statOf, flowOf, Flow.discharge, Flow.area, Flow.level, Flow.friction, sfR]
  field_simp
  ring

/-! ### Newton steps with nothing to correct -/

theorem gather_replicate (m : ℕ) (ixs : List ℕ) (h : ∀ i ∈ ixs, i < m) :
    gather (List.replicate m (fin (0:ℝ))) ixs = .ok (List.replicate ixs.length (fin 0)) := by
  induction ixs with
  | nil => rfl
  | cons i ixs ih =>
    have hi : ixGet (List.replicate m (fin (0:ℝ))) i = .ok (fin 0) := by
      unfold ixGet
      rw [List.getElem?_replicate, if_pos (h i (by simp))]
    have := ih (fun j hj => h j (by simp [hj]))
    unfold gather at this ⊢
    rw [List.mapM_cons, hi, this]
    rfl

theorem update_zero (p : PrePars) (st : PreStat) (x : ℕ → ℝ) (k : ℕ) (hx : 0 < x (2*k)) (hv : x (2*k+1) ≠ 0) :
    preUpdate p (nodeOf p st x k) (fin 0) (fin 0) = nodeOf p st x k := by
  simp only [preUpdate, nodeOf, sub_fin, sub_zero, clampH_fin, clampV_fin, if_neg hx.not_ge, if_neg hv]

theorem updates_zero (p : PrePars) (st : PreStat) (N : ℕ) (x : ℕ → ℝ) (hx : ∀ k < N, 0 < x (2*k)) (hv : ∀ k < N, x (2*k+1) ≠ 0) :
    List.zipWith (fun a (y : Fl ℝ × Fl ℝ) => preUpdate p a y.1 y.2) (nodesOf p st N x)
      ((List.replicate N (fin 0)).zip (List.replicate N (fin 0))) = nodesOf p st N x := by
  apply List.ext_getElem
  · simp [nodesOf]
  · intro i h1 h2
    have hi : i < N := by simpa [nodesOf] using h2
    simp only [nodesOf, List.getElem_zipWith, List.getElem_map, List.getElem_range, List.getElem_zip, List.getElem_replicate]
    exact update_zero p st x i (hx i hi) (hv i hi)

theorem newton_still (p : PrePars) (st : PreStat) (N : ℕ) (hN : 2 ≤ N) (Closed : Bool) (solver : Solver) (Q Ds : ℝ) (x : ℕ → ℝ)
    (hx : ∀ k < N, 0 < x (2*k)) (hv : ∀ k < N, x (2*k+1) ≠ 0) (hTol : 0 < p.Tol)
    (hres : ∀ i < 2 * N, resR p st N Closed Q Ds x i = 0)
    (hsolver : ∀ band d, preBand p Closed (reachesOf st N) (nodesOf p st N x) = .ok band →
      solver band (List.replicate (2*N) (fin 0)) = .ok d → d = List.replicate (2*N) (fin 0))
    (fuel : ℕ) (D : Option (List (Fl ℝ))) (hD : ∀ d, D = some d → d = List.replicate (2*N) (fin 0))
    (cl : Option (List (Fl ℝ × Fl ℝ))) :
    (∃ band, preBand p Closed (reachesOf st N) (nodesOf p st N x) = .ok band ∧ (∃ e, preNewton p Closed solver Q Ds (constsOf st N) (reachesOf st N) (fuel+1) ⟨nodesOf p st N x, D, cl⟩ = .error e) ∧
        ¬ ∃ d, solver band (List.replicate (2*N) (fin 0)) = .ok d) ∨
      preNewton p Closed solver Q Ds (constsOf st N) (reachesOf st N) (fuel+1) ⟨nodesOf p st N x, D, cl⟩ =
        .ok (⟨nodesOf p st N x, some (List.replicate (2*N) (fin 0)), cl⟩, true) := by
  obtain ⟨e, he, hl, hget⟩ := preErr_of p st N hN Closed Q Ds x hx
  obtain ⟨band, hb, -⟩ := preBand_of p st N hN Closed x hx hv
  have he0 : e = List.replicate (2*N) (fin 0) := by
    apply List.ext_getElem?
    intro i
    by_cases hi : i < 2 * N
    · rw [hget i hi, hres i hi, List.getElem?_replicate, if_pos hi]
    · rw [List.getElem?_eq_none (by omega), List.getElem?_eq_none (by simp; omega)]
  subst he0
  have hlen : (nodesOf p st N x).length = N := by simp [nodesOf]
  have g0 := gather_replicate (2*N) ((List.range N).map (fun i => 2 * i)) (by
    intro i hi; obtain ⟨j, hj, rfl⟩ := List.mem_map.mp hi; rw [List.mem_range] at hj; omega)
  have g1 := gather_replicate (2*N) ((List.range N).map (fun i => 2 * i + 1)) (by
    intro i hi; obtain ⟨j, hj, rfl⟩ := List.mem_map.mp hi; rw [List.mem_range] at hj; omega)
  have hall : (List.replicate (2*N) (fin (0:ℝ))).all (fun x => x.abs <? fin p.Tol) = true := by
    rw [List.all_eq_true]
    intro y hy
    rw [List.eq_of_mem_replicate hy]
    simp [hTol]
  simp only [List.length_map, List.length_range] at g0 g1
  have hup := updates_zero p st N x hx hv
  rw [preNewton.eq_def]
  simp only [he, hb, hlen, bind, Except.bind]
  cases hs : solver band (List.replicate (2*N) (fin 0)) with
  | raised er =>
    left
    exact ⟨band, rfl, ⟨er, rfl⟩, by rw [hs]; rintro ⟨d, hd⟩; cases hd⟩
  | ok d =>
    right
    rw [hsolver band d hb hs]
    simp only [g0, g1, hall, hup, if_true]
  | singular =>
    cases hDD : D with
    | none =>
      left
      exact ⟨band, rfl, ⟨_, rfl⟩, by rw [hs]; rintro ⟨d, hd⟩; cases hd⟩
    | some d =>
      right
      rw [hD d hDD]
      simp only [g0, g1, hall, hup, if_true]

/-! ### One timestep from numeric arrays -/

/-- The fixed data of a channel together with the constants of a timestep that starts from its
own depths and velocities. -/
noncomputable def stepStat (p : PrePars) (N : ℕ) (c : ℕ → ChanNode ℝ) (dx : ℕ → ℝ) (sea seaOld : ℝ) : PreStat :=
  statOf p N c dx
    (fun r => c1R p (statOf p N c dx 0 0) sea seaOld r (c r).h (c r).V (c (r+1)).h (c (r+1)).V)
    (fun r => c2R p (statOf p N c dx 0 0) r (c r).h (c r).V (c (r+1)).h (c (r+1)).V)

theorem initX_h {c : ℕ → ChanNode ℝ} {k : ℕ} (h : 0 < (c k).h) : initX c (2*k) = (c k).h := by
  unfold initX; rw [if_pos (by omega), show 2*k/2 = k by omega, if_neg (by linarith)]

theorem initX_V {c : ℕ → ChanNode ℝ} {k : ℕ} (h : (c k).V ≠ 0) : initX c (2*k+1) = (c k).V := by
  unfold initX; rw [if_neg (by omega), show (2*k+1)/2 = k by omega, if_neg h]

theorem consts_step (p : PrePars) (N : ℕ) (c : ℕ → ChanNode ℝ) (dx : ℕ → ℝ) (hh : ∀ k < N, 0 < (c k).h)
    (hV : ∀ k < N, (c k).V ≠ 0) (sea seaOld : ℝ) :
    (preReaches (reachesOf (stepStat p N c dx sea seaOld) N) (nodesOf p (stepStat p N c dx sea seaOld) N (initX c))).map (fun x =>
      (preC1 p (fin sea) (fin seaOld) x.1 x.2.1 x.2.2, preC2 p x.1 x.2.1 x.2.2)) = constsOf (stepStat p N c dx sea seaOld) N := by
  rw [preReaches_of, List.map_map]
  unfold constsOf
  apply List.map_congr_left
  intro r hr
  rw [List.mem_range] at hr
  have a := initX_h (hh r (by omega))
  have b := initX_V (hV r (by omega))
  have a' : initX c (2*r+2) = (c (r+1)).h := initX_h (hh (r+1) (by omega))
  have b' : initX c (2*r+3) = (c (r+1)).V := initX_V (hV (r+1) (by omega))
  simp only [Function.comp]
  rw [preC1_of, preC2_of p _ _ r (by rw [a]; exact hh r (by omega)) (by rw [a']; exact hh _ (by omega)), a, b, a', b']
  rfl

theorem res_flow (p : PrePars) (N : ℕ) (hN : 2 ≤ N) (c : ℕ → ChanNode ℝ) (dx : ℕ → ℝ) (hdx : ∀ r < N - 1, 0 < dx r)
    (hh : ∀ k < N, 0 < (c k).h) (hV : ∀ k < N, (c k).V ≠ 0) (Q sea : ℝ) :
    resR p (stepStat p N c dx sea sea) N false Q sea (initX c) 0 = (flowOf c dx).discharge 0 - Q ∧
    resR p (stepStat p N c dx sea sea) N false Q sea (initX c) (2*N-1) = (flowOf c dx).level (N-1) - sea ∧
    ∀ r < N - 1,
      resR p (stepStat p N c dx sea sea) N false Q sea (initX c) (2*r+1) =
        2 * p.dt / dx r * ((flowOf c dx).discharge (r+1) - (flowOf c dx).discharge r
        + p.P * (((flowOf c dx).len r + (flowOf c dx).len (r+1)) / 2)
          * (((flowOf c dx).level r + (flowOf c dx).level (r+1)) / 2 - sea)) ∧
      resR p (stepStat p N c dx sea sea) N false Q sea (initX c) (2*r+2) =
        2 * p.dt / dx r * (p.Beta * ((flowOf c dx).discharge (r+1) * |(c (r+1)).V| - (flowOf c dx).discharge r * |(c r).V|)
        + p.g * (((flowOf c dx).area r + (flowOf c dx).area (r+1)) / 2) * ((flowOf c dx).level (r+1) - (flowOf c dx).level r)
        + p.g * dx r * (((flowOf c dx).area r * (flowOf c dx).friction p.n r
            + (flowOf c dx).area (r+1) * (flowOf c dx).friction p.n (r+1)) / 2)) := by
  refine ⟨?_, ?_, ?_⟩
  · unfold resR
    rw [if_pos rfl]
    have a : initX c 0 = (c 0).h := initX_h (hh 0 (by omega))
    have b : initX c 1 = (c 0).V := initX_V (hV 0 (by omega))
    rw [a, b]
    simp only [stepStat, statOf, flowOf, Flow.discharge, Flow.area]
    ring
  · unfold resR
    rw [if_neg (by omega), if_pos rfl]
    have a : initX c (2*N-2) = (c (N-1)).h := by
      rw [show 2*N-2 = 2*(N-1) by omega]; exact initX_h (hh (N-1) (by omega))
    rw [a]
    simp [stepStat, statOf, flowOf, Flow.level]
  · intro r hr
    have a := initX_h (hh r (by omega))
    have b := initX_V (hV r (by omega))
    have a' : initX c (2*r+2) = (c (r+1)).h := initX_h (hh (r+1) (by omega))
    have b' : initX c (2*r+3) = (c (r+1)).V := initX_V (hV (r+1) (by omega))
    constructor
    · unfold resR
      rw [if_neg (by omega), if_neg (by omega), if_pos (by omega), show (2*r+1-1)/2 = r by omega, show 2*r+1-1 = 2*r by omega,
        show 2*r+1+1 = 2*r+2 by omega, show 2*r+1+2 = 2*r+3 by omega, a, b, a', b']
      exact cont_flow p N c dx _ _ sea r (hdx r hr).ne' rfl
    · unfold resR
      rw [if_neg (by omega), if_neg (by omega), if_neg (by omega), show (2*r+2-2)/2 = r by omega, show 2*r+2-2 = 2*r by omega,
        show 2*r+2-1 = 2*r+1 by omega, show 2*r+2+1 = 2*r+3 by omega, a, b, a', b']
      exact mom_flow p N c dx _ _ r (hdx r hr).ne' rfl

/-- Every residual vanishes at a steady flow downstream. -/
theorem res_zero (p : PrePars) (N : ℕ) (hN : 2 ≤ N) (c : ℕ → ChanNode ℝ) (dx : ℕ → ℝ) (hdx : ∀ r < N - 1, 0 < dx r)
    (hh : ∀ k < N, 0 < (c k).h) (hV : ∀ k < N, 0 < (c k).V) (Q sea : ℝ)
    (hs : SteadyFlow p.g p.n p.Beta p.P N (flowOf c dx) Q sea) (i : ℕ) (hi : i < 2 * N) :
    resR p (stepStat p N c dx sea sea) N false Q sea (initX c) i = 0 := by
  obtain ⟨r0, rN, rr⟩ := res_flow p N hN c dx hdx hh (fun k hk => (hV k hk).ne') Q sea
  by_cases i0 : i = 0
  · rw [i0, r0, hs.inflow, sub_self]
  by_cases iN : i = 2 * N - 1
  · rw [iN, rN, hs.outflow, sub_self]
  by_cases io : i % 2 = 1
  · obtain ⟨r, rfl⟩ : ∃ r, i = 2 * r + 1 := ⟨(i-1)/2, by omega⟩
    rw [(rr r (by omega)).1, hs.water r (by omega)]
    ring
  · obtain ⟨r, rfl⟩ : ∃ r, i = 2 * r + 2 := ⟨(i-2)/2, by omega⟩
    have hf := hs.force r (by omega)
    have e : ∀ k < N, (flowOf c dx).discharge k * |(c k).V| = (flowOf c dx).momentum k := by
      intro k hk; rw [abs_of_pos (hV k hk)]; rfl
    rw [(rr r (by omega)).2, e r (by omega), e (r+1) (by omega)]
    refine mul_eq_zero_of_right _ ?_
    exact hf

/-- A steady flow is a fixed point of every timestep. -/
theorem step_still (p : PrePars) (N : ℕ) (hN : 2 ≤ N) (c : ℕ → ChanNode ℝ) (dx : ℕ → ℝ) (hdx : ∀ r < N - 1, 0 < dx r)
    (hh : ∀ k < N, 0 < (c k).h) (hV : ∀ k < N, 0 < (c k).V) (Q sea : ℝ)
    (hs : SteadyFlow p.g p.n p.Beta p.P N (flowOf c dx) Q sea) (hTol : 0 < p.Tol) (hMax : 0 < p.MaxIt) (solver : Solver)
    (hsolver : ∀ band d, preBand p false (reachesOf (stepStat p N c dx sea sea) N) (nodesOf p (stepStat p N c dx sea sea) N (initX c)) = .ok band →
      solver band (List.replicate (2*N) (fin 0)) = .ok d → d = List.replicate (2*N) (fin 0))
    (dxs : List (Fl ℝ)) (Ql Dl : ℝ) (D : Option (List (Fl ℝ))) (hD : ∀ d, D = some d → d = List.replicate (2*N) (fin 0)) :
    (∃ band, preBand p false (reachesOf (stepStat p N c dx sea sea) N) (nodesOf p (stepStat p N c dx sea sea) N (initX c)) = .ok band ∧ (∃ e, preStep p false solver dxs (reachesOf (stepStat p N c dx sea sea) N) Ql Dl
        (⟨nodesOf p (stepStat p N c dx sea sea) N (initX c), D, none⟩, fin sea) (Q, sea) = .error e) ∧
        ¬ ∃ d, solver band (List.replicate (2*N) (fin 0)) = .ok d) ∨
      preStep p false solver dxs (reachesOf (stepStat p N c dx sea sea) N) Ql Dl
        (⟨nodesOf p (stepStat p N c dx sea sea) N (initX c), D, none⟩, fin sea) (Q, sea) =
        .ok (⟨nodesOf p (stepStat p N c dx sea sea) N (initX c), some (List.replicate (2*N) (fin 0)), none⟩, fin sea) := by
  obtain ⟨m, hm⟩ : ∃ m, p.MaxIt = m + 1 := ⟨p.MaxIt - 1, by omega⟩
  have hV' : ∀ k < N, (c k).V ≠ 0 := fun k hk => (hV k hk).ne'
  have key := newton_still p (stepStat p N c dx sea sea) N hN false solver Q sea (initX c)
    (fun k hk => by rw [initX_h (hh k hk)]; exact hh k hk) (fun k hk => by rw [initX_V (hV' k hk)]; exact hV' k hk) hTol
    (res_zero p N hN c dx hdx hh hV Q sea hs) hsolver m D hD none
  unfold preStep
  simp only [consts_step p N c dx hh hV' sea sea, hm]
  rcases key with ⟨band, hband, ⟨e, he⟩, hb⟩ | key
  · left
    refine ⟨band, hband, ⟨e, ?_⟩, hb⟩
    rw [he]; rfl
  · right
    rw [key]; rfl

end Verif.Model
