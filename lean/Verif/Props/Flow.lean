import Verif.Lemmas.Steadfast
import Verif.Lemmas.Uniform
import Verif.Props.Preissmann

set_option autoImplicit false

set_option linter.unusedSectionVars false

/-! # Properties C119-C120: steady and uniform flow in the hydraulic solvers -/

namespace Verif.Props
open Verif Verif.Model Verif.Spec Fl Real

/-- `solveFullPreissmann` on the channel with sections `c` and reach lengths `dx`, with an open
outlet and the same inflow and sea level for `steps` timesteps. -/
noncomputable abbrev hold (p : PrePars) (solver : Solver) (N : ℕ) (c : ℕ → ChanNode ℝ) (dx : ℕ → ℝ) (Q sea : ℝ) (steps : ℕ) :
    Except PyErr (List (Fl ℝ × Fl ℝ)) :=
  solveFullPreissmann p false solver ((List.range (N-1)).map (fun r => fin (dx r))) ((List.range N).map (fun k => finNode (c k)))
    (List.replicate steps (Q, sea))

/-- The depths and velocities the sections hold. -/
def held (N : ℕ) (c : ℕ → ChanNode ℝ) : List (Fl ℝ × Fl ℝ) := (List.range N).map (fun k => (fin (c k).h, fin (c k).V))

theorem nodes_held (p : PrePars) (st : PreStat) (N : ℕ) (c : ℕ → ChanNode ℝ) (hh : ∀ k < N, 0 < (c k).h) (hV : ∀ k < N, (c k).V ≠ 0) :
    (nodesOf p st N (initX c)).map (fun a => (a.h, a.V)) = held N c := by
  unfold nodesOf held
  rw [List.map_map]
  apply List.map_congr_left
  intro k hk
  rw [List.mem_range] at hk
  simp only [Function.comp, nodeOf, initX_h (hh k hk), initX_V (hV k hk)]

theorem hold_unfold (p : PrePars) (solver : Solver) (N : ℕ) (hN : 2 ≤ N) (c : ℕ → ChanNode ℝ) (dx : ℕ → ℝ)
    (hdx : ∀ r < N - 1, 0 < dx r) (hh : ∀ k < N, 0 < (c k).h) (Q sea : ℝ) (hout : (c (N-1)).z + (c (N-1)).h = sea) (steps : ℕ) :
    hold p solver N c dx Q sea steps = (do
      let (s, _) ← (List.replicate steps (Q, sea)).foldlM
        (preStep p false solver ((List.range (N-1)).map (fun r => fin (dx r))) (reachesOf (stepStat p N c dx sea sea) N)
          ((List.replicate steps (Q, sea)).getLast?.getD (0, 0)).1 ((List.replicate steps (Q, sea)).getLast?.getD (0, 0)).2)
        (⟨nodesOf p (stepStat p N c dx sea sea) N (initX c), none, none⟩, fin sea)
      return match s.caller with
        | some c => c
        | none => s.nodes.map (fun a => (a.h, a.V))) := by
  unfold hold solveFullPreissmann
  have hini := preInit_of p N hN c dx hdx
    (fun r => c1R p (statOf p N c dx 0 0) sea sea r (c r).h (c r).V (c (r+1)).h (c (r+1)).V)
    (fun r => c2R p (statOf p N c dx 0 0) r (c r).h (c r).V (c (r+1)).h (c (r+1)).V)
  rw [hini]
  have hl := pyGet_nodes p (stepStat p N c dx sea sea) N (by omega) (initX c)
  unfold stepStat at hl ⊢
  simp only [bind, Except.bind, hl]
  have e : (nodeOf p (statOf p N c dx
    (fun r => c1R p (statOf p N c dx 0 0) sea sea r (c r).h (c r).V (c (r+1)).h (c (r+1)).V)
    (fun r => c2R p (statOf p N c dx 0 0) r (c r).h (c r).V (c (r+1)).h (c (r+1)).V)) (initX c) (N-1)).z +
    (nodeOf p (statOf p N c dx
    (fun r => c1R p (statOf p N c dx 0 0) sea sea r (c r).h (c r).V (c (r+1)).h (c (r+1)).V)
    (fun r => c2R p (statOf p N c dx 0 0) r (c r).h (c r).V (c (r+1)).h (c (r+1)).V)) (initX c) (N-1)).h = fin sea := by
    simp only [nodeOf, initX_h (hh (N-1) (by omega)), add_fin, statOf, hout]
  rw [e]
  rfl

theorem fold_still (p : PrePars) (N : ℕ) (hN : 2 ≤ N) (c : ℕ → ChanNode ℝ) (dx : ℕ → ℝ) (hdx : ∀ r < N - 1, 0 < dx r)
    (hh : ∀ k < N, 0 < (c k).h) (hV : ∀ k < N, 0 < (c k).V) (Q sea : ℝ)
    (hs : SteadyFlow p.g p.n p.Beta p.P N (flowOf c dx) Q sea) (hTol : 0 < p.Tol) (hMax : 0 < p.MaxIt) (solver : Solver)
    (hsolver : ∀ band d, preBand p false (reachesOf (stepStat p N c dx sea sea) N) (nodesOf p (stepStat p N c dx sea sea) N (initX c)) = .ok band →
      solver band (List.replicate (2*N) (fin 0)) = .ok d → d = List.replicate (2*N) (fin 0))
    (dxs : List (Fl ℝ)) (Ql Dl : ℝ) (steps : ℕ) (D : Option (List (Fl ℝ))) (hD : ∀ d, D = some d → d = List.replicate (2*N) (fin 0)) :
    (∃ band, preBand p false (reachesOf (stepStat p N c dx sea sea) N) (nodesOf p (stepStat p N c dx sea sea) N (initX c)) = .ok band ∧ (∃ e, (List.replicate steps (Q, sea)).foldlM (preStep p false solver dxs (reachesOf (stepStat p N c dx sea sea) N) Ql Dl)
        (⟨nodesOf p (stepStat p N c dx sea sea) N (initX c), D, none⟩, fin sea) = .error e) ∧
        ¬ ∃ d, solver band (List.replicate (2*N) (fin 0)) = .ok d) ∨
      ∃ D', (List.replicate steps (Q, sea)).foldlM (preStep p false solver dxs (reachesOf (stepStat p N c dx sea sea) N) Ql Dl)
        (⟨nodesOf p (stepStat p N c dx sea sea) N (initX c), D, none⟩, fin sea) =
        .ok (⟨nodesOf p (stepStat p N c dx sea sea) N (initX c), D', none⟩, fin sea) := by
  induction steps generalizing D with
  | zero => exact Or.inr ⟨D, rfl⟩
  | succ k ih =>
    rw [List.replicate_succ, List.foldlM_cons]
    rcases step_still p N hN c dx hdx hh hV Q sea hs hTol hMax solver hsolver dxs Ql Dl D hD with ⟨band, hband, ⟨e, he⟩, hb⟩ | h
    · left
      refine ⟨band, hband, ⟨e, ?_⟩, hb⟩
      rw [he]; rfl
    · rw [h]
      exact ih _ (fun d hd => by cases hd; rfl)

/-- C119, what holds: a flow everywhere towards the sea that satisfies the steady Saint-Venant
equations (with seepage through the barrier) is returned as it was given, after any number of
timesteps, by every linear solver that answers a zero right-hand side with zero (a right solver
does, if it answers).  Missing: flow away from the sea (`C119_refuted_general`). -/
theorem C119_partial (p : PrePars) (hTol : 0 < p.Tol) (hMax : 0 < p.MaxIt) (N : ℕ) (hN : 2 ≤ N) (c : ℕ → ChanNode ℝ) (dx : ℕ → ℝ)
    (hdx : ∀ r < N - 1, 0 < dx r) (hh : ∀ k < N, 0 < (c k).h) (hV : ∀ k < N, 0 < (c k).V) (Q sea : ℝ)
    (hs : SteadyFlow p.g p.n p.Beta p.P N (flowOf c dx) Q sea) (solver : Solver)
    (hsolver : ∀ band d, solver band (List.replicate (2*N) (fin 0)) = .ok d → d = List.replicate (2*N) (fin 0))
    (steps : ℕ) (out : List (Fl ℝ × Fl ℝ)) (h : hold p solver N c dx Q sea steps = .ok out) : out = held N c := by
  rw [hold_unfold p solver N hN c dx hdx hh Q sea hs.outflow] at h
  rcases fold_still p N hN c dx hdx hh hV Q sea hs hTol hMax solver (fun band d _ hd => hsolver band d hd) _ _ _ steps none (by simp) with ⟨-, -, ⟨e, he⟩, -⟩ | ⟨D', h'⟩
  · rw [he] at h; cases h
  · rw [h'] at h
    simp only [bind, Except.bind, pure, Except.pure, Except.ok.injEq] at h
    rw [← h]
    exact nodes_held p _ N c hh (fun k hk => (hV k hk).ne')

/-- C119: and it does return, unless the linear solver gives no answer. -/
theorem C119_partial_total (p : PrePars) (hTol : 0 < p.Tol) (hMax : 0 < p.MaxIt) (N : ℕ) (hN : 2 ≤ N) (c : ℕ → ChanNode ℝ) (dx : ℕ → ℝ)
    (hdx : ∀ r < N - 1, 0 < dx r) (hh : ∀ k < N, 0 < (c k).h) (hV : ∀ k < N, 0 < (c k).V) (Q sea : ℝ)
    (hs : SteadyFlow p.g p.n p.Beta p.P N (flowOf c dx) Q sea) (solver : Solver)
    (hsolver : ∀ band, solver band (List.replicate (2*N) (fin 0)) = .ok (List.replicate (2*N) (fin 0)))
    (steps : ℕ) : hold p solver N c dx Q sea steps = .ok (held N c) := by
  rw [hold_unfold p solver N hN c dx hdx hh Q sea hs.outflow]
  rcases fold_still p N hN c dx hdx hh hV Q sea hs hTol hMax solver (fun band d _ hd => by rw [hsolver] at hd; cases hd; rfl) _ _ _ steps
      none (by simp) with ⟨band, -, -, hb⟩ | ⟨D', h'⟩
  · exact absurd ⟨_, hsolver band⟩ hb
  · rw [h']
    simp only [bind, Except.bind, pure, Except.pure, Except.ok.injEq]
    exact nodes_held p _ N c hh (fun k hk => (hV k hk).ne')

/-! ### Flow away from the sea -/

theorem update_ne (p : PrePars) (a : PreNode) (h v : ℝ) (ha : a.h = fin h) (hv : a.V = fin v) (h0 : h ≠ 0.0001) (v0 : v ≠ 0.0001)
    (dh dV : Fl ℝ) (hd : ¬ (dh = fin 0 ∧ dV = fin 0)) :
    ((preUpdate p a dh dV).h, (preUpdate p a dh dV).V) ≠ (fin h, fin v) := by
  intro he
  apply hd
  simp only [Prod.mk.injEq, preUpdate, ha, hv] at he
  constructor
  · have e := he.1
    unfold clampH at e
    split at e
    · simp only [Fl.fin.injEq] at e; exact absurd e.symm h0
    · cases dh with
      | fin x => simp at e ⊢; linarith
      | nan => simp at e
      | pinf => cases e
      | ninf => cases e
  · have e := he.2
    unfold clampV at e
    split at e
    · simp only [Fl.fin.injEq] at e; exact absurd e.symm v0
    · cases dV with
      | fin x => simp at e ⊢; linarith
      | nan => simp at e
      | pinf => cases e
      | ninf => cases e

/-- With one iteration allowed, one timestep returns the arrays corrected once, whether it has
converged or not. -/
theorem one_step (p : PrePars) (hM : p.MaxIt = 1) (solver : Solver) (N : ℕ) (hN : 2 ≤ N) (c : ℕ → ChanNode ℝ) (dx : ℕ → ℝ)
    (hdx : ∀ r < N - 1, 0 < dx r) (hh : ∀ k < N, 0 < (c k).h) (hV : ∀ k < N, (c k).V ≠ 0) (Q sea : ℝ)
    (hout : (c (N-1)).z + (c (N-1)).h = sea) (out : List (Fl ℝ × Fl ℝ)) (h : hold p solver N c dx Q sea 1 = .ok out) :
    ∃ band err d dh dV, solver band err = .ok d ∧ err.length = 2 * N ∧
      (∀ i < 2 * N, err[i]? = some (fin (resR p (stepStat p N c dx sea sea) N false Q sea (initX c) i))) ∧
      gather d ((List.range N).map (fun i => 2 * i)) = .ok dh ∧ gather d ((List.range N).map (fun i => 2 * i + 1)) = .ok dV ∧
      out = (List.zipWith (fun a (x : Fl ℝ × Fl ℝ) => preUpdate p a x.1 x.2)
        (nodesOf p (stepStat p N c dx sea sea) N (initX c)) (dh.zip dV)).map (fun a => (a.h, a.V)) := by
  rw [hold_unfold p solver N hN c dx hdx hh Q sea hout] at h
  simp only [List.replicate_one, List.foldlM_cons, List.foldlM_nil, bind, Except.bind, pure, Except.pure] at h
  split at h
  · cases h
  rename_i r hr
  split at hr
  · cases hr
  rename_i r' hr'
  cases hr
  cases h
  obtain ⟨s, conv, hn, hc⟩ := preStep_cases p false solver _ _ _ _ _ _ _ hr'
  simp only [consts_step p N c dx hh hV sea sea, hM] at hn
  obtain ⟨err, band, d, dh, dV, he, -, hd, g0, g1, hres⟩ := preNewton_succ p false solver _ _ _ _ 0 _ _ hn
  have hlen : (nodesOf p (stepStat p N c dx sea sea) N (initX c)).length = N := by simp [nodesOf]
  obtain ⟨e', he', hl, hget⟩ := preErr_of p (stepStat p N c dx sea sea) N hN false Q sea (initX c)
    (fun k hk => by rw [initX_h (hh k hk)]; exact hh k hk)
  rw [he] at he'
  cases he'
  simp only [hlen] at g0 g1
  have hd' : solver band err = .ok d := by
    rcases hd with h | ⟨-, h⟩
    · exact h
    · cases h
  have hs : s.nodes = List.zipWith (fun a (x : Fl ℝ × Fl ℝ) => preUpdate p a x.1 x.2)
        (nodesOf p (stepStat p N c dx sea sea) N (initX c)) (dh.zip dV) ∧ s.caller = none := by
    split at hres
    · cases hres; exact ⟨rfl, rfl⟩
    · rw [preNewton_zero] at hres; cases hres; exact ⟨rfl, rfl⟩
  refine ⟨band, err, d, dh, dV, hd', hl, hget, g0, g1, ?_⟩
  rcases hc with ⟨-, rfl⟩ | ⟨-, hs', Vs, -, rfl⟩
  · simp only [hs.2, hs.1]
  · simp only [hs.2, hs.1]

theorem gather_get {α : Type} (d : List α) (ixs : List ℕ) (r : List α) (h : gather d ixs = .ok r) (k i : ℕ) (hk : ixs[k]? = some i) :
    d[i]? = r[k]? := by
  induction ixs generalizing r k with
  | nil => cases hk
  | cons j ixs ih =>
    simp only [gather, List.mapM_cons, bind, Except.bind, pure, Except.pure] at h
    split at h
    · cases h
    rename_i x hx
    split at h
    · cases h
    rename_i xs hxs
    cases h
    cases k with
    | zero =>
      cases hk
      unfold ixGet at hx
      split at hx
      · rename_i a ha; cases hx; simpa using ha
      · cases hx
    | succ k => simpa using ih _ hxs k (by simpa using hk)

theorem gather_len {α : Type} (d : List α) (ixs : List ℕ) (r : List α) (h : gather d ixs = .ok r) : r.length = ixs.length := by
  induction ixs generalizing r with
  | nil => cases h; rfl
  | cons j ixs ih =>
    simp only [gather, List.mapM_cons, bind, Except.bind, pure, Except.pure] at h
    split at h
    · cases h
    split at h
    · cases h
    rename_i xs hxs
    cases h
    simp [ih _ hxs]

/-- C119 as stated fails for flow away from the sea: in every channel where the water flows
landwards in a steady flow whose momentum flux differs between the two ends of some reach, one
Newton correction by a right linear solver (one which returns all zeros only for a zero
right-hand side) changes the flow: the momentum flux is taken with the sign of the velocity. -/
theorem C119_refuted_general (p : PrePars) (hM : p.MaxIt = 1) (hdt : p.dt ≠ 0) (hbeta : p.Beta ≠ 0) (N : ℕ) (hN : 2 ≤ N)
    (c : ℕ → ChanNode ℝ) (dx : ℕ → ℝ) (hdx : ∀ r < N - 1, 0 < dx r) (hh : ∀ k < N, 0 < (c k).h) (h1 : ∀ k < N, (c k).h ≠ 0.0001)
    (hV : ∀ k < N, (c k).V < 0) (Q sea : ℝ) (hs : SteadyFlow p.g p.n p.Beta p.P N (flowOf c dx) Q sea) (r : ℕ) (hr : r < N - 1)
    (hm : (flowOf c dx).momentum (r+1) ≠ (flowOf c dx).momentum r) (solver : Solver)
    (hsolver : ∀ band err, err.length = 2 * N → ∀ d, solver band err = .ok d → d.length = 2 * N ∧ ((∀ x ∈ d, x = fin 0) → ∀ x ∈ err, x = fin 0))
    (out : List (Fl ℝ × Fl ℝ)) (h : hold p solver N c dx Q sea 1 = .ok out) : out ≠ held N c := by
  have hV' : ∀ k < N, (c k).V ≠ 0 := fun k hk => (hV k hk).ne
  obtain ⟨band, err, d, dh, dV, hsol, hl, hget, g0, g1, rfl⟩ := one_step p hM solver N hN c dx hdx hh hV' Q sea hs.outflow out h
  obtain ⟨hdl, hz⟩ := hsolver band err hl d hsol
  intro heq
  -- no correction at all
  have l0 := gather_len d _ dh g0
  have l1 := gather_len d _ dV g1
  simp only [List.length_map, List.length_range] at l0 l1
  have hzero : ∀ k < N, dh[k]? = some (fin 0) ∧ dV[k]? = some (fin 0) := by
    intro k hk
    have e := congrArg (fun l => l[k]?) heq
    have hk0 : dh[k]? = some dh[k] := List.getElem?_eq_getElem (by omega)
    have hk1 : dV[k]? = some dV[k] := List.getElem?_eq_getElem (by omega)
    have hk2 : (dh.zip dV)[k]? = some (dh[k], dV[k]) := by rw [List.getElem?_zip_eq_some]; exact ⟨hk0, hk1⟩
    simp only [held, nodesOf, List.getElem?_map, List.getElem?_zipWith, List.getElem?_range hk, Option.map_some, hk2,
      Option.some.injEq] at e
    by_contra hne
    refine update_ne p (nodeOf p (stepStat p N c dx sea sea) (initX c) k) (c k).h (c k).V ?_ ?_ (h1 k hk) ?_ dh[k] dV[k] ?_ e
    · simp only [nodeOf, initX_h (hh k hk)]
    · simp only [nodeOf, initX_V (hV' k hk)]
    · have := hV k hk
      intro hc; rw [hc] at this; norm_num at this
    · rintro ⟨a, b⟩
      exact hne ⟨by rw [hk0, a], by rw [hk1, b]⟩
  have hd0 : ∀ x ∈ d, x = fin 0 := by
    intro x hx
    obtain ⟨i, hi⟩ := List.mem_iff_getElem?.mp hx
    have hi' : i < 2 * N := by have := (List.getElem?_eq_some_iff.mp hi).1; omega
    rcases Nat.even_or_odd' i with ⟨k, rfl | rfl⟩
    · have := gather_get d _ dh g0 k (2*k) (by rw [List.getElem?_map, List.getElem?_range (by omega)]; rfl)
      rw [(hzero k (by omega)).1, hi] at this
      simpa using this
    · have := gather_get d _ dV g1 k (2*k+1) (by rw [List.getElem?_map, List.getElem?_range (by omega)]; rfl)
      rw [(hzero k (by omega)).2, hi] at this
      simpa using this
  have hmom := hz hd0 _ (List.mem_of_getElem? (hget (2*r+2) (by omega)))
  obtain ⟨-, -, rr⟩ := res_flow p N hN c dx hdx hh hV' Q sea
  rw [(rr r hr).2] at hmom
  simp only [Fl.fin.injEq] at hmom
  have hx := (hdx r hr).ne'
  have h2 : 2 * p.dt / dx r ≠ 0 := div_ne_zero (by simpa using hdt) hx
  have hmom := (mul_eq_zero.mp hmom).resolve_left h2
  have e : ∀ k < N, (flowOf c dx).discharge k * |(c k).V| = -(flowOf c dx).momentum k := by
    intro k hk; rw [abs_of_neg (hV k hk)]; simp only [Flow.momentum, flowOf]; ring
  rw [e r (by omega), e (r+1) (by omega)] at hmom
  have hf := hs.force r hr
  have : p.Beta * ((flowOf c dx).momentum (r+1) - (flowOf c dx).momentum r) = 0 := by
    have hdxe : (flowOf c dx).dx r = dx r := rfl
    rw [hdxe] at hf
    linarith
  rcases mul_eq_zero.mp this with h | h
  · exact hbeta h
  · exact hm (sub_eq_zero.mp h)

theorem gather_total {α : Type} (d : List α) (ixs : List ℕ) (h : ∀ i ∈ ixs, i < d.length) : ∃ r, gather d ixs = .ok r := by
  induction ixs with
  | nil => exact ⟨[], rfl⟩
  | cons j ixs ih =>
    obtain ⟨r, hr⟩ := ih (fun i hi => h i (by simp [hi]))
    have hj := h j (by simp)
    refine ⟨d[j] :: r, ?_⟩
    have hx : ixGet d j = .ok d[j] := by unfold ixGet; rw [List.getElem?_eq_getElem hj]
    unfold gather at hr ⊢
    rw [List.mapM_cons, hx, hr]
    rfl

/-- With small residuals, and the right-hand side itself for a solution, the call returns. -/
theorem hold_ok (p : PrePars) (hM : p.MaxIt = 1) (N : ℕ) (hN : 2 ≤ N) (c : ℕ → ChanNode ℝ) (dx : ℕ → ℝ)
    (hdx : ∀ r < N - 1, 0 < dx r) (hh : ∀ k < N, 0 < (c k).h) (hV : ∀ k < N, (c k).V ≠ 0) (Q sea : ℝ)
    (hout : (c (N-1)).z + (c (N-1)).h = sea)
    (hres : ∀ i < 2 * N, |resR p (stepStat p N c dx sea sea) N false Q sea (initX c) i| < p.Tol) :
    ∃ out, hold p (fun _ e => .ok e) N c dx Q sea 1 = .ok out := by
  rw [hold_unfold p _ N hN c dx hdx hh Q sea hout]
  have hx : ∀ k < N, 0 < initX c (2*k) := fun k hk => by rw [initX_h (hh k hk)]; exact hh k hk
  obtain ⟨e, he, hl, hget⟩ := preErr_of p (stepStat p N c dx sea sea) N hN false Q sea (initX c) hx
  obtain ⟨band, hb, -⟩ := preBand_of p (stepStat p N c dx sea sea) N hN false (initX c) hx
    (fun k hk => by rw [initX_V (hV k hk)]; exact hV k hk)
  have hlen : (nodesOf p (stepStat p N c dx sea sea) N (initX c)).length = N := by simp [nodesOf]
  obtain ⟨dh, g0⟩ := gather_total e ((List.range N).map (fun i => 2 * i)) (by
    intro i hi; obtain ⟨j, hj, rfl⟩ := List.mem_map.mp hi; rw [List.mem_range] at hj; omega)
  obtain ⟨dV, g1⟩ := gather_total e ((List.range N).map (fun i => 2 * i + 1)) (by
    intro i hi; obtain ⟨j, hj, rfl⟩ := List.mem_map.mp hi; rw [List.mem_range] at hj; omega)
  have hall : e.all (fun x => x.abs <? fin p.Tol) = true := by
    rw [List.all_eq_true]
    intro y hy
    obtain ⟨i, hi⟩ := List.mem_iff_getElem?.mp hy
    have hi' : i < 2 * N := by have := (List.getElem?_eq_some_iff.mp hi).1; omega
    rw [hget i hi'] at hi
    cases hi
    simpa using hres i hi'
  simp only [List.replicate_one, List.foldlM_cons, List.foldlM_nil]
  unfold preStep
  simp only [consts_step p N c dx hh hV sea sea, hM]
  rw [preNewton.eq_def]
  simp only [he, hb, hlen, g0, g1, hall, bind, Except.bind, pure, Except.pure, if_true]
  exact ⟨_, rfl⟩

/-- Two sections, 1 m apart, with 2 m³/s flowing landwards. -/
noncomputable def backPars : PrePars := { g := 9.81, n := 0, P := 0, Theta := 1, Beta := 1, Tol := 10 ^ 6, MaxIt := 1, dt := 1 }
noncomputable def backChan : ℕ → ChanNode ℝ := fun k =>
  if k = 0 then { z := 0, B := 1, LagArea := 0, LagLen := 0, h := 1, V := -2 }
  else { z := 4 / (3 * 9.81) - 1, B := 1, LagArea := 0, LagLen := 0, h := 2, V := -1 }

theorem back_steady : SteadyFlow backPars.g backPars.n backPars.Beta backPars.P 2 (flowOf backChan (fun _ => 1)) (-2) (4 / (3 * 9.81) + 1) := by
  constructor
  · norm_num [flowOf, backChan, Flow.discharge, Flow.area]
  · intro r hr
    obtain rfl : r = 0 := by omega
    norm_num [flowOf, backChan, Flow.discharge, Flow.area, backPars]
  · intro r hr
    obtain rfl : r = 0 := by omega
    norm_num [flowOf, backChan, Flow.discharge, Flow.area, Flow.level, Flow.momentum, Flow.friction, backPars]
  · norm_num [flowOf, backChan, Flow.level]

/-- A linear solver that gives a solution of the right length, and all zeros only for a zero
right-hand side. -/
def NoFalseZero (N : ℕ) (solver : Solver) : Prop :=
  ∀ band err, err.length = 2 * N → ∀ d, solver band err = .ok d → d.length = 2 * N ∧ ((∀ x ∈ d, x = fin 0) → ∀ x ∈ err, x = fin 0)

/-- C119 fails on this channel: its flow is steady; whatever right solver is used, another flow
is returned; and there is a solver meeting the hypothesis with which the call returns. -/
theorem C119_refuted :
    SteadyFlow backPars.g backPars.n backPars.Beta backPars.P 2 (flowOf backChan (fun _ => 1)) (-2) (4 / (3 * 9.81) + 1) ∧
    (∀ solver, NoFalseZero 2 solver → ∀ out, hold backPars solver 2 backChan (fun _ => 1) (-2) (4 / (3 * 9.81) + 1) 1 = .ok out →
      out ≠ held 2 backChan) ∧
    ∃ solver, NoFalseZero 2 solver ∧ ∃ out, hold backPars solver 2 backChan (fun _ => 1) (-2) (4 / (3 * 9.81) + 1) 1 = .ok out := by
  have hh : ∀ k < 2, 0 < (backChan k).h := by intro k _; unfold backChan; split <;> norm_num
  have hV : ∀ k < 2, (backChan k).V < 0 := by intro k _; unfold backChan; split <;> norm_num
  refine ⟨back_steady, ?_, ?_⟩
  · intro solver hsol out h
    refine C119_refuted_general backPars rfl (by norm_num [backPars]) (by norm_num [backPars]) 2 le_rfl backChan (fun _ => 1)
      (by intros; norm_num) hh ?_ hV _ _ back_steady 0 (by norm_num) ?_ solver hsol out h
    · intro k _; unfold backChan; split <;> norm_num
    · norm_num [flowOf, backChan, Flow.momentum, Flow.discharge, Flow.area]
  · refine ⟨fun _ e => .ok e, fun band err hl d hd => by cases hd; exact ⟨hl, id⟩, ?_⟩
    have hV' : ∀ k < 2, (backChan k).V ≠ 0 := fun k hk => (hV k hk).ne
    refine hold_ok backPars rfl 2 le_rfl backChan (fun _ => 1) (by intros; norm_num) hh hV' _ _ back_steady.outflow ?_
    obtain ⟨r0, rN, rr⟩ := res_flow backPars 2 le_rfl backChan (fun _ => 1) (by intros; norm_num) hh hV' (-2) (4 / (3 * 9.81) + 1)
    obtain ⟨rc, rm⟩ := rr 0 (by norm_num)
    intro i hi
    have : i = 0 ∨ i = 1 ∨ i = 2 ∨ i = 3 := by omega
    rcases this with rfl | rfl | rfl | rfl
    · rw [r0]; norm_num [flowOf, backChan, Flow.discharge, Flow.area, backPars]
    · rw [rc]; norm_num [flowOf, backChan, Flow.discharge, Flow.area, backPars]
    · rw [rm]
      norm_num [flowOf, backChan, Flow.discharge, Flow.area, Flow.level, Flow.friction, backPars, abs_of_neg]
    · rw [rN]; norm_num [flowOf, backChan, Flow.level, backPars]

/-- The hypotheses of C119_partial are met by a frictionless flow that speeds up over a rise of
the bed, with any number of timesteps. -/
noncomputable def riseChan : ℕ → ChanNode ℝ := fun k =>
  if k = 0 then { z := 0, B := 1, LagArea := 5, LagLen := 3, h := 2, V := 1 }
  else { z := 1 - 4 / (3 * 9.81), B := 1, LagArea := 0, LagLen := 0, h := 1, V := 2 }

theorem rise_steady : SteadyFlow endPars.g endPars.n endPars.Beta endPars.P 2 (flowOf riseChan (fun _ => 1)) 2 (2 - 4 / (3 * 9.81)) := by
  constructor
  · norm_num [flowOf, riseChan, Flow.discharge, Flow.area]
  · intro r hr
    obtain rfl : r = 0 := by omega
    norm_num [flowOf, riseChan, Flow.discharge, Flow.area, endPars]
  · intro r hr
    obtain rfl : r = 0 := by omega
    norm_num [flowOf, riseChan, Flow.discharge, Flow.area, Flow.level, Flow.momentum, Flow.friction, endPars]
  · norm_num [flowOf, riseChan, Flow.level]

example (steps : ℕ) : hold endPars (fun _ e => .ok e) 2 riseChan (fun _ => 1) 2 (2 - 4 / (3 * 9.81)) steps =
    .ok [(fin 2, fin 1), (fin 1, fin 2)] := by
  rw [C119_partial_total endPars (by norm_num [endPars]) (by norm_num [endPars]) 2 le_rfl riseChan (fun _ => 1) (by intros; norm_num)
    (by intro k _; unfold riseChan; split <;> norm_num) (by intro k _; unfold riseChan; split <;> norm_num) _ _ rise_steady _ (fun _ => rfl)]
  simp [held, riseChan, List.range_succ]

/-! ### C120: uniform flow -/

/-- C120: the steady solver finds uniform flow: in a channel of constant width whose bed falls
by the friction slope of a flow that is not supercritical, with the sea at the level of that
flow, it returns that depth and velocity at every section. -/
theorem C120_steady (p : SteadyPars) (hTol : 0 ≤ p.Tol) (N : ℕ) (hN : 1 ≤ N) (f : Flow) (B h V : ℝ) (hu : UniformFlow p.n N f B h V)
    (hB : 0 < B) (hh : 0 < h) (hV : 0 < V) (hQ : p.Q = V * (B * h)) (hsea : f.z (N-1) + h = p.DsWL) (hs : NotSupercritical 9.81 p.Q B h) :
    steady p ((List.range (N-1)).map f.dx) ((List.range N).map f.z) ((List.range N).map f.B) =
      .ok (List.replicate N (fin h), List.replicate N (fin V)) := by
  obtain ⟨M, rfl⟩ : ∃ M, N = M + 1 := ⟨N - 1, by omega⟩
  have eB : (List.range (M+1)).map f.B = (List.range (M+1)).map (fun _ => B) := by
    apply List.map_congr_left
    intro k hk
    exact hu.width k (List.mem_range.mp hk)
  have hbed : ∀ r < M, f.z r - f.z (r+1) = f.dx r * (p.n ^ 2 * V ^ 2 / h ^ (4/3 : ℝ)) := by
    intro r hr
    rw [hu.bed r (by simpa using hr), abs_of_pos hV, pow_two V]
  have hQ' : p.Q = V * B * h := by rw [hQ]; ring
  have hp := prof_uniform p hTol B h V hB hh hQ' hs M f.z f.dx hbed hsea
  unfold steady
  rw [eB, solveSteady_eq p _ _ _ (by simp) (by simp) (by simp)]
  simp only [List.map_map, Nat.add_sub_cancel]
  have e1 : (fin ∘ f.dx : ℕ → Fl ℝ) = fun r => fin (f.dx r) := rfl
  have e2 : (fin ∘ f.z : ℕ → Fl ℝ) = fun r => fin (f.z r) := rfl
  have e3 : (fin ∘ fun _ => B : ℕ → Fl ℝ) = fun _ => fin B := rfl
  rw [e1, e2, e3, hp]
  simp only [Except.map, List.map_map, Except.ok.injEq, Prod.mk.injEq]
  constructor
  · rw [List.eq_replicate_iff]
    refine ⟨by simp, ?_⟩
    intro b hb
    obtain ⟨k, -, rfl⟩ := List.mem_map.mp hb
    rfl
  · rw [List.eq_replicate_iff]
    refine ⟨by simp, ?_⟩
    intro b hb
    obtain ⟨k, -, rfl⟩ := List.mem_map.mp hb
    exact (pt_uniform p B h V (f.z k) hB hh hQ').1

/-- Uniform flow without seepage satisfies the steady equations. -/
theorem uniform_steady (g n beta P : ℝ) (N : ℕ) (hN : 2 ≤ N) (f : Flow) (B h V : ℝ) (hu : UniformFlow n N f B h V)
    (hP : ∀ r < N - 1, P * (f.len r + f.len (r+1)) = 0) :
    SteadyFlow g n beta P N f (V * (B * h)) (f.z (N-1) + h) := by
  have hd : ∀ k < N, f.discharge k = V * (B * h) := by
    intro k hk; simp only [Flow.discharge, Flow.area, hu.vel k hk, hu.width k hk, hu.depth k hk]
  constructor
  · exact hd 0 (by omega)
  · intro r hr
    rw [hd r (by omega), hd (r+1) (by omega)]
    have := hP r hr
    have e : P * ((f.len r + f.len (r+1)) / 2) = 0 := by linarith
    rw [e]; ring
  · intro r hr
    have e1 : r < N := by omega
    have e2 : r + 1 < N := by omega
    have hb := hu.bed r hr
    simp only [Flow.momentum, hd r e1, hd (r+1) e2, Flow.area, Flow.level, Flow.friction, hu.vel r e1, hu.vel (r+1) e2, hu.width r e1,
      hu.width (r+1) e2, hu.depth r e1, hu.depth (r+1) e2]
    have : f.z (r+1) + h - (f.z r + h) = -(f.dx r * (n ^ 2 * (V * |V|) / h ^ (4/3 : ℝ))) := by linarith
    rw [this]; ring
  · simp only [Flow.level, hu.depth (N-1) (by omega)]

/-- C120: the unsteady solver keeps uniform flow, for any number of timesteps, whatever lagoon
areas are attached, if nothing seeps. -/
theorem C120_unsteady (p : PrePars) (hTol : 0 < p.Tol) (hMax : 0 < p.MaxIt) (N : ℕ) (hN : 2 ≤ N) (c : ℕ → ChanNode ℝ) (dx : ℕ → ℝ)
    (hdx : ∀ r < N - 1, 0 < dx r) (B h V : ℝ) (hu : UniformFlow p.n N (flowOf c dx) B h V) (hh : 0 < h) (hV : 0 < V)
    (hP : p.P = 0 ∨ ∀ k < N, (c k).LagLen = 0) (solver : Solver)
    (hsolver : ∀ band, solver band (List.replicate (2*N) (fin 0)) = .ok (List.replicate (2*N) (fin 0))) (steps : ℕ) :
    hold p solver N c dx (V * (B * h)) ((c (N-1)).z + h) steps = .ok (List.replicate N (fin h, fin V)) := by
  have e : (c (N-1)).z + h = (flowOf c dx).z (N-1) + h := rfl
  rw [e, C119_partial_total p hTol hMax N hN c dx hdx (fun k hk => hh.trans_eq (hu.depth k hk).symm)
    (fun k hk => hV.trans_eq (hu.vel k hk).symm) _ _
    (uniform_steady p.g p.n p.Beta p.P N hN (flowOf c dx) B h V hu ?_) solver hsolver steps]
  · congr 1
    rw [List.eq_replicate_iff]
    refine ⟨by simp [held], ?_⟩
    intro b hb
    obtain ⟨k, hk, rfl⟩ := List.mem_map.mp hb
    have hk := List.mem_range.mp hk
    have a : (c k).h = h := hu.depth k hk
    have b : (c k).V = V := hu.vel k hk
    rw [a, b]
  · intro r hr
    rcases hP with h0 | h0
    · rw [h0]; ring
    · have a : (flowOf c dx).len r = 0 := h0 r (by omega)
      have b : (flowOf c dx).len (r+1) = 0 := h0 (r+1) (by omega)
      rw [a, b]; ring

/-- A gravel river of 50 m width, 1 m deep, flowing at 2 m/s with a roughness of 0.03 and a slope
of 3.6 m/km, in sections 10 m apart: this flow is uniform, and not supercritical. -/
noncomputable def river (k : ℕ) : ChanNode ℝ := { z := -(0.036 * k), B := 50, LagArea := 0, LagLen := 0, h := 1, V := 2 }

theorem river_uniform (N : ℕ) : UniformFlow 0.03 N (flowOf river (fun _ => 10)) 50 1 2 := by
  refine ⟨fun _ _ => rfl, fun _ _ => rfl, fun _ _ => rfl, ?_⟩
  intro r _
  simp only [flowOf, river, Real.one_rpow]
  push_cast
  rw [abs_of_pos two_pos]
  norm_num
  ring

example : steady { n := 0.03, Q := 100, DsWL := -0.036 * 99 + 1, Beta := 1.1, Tol := 0.0005, MaxIt := 10 }
    ((List.range 99).map (fun _ => 10)) ((List.range 100).map (fun k : ℕ => (-(0.036 * k) : ℝ))) ((List.range 100).map (fun _ => 50)) =
    .ok (List.replicate 100 (fin 1), List.replicate 100 (fin 2)) :=
  C120_steady { n := 0.03, Q := 100, DsWL := -0.036 * 99 + 1, Beta := 1.1, Tol := 0.0005, MaxIt := 10 } (by norm_num) 100 (by norm_num)
    (flowOf river (fun _ => 10)) 50 1 2 (river_uniform 100) (by norm_num) (by norm_num) (by norm_num) (by norm_num)
    (by simp [flowOf, river]) (by norm_num [NotSupercritical])

example (steps : ℕ) : hold { g := 9.81, n := 0.03, P := 0.01, Theta := 0.6, Beta := 1.1, Tol := 0.0005, MaxIt := 10, dt := 10 } (fun _ e => .ok e) 100 river
    (fun _ => 10) (2 * (50 * 1)) ((river 99).z + 1) steps = .ok (List.replicate 100 (fin 1, fin 2)) :=
  C120_unsteady _ (by norm_num) (by norm_num) 100 (by norm_num) river (fun _ => 10) (by intros; norm_num) 50 1 2 (river_uniform 100)
    (by norm_num) (by norm_num) (Or.inr fun _ _ => rfl) _ (fun _ => rfl) steps

end Verif.Props
