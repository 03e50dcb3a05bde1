import Verif.Lemmas.PreissmannRun
import Verif.Props.Steady

set_option autoImplicit false

set_option linter.unusedSectionVars false

/-! # Properties C19-C23: unsteady river hydraulics -/

namespace Verif.Props
open Verif Verif.Model Verif.Spec Fl Real

/-- The modelled function run on finite channels. -/
noncomputable abbrev preissmann (p : PrePars) (Closed : Bool) (solver : Solver) (dx : List ℝ) (nodes : List (ChanNode ℝ))
    (bdy : List (ℝ × ℝ)) : Except PyErr (List (Fl ℝ × Fl ℝ)) :=
  solveFullPreissmann p Closed solver (dx.map fin) (nodes.map finNode) bdy

/-- C19: whatever (numeric) corrections the linear solver returns, and whenever it fails, a
normal return leaves a positive number for every depth and a non-zero number for every
velocity in the caller's arrays. -/
theorem C19_positive (p : PrePars) (Closed : Bool) (solver : Solver)
    (hsolver : ∀ band err d, solver band err = .ok d → ∀ x ∈ d, ∃ r : ℝ, x = fin r)
    (dx : List ℝ) (nodes : List (ChanNode ℝ)) (bdy : List (ℝ × ℝ)) (out : List (Fl ℝ × Fl ℝ))
    (h : preissmann p Closed solver dx nodes bdy = .ok out) :
    ∀ x ∈ out, ∃ d v : ℝ, x = (fin d, fin v) ∧ 0 < d ∧ v ≠ 0 := by
  unfold preissmann solveFullPreissmann at h
  simp only [bind, Except.bind, pure, Except.pure] at h
  split at h
  · cases h
  rename_i ini hini
  obtain ⟨ns, rs⟩ := ini
  simp only at h
  split at h
  · cases h
  rename_i nN hN
  split at h
  · cases h
  rename_i r hr
  obtain ⟨s, w⟩ := r
  simp only at h
  cases h
  have h0 : GoodNodes ns := by
    unfold preInit at hini
    simp only [bind, Except.bind, pure, Except.pure] at hini
    split at hini
    · cases hini
    rename_i dx2 hdx2
    cases hini
    intro a ha
    rw [List.mem_iff_getElem?] at ha
    obtain ⟨i, hi⟩ := ha
    rw [List.getElem?_zipWith_eq_some] at hi
    obtain ⟨n, x, hn, hx, rfl⟩ := hi
    rw [List.getElem?_map, Option.map_eq_some_iff] at hn
    obtain ⟨c, -, rfl⟩ := hn
    simp only [preNode, finNode]
    obtain ⟨h', eh, hh⟩ := clampH_good c.h
    obtain ⟨v', ev, hv⟩ := clampV_good c.V
    exact ⟨h', v', by rw [eh, ev], hh, hv⟩
  have hinv := foldlM_inv (fun sd : PreState × Fl ℝ => PreInv sd.1) _
    (fun b a r hb hr => preStep_inv p Closed solver hsolver (dx.map fin) rs _ _ b r a hb hr) bdy _ _
    ⟨by simp, fun _ => h0, by simp⟩ hr
  split
  · rename_i c hc
    exact hinv.frozen c hc
  · rename_i hc
    intro x hx
    rw [List.mem_map] at hx
    obtain ⟨a, ha, rfl⟩ := hx
    exact hinv.live hc a ha

/-! ### C20: water balance -/

/-- The working arrays when the depths are `h` and the velocities `V`. -/
noncomputable def atState (p : PrePars) (ns : List PreNode) (h V : ℕ → ℝ) : List PreNode :=
  ns.mapIdx (fun k a => { a with h := fin (h k), V := fin (V k), A := fin (h k) * a.B, Sf := preSf p (fin (h k)) (fin (V k)) })

theorem atState_of (p : PrePars) (st : PreStat) (N : ℕ) (x : ℕ → ℝ) (h V : ℕ → ℝ) :
    atState p (nodesOf p st N x) h V = nodesOf p st N (fun i => if i % 2 = 0 then h (i/2) else V (i/2)) := by
  apply List.ext_getElem
  · simp [atState, nodesOf]
  · intro i h1 h2
    have e4 : (2*i+1)/2 = i := by omega
    simp [atState, nodesOf, nodeOf, e4]

/-- The working arrays reached by the Newton iteration have this form. -/
theorem preUpdate_atState (p : PrePars) (a : PreNode) (h v dh dV : ℝ) (ha : a.h = fin h) (hv : a.V = fin v) :
    ∃ h' v', preUpdate p a (fin dh) (fin dV) =
      { a with h := fin h', V := fin v', A := fin h' * a.B, Sf := preSf p (fin h') (fin v') } := by
  obtain ⟨h', eh, -⟩ := clampH_good (h - dh)
  obtain ⟨v', ev, -⟩ := clampV_good (v - dV)
  exact ⟨h', v', by simp only [preUpdate, ha, hv, sub_fin, eh, ev]⟩

/-- C20 for any lagoon areas, with the weights the code gives them: whole inside the channel,
half at its two ends. -/
theorem C20_partial_general (p : PrePars) (N : ℕ) (hN : 2 ≤ N) (c : ℕ → ChanNode ℝ) (dx : ℕ → ℝ) (hdx : ∀ r < N - 1, 0 < dx r)
    (ns : List PreNode) (rs : List PreReach)
    (hini : preInit p ((List.range (N-1)).map (fun r => fin (dx r))) ((List.range N).map (fun k => finNode (c k))) = .ok (ns, rs))
    (h V h' V' : ℕ → ℝ) (hh : ∀ k < N, 0 < h k) (hh' : ∀ k < N, 0 < h' k) (Closed : Bool) (Q sea seaOld : ℝ) (e : List (Fl ℝ))
    (he : preErr p Closed Q sea ((preReaches rs (atState p ns h V)).map (fun x =>
        (preC1 p (fin sea) (fin seaOld) x.1 x.2.1 x.2.2, preC2 p x.1 x.2.1 x.2.2))) rs (atState p ns h' V') = .ok e)
    (hres : ∀ r < N - 1, e[2 * r + 1]? = some (fin 0)) :
    (channelVolume N dx (fun k => (c k).B) h' + lagoonVolume N (fun k => (if k = 0 ∨ k = N - 1 then 1/2 else 1) * (c k).LagArea) h')
      - (channelVolume N dx (fun k => (c k).B) h + lagoonVolume N (fun k => (if k = 0 ∨ k = N - 1 then 1/2 else 1) * (c k).LagArea) h) =
    p.dt * (p.Theta * (V' 0 * (h' 0 * (c 0).B) - V' (N-1) * (h' (N-1) * (c (N-1)).B))
        + (1 - p.Theta) * (V 0 * (h 0 * (c 0).B) - V (N-1) * (h (N-1) * (c (N-1)).B)))
      - p.dt * p.P * (p.Theta * seepHead N (fun k => (c k).LagLen) (fun k => (c k).z + h' k) sea
        + (1 - p.Theta) * seepHead N (fun k => (c k).LagLen) (fun k => (c k).z + h k) seaOld) := by
  set st0 := statOf p N c dx 0 0 with hst0
  set C1 : ℕ → ℝ := fun r => c1R p st0 sea seaOld r (h r) (V r) (h (r+1)) (V (r+1)) with hC1
  set C2 : ℕ → ℝ := fun r => c2R p st0 r (h r) (V r) (h (r+1)) (V (r+1)) with hC2
  rw [preInit_of p N hN c dx hdx C1 C2] at hini
  cases hini
  rw [atState_of, atState_of] at he
  set st := statOf p N c dx C1 C2 with hst
  set x : ℕ → ℝ := fun i => if i % 2 = 0 then h (i/2) else V (i/2) with hx
  set x' : ℕ → ℝ := fun i => if i % 2 = 0 then h' (i/2) else V' (i/2) with hx'
  have xe : ∀ k, x (2*k) = h k := fun k => by
    simp only [hx]; rw [if_pos (by omega), show 2*k/2 = k by omega]
  have xo : ∀ k, x (2*k+1) = V k := fun k => by
    simp only [hx]; rw [if_neg (by omega), show (2*k+1)/2 = k by omega]
  have xe' : ∀ k, x' (2*k) = h' k := fun k => by
    simp only [hx']; rw [if_pos (by omega), show 2*k/2 = k by omega]
  have xo' : ∀ k, x' (2*k+1) = V' k := fun k => by
    simp only [hx']; rw [if_neg (by omega), show (2*k+1)/2 = k by omega]
  have hC : (preReaches (reachesOf st N) (nodesOf p st N x)).map (fun x =>
      (preC1 p (fin sea) (fin seaOld) x.1 x.2.1 x.2.2, preC2 p x.1 x.2.1 x.2.2)) = constsOf st N := by
    rw [preReaches_of, List.map_map]
    unfold constsOf
    apply List.map_congr_left
    intro r hr
    rw [List.mem_range] at hr
    have h2 : x (2*r+2) = h (r+1) := by rw [← xe (r+1)]; rfl
    have h3 : x (2*r+3) = V (r+1) := by rw [← xo (r+1)]; rfl
    simp only [Function.comp]
    rw [preC1_of, preC2_of p st x r (by rw [xe]; exact hh r (by omega)) (by rw [h2]; exact hh _ (by omega)), xe, xo, h2, h3]
    rfl
  rw [hC] at he
  obtain ⟨e', he', -, hget⟩ := preErr_of p st N hN Closed Q sea x' (by intro k hk; rw [xe']; exact hh' k hk)
  rw [he] at he'
  cases he'
  refine balance p N hN c dx hdx C2 sea seaOld h V h' V' ?_
  intro r hr
  have := hget (2*r+1) (by omega)
  rw [hres r hr] at this
  unfold resR at this
  rw [if_neg (by omega), if_neg (by omega), if_pos (by omega)] at this
  have h2 : x' (2*r+1+1) = h' (r+1) := by rw [← xe' (r+1)]; rfl
  have h3 : x' (2*r+1+2) = V' (r+1) := by rw [← xo' (r+1)]; rfl
  rw [show (2*r+1-1)/2 = r by omega, show 2*r+1-1 = 2*r by omega, xe', xo', h2, h3] at this
  simp only [Option.some.injEq, Fl.fin.injEq] at this
  exact this.symm

/-- C20, what holds: for every channel with no lagoon area attached to its first and last
sections, vanishing continuity residuals in the assembled error vector (its entries 1, 3, …)
mean that the change in stored volume is exactly the time-weighted inflow minus outflow minus
seepage.  Missing: lagoon area attached to an end section, which is counted half
(`C20_refuted_end_area`). -/
theorem C20_partial (p : PrePars) (N : ℕ) (hN : 2 ≤ N) (c : ℕ → ChanNode ℝ) (dx : ℕ → ℝ) (hdx : ∀ r < N - 1, 0 < dx r)
    (hfirst : (c 0).LagArea = 0) (hlast : (c (N-1)).LagArea = 0)
    (ns : List PreNode) (rs : List PreReach)
    (hini : preInit p ((List.range (N-1)).map (fun r => fin (dx r))) ((List.range N).map (fun k => finNode (c k))) = .ok (ns, rs))
    (h V h' V' : ℕ → ℝ) (hh : ∀ k < N, 0 < h k) (hh' : ∀ k < N, 0 < h' k) (Closed : Bool) (Q sea seaOld : ℝ) (e : List (Fl ℝ))
    (he : preErr p Closed Q sea ((preReaches rs (atState p ns h V)).map (fun x =>
        (preC1 p (fin sea) (fin seaOld) x.1 x.2.1 x.2.2, preC2 p x.1 x.2.1 x.2.2))) rs (atState p ns h' V') = .ok e)
    (hres : ∀ r < N - 1, e[2 * r + 1]? = some (fin 0)) :
    let B := fun k => (c k).B
    let area := fun k => (c k).LagArea
    let len := fun k => (c k).LagLen
    let level := fun k => (c k).z + h k
    let level' := fun k => (c k).z + h' k
    let flow := fun k => V k * (h k * B k)
    let flow' := fun k => V' k * (h' k * B k)
    (channelVolume N dx B h' + lagoonVolume N area h') - (channelVolume N dx B h + lagoonVolume N area h) =
      p.dt * (p.Theta * (flow' 0 - flow' (N-1)) + (1 - p.Theta) * (flow 0 - flow (N-1)))
        - p.dt * p.P * (p.Theta * seepHead N len level' sea + (1 - p.Theta) * seepHead N len level seaOld) := by
  intro B area len level level' flow flow'
  have g := C20_partial_general p N hN c dx hdx ns rs hini h V h' V' hh hh' Closed Q sea seaOld e he hres
  have ha : (fun k => (if k = 0 ∨ k = N - 1 then (1:ℝ)/2 else 1) * (c k).LagArea) = area := by
    funext k
    by_cases hk : k = 0 ∨ k = N - 1
    · rw [if_pos hk]
      rcases hk with rfl | rfl
      · simp only [area, hfirst, mul_zero]
      · simp only [area, hlast, mul_zero]
    · rw [if_neg hk, one_mul]
  rw [ha] at g
  exact g

/-- Two sections 1 m apart, the last with 2 m² of lagoon. -/
noncomputable def endPars : PrePars := { g := 9.81, n := 0, P := 0, Theta := 1, Beta := 1, Tol := 0.001, MaxIt := 5, dt := 1 }
noncomputable def endChan : ℕ → ChanNode ℝ := fun k => { z := 0, B := 1, LagArea := if k = 1 then 2 else 0, LagLen := 0, h := 1, V := 1 }
/-- The same without the lagoon. -/
noncomputable def plainChan : ℕ → ChanNode ℝ := fun _ => { z := 0, B := 1, LagArea := 0, LagLen := 0, h := 1, V := 1 }

theorem two_reach_err (c : ℕ → ChanNode ℝ) (hz : ∀ k, (c k).z = 0) (hB : ∀ k, (c k).B = 1) (hl : ∀ k, (c k).LagLen = 0)
    (h' V' : ℕ → ℝ) (hh' : ∀ k < 2, 0 < h' k)
    (hc : h' 1 * (1 + (c 1).LagArea) + h' 0 * (1 + (c 0).LagArea) + 2 * (V' 1 * h' 1 - V' 0 * h' 0)
      = 1 + (c 1).LagArea + (1 + (c 0).LagArea)) :
    ∃ ns rs e, preInit endPars ((List.range (2-1)).map (fun _ => fin 1)) ((List.range 2).map (fun k => finNode (c k))) = .ok (ns, rs) ∧
      preErr endPars false 1 1 ((preReaches rs (atState endPars ns (fun _ => 1) (fun _ => 1))).map (fun x =>
        (preC1 endPars (fin 1) (fin 1) x.1 x.2.1 x.2.2, preC2 endPars x.1 x.2.1 x.2.2))) rs (atState endPars ns h' V') = .ok e ∧
      ∀ r < 2 - 1, e[2 * r + 1]? = some (fin 0) := by
  set st0 := statOf endPars 2 c (fun _ => 1) 0 0
  set C1 : ℕ → ℝ := fun r => c1R endPars st0 1 1 r 1 1 1 1 with hC1
  set C2 : ℕ → ℝ := fun r => c2R endPars st0 r 1 1 1 1
  have hini := preInit_of endPars 2 le_rfl c (fun _ => 1) (by intros; norm_num) C1 C2
  set st := statOf endPars 2 c (fun _ => 1) C1 C2
  refine ⟨nodesOf endPars st 2 (initX c), reachesOf st 2, ?_⟩
  rw [hini, atState_of, atState_of]
  set x : ℕ → ℝ := fun i => if i % 2 = 0 then (1:ℝ) else 1 with hx
  have hx1 : ∀ i, x i = 1 := fun i => by simp [hx]
  set x' : ℕ → ℝ := fun i => if i % 2 = 0 then h' (i/2) else V' (i/2) with hx'
  have hC : (preReaches (reachesOf st 2) (nodesOf endPars st 2 x)).map (fun x =>
      (preC1 endPars (fin 1) (fin 1) x.1 x.2.1 x.2.2, preC2 endPars x.1 x.2.1 x.2.2)) = constsOf st 2 := by
    rw [preReaches_of, List.map_map]
    unfold constsOf
    apply List.map_congr_left
    intro r hr
    simp only [Function.comp]
    rw [preC1_of, preC2_of _ st x r (by rw [hx1]; norm_num) (by rw [hx1]; norm_num), hx1, hx1, hx1, hx1]
    rfl
  rw [hC]
  obtain ⟨e, he, -, hget⟩ := preErr_of endPars st 2 le_rfl false 1 1 x' (by
    intro k hk
    simp only [hx']; rw [if_pos (by omega), show 2*k/2 = k by omega]; exact hh' k hk)
  refine ⟨e, rfl, he, ?_⟩
  intro r hr
  have hr0 : r = 0 := by omega
  subst hr0
  rw [hget _ (by norm_num)]
  have e0 : dx2R 2 (fun _ => (1:ℝ)) 0 = 1 := by simp [dx2R]
  have e1 : dx2R 2 (fun _ => (1:ℝ)) 1 = 1 := by simp [dx2R]
  simp [resR, contR, st, statOf, hC1, c1R, st0, e0, e1, hB, hl, hz, hx', endPars]
  linarith

/-- C20 as stated fails: with lagoon area on the last section the residual vanishes although
the stored volume grew by 2.5 m³ when only 1.5 m³ more flowed in than out. -/
theorem C20_refuted_end_area : ∃ (ns : List PreNode) (rs : List PreReach) (e : List (Fl ℝ)) (h' V' : ℕ → ℝ),
    preInit endPars ((List.range (2-1)).map (fun _ => fin 1)) ((List.range 2).map (fun k => finNode (endChan k))) = .ok (ns, rs) ∧
    preErr endPars false 1 1 ((preReaches rs (atState endPars ns (fun _ => 1) (fun _ => 1))).map (fun x =>
        (preC1 endPars (fin 1) (fin 1) x.1 x.2.1 x.2.2, preC2 endPars x.1 x.2.1 x.2.2))) rs (atState endPars ns h' V') = .ok e ∧
    (∀ r < 2 - 1, e[2 * r + 1]? = some (fin 0)) ∧ (∀ k < 2, 0 < h' k) ∧ endPars.Theta = 1 ∧ endPars.P = 0 ∧ endPars.dt = 1 ∧
    (channelVolume 2 (fun _ => 1) (fun k => (endChan k).B) h' + lagoonVolume 2 (fun k => (endChan k).LagArea) h')
      - (channelVolume 2 (fun _ => 1) (fun k => (endChan k).B) (fun _ => 1) + lagoonVolume 2 (fun k => (endChan k).LagArea) (fun _ => 1)) = 2.5 ∧
    V' 0 * (h' 0 * (endChan 0).B) - V' 1 * (h' 1 * (endChan 1).B) = 1.5 := by
  have hh' : ∀ k < 2, (0:ℝ) < (fun k : ℕ => if k = 0 then (1:ℝ) else 2) k := by intro k _; simp only; split <;> norm_num
  obtain ⟨ns, rs, e, h1, h2, h3⟩ := two_reach_err endChan (by simp [endChan]) (by simp [endChan]) (by simp [endChan])
    (fun k => if k = 0 then 1 else 2) (fun k => if k = 0 then 2 else 1/4) hh' (by simp [endChan]; norm_num)
  refine ⟨ns, rs, e, _, _, h1, h2, h3, hh', rfl, rfl, rfl, ?_, ?_⟩
  · simp [channelVolume, lagoonVolume, endChan, Finset.sum_range_succ]; norm_num
  · simp [endChan]; norm_num

/-- The hypotheses of C20_partial are met by a two-section channel whose depths change. -/
example : ∃ (ns : List PreNode) (rs : List PreReach) (e : List (Fl ℝ)) (h' V' : ℕ → ℝ),
    preInit endPars ((List.range (2-1)).map (fun _ => fin 1)) ((List.range 2).map (fun k => finNode (plainChan k))) = .ok (ns, rs) ∧
    preErr endPars false 1 1 ((preReaches rs (atState endPars ns (fun _ => 1) (fun _ => 1))).map (fun x =>
        (preC1 endPars (fin 1) (fin 1) x.1 x.2.1 x.2.2, preC2 endPars x.1 x.2.1 x.2.2))) rs (atState endPars ns h' V') = .ok e ∧
    (∀ r < 2 - 1, e[2 * r + 1]? = some (fin 0)) ∧ (∀ k < 2, 0 < h' k) ∧ h' 1 = 2 ∧ (plainChan 0).LagArea = 0 ∧ (plainChan 1).LagArea = 0 := by
  have hh' : ∀ k < 2, (0:ℝ) < (fun k : ℕ => if k = 0 then (1:ℝ) else 2) k := by intro k _; simp only; split <;> norm_num
  obtain ⟨ns, rs, e, h1, h2, h3⟩ := two_reach_err plainChan (by simp [plainChan]) (by simp [plainChan]) (by simp [plainChan])
    (fun k => if k = 0 then 1 else 2) (fun k => if k = 0 then 1 else 1/4) hh' (by simp [plainChan]; norm_num)
  exact ⟨ns, rs, e, _, _, h1, h2, h3, hh', by simp, rfl, rfl⟩

/-! ### C21: the matrix is the derivative -/

/-- The `j`-th unknown varied: the unknowns are depth and velocity of each section in turn. -/
noncomputable abbrev vary (x : ℕ → ℝ) (j : ℕ) (t : ℝ) : ℕ → ℝ := Function.update x j t

/-- C21, what holds: at every state with positive depths and non-zero velocities, for every
equation `i` and unknown `j` there is the real function `F` giving the assembled residual `i`
as unknown `j` varies near its current value, it is differentiable there, and its derivative
is the entry the banded matrix holds for `(i, j)` (zero outside the band), except in the
velocity entries of the momentum equations (`i` even, not 0, `j` odd), where this holds if
that velocity is positive.  Missing: negative velocity in those entries
(`C21_refuted_reversed`). -/
theorem C21_partial (p : PrePars) (st : PreStat) (N : ℕ) (hN : 2 ≤ N) (Closed : Bool) (Q Ds : ℝ) (x : ℕ → ℝ)
    (hx : ∀ k < N, 0 < x (2*k)) (hV : ∀ k < N, x (2*k+1) ≠ 0) :
    ∃ band, preBand p Closed (reachesOf st N) (nodesOf p st N x) = .ok band ∧
      ∀ i j, i < 2 * N → j < 2 * N → (j % 2 = 0 ∨ i % 2 = 1 ∨ i = 0 ∨ 0 < x j) →
        ∃ (F : ℝ → ℝ) (m : ℝ),
          (∀ᶠ t in nhds (x j), ∃ e, preErr p Closed Q Ds (constsOf st N) (reachesOf st N) (nodesOf p st N (vary x j t)) = .ok e ∧
            e[i]? = some (fin (F t))) ∧
          HasDerivAt F m (x j) ∧
          (if i ≤ j + 2 ∧ j ≤ i + 2 then banded band i j = fin m else m = 0) := by
  obtain ⟨band, hb, hband⟩ := preBand_of p st N hN Closed x hx hV
  refine ⟨band, hb, ?_⟩
  intro i j hi hj hok
  refine ⟨fun t => resR p st N Closed Q Ds (vary x j t) i, jacR p st N Closed x (fun v => |v|) i j, ?_, 
    resR_deriv p st N hN Closed Q Ds x hx hV i j hi, ?_⟩
  · have hev : ∀ᶠ t in nhds (x j), ∀ k < N, 0 < vary x j t (2*k) := by
      by_cases hj2 : j % 2 = 0
      · have hpos : 0 < x j := by
          have := hx (j/2) (by omega)
          rwa [show 2*(j/2) = j by omega] at this
        filter_upwards [lt_mem_nhds hpos] with t ht k hk
        by_cases hk2 : 2*k = j
        · rw [hk2]; simpa [vary] using ht
        · rw [vary, Function.update_of_ne hk2]; exact hx k hk
      · filter_upwards with t k hk
        rw [vary, Function.update_of_ne (by omega)]; exact hx k hk
    filter_upwards [hev] with t ht
    obtain ⟨e, he, -, hg⟩ := preErr_of p st N hN Closed Q Ds (vary x j t) ht
    exact ⟨e, he, hg i hi⟩
  · split
    · rename_i hb2
      rw [hband i j hi hj hb2.1 hb2.2, jacR_code p st N Closed x i j hj hok]
    · rename_i hb2
      exact jacR_out p st N hN Closed x _ i j hi hj hb2

/-- C21 as stated fails for reversed flow: whenever the upstream velocity of a reach is
negative (with positive width, momentum coefficient, time weight and timestep), the entry of
its momentum equation for that velocity is not the derivative of the residual. -/
theorem C21_refuted_reversed (p : PrePars) (st : PreStat) (N : ℕ) (hN : 2 ≤ N) (Closed : Bool) (Q Ds : ℝ) (x : ℕ → ℝ)
    (hx : ∀ k < N, 0 < x (2*k)) (hV : ∀ k < N, x (2*k+1) ≠ 0) (r : ℕ) (hr : r < N - 1) (hneg : x (2*r+1) < 0)
    (hbeta : 0 < p.Beta) (htheta : 0 < p.Theta) (hB : 0 < st.B r) (hdt : 0 < st.dtdx r)
    (band : ℕ → ℕ → Fl ℝ) (hb : preBand p Closed (reachesOf st N) (nodesOf p st N x) = .ok band)
    (F : ℝ → ℝ) (m : ℝ)
    (hF : ∀ᶠ t in nhds (x (2*r+1)), ∃ e,
      preErr p Closed Q Ds (constsOf st N) (reachesOf st N) (nodesOf p st N (vary x (2*r+1) t)) = .ok e ∧ e[2*r+2]? = some (fin (F t)))
    (hm : HasDerivAt F m (x (2*r+1))) : banded band (2*r+2) (2*r+1) ≠ fin m := by
  obtain ⟨band', hb', hband⟩ := preBand_of p st N hN Closed x hx hV
  rw [hb] at hb'
  cases hb'
  rw [hband (2*r+2) (2*r+1) (by omega) (by omega) (by omega) (by omega)]
  have hd := resR_deriv p st N hN Closed Q Ds x hx hV (2*r+2) (2*r+1) (by omega)
  have hFe : F =ᶠ[nhds (x (2*r+1))] fun t => resR p st N Closed Q Ds (vary x (2*r+1) t) (2*r+2) := by
    filter_upwards [hF] with t ht
    obtain ⟨e, he, hg⟩ := ht
    obtain ⟨e', he', -, hg'⟩ := preErr_of p st N hN Closed Q Ds (vary x (2*r+1) t) (by
      intro k hk
      rw [vary, Function.update_of_ne (by omega)]; exact hx k hk)
    rw [he] at he'
    cases he'
    have := hg' (2*r+2) (by omega)
    rw [hg] at this
    simpa using this
  have huniq := hm.unique (hd.congr_of_eventuallyEq hFe)
  rw [huniq]
  have hh := hx r (by omega)
  have e1 : 2 * r + 2 - 2 = 2 * r := by omega
  have e2 : 2 * r / 2 = r := by omega
  have e3 : ¬ (2 * r + 2 = 2 * N - 1) := by omega
  have e4 : ¬ ((2 * r + 2) % 2 = 1) := by omega
  intro hc
  simp only [Fl.fin.injEq] at hc
  simp only [jacR, systemMatrix, place, e2, e3, e4, if_false, derivR, abs_of_neg hneg, Nat.add_sub_cancel, Nat.add_eq_zero_iff,
    OfNat.ofNat_ne_zero, and_false, le_add_iff_nonneg_right, zero_le_one, if_true, add_tsub_cancel_left,
    List.getElem?_cons_succ, List.getElem?_cons_zero, Option.getD_some] at hc
  have h8 : p.Beta * st.dtdx r * p.Theta * (x (2*r) * st.B r) * x (2*r+1) = 0 := by linarith
  have : 0 < p.Beta * st.dtdx r * p.Theta * (x (2*r) * st.B r) := by positivity
  nlinarith

/-- Static data of a plain two-section channel. -/
noncomputable def plainStat : PreStat :=
  { z := fun _ => 0, B := fun _ => 1, Be := fun _ => 1, SeepLen := fun _ => 0, S0 := fun _ => 0, dtdx := fun _ => 1,
    C1 := fun _ => 2, C2 := fun _ => 2 }

/-- The hypotheses of C21_partial and of its refutation are met. -/
example : (∀ k < 2, 0 < (fun i : ℕ => if i % 2 = 0 then (1:ℝ) else -1) (2*k)) ∧
    (∀ k < 2, (fun i : ℕ => if i % 2 = 0 then (1:ℝ) else -1) (2*k+1) < 0) ∧
    0 < endPars.Beta ∧ 0 < endPars.Theta ∧ 0 < plainStat.B 0 ∧ 0 < plainStat.dtdx 0 := by
  refine ⟨?_, ?_, ?_, ?_, ?_, ?_⟩
  · intro k _; simp
  · intro k _
    simp only
    rw [if_neg (by omega)]; norm_num
  all_goals norm_num [endPars, plainStat]

/-- The numeric states C21 is about are those `solveFullPreissmann` works on: the arrays set
up from a finite channel have that form. -/
theorem C21_states (p : PrePars) (N : ℕ) (hN : 2 ≤ N) (c : ℕ → ChanNode ℝ) (dx : ℕ → ℝ) (hdx : ∀ r < N - 1, 0 < dx r) :
    ∃ st x, preInit p ((List.range (N-1)).map (fun r => fin (dx r))) ((List.range N).map (fun k => finNode (c k))) =
      .ok (nodesOf p st N x, reachesOf st N) ∧ (∀ k < N, 0 < x (2*k)) ∧ (∀ k < N, x (2*k+1) ≠ 0) := by
  refine ⟨_, _, preInit_of p N hN c dx hdx 0 0, ?_, ?_⟩
  · intro k _
    unfold initX
    rw [if_pos (by omega)]
    split
    · norm_num
    · linarith
  · intro k _
    unfold initX
    rw [if_neg (by omega)]
    split
    · norm_num
    · assumption

/-! ### C22: band layout -/

/-- C22: under scipy's convention the band holds, at every place of the band, the matrix with
rows upstream boundary, continuity and momentum of each reach, downstream boundary: no
assignment has overwritten another. For any number of sections from two upwards. -/
theorem C22_layout (p : PrePars) (Closed : Bool) (rs : List PreReach) (ns : List PreNode) (hN : 2 ≤ ns.length)
    (hrs : rs.length = ns.length - 1) (n0 nN : PreNode) (h0 : ns[0]? = some n0) (hL : ns.getLast? = some nN) :
    ∃ band, preBand p Closed rs ns = .ok band ∧ ∀ i j, i < 2 * ns.length → j < 2 * ns.length → i ≤ j + 2 → j ≤ i + 2 →
      banded band i j = systemMatrix (fin 0) ns.length [n0.V * n0.B, n0.A]
        (fun r => (match rs[r]?, ns[r]?, ns[r+1]? with
          | some q, some a, some b => let d := preDeriv p q a b; [d.ch0, d.cv0, d.ch1, d.cv1]
          | _, _, _ => []))
        (fun r => (match rs[r]?, ns[r]?, ns[r+1]? with
          | some q, some a, some b => let d := preDeriv p q a b; [d.mh0, d.mv0, d.mh1, d.mv1]
          | _, _, _ => []))
        (if Closed then [nN.V, nN.h] else [fin 1, fin 0]) i j := by
  have hg : pyGet ns (-1) = .ok nN := by
    unfold pyGet
    rw [if_neg (by omega), if_pos (by omega)]
    have : ((ns.length : ℤ) + -1).toNat = ns.length - 1 := by omega
    rw [this]
    rw [List.getLast?_eq_getElem?] at hL
    unfold ixGet
    rw [hL]
  unfold preBand
  have hi0 : ixGet ns 0 = .ok n0 := by unfold ixGet; rw [h0]
  rw [hi0, hg]
  simp only [bind, Except.bind, pure, Except.pure]
  refine ⟨_, rfl, ?_⟩
  intro i j hi hj hij hji
  have hlen : ((preReaches rs ns).map (fun x => preDeriv p x.1 x.2.1 x.2.2)).length = ns.length - 1 := by
    simp [preReaches]; omega
  rw [band_layout (fin 0) ns.length hN _ _ _ hlen _ _ i j hi hj hij hji]
  have key : ∀ r, r < ns.length - 1 → ∃ q a b, rs[r]? = some q ∧ ns[r]? = some a ∧ ns[r+1]? = some b ∧
      ((preReaches rs ns).map (fun x => preDeriv p x.1 x.2.1 x.2.2))[r]? = some (preDeriv p q a b) := by
    intro r hr
    refine ⟨_, _, _, List.getElem?_eq_getElem (by omega), List.getElem?_eq_getElem (by omega), List.getElem?_eq_getElem (by omega), ?_⟩
    rw [List.getElem?_eq_getElem (by omega)]
    simp [preReaches]
  unfold systemMatrix
  split
  · rfl
  split
  · cases Closed <;> rfl
  split
  · obtain ⟨q, a, b, e1, e2, e3, e4⟩ := key ((i-1)/2) (by omega)
    simp only [e1, e2, e3, e4, Option.map_some, Option.getD_some]
  · obtain ⟨q, a, b, e1, e2, e3, e4⟩ := key ((i-2)/2) (by omega)
    simp only [e1, e2, e3, e4, Option.map_some, Option.getD_some]

/-- C22, right-hand side: the residual vector has one entry per row of the matrix and in the same
row order: upstream boundary, continuity and momentum of each reach, downstream boundary. -/
theorem C22_residuals (p : PrePars) (Closed : Bool) (Q DsWl : ℝ) (C : List (Fl ℝ × Fl ℝ)) (rs : List PreReach)
    (ns : List PreNode) (hN : 2 ≤ ns.length) (hrs : rs.length = ns.length - 1) (hC : C.length = ns.length - 1)
    (n0 nN : PreNode) (h0 : ns[0]? = some n0) (hL : ns.getLast? = some nN) :
    ∃ e, preErr p Closed Q DsWl C rs ns = .ok e ∧ e.length = 2 * ns.length ∧ ∀ i, i < 2 * ns.length →
      e[i]? = systemVector ns.length (n0.A * n0.V - fin Q)
        (fun r => (match C[r]?, rs[r]?, ns[r]?, ns[r+1]? with
          | some c, some q, some a, some b => some (preCont p c.1 q a b)
          | _, _, _, _ => none))
        (fun r => (match C[r]?, rs[r]?, ns[r]?, ns[r+1]? with
          | some c, some q, some a, some b => some (preMom p c.2 q a b)
          | _, _, _, _ => none))
        (if Closed then nN.h * nN.V else nN.z + nN.h - fin DsWl) i ∧ e[i]? ≠ none := by
  have hg : pyGet ns (-1) = .ok nN := by
    unfold pyGet
    rw [if_neg (by omega), if_pos (by omega)]
    have : ((ns.length : ℤ) + -1).toNat = ns.length - 1 := by omega
    rw [this]
    rw [List.getLast?_eq_getElem?] at hL
    unfold ixGet
    rw [hL]
  have hi0 : ixGet ns 0 = .ok n0 := by unfold ixGet; rw [h0]
  unfold preErr
  rw [hi0, hg]
  simp only [bind, Except.bind, pure, Except.pure]
  have hlen : (preReaches rs ns).length = ns.length - 1 := by simp [preReaches]; omega
  have he : ∀ us ds cont mom, (errAssemble (fin (0:ℝ)) ns.length us cont mom ds).length = 2 * ns.length := by
    intro us ds cont mom
    rw [errAssemble_length]
  refine ⟨_, rfl, he _ _ _ _, ?_⟩
  intro i hi
  refine ⟨?_, ?_⟩
  · rw [errAssemble_get _ _ hN _ _ _ _ (by simp [hlen, hC]) (by simp [hlen, hC]) i hi]
    have key : ∀ r, r < ns.length - 1 → ∃ c q a b, C[r]? = some c ∧ rs[r]? = some q ∧ ns[r]? = some a ∧
        ns[r+1]? = some b ∧ (preReaches rs ns)[r]? = some (q, a, b) := by
      intro r hr
      refine ⟨_, _, _, _, List.getElem?_eq_getElem (by omega), List.getElem?_eq_getElem (by omega),
        List.getElem?_eq_getElem (by omega), List.getElem?_eq_getElem (by omega), ?_⟩
      rw [List.getElem?_eq_getElem (by omega)]
      simp [preReaches]
    unfold systemVector
    split
    · rfl
    split
    · rfl
    split
    · obtain ⟨c, q, a, b, e1, e2, e3, e4, e5⟩ := key ((i-1)/2) (by omega)
      simp only [List.getElem?_zipWith, e1, e2, e3, e4, e5]
    · obtain ⟨c, q, a, b, e1, e2, e3, e4, e5⟩ := key ((i-2)/2) (by omega)
      simp only [List.getElem?_zipWith, e1, e2, e3, e4, e5]
  · rw [List.getElem?_eq_getElem (by rw [he]; exact hi)]
    simp

/-- C22 applies to the plain two-section channel. -/
example : 2 ≤ (nodesOf endPars plainStat 2 (fun _ => 1)).length ∧
    (reachesOf plainStat 2).length = (nodesOf endPars plainStat 2 (fun _ => 1)).length - 1 := by
  simp [nodesOf, reachesOf]

/-! ### C23: fallback when the iteration does not converge -/

/-- C23, what the code does: if the first timestep's iteration does not converge, then
whatever later timesteps do, the caller's arrays hold at return what they held after the last
iteration of that timestep, although the steady solution was computed (and is what later
timesteps start from).  Missing: that the caller gets the steady solution, which is false
(`C23_refuted_steady`). -/
theorem C23_partial (p : PrePars) (Closed : Bool) (solver : Solver) (dx : List (Fl ℝ)) (nodes : List (ChanNode (Fl ℝ)))
    (b : ℝ × ℝ) (rest : List (ℝ × ℝ)) (out : List (Fl ℝ × Fl ℝ))
    (h : solveFullPreissmann p Closed solver dx nodes (b :: rest) = .ok out) (ns : List PreNode) (rs : List PreReach)
    (hini : preInit p dx nodes = .ok (ns, rs)) (nN : PreNode) (hN : pyGet ns (-1) = .ok nN) (s : PreState)
    (hnew : preNewton p Closed solver b.1 b.2 ((preReaches rs ns).map (fun x =>
        (preC1 p (fin b.2) (nN.z + nN.h) x.1 x.2.1 x.2.2, preC2 p x.1 x.2.1 x.2.2))) rs p.MaxIt
        { nodes := ns, Delta := none, caller := none } = .ok (s, false)) :
    out = s.nodes.map (fun a => (a.h, a.V)) ∧
      ∃ hs Vs, solveSteady ⟨p.n, ((b :: rest).getLast (by simp)).1, ((b :: rest).getLast (by simp)).2, p.Beta, p.Tol, p.MaxIt⟩ dx (s.nodes.map (·.z)) (s.nodes.map (·.B)) = .ok (hs, Vs) := by
  unfold solveFullPreissmann at h
  rw [hini] at h
  simp only [bind, Except.bind, pure, Except.pure, hN] at h
  split at h
  · cases h
  rename_i r hr
  obtain ⟨sf, w⟩ := r
  rw [List.foldlM_cons] at hr
  simp only [bind, Except.bind] at hr
  split at hr
  · cases hr
  rename_i r1 hr1
  obtain ⟨s', conv, hn', hc⟩ := preStep_cases _ _ _ _ _ _ _ _ _ _ hr1
  simp only at hn'
  rw [hnew] at hn'
  cases hn'
  rcases hc with ⟨hc, -⟩ | ⟨-, hs, Vs, hst, rfl⟩
  · cases hc
  have hcal : s.caller = none := preNewton_caller _ _ _ _ _ _ _ _ _ _ hnew
  have hfr := foldlM_inv (fun sd : PreState × Fl ℝ => sd.1.caller = some (s.nodes.map (fun a => (a.h, a.V)))) _
    (fun b a r hb hr => preStep_frozen p Closed solver dx rs _ _ _ b a r hb hr) rest _ _ (by simp only [hcal]) hr
  simp only at hfr h
  rw [hfr] at h
  cases h
  refine ⟨rfl, hs, Vs, ?_⟩
  rw [List.getLast?_eq_some_getLast (by simp)] at hst
  exact hst

/-- Steady parameters of the witness. -/
noncomputable def flatPars : SteadyPars := { nanPars with MaxIt := 1 }

theorem flat_run1 : steady flatPars [10] [0, 0] [1, 1] =
    .ok ([fin (2 * 9.81), fin (2 * 9.81)], [fin (9.81 / 2), fin (9.81 / 2)]) := by
  have hc : critR flatPars 1 = 9.81 := by
    have h1 : flatPars.Q * flatPars.Q / (1 * 1 * gravSteady) = (9.81 : ℝ) ^ (3 : ℝ) := by
      norm_num [flatPars, nanPars, gravSteady]
    unfold critR
    rw [h1, ← Real.rpow_mul (by norm_num)]
    norm_num
  have c0 : critDep flatPars (fin 1) = fin 9.81 := by rw [critDep_fin _ one_pos, hc]
  rw [steady, solveSteady_eq _ _ _ _ (by simp) (by simp) (by simp)]
  have hN : npmax (fin flatPars.DsWL - fin 0) (critDep flatPars (fin 1)) = fin (2 * 9.81) := by
    rw [c0]; simp only [sub_fin, npmax_fin]; norm_num [flatPars, nanPars]
  obtain ⟨ev, ee, es⟩ := mkPt_pos flatPars 0 (B := 1) (h := 2 * 9.81) one_pos (by norm_num)
  have ev' : (mkPt flatPars (fin 0) (fin 1) (fin (2 * 9.81))).vel = fin (9.81 / 2) := by
    rw [ev]; norm_num [flatPars, nanPars]
  have ee' : (mkPt flatPars (fin 0) (fin 1) (fin (2 * 9.81))).en = fin (17/8 * 9.81) := by
    rw [ee]; norm_num [flatPars, nanPars, gravSteady]
  have es' : (mkPt flatPars (fin 0) (fin 1) (fin (2 * 9.81))).sf = fin 0 := by
    rw [es]; norm_num [flatPars, nanPars]
  have hd : steadyDepth flatPars (fin 10) (fin 0) (fin 1) (fin 0) (fin (2 * 9.81)) (fin (17/8 * 9.81)) (fin 0) =
      .ok (fin (2 * 9.81)) := by
    unfold steadyDepth
    have e1 : fin flatPars.Beta * (fin flatPars.Q * fin flatPars.Q / (fin 2 * fin gravSteady * (fin 1 * fin 1))) =
        fin (9.81 ^ 3 / 2 : ℝ) := by
      simp only [mul_fin]
      rw [div_fin _ _ (by norm_num [gravSteady])]
      norm_num [flatPars, nanPars, gravSteady]
    have e2 : fin 10 * (fin flatPars.Q * fin flatPars.Q) * fin (flatPars.n ^ 2) / (fin 2 * (fin 1 * fin 1)) = fin (0 : ℝ) := by
      simp only [mul_fin]
      rw [div_fin _ _ (by norm_num)]
      norm_num [flatPars, nanPars]
    have e3 : (fin 0 - fin 0 * fin 10 / fin 2 - fin (17/8 * 9.81) : Fl ℝ) = fin (-(17/8) * 9.81) := by
      simp only [mul_fin]
      rw [div_fin _ _ (by norm_num)]
      simp only [sub_fin]; norm_num
    have e4 : (fin (2 * 9.81) + fin 0 - fin 0 + fin 0 * fin 10 : Fl ℝ) = fin (2 * 9.81) := by
      simp only [mul_fin, add_fin, sub_fin]; norm_num
    simp only [e1, e2, e3, e4]
    have f1 : depErr (fin (9.81 ^ 3 / 2)) (fin 0) (fin (-(17/8) * 9.81)) (fin (2 * 9.81 : ℝ)) = fin 0 := by
      rw [depErr_pos _ _ _ (by norm_num)]
      unfold errR
      rw [Real.rpow_neg (by norm_num)]
      norm_num
    have hfuel : flatPars.MaxIt - 1 = 0 := rfl
    have hT : flatPars.Tol = 0.001 := rfl
    rw [f1, hfuel, steadyNewton_zero, hT, if_neg (by simp; norm_num)]
    simp only [bind, Except.bind, pure, Except.pure, c0, blt_fin]
    rw [if_neg (by norm_num)]
  simp only [List.map_cons, List.map_nil, steadyProf]
  simp only [bind, Except.bind, pure, Except.pure, ee', es', hN]
  rw [show (mkPt flatPars (fin 0) (fin 1) (fin (2 * 9.81))).dep = fin (2 * 9.81) from rfl, hd]
  simp only [Except.map, List.map_cons, List.map_nil, ev']
  rfl

/-- Unsteady parameters of the witness. -/
noncomputable def fallPars : PrePars :=
  { g := 9.81, n := 0, P := 0, Theta := 0, Beta := 1, Tol := 0.001, MaxIt := 1, dt := 1 }

/-- A correct linear solver that solves the one system of the witness (and reports any other
as singular). -/
noncomputable def fallDelta : List (Fl ℝ) := [fin (2 * 9.81 - 1), fin (2 - 9.81 ^ 2 - 2 * 9.81), fin (1 - 2 * 9.81), fin (9.81 ^ 2 + 2 * 9.81 - 2)]

/-- `band` times `d` is `err`, for `n` unknowns. -/
def SolvesBand (n : ℕ) (band : ℕ → ℕ → Fl ℝ) (err d : List (Fl ℝ)) : Prop :=
  d.length = n ∧ ∀ i < n, ∃ (a : ℕ → ℝ) (y : ℕ → ℝ) (b : ℝ), (∀ j < n, i ≤ j + 2 → j ≤ i + 2 → banded band i j = fin (a j)) ∧
    (∀ j < n, d[j]? = some (fin (y j))) ∧ err[i]? = some (fin b) ∧
    ((List.range n).map (fun j => if i ≤ j + 2 ∧ j ≤ i + 2 then a j * y j else 0)).sum = b

open Classical in
noncomputable def fallSolver : Solver := fun band err => if SolvesBand 4 band err fallDelta then .ok fallDelta else .singular

theorem preNewton_step (p : PrePars) (Closed : Bool) (solver : Solver) (Q DsWl : ℝ) (C : List (Fl ℝ × Fl ℝ))
    (rs : List PreReach) (fuel : ℕ) (s : PreState) (err : List (Fl ℝ)) (band : ℕ → ℕ → Fl ℝ) (d dh dV : List (Fl ℝ))
    (he : preErr p Closed Q DsWl C rs s.nodes = .ok err) (hb : preBand p Closed rs s.nodes = .ok band) (hd : solver band err = .ok d)
    (h1 : gather d ((List.range s.nodes.length).map (fun i => 2 * i)) = .ok dh)
    (h2 : gather d ((List.range s.nodes.length).map (fun i => 2 * i + 1)) = .ok dV)
    (hall : d.all (fun x => x.abs <? fin p.Tol) = false) :
    preNewton p Closed solver Q DsWl C rs (fuel+1) s = preNewton p Closed solver Q DsWl C rs fuel ⟨
          List.zipWith (fun a (x : Fl ℝ × Fl ℝ) => preUpdate p a x.1 x.2) s.nodes (dh.zip dV), some d, s.caller⟩ := by
  rw [preNewton.eq_def]
  simp only [bind, Except.bind, he, hb, hd, h1, h2, hall]
  rfl

/-- C23 as stated fails: one timestep, one allowed iteration, a solver that solves the linear
system exactly. The caller is left with the unconverged iterate (depths 0.0001 and 19.62)
although the steady solution (depth 19.62 throughout) was found. -/
theorem C23_refuted_steady :
    (∀ band err d, fallSolver band err = .ok d → SolvesBand 4 band err d) ∧
    preissmann fallPars false fallSolver [10] [plainChan 0, plainChan 1] [(9.81 ^ 2, 2 * 9.81)] =
      .ok [(fin 0.0001, fin (9.81 ^ 2 + 2 * 9.81 - 1)), (fin (2 * 9.81), fin (3 - 9.81 ^ 2 - 2 * 9.81))] ∧
    steady ⟨fallPars.n, 9.81 ^ 2, 2 * 9.81, fallPars.Beta, fallPars.Tol, fallPars.MaxIt⟩ [10] [0, 0] [1, 1] =
      .ok ([fin (2 * 9.81), fin (2 * 9.81)], [fin (9.81 / 2), fin (9.81 / 2)]) := by
  refine ⟨?_, ?_, flat_run1⟩
  · intro band err d h
    unfold fallSolver at h
    split at h
    · rename_i hs; cases h; exact hs
    · cases h
  set st := statOf fallPars 2 plainChan (fun _ => 10) (fun _ => 2) (fun _ => 2) with hst
  have hini : preInit fallPars ([10].map fin) ([plainChan 0, plainChan 1].map finNode) =
      .ok (nodesOf fallPars st 2 (initX plainChan), reachesOf st 2) :=
    preInit_of fallPars 2 le_rfl plainChan (fun _ => 10) (by intros; norm_num) (fun _ => 2) (fun _ => 2)
  set x := initX plainChan with hx
  have hx1 : ∀ i, x i = 1 := fun i => by simp [hx, initX, plainChan]; norm_num
  have hC : (preReaches (reachesOf st 2) (nodesOf fallPars st 2 x)).map (fun y =>
      (preC1 fallPars (fin (2 * 9.81)) (fin (st.z 1) + fin (x 2)) y.1 y.2.1 y.2.2, preC2 fallPars y.1 y.2.1 y.2.2)) = constsOf st 2 := by
    rw [preReaches_of, List.map_map]
    unfold constsOf
    apply List.map_congr_left
    intro r hr
    simp only [Function.comp]
    rw [add_fin, preC1_of, preC2_of _ st x r (by rw [hx1]; norm_num) (by rw [hx1]; norm_num)]
    simp only [hx1, c1R, c2R, hst, statOf, plainChan, fallPars, sfR, Prod.mk.injEq, Fl.fin.injEq]
    norm_num
  have hpos : ∀ k < 2, 0 < x (2*k) := by intro k _; rw [hx1]; norm_num
  obtain ⟨e, he, hel, hget⟩ := preErr_of fallPars st 2 le_rfl false (9.81 ^ 2) (2 * 9.81) x hpos
  obtain ⟨band, hb, hband⟩ := preBand_of fallPars st 2 le_rfl false x hpos (by intro k _; rw [hx1]; norm_num)
  have hsol : SolvesBand 4 band e fallDelta := by
    refine ⟨rfl, ?_⟩
    intro i hi
    refine ⟨fun j => jacR fallPars st 2 false x (fun v => v) i j,
      fun j => if j = 0 then 2 * 9.81 - 1 else if j = 1 then 2 - 9.81 ^ 2 - 2 * 9.81 else if j = 2 then 1 - 2 * 9.81 else 9.81 ^ 2 + 2 * 9.81 - 2,
      resR fallPars st 2 false (9.81 ^ 2) (2 * 9.81) x i, ?_, ?_, hget i hi, ?_⟩
    · intro j hj h1 h2
      exact hband i j hi hj h1 h2
    · intro j hj
      have : j = 0 ∨ j = 1 ∨ j = 2 ∨ j = 3 := by omega
      rcases this with rfl | rfl | rfl | rfl <;> rfl
    · have : i = 0 ∨ i = 1 ∨ i = 2 ∨ i = 3 := by omega
      rcases this with rfl | rfl | rfl | rfl <;>
        simp [List.range_succ, jacR, systemMatrix, place, resR, derivR, contR, momR, sfR, hst, statOf, plainChan, fallPars, hx1] <;>
        norm_num
  have hsolver : fallSolver band e = .ok fallDelta := by unfold fallSolver; rw [if_pos hsol]
  unfold preissmann solveFullPreissmann
  rw [hini]
  simp only [bind, Except.bind, pure, Except.pure]
  rw [pyGet_nodes _ _ 2 (by omega)]
  simp only [List.getLast?_singleton, Option.getD_some, List.foldlM_cons, List.foldlM_nil, bind, Except.bind, pure, Except.pure]
  unfold preStep
  have hl : (nodesOf fallPars st 2 x).length = 2 := by simp [nodesOf]
  have hMax : fallPars.MaxIt = 0 + 1 := rfl
  have hstep := preNewton_step fallPars false fallSolver (9.81 ^ 2) (2 * 9.81) (constsOf st 2) (reachesOf st 2) 0
    ⟨nodesOf fallPars st 2 x, none, none⟩ e band fallDelta
    [fin (2 * 9.81 - 1), fin (1 - 2 * 9.81)] [fin (2 - 9.81 ^ 2 - 2 * 9.81), fin (9.81 ^ 2 + 2 * 9.81 - 2)] he hb hsolver
    (by rw [hl]; rfl) (by rw [hl]; rfl) (by simp [fallDelta, fallPars]; norm_num)
  rw [preNewton_zero] at hstep
  have hz1 : (nodeOf fallPars st x (2-1)).z + (nodeOf fallPars st x (2-1)).h = fin (st.z 1) + fin (x 2) := rfl
  simp only [bind, Except.bind, pure, Except.pure, hz1, hC, hMax, hstep, Bool.false_eq_true, if_false]
  have hsteady : solveSteady ⟨fallPars.n, 9.81 ^ 2, 2 * 9.81, fallPars.Beta, fallPars.Tol, 0 + 1⟩ ([10].map fin)
      ((List.zipWith (fun a (x : Fl ℝ × Fl ℝ) => preUpdate fallPars a x.1 x.2) (nodesOf fallPars st 2 x)
        ([fin (2 * 9.81 - 1), fin (1 - 2 * 9.81)].zip [fin (2 - 9.81 ^ 2 - 2 * 9.81), fin (9.81 ^ 2 + 2 * 9.81 - 2)])).map (·.z))
      ((List.zipWith (fun a (x : Fl ℝ × Fl ℝ) => preUpdate fallPars a x.1 x.2) (nodesOf fallPars st 2 x)
        ([fin (2 * 9.81 - 1), fin (1 - 2 * 9.81)].zip [fin (2 - 9.81 ^ 2 - 2 * 9.81), fin (9.81 ^ 2 + 2 * 9.81 - 2)])).map (·.B)) =
      .ok ([fin (2 * 9.81), fin (2 * 9.81)], [fin (9.81 / 2), fin (9.81 / 2)]) := flat_run1
  rw [hsteady]
  simp only [nodesOf, List.range_succ, List.range_zero, List.nil_append, List.cons_append, List.map_cons, List.map_nil, List.zip_cons_cons, List.zip_nil_right,
    List.zipWith_cons_cons, List.zipWith_nil_right, preUpdate, nodeOf, hx1, sub_fin, clampH_fin, clampV_fin]
  norm_num

/-- The hypotheses of C19 and C23_partial are met by that run. -/
example : (∀ band err d, fallSolver band err = .ok d → ∀ y ∈ d, ∃ r : ℝ, y = fin r) ∧
    ∃ out, preissmann fallPars false fallSolver [10] [plainChan 0, plainChan 1] [(9.81 ^ 2, 2 * 9.81)] = .ok out ∧ out.length = 2 := by
  refine ⟨?_, _, C23_refuted_steady.2.1, rfl⟩
  intro band err d h
  unfold fallSolver at h
  split at h
  · cases h
    intro y hy
    simp only [fallDelta, List.mem_cons, List.not_mem_nil, or_false] at hy
    rcases hy with rfl | rfl | rfl | rfl <;> exact ⟨_, rfl⟩
  · cases h

end Verif.Props
