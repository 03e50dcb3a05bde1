import Verif.Props.Preissmann
import Verif.Spec.Momentum

set_option autoImplicit false
set_option linter.unusedSectionVars false

/-! # C183, C184: momentum of the unsteady scheme, and still water -/

namespace Verif.Props
open Verif Verif.Model Verif.Spec Fl Real

/-- The residuals as real numbers. -/
theorem real_residuals (p : PrePars) (N : ℕ) (hN : 2 ≤ N) (c : ℕ → ChanNode ℝ) (dx : ℕ → ℝ) (hdx : ∀ r < N - 1, 0 < dx r)
    (ns : List PreNode) (rs : List PreReach)
    (hini : preInit p ((List.range (N-1)).map (fun r => fin (dx r))) ((List.range N).map (fun k => finNode (c k))) = .ok (ns, rs))
    (h V h' V' : ℕ → ℝ) (hh : ∀ k < N, 0 < h k) (hh' : ∀ k < N, 0 < h' k) (Closed : Bool) (Q sea seaOld : ℝ) :
    ∃ e : List (Fl ℝ), preErr p Closed Q sea ((preReaches rs (atState p ns h V)).map (fun x =>
        (preC1 p (fin sea) (fin seaOld) x.1 x.2.1 x.2.2, preC2 p x.1 x.2.1 x.2.2))) rs (atState p ns h' V') = .ok e ∧ e.length = 2 * N ∧
      e[0]? = some (fin (h' 0 * (c 0).B * V' 0 - Q)) ∧
      e[2 * N - 1]? = some (fin (if Closed then h' (N-1) * V' (N-1) else (c (N-1)).z + h' (N-1) - sea)) ∧
      ∀ r < N - 1, e[2 * r + 1]? = some (fin (contR p (statOf p N c dx (fun r => c1R p (statOf p N c dx 0 0) sea seaOld r (h r) (V r) (h (r+1)) (V (r+1))) 0) r
          (h' r) (V' r) (h' (r+1)) (V' (r+1)))) ∧
        e[2 * r + 2]? = some (fin (momR p (statOf p N c dx 0 (fun r => c2R p (statOf p N c dx 0 0) r (h r) (V r) (h (r+1)) (V (r+1)))) r
          (h' r) (V' r) (h' (r+1)) (V' (r+1)))) := by
  set st0 := statOf p N c dx 0 0 with hst0
  set C1 : ℕ → ℝ := fun r => c1R p st0 sea seaOld r (h r) (V r) (h (r+1)) (V (r+1)) with hC1
  set C2 : ℕ → ℝ := fun r => c2R p st0 r (h r) (V r) (h (r+1)) (V (r+1)) with hC2
  rw [preInit_of p N hN c dx hdx C1 C2] at hini
  cases hini
  rw [atState_of, atState_of]
  set st := statOf p N c dx C1 C2 with hst
  set x : ℕ → ℝ := fun i => if i % 2 = 0 then h (i/2) else V (i/2) with hx
  set x' : ℕ → ℝ := fun i => if i % 2 = 0 then h' (i/2) else V' (i/2) with hx'
  have xe : ∀ k, x (2*k) = h k := fun k => by
    simp only [hx]; rw [if_pos (by omega), show 2*k/2 = k by omega]
  have xo : ∀ k, x (2*k+1) = V k := fun k => by
    simp only [hx]; rw [if_neg (by omega), show (2*k+1)/2 = k by omega]
  have xe' : ∀ k, x' (2*k) = h' k := fun k => by
    simp only [hx']; rw [if_pos (by omega), show 2*k/2 = k by omega]
  have xo' : ∀ k, x' (2*k+1) = V' k := fun k => by
    simp only [hx']; rw [if_neg (by omega), show (2*k+1)/2 = k by omega]
  have hC : (preReaches (reachesOf st N) (nodesOf p st N x)).map (fun x =>
      (preC1 p (fin sea) (fin seaOld) x.1 x.2.1 x.2.2, preC2 p x.1 x.2.1 x.2.2)) = constsOf st N := by
    rw [preReaches_of, List.map_map]
    unfold constsOf
    apply List.map_congr_left
    intro r hr
    rw [List.mem_range] at hr
    have h2 : x (2*r+2) = h (r+1) := by rw [← xe (r+1)]; rfl
    have h3 : x (2*r+3) = V (r+1) := by rw [← xo (r+1)]; rfl
    simp only [Function.comp]
    rw [preC1_of, preC2_of p st x r (by rw [xe]; exact hh r (by omega)) (by rw [h2]; exact hh _ (by omega)), xe, xo, h2, h3]
    rfl
  rw [hC]
  obtain ⟨e, he, hl, hget⟩ := preErr_of p st N hN Closed Q sea x' (by intro k hk; rw [xe']; exact hh' k hk)
  refine ⟨e, he, hl, ?_, ?_, ?_⟩
  · rw [hget 0 (by omega)]
    unfold resR
    rw [if_pos rfl, show x' 0 = h' 0 from xe' 0, show x' 1 = V' 0 from xo' 0]
    rfl
  · rw [hget (2*N-1) (by omega)]
    unfold resR
    rw [if_neg (by omega), if_pos rfl]
    have a1 : x' (2*N-2) = h' (N-1) := by rw [show 2*N-2 = 2*(N-1) by omega, xe']
    have a2 : x' (2*N-1) = V' (N-1) := by rw [show 2*N-1 = 2*(N-1)+1 by omega, xo']
    rw [a1, a2]
    rfl
  · intro r hr
    have h2 : x' (2*r+1+1) = h' (r+1) := by rw [← xe' (r+1)]; rfl
    have h3 : x' (2*r+1+2) = V' (r+1) := by rw [← xo' (r+1)]; rfl
    constructor
    · rw [hget (2*r+1) (by omega)]
      unfold resR
      rw [if_neg (by omega), if_neg (by omega), if_pos (by omega)]
      rw [show (2*r+1-1)/2 = r by omega, show 2*r+1-1 = 2*r by omega, xe', xo', h2, h3]
      rfl
    · rw [hget (2*r+2) (by omega)]
      unfold resR
      rw [if_neg (by omega), if_neg (by omega), if_neg (by omega)]
      rw [show (2*r+2-2)/2 = r by omega, show 2*r+2-2 = 2*r by omega, show 2*r+2-1 = 2*r+1 by omega, xe', xo',
        show x' (2*r+2) = h' (r+1) from h2, show x' (2*r+2+1) = V' (r+1) from h3]
      rfl

open Finset in
/-- The momentum equations of all reaches added up. -/
theorem momentum_sum (p : PrePars) (N : ℕ) (c : ℕ → ChanNode ℝ) (dx : ℕ → ℝ) (hdx : ∀ r < N - 1, 0 < dx r) (h V h' V' : ℕ → ℝ)
    (hres : ∀ r < N - 1, momR p (statOf p N c dx 0 (fun r => c2R p (statOf p N c dx 0 0) r (h r) (V r) (h (r+1)) (V (r+1)))) r
          (h' r) (V' r) (h' (r+1)) (V' (r+1)) = 0) :
    channelMomentum N dx (fun k => h' k * (c k).B) V' - channelMomentum N dx (fun k => h k * (c k).B) V =
      p.dt * (p.Theta * (p.Beta * (h' 0 * (c 0).B) * (V' 0 * |V' 0|) - p.Beta * (h' (N-1) * (c (N-1)).B) * (V' (N-1) * |V' (N-1)|)
          + surfaceForce p.g N (fun k => h' k * (c k).B) (fun k => (c k).z + h' k)
          - bedDrag p.g p.n N dx (fun k => h' k * (c k).B) h' V')
        + (1 - p.Theta) * (p.Beta * (h 0 * (c 0).B) * (V 0 * |V 0|) - p.Beta * (h (N-1) * (c (N-1)).B) * (V (N-1) * |V (N-1)|)
          + surfaceForce p.g N (fun k => h k * (c k).B) (fun k => (c k).z + h k)
          - bedDrag p.g p.n N dx (fun k => h k * (c k).B) h V)) := by
  have tel : ∀ g : ℕ → ℝ, g 0 - g (N-1) = ∑ r ∈ range (N-1), (g r - g (r+1)) := fun g => (sum_range_sub' g (N-1)).symm
  have t1 := tel (fun k => p.Beta * (h' k * (c k).B) * (V' k * |V' k|))
  have t2 := tel (fun k => p.Beta * (h k * (c k).B) * (V k * |V k|))
  rw [t1, t2]
  unfold channelMomentum surfaceForce bedDrag
  simp only [← sum_add_distrib, ← sum_sub_distrib, mul_sum]
  apply sum_congr rfl
  intro r hr
  rw [mem_range] at hr
  have hd := (hdx r hr).ne'
  have e := hres r hr
  simp only [momR, c2R, statOf] at e
  have s1 : sfR p (h' r) (V' r) = manningSlope p.n (h' r) (V' r) := by unfold sfR manningSlope; ring
  have s2 : sfR p (h' (r+1)) (V' (r+1)) = manningSlope p.n (h' (r+1)) (V' (r+1)) := by unfold sfR manningSlope; ring
  have s3 : sfR p (h r) (V r) = manningSlope p.n (h r) (V r) := by unfold sfR manningSlope; ring
  have s4 : sfR p (h (r+1)) (V (r+1)) = manningSlope p.n (h (r+1)) (V (r+1)) := by unfold sfR manningSlope; ring
  rw [s1, s2, s3, s4] at e
  generalize manningSlope p.n (h' r) (V' r) = m1 at *
  generalize manningSlope p.n (h' (r+1)) (V' (r+1)) = m2 at *
  generalize manningSlope p.n (h r) (V r) = m3 at *
  generalize manningSlope p.n (h (r+1)) (V (r+1)) = m4 at *
  have k1 : dx r * (p.dt / dx r) = p.dt := by field_simp
  have k2 : dx r * (((c r).z - (c (r+1)).z) / dx r) = (c r).z - (c (r+1)).z := by field_simp
  have e2 : dx r / 2 * _ = dx r / 2 * 0 := congrArg (fun y => dx r / 2 * y) e
  generalize p.dt / dx r = D at *
  generalize ((c r).z - (c (r+1)).z) / dx r = S at *
  generalize |V' r| = a1 at *
  generalize |V' (r+1)| = a2 at *
  generalize |V r| = a3 at *
  generalize |V (r+1)| = a4 at *
  linear_combination e2 - (p.Beta * p.Theta * (V' (r+1) * a2 * (h' (r+1) * (c (r+1)).B) - V' r * a1 * (h' r * (c r).B))
      + p.Beta * (1 - p.Theta) * (V (r+1) * a4 * (h (r+1) * (c (r+1)).B) - V r * a3 * (h r * (c r).B))
      + p.g * p.Theta / 2 * (h' (r+1) * (c (r+1)).B + h' r * (c r).B) * (h' (r+1) - h' r)
      + p.g * (1 - p.Theta) / 2 * (h (r+1) * (c (r+1)).B + h r * (c r).B) * (h (r+1) - h r)) * k1
    + p.g * p.dt / 2 * (p.Theta * (h' (r+1) * (c (r+1)).B + h' r * (c r).B) + (1 - p.Theta) * (h (r+1) * (c (r+1)).B + h r * (c r).B)) * k2

/-- C183, what holds: for every channel, if water does not flow upstream through the first and the last section before or after the
timestep, vanishing momentum residuals (entries 2, 4, …) mean that the momentum of the water changes by the time-weighted sum of what
enters and leaves with the flow, the force of the surface slope and the drag of the bed.  Flow in between may go either way.
Missing: water that flows upstream through an end, as on a rising tide (`C183_refuted_flood`). -/
theorem C183_partial (p : PrePars) (N : ℕ) (hN : 2 ≤ N) (c : ℕ → ChanNode ℝ) (dx : ℕ → ℝ) (hdx : ∀ r < N - 1, 0 < dx r)
    (ns : List PreNode) (rs : List PreReach)
    (hini : preInit p ((List.range (N-1)).map (fun r => fin (dx r))) ((List.range N).map (fun k => finNode (c k))) = .ok (ns, rs))
    (h V h' V' : ℕ → ℝ) (hh : ∀ k < N, 0 < h k) (hh' : ∀ k < N, 0 < h' k)
    (hV0 : 0 ≤ V 0) (hVN : 0 ≤ V (N-1)) (hV0' : 0 ≤ V' 0) (hVN' : 0 ≤ V' (N-1)) (Closed : Bool) (Q sea seaOld : ℝ) (e : List (Fl ℝ))
    (he : preErr p Closed Q sea ((preReaches rs (atState p ns h V)).map (fun x =>
        (preC1 p (fin sea) (fin seaOld) x.1 x.2.1 x.2.2, preC2 p x.1 x.2.1 x.2.2))) rs (atState p ns h' V') = .ok e)
    (hres : ∀ r < N - 1, e[2 * r + 2]? = some (fin 0)) :
    let z := fun k => (c k).z
    let A := fun k => h k * (c k).B
    let A' := fun k => h' k * (c k).B
    channelMomentum N dx A' V' - channelMomentum N dx A V =
      p.dt * (p.Theta * momentumGain p.g p.n p.Beta N dx z A' h' V' + (1 - p.Theta) * momentumGain p.g p.n p.Beta N dx z A h V) := by
  intro z A A'
  obtain ⟨e', he', -, -, -, hr⟩ := real_residuals p N hN c dx hdx ns rs hini h V h' V' hh hh' Closed Q sea seaOld
  rw [he] at he'
  cases he'
  have key := momentum_sum p N c dx hdx h V h' V' (by
    intro r hrr
    have := (hr r hrr).2
    rw [hres r hrr] at this
    simp only [Option.some.injEq, Fl.fin.injEq] at this
    exact this.symm)
  unfold momentumGain momentumFlux
  rw [key, abs_of_nonneg hV0, abs_of_nonneg hVN, abs_of_nonneg hV0', abs_of_nonneg hVN']
  ring

/-- C183 as stated fails: sea water runs up a channel of 1 m² section with 0.5 m/s at the mouth and 1.5 m/s further up.  The residual of
the momentum equation vanishes although the momentum of the water fell by 2 where the flow adds 2 to it: the momentum that the water
brings along is counted with the wrong sign when it flows upstream (riv.py 179-180, 201-202 have V|V| instead of V²). -/
theorem C183_refuted_flood : ∃ (ns : List PreNode) (rs : List PreReach) (e : List (Fl ℝ)) (V' : ℕ → ℝ),
    preInit endPars ((List.range (2-1)).map (fun _ => fin 1)) ((List.range 2).map (fun k => finNode (plainChan k))) = .ok (ns, rs) ∧
    preErr endPars false 1 1 ((preReaches rs (atState endPars ns (fun _ => 1) (fun _ => 1))).map (fun x =>
        (preC1 endPars (fin 1) (fin 1) x.1 x.2.1 x.2.2, preC2 endPars x.1 x.2.1 x.2.2))) rs (atState endPars ns (fun _ => 1) V') = .ok e ∧
    (∀ r < 2 - 1, e[2 * r + 2]? = some (fin 0)) ∧ V' 1 = -(1/2) ∧ endPars.Theta = 1 ∧ endPars.dt = 1 ∧
    channelMomentum 2 (fun _ => 1) (fun k => 1 * (plainChan k).B) V' - channelMomentum 2 (fun _ => 1) (fun k => 1 * (plainChan k).B) (fun _ => 1) = -2 ∧
    momentumGain endPars.g endPars.n endPars.Beta 2 (fun _ => 1) (fun k => (plainChan k).z) (fun k => 1 * (plainChan k).B) (fun _ => 1) V' = 2 := by
  have hini := preInit_of endPars 2 le_rfl plainChan (fun _ => 1) (by intros; norm_num) 0 0
  obtain ⟨e, he, -, -, -, hr⟩ := real_residuals endPars 2 le_rfl plainChan (fun _ => 1) (by intros; norm_num) _ _ hini
    (fun _ => 1) (fun _ => 1) (fun _ => 1) (fun k => if k = 0 then -(3/2) else -(1/2)) (by intros; norm_num) (by intros; norm_num) false 1 1 1
  refine ⟨_, _, e, _, hini, he, ?_, by norm_num, rfl, rfl, ?_, ?_⟩
  · intro r hrr
    have hr0 : r = 0 := by omega
    subst hr0
    rw [(hr 0 (by norm_num)).2]
    have a1 : |(3/2 : ℝ)| = 3/2 := abs_of_pos (by norm_num)
    have a2 : |(1/2 : ℝ)| = 1/2 := abs_of_pos (by norm_num)
    simp only [momR, c2R, statOf, plainChan, endPars, sfR]
    norm_num [a1, a2]
  · simp [channelMomentum, plainChan]; norm_num
  · simp [momentumGain, momentumFlux, surfaceForce, bedDrag, manningSlope, plainChan, endPars]; norm_num

/-- The hypotheses of C183_partial are met by a flow that slows down towards the mouth. -/
example : ∃ (ns : List PreNode) (rs : List PreReach) (e : List (Fl ℝ)) (V' : ℕ → ℝ),
    preInit endPars ((List.range (2-1)).map (fun _ => fin 1)) ((List.range 2).map (fun k => finNode (plainChan k))) = .ok (ns, rs) ∧
    preErr endPars false 1 1 ((preReaches rs (atState endPars ns (fun _ => 1) (fun _ => 1))).map (fun x =>
        (preC1 endPars (fin 1) (fin 1) x.1 x.2.1 x.2.2, preC2 endPars x.1 x.2.1 x.2.2))) rs (atState endPars ns (fun _ => 1) V') = .ok e ∧
    (∀ r < 2 - 1, e[2 * r + 2]? = some (fin 0)) ∧ V' 0 = 0 ∧ V' 1 > 0 := by
  have hini := preInit_of endPars 2 le_rfl plainChan (fun _ => 1) (by intros; norm_num) 0 0
  obtain ⟨e, he, -, -, -, hr⟩ := real_residuals endPars 2 le_rfl plainChan (fun _ => 1) (by intros; norm_num) _ _ hini
    (fun _ => 1) (fun _ => 1) (fun _ => 1) (fun k => if k = 0 then 0 else (Real.sqrt 17 - 1)/4) (by intros; norm_num) (by intros; norm_num) false 1 1 1
  have hs : Real.sqrt 17 ^ 2 = 17 := Real.sq_sqrt (by norm_num)
  have hs1 : 1 < Real.sqrt 17 := by rw [Real.lt_sqrt] <;> norm_num
  refine ⟨_, _, e, _, hini, he, ?_, by norm_num, by simp only [if_neg (one_ne_zero : (1:ℕ) ≠ 0)]; linarith⟩
  intro r hrr
  have hr0 : r = 0 := by omega
  subst hr0
  rw [(hr 0 (by norm_num)).2]
  have a1 : |(Real.sqrt 17 - 1)/4| = (Real.sqrt 17 - 1)/4 := abs_of_pos (by linarith)
  simp only [momR, c2R, statOf, plainChan, endPars, sfR]
  norm_num [a1]
  nlinarith [hs]

/-! ### C184: still water -/

/-- C184: for every channel and lagoon, water that stands at the level of the sea everywhere satisfies all equations of a timestep
without inflow exactly, at an open outlet and at a closed one. -/
theorem C184_still (p : PrePars) (N : ℕ) (hN : 2 ≤ N) (c : ℕ → ChanNode ℝ) (dx : ℕ → ℝ) (hdx : ∀ r < N - 1, 0 < dx r)
    (ns : List PreNode) (rs : List PreReach)
    (hini : preInit p ((List.range (N-1)).map (fun r => fin (dx r))) ((List.range N).map (fun k => finNode (c k))) = .ok (ns, rs))
    (sea : ℝ) (hsub : ∀ k < N, (c k).z < sea) (Closed : Bool) :
    let still := atState p ns (fun k => sea - (c k).z) (fun _ => 0)
    preErr p Closed 0 sea ((preReaches rs still).map (fun x =>
        (preC1 p (fin sea) (fin sea) x.1 x.2.1 x.2.2, preC2 p x.1 x.2.1 x.2.2))) rs still = .ok (List.replicate (2 * N) (fin 0)) := by
  intro still
  have hpos : ∀ k < N, 0 < sea - (c k).z := fun k hk => by linarith [hsub k hk]
  obtain ⟨e, he, hl, h0, hN1, hr⟩ := real_residuals p N hN c dx hdx ns rs hini (fun k => sea - (c k).z) (fun _ => 0) (fun k => sea - (c k).z)
    (fun _ => 0) hpos hpos Closed 0 sea sea
  rw [he]
  congr 1
  apply List.ext_getElem?
  intro i
  by_cases hi : i < 2 * N
  · rw [List.getElem?_replicate_of_lt hi]
    by_cases i0 : i = 0
    · subst i0; rw [h0]; simp
    by_cases i1 : i = 2 * N - 1
    · subst i1; rw [hN1]; simp
    obtain ⟨hc, hm⟩ := hr ((i-1)/2) (by omega)
    have hd := (hdx ((i-1)/2) (by omega)).ne'
    by_cases h2 : i % 2 = 1
    · rw [show i = 2 * ((i-1)/2) + 1 by omega, hc]
      simp only [contR, c1R, statOf]
      congr 2
      ring
    · rw [show i = 2 * ((i-1)/2) + 2 by omega, hm]
      simp only [momR, c2R, statOf, sfR]
      congr 2
      generalize (i-1)/2 = r at *
      have k : p.dt * (((c r).z - (c (r+1)).z) / dx r) = p.dt / dx r * ((c r).z - (c (r+1)).z) := by ring
      simp only [zero_mul, mul_zero, zero_div, sub_zero, add_zero, abs_zero]
      linear_combination (- p.g * ((sea - (c (r+1)).z) * (c (r+1)).B + (sea - (c r).z) * (c r).B)) * k
  · rw [List.getElem?_eq_none (by omega), List.getElem?_eq_none (by simp; omega)]

/-- C184, conversely: water that stands still before and after a timestep can satisfy the momentum equations only if its surface is level. -/
theorem C184_only_level (p : PrePars) (hg : p.g ≠ 0) (hdt : p.dt ≠ 0) (N : ℕ) (hN : 2 ≤ N) (c : ℕ → ChanNode ℝ) (hB : ∀ k < N, 0 < (c k).B)
    (dx : ℕ → ℝ) (hdx : ∀ r < N - 1, 0 < dx r) (ns : List PreNode) (rs : List PreReach)
    (hini : preInit p ((List.range (N-1)).map (fun r => fin (dx r))) ((List.range N).map (fun k => finNode (c k))) = .ok (ns, rs))
    (h : ℕ → ℝ) (hh : ∀ k < N, 0 < h k) (Closed : Bool) (Q sea seaOld : ℝ) (e : List (Fl ℝ))
    (he : preErr p Closed Q sea ((preReaches rs (atState p ns h (fun _ => 0))).map (fun x =>
        (preC1 p (fin sea) (fin seaOld) x.1 x.2.1 x.2.2, preC2 p x.1 x.2.1 x.2.2))) rs (atState p ns h (fun _ => 0)) = .ok e)
    (hres : ∀ r < N - 1, e[2 * r + 2]? = some (fin 0)) : ∀ k < N, (c k).z + h k = (c 0).z + h 0 := by
  obtain ⟨e', he', -, -, -, hr⟩ := real_residuals p N hN c dx hdx ns rs hini h (fun _ => 0) h (fun _ => 0) hh hh Closed Q sea seaOld
  rw [he] at he'
  cases he'
  intro k
  induction k with
  | zero => intro _; rfl
  | succ k ih =>
    intro hk
    rw [← ih (by omega)]
    have := (hr k (by omega)).2
    rw [hres k (by omega)] at this
    simp only [Option.some.injEq, Fl.fin.injEq] at this
    simp only [momR, c2R, statOf, sfR, zero_mul, mul_zero, zero_div, sub_zero, add_zero, abs_zero] at this
    have hd := hdx k (by omega)
    have hA : 0 < h (k+1) * (c (k+1)).B + h k * (c k).B :=
      add_pos (mul_pos (hh _ hk) (hB _ hk)) (mul_pos (hh _ (by omega)) (hB _ (by omega)))
    have e1 : p.g * p.dt / dx k * (h (k+1) * (c (k+1)).B + h k * (c k).B) * ((c (k+1)).z + h (k+1) - ((c k).z + h k)) = 0 := by
      have k2 : p.dt * (((c k).z - (c (k+1)).z) / dx k) = p.dt / dx k * ((c k).z - (c (k+1)).z) := by ring
      have k3 : p.g * p.dt / dx k = p.g * (p.dt / dx k) := by ring
      rw [k3]
      generalize p.dt / dx k = D at *
      linear_combination p.g * (h (k+1) * (c (k+1)).B + h k * (c k).B) * k2 - this
    have hne : p.g * p.dt / dx k * (h (k+1) * (c (k+1)).B + h k * (c k).B) ≠ 0 :=
      mul_ne_zero (div_ne_zero (mul_ne_zero hg hdt) hd.ne') hA.ne'
    rcases mul_eq_zero.mp e1 with h1 | h1
    · exact absurd h1 hne
    · linarith

/-- A lagoon with an uneven bed whose sections meet the hypotheses of C184: the water stands 1 to 3 m deep. -/
noncomputable def bowl : ℕ → ChanNode ℝ := fun k => { z := if k = 1 then -2 else 0, B := 5 + k, LagArea := 100 * k, LagLen := 20, h := 1, V := 0 }

example : ∃ (ns : List PreNode) (rs : List PreReach),
    preInit endPars ((List.range (3-1)).map (fun _ => fin 1)) ((List.range 3).map (fun k => finNode (bowl k))) = .ok (ns, rs) ∧
      (∀ k < 3, (bowl k).z < 1) ∧ (∀ k < 3, 0 < (bowl k).B) ∧ endPars.g ≠ 0 ∧ endPars.dt ≠ 0 :=
  ⟨_, _, preInit_of endPars 3 (by norm_num) bowl (fun _ => 1) (by intros; norm_num) 0 0,
    by intro k _; simp only [bowl]; split <;> norm_num, by intro k _; simp only [bowl]; positivity, by norm_num [endPars], by norm_num [endPars]⟩

end Verif.Props
