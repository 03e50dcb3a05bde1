import Verif.Lemmas.Solvable
import Verif.Props.Flow

set_option autoImplicit false
set_option linter.unusedSectionVars false

/-! # Property C143: the corrections of the unsteady solver exist and are unique -/

namespace Verif.Props
open Verif Verif.Model Verif.Spec Fl Real

/-- The flow along the channel `c` when the depths are `h` and the velocities `V`. -/
def flowAt (c : ℕ → ChanNode ℝ) (dx h V : ℕ → ℝ) : Flow :=
  ⟨fun k => (c k).z, fun k => (c k).B, fun k => (c k).LagLen, h, V, dx⟩

theorem list_sum_range (n : ℕ) (f : ℕ → ℝ) : ((List.range n).map f).sum = ∑ j ∈ Finset.range n, f j := by
  induction n with
  | zero => simp
  | succ n ih => rw [List.range_succ, List.map_append, List.sum_append, ih, Finset.sum_range_succ]; simp

theorem sum_band (n : ℕ) (J : ℕ → ℝ) (y : ℕ → ℝ) (i : ℕ) (hout : ∀ j < n, ¬ (i ≤ j + 2 ∧ j ≤ i + 2) → J j = 0) :
    ((List.range n).map (fun j => if i ≤ j + 2 ∧ j ≤ i + 2 then J j * y j else 0)).sum = ∑ j ∈ Finset.range n, J j * y j := by
  rw [list_sum_range]
  apply Finset.sum_congr rfl
  intro j hj
  rw [Finset.mem_range] at hj
  split
  · rfl
  · rename_i hn
    rw [hout j hj hn, zero_mul]

/-- The solutions in terms of real numbers. -/
theorem solves_iff (n : ℕ) (band : ℕ → ℕ → Fl ℝ) (J : ℕ → ℕ → ℝ) (b : ℕ → ℝ) (err d : List (Fl ℝ)) (he : ∀ i < n, err[i]? = some (fin (b i)))
    (hJ : ∀ i j, i < n → j < n → i ≤ j + 2 → j ≤ i + 2 → banded band i j = fin (J i j))
    (hout : ∀ i j, i < n → j < n → ¬ (i ≤ j + 2 ∧ j ≤ i + 2) → J i j = 0) (hn : 0 < n) :
    SolvesBand n band err d ↔ ∃ y : ℕ → ℝ, d = (List.range n).map (fun j => fin (y j)) ∧ ∀ i < n, ∑ j ∈ Finset.range n, J i j * y j = b i := by
  constructor
  · rintro ⟨hl, h⟩
    obtain ⟨-, y, -, -, hy, -, -⟩ := h 0 hn
    refine ⟨y, ?_, ?_⟩
    · apply List.ext_getElem?
      intro i
      by_cases hi : i < n
      · rw [hy i hi, List.getElem?_map, List.getElem?_range hi]; rfl
      · rw [List.getElem?_eq_none (by omega), List.getElem?_eq_none (by simp; omega)]
    · intro i hi
      obtain ⟨a, y', b', ha, hy', hb', hsum⟩ := h i hi
      have hb : b' = b i := by
        rw [he i hi] at hb'
        simpa using hb'.symm
      rw [← sum_band n (J i) y i (fun j hj => hout i j hi hj), ← hb, ← hsum]
      congr 1
      apply List.map_congr_left
      intro j hj
      rw [List.mem_range] at hj
      split
      · rename_i hij
        have e1 : a j = J i j := by
          have := ha j hj hij.1 hij.2
          rw [hJ i j hi hj hij.1 hij.2] at this
          simpa using this.symm
        have e2 : y' j = y j := by
          have := hy' j hj
          rw [hy j hj] at this
          simpa using this.symm
        rw [e1, e2]
      · rfl
  · rintro ⟨y, rfl, h⟩
    refine ⟨by simp, fun i hi => ⟨J i, y, b i, fun j hj h1 h2 => hJ i j hi hj h1 h2, fun j hj => ?_, he i hi, ?_⟩⟩
    · rw [List.getElem?_map, List.getElem?_range hj]; rfl
    · rw [sum_band n (J i) y i (fun j hj => hout i j hi hj)]
      exact h i hi

/-- C143, what holds: whatever the depths and velocities the iteration has reached, if the flow is calm in every reach
then the linear system of the iteration has exactly one solution, for every right-hand side; outlet open or closed,
any number of sections. Missing: states that are not calm (`C143_refuted`). -/
theorem C143_partial (p : PrePars) (hg : 0 ≤ p.g) (hth : 0 < p.Theta) (hdt : 0 < p.dt) (hP : 0 ≤ p.P) (N : ℕ) (hN : 2 ≤ N)
    (c : ℕ → ChanNode ℝ) (dx : ℕ → ℝ) (hdx : ∀ r < N - 1, 0 < dx r) (hB : ∀ k < N, 0 < (c k).B) (hA : ∀ k < N, 0 ≤ (c k).LagArea)
    (hL : ∀ k < N, 0 ≤ (c k).LagLen) (ns : List PreNode) (rs : List PreReach)
    (hini : preInit p ((List.range (N-1)).map (fun r => fin (dx r))) ((List.range N).map (fun k => finNode (c k))) = .ok (ns, rs))
    (h V : ℕ → ℝ) (hh : ∀ k < N, 0 < h k) (hV : ∀ k < N, V k ≠ 0) (Closed : Bool)
    (hcalm : ∀ r < N - 1, Calm p.g p.n p.Beta p.Theta p.dt (flowAt c dx h V) r) :
    ∃ band, preBand p Closed rs (atState p ns h V) = .ok band ∧
      ∀ err : List (Fl ℝ), err.length = 2 * N → (∀ e ∈ err, ∃ r : ℝ, e = fin r) → ∃! d, SolvesBand (2*N) band err d := by
  rw [preInit_of p N hN c dx hdx 0 0] at hini
  simp only [Except.ok.injEq, Prod.mk.injEq] at hini
  obtain ⟨rfl, rfl⟩ := hini
  rw [atState_of]
  have hx : ∀ k < N, 0 < interleave h V (2*k) := fun k hk => by rw [interleave_h]; exact hh k hk
  have hv : ∀ k < N, interleave h V (2*k+1) ≠ 0 := fun k hk => by rw [interleave_V]; exact hV k hk
  obtain ⟨band, hb, hband⟩ := preBand_of p (statOf p N c dx 0 0) N hN Closed (interleave h V) hx hv
  refine ⟨band, hb, fun err hl hr => ?_⟩
  obtain ⟨b, hbe⟩ : ∃ b : ℕ → ℝ, ∀ i < 2 * N, err[i]? = some (fin (b i)) := by
    have : ∀ i, ∃ b : ℝ, i < 2 * N → err[i]? = some (fin b) := by
      intro i
      by_cases hi : i < 2 * N
      · obtain ⟨r, hr⟩ := hr err[i] (List.getElem_mem (by omega))
        exact ⟨r, fun _ => by rw [List.getElem?_eq_getElem (by omega), hr]⟩
      · exact ⟨0, fun h => absurd h hi⟩
    choose b hb using this
    exact ⟨b, hb⟩
  have iff := fun d => solves_iff (2*N) band (jacR p (statOf p N c dx 0 0) N Closed (interleave h V) (fun v => v)) b err d hbe hband
    (fun i j hi hj h => jacR_out p _ N hN Closed _ _ i j hi hj h) (by omega)
  have kz := kernel_zero p (statOf p N c dx 0 0) N Closed (interleave h V) hN hx hB
    (fun r hr => coefs_good p N hN c dx hdx 0 0 hB hA hL hg hth hdt hP h V hh hV r hr (hcalm r hr))
  obtain ⟨y, hy⟩ := solvable (2*N) _ kz b
  refine ⟨(List.range (2*N)).map (fun j => fin (y j)), (iff _).mpr ⟨y, rfl, hy⟩, ?_⟩
  intro d hd
  obtain ⟨y', rfl, hy'⟩ := (iff d).mp hd
  have := kz (fun j => y' j - y j) (by
    intro i hi
    simp only [mul_sub, Finset.sum_sub_distrib]
    rw [hy i hi, hy' i hi, sub_self])
  apply List.map_congr_left
  intro j hj
  rw [List.mem_range] at hj
  have := this j hj
  rw [sub_eq_zero] at this
  rw [this]

/-- C119 strengthened by C143: a steady flow towards the sea that is calm is returned as it was given by every linear
solver whose answers solve the system; that the solver answers zero with zero need not be assumed. -/
theorem C143_partial_held (p : PrePars) (hTol : 0 < p.Tol) (hMax : 0 < p.MaxIt) (hg : 0 ≤ p.g) (hth : 0 < p.Theta) (hdt : 0 < p.dt)
    (hP : 0 ≤ p.P) (N : ℕ) (hN : 2 ≤ N) (c : ℕ → ChanNode ℝ) (dx : ℕ → ℝ) (hdx : ∀ r < N - 1, 0 < dx r)
    (hB : ∀ k < N, 0 < (c k).B) (hA : ∀ k < N, 0 ≤ (c k).LagArea) (hL : ∀ k < N, 0 ≤ (c k).LagLen)
    (hh : ∀ k < N, 0 < (c k).h) (hV : ∀ k < N, 0 < (c k).V) (Q sea : ℝ)
    (hs : SteadyFlow p.g p.n p.Beta p.P N (flowOf c dx) Q sea)
    (hcalm : ∀ r < N - 1, Calm p.g p.n p.Beta p.Theta p.dt (flowOf c dx) r) (solver : Solver)
    (hexact : ∀ band err d, solver band err = .ok d → SolvesBand (2*N) band err d)
    (hanswers : ∀ band err, (∃! d, SolvesBand (2*N) band err d) → ∃ d, solver band err = .ok d)
    (steps : ℕ) : hold p solver N c dx Q sea steps = .ok (held N c) := by
  have hV' : ∀ k < N, (c k).V ≠ 0 := fun k hk => (hV k hk).ne'
  have hx : ∀ k < N, 0 < initX c (2*k) := fun k hk => by rw [initX_h (hh k hk)]; exact hh k hk
  have hv : ∀ k < N, initX c (2*k+1) ≠ 0 := fun k hk => by rw [initX_V (hV' k hk)]; exact hV' k hk
  obtain ⟨band0, hb0, huniq⟩ := C143_partial p hg hth hdt hP N hN c dx hdx hB hA hL _ _ (preInit_of p N hN c dx hdx
    (stepStat p N c dx sea sea).C1 (stepStat p N c dx sea sea).C2)
    (fun k => (c k).h) (fun k => (c k).V) hh hV' false hcalm
  have hst : statOf p N c dx (stepStat p N c dx sea sea).C1 (stepStat p N c dx sea sea).C2 = stepStat p N c dx sea sea := rfl
  rw [hst] at hb0
  have hnodes : atState p (nodesOf p (stepStat p N c dx sea sea) N (initX c)) (fun k => (c k).h) (fun k => (c k).V) =
      nodesOf p (stepStat p N c dx sea sea) N (initX c) := by
    rw [atState_of]
    unfold nodesOf
    apply List.map_congr_left
    intro k hk
    rw [List.mem_range] at hk
    have e1 := initX_h (hh k hk)
    have e2 := initX_V (hV' k hk)
    have e3 : (if 2*k % 2 = 0 then (c (2*k/2)).h else (c (2*k/2)).V) = (c k).h := by
      rw [if_pos (by omega), show 2*k/2 = k by omega]
    have e4 : (if (2*k+1) % 2 = 0 then (c ((2*k+1)/2)).h else (c ((2*k+1)/2)).V) = (c k).V := by
      rw [if_neg (by omega), show (2*k+1)/2 = k by omega]
    simp only [nodeOf, e1, e2, e3, e4]
  rw [hnodes] at hb0
  have hz := huniq (List.replicate (2*N) (fin 0)) (by simp) (fun e he => ⟨0, List.eq_of_mem_replicate he⟩)
  have hzero : SolvesBand (2*N) band0 (List.replicate (2*N) (fin 0)) (List.replicate (2*N) (fin 0)) := by
    obtain ⟨band, hb, hband⟩ := preBand_of p (stepStat p N c dx sea sea) N hN false (initX c) hx hv
    rw [hb0] at hb
    cases hb
    refine ⟨by simp, fun i hi => ⟨_, fun _ => 0, 0, fun j hj h1 h2 => hband i j hi hj h1 h2, fun j hj => ?_, ?_, ?_⟩⟩
    · rw [List.getElem?_replicate, if_pos hj]
    · rw [List.getElem?_replicate, if_pos hi]
    · simp
  have hsol : ∀ band d, preBand p false (reachesOf (stepStat p N c dx sea sea) N) (nodesOf p (stepStat p N c dx sea sea) N (initX c)) = .ok band →
      solver band (List.replicate (2*N) (fin 0)) = .ok d → d = List.replicate (2*N) (fin 0) := by
    intro band d hb hd
    rw [hb0] at hb
    cases hb
    exact hz.unique (hexact _ _ _ hd) hzero
  rw [hold_unfold p solver N hN c dx hdx hh Q sea hs.outflow]
  rcases fold_still p N hN c dx hdx hh hV Q sea hs hTol hMax solver hsol _ _ _ steps none (by simp) with ⟨band, hb, -, hn⟩ | ⟨D', h'⟩
  · rw [hb0] at hb
    cases hb
    exact absurd (hanswers _ _ hz) hn
  · rw [h']
    simp only [bind, Except.bind, pure, Except.pure, Except.ok.injEq]
    exact nodes_held p _ N c hh hV'

/-- Parameters of the witness. -/
noncomputable def shPars : PrePars := { g := 10, n := 0, P := 0, Theta := 1, Beta := 1, Tol := 0.001, MaxIt := 5, dt := 1 }
/-- Two sections, one metre deep, with a lagoon at the first. -/
noncomputable def shChan : ℕ → ChanNode ℝ := fun k =>
  { z := if k = 0 then 4 else 0, B := 1, LagArea := if k = 0 then 18/11 else 0, LagLen := 0, h := 1, V := 1 }
/-- A correction that changes no equation. -/
noncomputable def shDir : ℕ → ℝ := fun j => if j = 0 then 11 else if j = 1 then -11 else if j = 2 then -29 else 29

/-- C143 as stated fails: in a channel that falls steeply over one short reach, with a closed outlet and slow flow (1 m/s
in one metre of water, well below the speed of waves), the linear system with zero right-hand side has two solutions. -/
theorem C143_refuted : ∃ (ns : List PreNode) (rs : List PreReach) (band : ℕ → ℕ → Fl ℝ) (d d' : List (Fl ℝ)),
    preInit shPars [fin 1] [finNode (shChan 0), finNode (shChan 1)] = .ok (ns, rs) ∧
    preBand shPars true rs ns = .ok band ∧
    SolvesBand 4 band [fin 0, fin 0, fin 0, fin 0] d ∧ SolvesBand 4 band [fin 0, fin 0, fin 0, fin 0] d' ∧ d ≠ d' := by
  have hini := preInit_of shPars 2 le_rfl shChan (fun _ => 1) (by intros; norm_num) 0 0
  have hx1 : ∀ i, initX shChan i = 1 := fun i => by simp [initX, shChan]
  obtain ⟨band, hb, hband⟩ := preBand_of shPars (statOf shPars 2 shChan (fun _ => 1) 0 0) 2 le_rfl true (initX shChan)
    (by intro k _; rw [hx1]; norm_num) (by intro k _; rw [hx1]; norm_num)
  have hz : ∀ i < 2 * 2, ([fin 0, fin 0, fin 0, fin 0] : List (Fl ℝ))[i]? = some (fin ((fun _ => 0 : ℕ → ℝ) i)) := by
    intro i hi
    have : i = 0 ∨ i = 1 ∨ i = 2 ∨ i = 3 := by omega
    rcases this with rfl | rfl | rfl | rfl <;> rfl
  have iff := fun d => solves_iff 4 band _ (fun _ => 0) [fin 0, fin 0, fin 0, fin 0] d hz hband
    (fun i j hi hj h => jacR_out shPars _ 2 le_rfl true _ _ i j hi hj h) (by omega)
  refine ⟨_, _, band, (List.range 4).map (fun j => fin (shDir j)), (List.range 4).map (fun _ => fin 0), hini, hb,
    (iff _).mpr ⟨shDir, rfl, ?_⟩, (iff _).mpr ⟨fun _ => 0, rfl, by simp⟩, ?_⟩
  · intro i hi
    have : i = 0 ∨ i = 1 ∨ i = 2 ∨ i = 3 := by omega
    rcases this with rfl | rfl | rfl | rfl <;>
      simp [Finset.sum_range_succ, jacR, systemMatrix, place, derivR, sfR, statOf, shChan, shPars, shDir, hx1, dx2R] <;>
      norm_num
  · intro e
    have := congrArg (fun l => l[0]?) e
    simp [shDir] at this

/-- The state of that witness has slow flow: the Froude number is below one. -/
example : ∀ k, (shChan k).V ^ 2 < shPars.g * (shChan k).h := by
  intro k; norm_num [shChan, shPars]

/-- A river of three sections with a gentle slope, friction, seepage and a lagoon, in which the water moves at 0.8 m/s, in
timesteps of ten seconds. -/
noncomputable def calmPars : PrePars := { g := 9.81, n := 0.03, P := 0.01, Theta := 0.7, Beta := 1.1, Tol := 0.001, MaxIt := 20, dt := 10 }
noncomputable def calmChan : ℕ → ChanNode ℝ := fun k =>
  { z := -(k : ℝ) / 10, B := 50, LagArea := if k = 1 then 2000 else 0, LagLen := 20, h := 2, V := 0.8 }

/-- That river is calm. -/
theorem calm_calm : ∀ r < 3 - 1, Calm calmPars.g calmPars.n calmPars.Beta calmPars.Theta calmPars.dt
    (flowAt calmChan (fun _ => 50) (fun k => (calmChan k).h) (fun k => (calmChan k).V)) r := by
  intro r hr
  have hv : |(0.8 : ℝ)| = 0.8 := abs_of_pos (by norm_num)
  have hp : (1:ℝ) ≤ 2 ^ (4/3 : ℝ) := Real.one_le_rpow (by norm_num) (by norm_num)
  have hf0 : 0 ≤ (0.03:ℝ) ^ 2 * (0.8 * 0.8) / 2 ^ (4/3 : ℝ) := by positivity
  have hf1 : (0.03:ℝ) ^ 2 * (0.8 * 0.8) / 2 ^ (4/3 : ℝ) ≤ 0.03 ^ 2 * (0.8 * 0.8) := div_le_self (by norm_num) hp
  constructor
  · norm_num [calmPars, flowAt, calmChan]
  · norm_num [calmPars, flowAt, calmChan]
  · simp only [calmPars, flowAt, calmChan, Flow.area, Flow.friction, hv]
    generalize (0.03:ℝ) ^ 2 * (0.8 * 0.8) / 2 ^ (4/3 : ℝ) = F at hf0 hf1 ⊢
    push_cast
    norm_num at hf1 ⊢
    linarith
  · simp only [calmPars, flowAt, calmChan, Flow.area, Flow.friction, hv]
    generalize (0.03:ℝ) ^ 2 * (0.8 * 0.8) / 2 ^ (4/3 : ℝ) = F at hf0 hf1 ⊢
    push_cast
    norm_num at hf1 ⊢
    linarith

/-- The hypotheses of C143_partial are met by that river. -/
example : 0 ≤ calmPars.g ∧ 0 < calmPars.Theta ∧ 0 < calmPars.dt ∧ 0 ≤ calmPars.P ∧ (∀ k < 3, 0 < (calmChan k).B) ∧
    (∀ k < 3, 0 ≤ (calmChan k).LagArea) ∧ (∀ k < 3, 0 ≤ (calmChan k).LagLen) ∧
    ∀ r < 3 - 1, Calm calmPars.g calmPars.n calmPars.Beta calmPars.Theta calmPars.dt
      (flowAt calmChan (fun _ => 50) (fun k => (calmChan k).h) (fun k => (calmChan k).V)) r := by
  refine ⟨by norm_num [calmPars], by norm_num [calmPars], by norm_num [calmPars], by norm_num [calmPars],
    by intro k _; norm_num [calmChan], ?_, by intro k _; norm_num [calmChan], calm_calm⟩
  intro k _
  simp only [calmChan]
  split <;> norm_num

open Classical in
/-- A solver that returns a solution whenever there is one. -/
noncomputable def rightSolver (n : ℕ) : Solver := fun band err => if h : ∃ d, SolvesBand n band err d then .ok h.choose else .singular

theorem rightSolver_exact (n : ℕ) (band : ℕ → ℕ → Fl ℝ) (err d : List (Fl ℝ)) (h : rightSolver n band err = .ok d) : SolvesBand n band err d := by
  unfold rightSolver at h
  split at h
  · rename_i hs
    cases h
    exact hs.choose_spec
  · cases h

theorem rightSolver_answers (n : ℕ) (band : ℕ → ℕ → Fl ℝ) (err : List (Fl ℝ)) (h : ∃! d, SolvesBand n band err d) :
    ∃ d, rightSolver n band err = .ok d := by
  unfold rightSolver
  rw [dif_pos h.exists]
  exact ⟨_, rfl⟩

/-- Parameters for the river of C120. -/
noncomputable def riverPars : PrePars := { g := 9.81, n := 0.03, P := 0, Theta := 0.6, Beta := 1.1, Tol := 0.0005, MaxIt := 10, dt := 1 }

/-- The hypotheses of C143_partial_held are met by a river of a hundred sections in uniform flow. -/
example (steps : ℕ) : hold riverPars (rightSolver 200) 100 river (fun _ => 10) (2 * (50 * 1)) ((river 99).z + 1) steps = .ok (held 100 river) := by
  refine C143_partial_held riverPars (by norm_num [riverPars]) (by norm_num [riverPars]) (by norm_num [riverPars]) (by norm_num [riverPars])
    (by norm_num [riverPars]) (by norm_num [riverPars]) 100 (by norm_num) river (fun _ => 10) (by intros; norm_num)
    (by intros; norm_num [river]) (by intros; norm_num [river]) (by intros; norm_num [river]) (by intros; norm_num [river])
    (by intros; norm_num [river]) _ _
    (uniform_steady riverPars.g riverPars.n riverPars.Beta riverPars.P 100 (by norm_num) (flowOf river (fun _ => 10)) 50 1 2
      (river_uniform 100) (by intros; norm_num [riverPars])) ?_ (rightSolver 200) (rightSolver_exact 200) (rightSolver_answers 200) steps
  intro r _
  have hv : |(2 : ℝ)| = 2 := abs_of_pos (by norm_num)
  constructor
  · norm_num [riverPars, flowOf, river]
  · norm_num [riverPars, flowOf, river]
  · simp only [riverPars, flowOf, river, Flow.area, Flow.friction, hv, Real.one_rpow]
    push_cast
    ring_nf
    norm_num
  · simp only [riverPars, flowOf, river, Flow.area, Flow.friction, hv, Real.one_rpow]
    push_cast
    ring_nf
    norm_num

end Verif.Props
