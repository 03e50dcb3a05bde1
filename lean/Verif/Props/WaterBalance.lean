import Verif.Lemmas.WaterBalance

set_option autoImplicit false
set_option linter.unusedSectionVars false

/-! # C150: the unsteady solver keeps the water balance -/

namespace Verif.Props
open Verif Verif.Model Verif.Spec Fl Real

/-- The channel with sections `c` and reach lengths `dx`. -/
def basinOf (N : ℕ) (c : ℕ → ChanNode ℝ) (dx : ℕ → ℝ) : Basin :=
  { N := N, z := fun k => (c k).z, B := fun k => (c k).B, area := fun k => (c k).LagArea, len := fun k => (c k).LagLen, dx := dx }

/-- C150, one timestep: whatever the state, if the iteration converges, the water balance of the timestep holds at the state it stops at,
unless a depth or a velocity had to be reset to 0.0001.  The linear solver is any that answers right if it answers, and finds no matrix
singular in this timestep (LinAlgError, riv.py 267). -/
theorem C150_step (p : PrePars) (hMax : 0 < p.MaxIt) (N : ℕ) (hN : 2 ≤ N) (c : ℕ → ChanNode ℝ) (dx : ℕ → ℝ) (hdx : ∀ r < N - 1, 0 < dx r)
    (hB0 : 0 ≤ (c 0).B) (hBN : 0 ≤ (c (N-1)).B) (solver : Solver)
    (hexact : ∀ band err d, solver band err = .ok d → SolvesBand (2*N) band err d) (hsing : ∀ band err, solver band err ≠ .singular)
    (ns : List PreNode) (rs : List PreReach)
    (hini : preInit p ((List.range (N-1)).map (fun r => fin (dx r))) ((List.range N).map (fun k => finNode (c k))) = .ok (ns, rs))
    (Closed : Bool) (dxl : List (Fl ℝ)) (Ql Dl Q sea seaOld : ℝ) (s s' : PreState) (w : Fl ℝ) (h V : ℕ → ℝ) (hh : ∀ k < N, 0 < h k) (hV : ∀ k < N, V k ≠ 0)
    (hs : s.nodes = atState p ns h V) (hstep : preStep p Closed solver dxl rs Ql Dl (s, fin seaOld) (Q, sea) = .ok (s', w)) (hconv : s'.caller = none) :
    w = fin sea ∧ ∃ h' V' : ℕ → ℝ, s'.nodes = atState p ns h' V' ∧ (∀ k < N, 0 < h' k) ∧ (∀ k < N, V' k ≠ 0) ∧
      ((∀ k < N, h' k ≠ 0.0001 ∧ V' k ≠ 0.0001) → StepBalance (basinOf N c dx) p.dt p.Theta p.P p.Tol Closed Q sea seaOld h V h' V') := by
  set st0 := statOf p N c dx 0 0 with hst0
  set C1 : ℕ → ℝ := fun r => c1R p st0 sea seaOld r (h r) (V r) (h (r+1)) (V (r+1)) with hC1
  set C2 : ℕ → ℝ := fun r => c2R p st0 r (h r) (V r) (h (r+1)) (V (r+1)) with hC2
  rw [preInit_of p N hN c dx hdx C1 C2] at hini
  simp only [Except.ok.injEq, Prod.mk.injEq] at hini
  obtain ⟨rfl, rfl⟩ := hini
  set st := statOf p N c dx C1 C2 with hst
  rw [atState_of] at hs
  change s.nodes = nodesOf p st N (interleave h V) at hs
  have xe : ∀ k, interleave h V (2*k) = h k := interleave_h h V
  have xo : ∀ k, interleave h V (2*k+1) = V k := interleave_V h V
  have hC : (preReaches (reachesOf st N) (nodesOf p st N (interleave h V))).map (fun x =>
      (preC1 p (fin sea) (fin seaOld) x.1 x.2.1 x.2.2, preC2 p x.1 x.2.1 x.2.2)) = constsOf st N := by
    rw [preReaches_of, List.map_map]
    unfold constsOf
    apply List.map_congr_left
    intro r hr
    rw [List.mem_range] at hr
    have h2 : interleave h V (2*r+2) = h (r+1) := xe (r+1)
    have h3 : interleave h V (2*r+3) = V (r+1) := xo (r+1)
    simp only [Function.comp]
    rw [preC1_of, preC2_of p st _ r (by rw [xe]; exact hh r (by omega)) (by rw [h2]; exact hh _ (by omega)), xe, xo, h2, h3]
    rfl
  obtain ⟨s1, conv, hnew, hc⟩ := preStep_cases _ _ _ _ _ _ _ _ _ _ hstep
  simp only at hnew hc
  rw [hs, hC] at hnew
  rcases hc with ⟨rfl, he⟩ | ⟨_, _, _, _, he⟩
  swap
  · exfalso
    obtain ⟨rfl, _⟩ := Prod.mk.injEq .. ▸ he
    simp only at hconv
    split at hconv <;> cases hconv
  obtain ⟨rfl, rfl⟩ := Prod.mk.injEq .. ▸ he
  refine ⟨rfl, ?_⟩
  obtain ⟨x0, y, hlin, hnodes, htol⟩ := newton_last p st N hN Closed solver hexact hsing Q sea p.MaxIt hMax s s' true (interleave h V) hs
    (fun k hk => by rw [xe]; exact hh k hk) (fun k hk => by rw [xo]; exact hV k hk) hnew
  replace htol := htol rfl
  refine ⟨fun k => bump x0 y (2*k), fun k => bump x0 y (2*k+1), ?_, fun k _ => bump_pos x0 y k, fun k _ => bump_ne x0 y k, fun hclamp => ?_⟩
  · rw [atState_of, hnodes]
    unfold nodesOf
    apply List.map_congr_left
    intro k _
    have e1 : (if 2*k % 2 = 0 then bump x0 y (2*(2*k/2)) else bump x0 y (2*(2*k/2)+1)) = bump x0 y (2*k) := by
      rw [if_pos (by omega), show 2*k/2 = k by omega]
    have e2 : (if (2*k+1) % 2 = 0 then bump x0 y (2*((2*k+1)/2)) else bump x0 y (2*((2*k+1)/2)+1)) = bump x0 y (2*k+1) := by
      rw [if_neg (by omega), show (2*k+1)/2 = k by omega]
    simp only [nodeOf, e1, e2]
  -- nothing reset
  have bh : ∀ k < N, bump x0 y (2*k) = x0 (2*k) - y (2*k) := by
    intro k hk
    have : bump x0 y (2*k) ≠ 0.0001 := (hclamp k hk).1
    rw [bump_h] at this ⊢
    split at this
    · exact absurd rfl this
    · rw [if_neg (by assumption)]
  have bV : ∀ k < N, bump x0 y (2*k+1) = x0 (2*k+1) - y (2*k+1) := by
    intro k hk
    have : bump x0 y (2*k+1) ≠ 0.0001 := (hclamp k hk).2
    rw [bump_V] at this ⊢
    split at this
    · exact absurd rfl this
    · rw [if_neg (by assumption)]
  set q : ℕ → ℝ := fun k => (c k).B * y (2*k) * y (2*k+1) with hq
  have hbal := balance_left p N hN c dx hdx C2 sea seaOld h V (fun k => bump x0 y (2*k)) (fun k => bump x0 y (2*k+1)) q (by
    intro r hr
    have := cont_left p st N Closed Q sea x0 y r hr (hlin (2*r+1) (by omega))
    rw [bh r (by omega), bV r (by omega), bh (r+1) (by omega), bV (r+1) (by omega)]
    exact this)
  have hus := us_left p st N hN Closed Q sea x0 y (hlin 0 (by omega))
  obtain ⟨hcl, hop⟩ := ds_left p st N hN Closed Q sea x0 y (hlin (2*N-1) (by omega))
  have eN : 2 * (N - 1) = 2 * N - 2 := by omega
  have eN1 : 2 * (N - 1) + 1 = 2 * N - 1 := by omega
  have b0h := bh 0 (by omega)
  have b0V := bV 0 (by omega)
  have bNh := bh (N-1) (by omega)
  have bNV := bV (N-1) (by omega)
  simp only [mul_zero, zero_add] at b0h b0V
  have hin : bump x0 y (2*0+1) * (bump x0 y (2*0) * (c 0).B) = Q + q 0 := by
    simp only [mul_zero, zero_add, hq]
    rw [b0h, b0V]; exact hus
  have qb : ∀ k < N, 0 ≤ (c k).B → |q k| ≤ (c k).B * p.Tol ^ 2 := by
    intro k hk hB
    simp only [hq]
    rw [mul_assoc, abs_mul, abs_of_nonneg hB, abs_mul, pow_two]
    have a := htol (2*k) (by omega)
    have b := htol (2*k+1) (by omega)
    have a0 := abs_nonneg (y (2*k))
    exact mul_le_mul_of_nonneg_left (mul_le_mul a.le b.le (abs_nonneg _) (a0.trans a.le)) hB
  constructor
  · refine ⟨bump x0 y (2*(N-1)+1) * (bump x0 y (2*(N-1)) * (c (N-1)).B) - q (N-1), ?_, ?_, ?_⟩
    · show |_ - bump x0 y (2*(N-1)+1) * (bump x0 y (2*(N-1)) * (c (N-1)).B)| ≤ _
      rw [sub_sub_cancel_left, abs_neg]
      exact qb _ (by omega) hBN
    · intro hC
      have := hcl hC
      simp only [hq]
      rw [bNh, bNV, eN1, eN]
      linear_combination (c (N-1)).B * this
    · refine Eq.trans hbal ?_
      simp only [Basin.flow, Basin.seepage, basinOf]
      rw [hin]
      ring
  · show |bump x0 y (2*0+1) * (bump x0 y (2*0) * (c 0).B) - Q| ≤ _
    rw [hin, add_sub_cancel_left]
    exact qb 0 (by omega) hB0
  · intro hC
    show (c (N-1)).z + bump x0 y (2*(N-1)) = sea
    rw [bNh, eN]
    exact hop hC

/-- All timesteps of a call of the unsteady solver converge (no warning at riv.py 303). -/
def Converges (p : PrePars) (Closed : Bool) (solver : Solver) (dx : List (Fl ℝ)) (nodes : List (ChanNode (Fl ℝ))) (bdy : List (ℝ × ℝ)) : Prop :=
  ∃ ns rs nN s w, preInit p dx nodes = .ok (ns, rs) ∧ pyGet ns (-1) = .ok nN ∧
    bdy.foldlM (preStep p Closed solver dx rs (bdy.getLast?.getD (0, 0)).1 (bdy.getLast?.getD (0, 0)).2) (⟨ns, none, none⟩, nN.z + nN.h) = .ok (s, w) ∧
    s.caller = none

/-- The sea level at the start of timestep `k`: that of the timestep before, the water level at the last section before the first one. -/
def seaBefore (start : ℝ) (bdy : List (ℝ × ℝ)) (k : ℕ) : ℝ := if k = 0 then start else ((bdy[k-1]?).map (·.2)).getD 0

theorem fold_states {α β : Type} (f : β → α → Except PyErr β) (l : List α) (b r : β) (h : l.foldlM f b = .ok r) :
    ∃ S : ℕ → β, S 0 = b ∧ S l.length = r ∧ ∀ k a, l[k]? = some a → f (S k) a = .ok (S (k+1)) := by
  induction l generalizing b with
  | nil =>
    simp only [List.foldlM_nil, pure, Except.pure, Except.ok.injEq] at h
    exact ⟨fun _ => b, rfl, h, by simp⟩
  | cons a l ih =>
    rw [List.foldlM_cons] at h
    simp only [bind, Except.bind] at h
    split at h
    · cases h
    rename_i b' hb'
    obtain ⟨S, h0, h1, h2⟩ := ih b' h
    refine ⟨fun k => match k with | 0 => b | k + 1 => S k, rfl, h1, ?_⟩
    intro k a' hk
    cases k with
    | zero => simp only [List.getElem?_cons_zero, Option.some.injEq] at hk; subst hk; simp only; rw [h0]; exact hb'
    | succ k => exact h2 k a' (by simpa using hk)

/-- C150, whole calls: if all timesteps converge, there are depths and velocities for the ends of all timesteps, from those given to those returned, and
the water balance holds over every timestep at whose end no depth or velocity is 0.0001. -/
theorem C150_call (p : PrePars) (hMax : 0 < p.MaxIt) (N : ℕ) (hN : 2 ≤ N) (c : ℕ → ChanNode ℝ) (dx : ℕ → ℝ) (hdx : ∀ r < N - 1, 0 < dx r)
    (hB0 : 0 ≤ (c 0).B) (hBN : 0 ≤ (c (N-1)).B) (hh : ∀ k < N, 0 < (c k).h) (hV : ∀ k < N, (c k).V ≠ 0) (solver : Solver)
    (hexact : ∀ band err d, solver band err = .ok d → SolvesBand (2*N) band err d) (hsing : ∀ band err, solver band err ≠ .singular)
    (Closed : Bool) (bdy : List (ℝ × ℝ)) (out : List (Fl ℝ × Fl ℝ))
    (hcall : solveFullPreissmann p Closed solver ((List.range (N-1)).map (fun r => fin (dx r))) ((List.range N).map (fun k => finNode (c k))) bdy = .ok out)
    (hconv : Converges p Closed solver ((List.range (N-1)).map (fun r => fin (dx r))) ((List.range N).map (fun k => finNode (c k))) bdy) :
    ∃ h V : ℕ → ℕ → ℝ, h 0 = (fun k => (c k).h) ∧ V 0 = (fun k => (c k).V) ∧
      out = (List.range N).map (fun k => (fin (h bdy.length k), fin (V bdy.length k))) ∧
      ∀ i b, bdy[i]? = some b → (∀ k < N, h (i+1) k ≠ 0.0001 ∧ V (i+1) k ≠ 0.0001) →
        StepBalance (basinOf N c dx) p.dt p.Theta p.P p.Tol Closed b.1 b.2 (seaBefore ((c (N-1)).z + (c (N-1)).h) bdy i) (h i) (V i) (h (i+1)) (V (i+1)) := by
  obtain ⟨ns, rs, nN, s, w, hini, hlast, hfold, hnone⟩ := hconv
  unfold solveFullPreissmann at hcall
  simp only [hini, hlast, hfold, bind, Except.bind, pure, Except.pure, hnone, Except.ok.injEq] at hcall
  obtain ⟨S, hS0, hST, hS⟩ := fold_states _ _ _ _ hfold
  have hini' := hini
  rw [preInit_of p N hN c dx hdx 0 0] at hini'
  simp only [Except.ok.injEq, Prod.mk.injEq] at hini'
  have hns : ns = atState p ns (fun k => (c k).h) (fun k => (c k).V) := by
    rw [← hini'.1, atState_of]
    unfold nodesOf
    apply List.map_congr_left
    intro k hk
    rw [List.mem_range] at hk
    have e1 := initX_h (hh k hk)
    have e2 := initX_V (hV k hk)
    have e3 : (if 2*k % 2 = 0 then (c (2*k/2)).h else (c (2*k/2)).V) = (c k).h := by
      rw [if_pos (by omega), show 2*k/2 = k by omega]
    have e4 : (if (2*k+1) % 2 = 0 then (c ((2*k+1)/2)).h else (c ((2*k+1)/2)).V) = (c k).V := by
      rw [if_neg (by omega), show (2*k+1)/2 = k by omega]
    simp only [nodeOf, e1, e2, e3, e4]
  have hsea0 : nN.z + nN.h = fin ((c (N-1)).z + (c (N-1)).h) := by
    rw [← hini'.1, pyGet_nodes _ _ _ (by omega)] at hlast
    cases hlast
    simp only [nodeOf, initX_h (hh (N-1) (by omega)), add_fin, statOf]
  -- the caller's arrays are never left
  have hcaller : ∀ m ≤ bdy.length, (S (bdy.length - m)).1.caller = none := by
    intro m
    induction m with
    | zero => intro _; rw [Nat.sub_zero, hST]; exact hnone
    | succ m ih =>
      intro hm
      have h1 := ih (by omega)
      have hlt : bdy.length - (m+1) < bdy.length := by omega
      have hb := hS (bdy.length - (m+1)) _ (List.getElem?_eq_getElem hlt)
      rw [show bdy.length - (m+1) + 1 = bdy.length - m by omega] at hb
      cases hc : (S (bdy.length - (m+1))).1.caller with
      | none => rfl
      | some x =>
        have := preStep_frozen _ _ _ _ _ _ _ _ _ _ _ hc hb
        rw [h1] at this; cases this
  -- states, one after the other
  have key : ∀ i ≤ bdy.length, (S i).2 = fin (seaBefore ((c (N-1)).z + (c (N-1)).h) bdy i) ∧
      ∃ h V : ℕ → ℝ, (S i).1.nodes = atState p ns h V ∧ (∀ k < N, 0 < h k) ∧ (∀ k < N, V k ≠ 0) ∧ (i = 0 → h = (fun k => (c k).h) ∧ V = fun k => (c k).V) := by
    intro i
    induction i with
    | zero =>
      intro _
      rw [hS0]
      exact ⟨hsea0, _, _, hns, hh, hV, fun _ => ⟨rfl, rfl⟩⟩
    | succ i ih =>
      intro hi
      obtain ⟨e, h, V, hn, a, b, _⟩ := ih (by omega)
      have hb := hS i _ (List.getElem?_eq_getElem (show i < bdy.length by omega))
      have hcn := hcaller (bdy.length - (i+1)) (by omega)
      rw [show bdy.length - (bdy.length - (i+1)) = i+1 by omega] at hcn
      obtain ⟨e', h', V', hn', a', b', _⟩ := C150_step p hMax N hN c dx hdx hB0 hBN solver hexact hsing ns rs hini Closed _ _ _ (bdy[i]'(by omega)).1 (bdy[i]'(by omega)).2 _
        (S i).1 (S (i+1)).1 (S (i+1)).2 h V a b hn (by rw [← e]; exact hb) hcn
      refine ⟨?_, h', V', hn', a', b', fun h => by omega⟩
      rw [e']
      simp [seaBefore, List.getElem?_eq_getElem (show i < bdy.length by omega)]
  have hex : ∀ i, ∃ h V : ℕ → ℝ, i ≤ bdy.length → (S i).1.nodes = atState p ns h V ∧ (∀ k < N, 0 < h k) ∧ (∀ k < N, V k ≠ 0) ∧
      (i = 0 → h = (fun k => (c k).h) ∧ V = fun k => (c k).V) := by
    intro i
    by_cases hi : i ≤ bdy.length
    · obtain ⟨_, h, V, hk⟩ := key i hi
      exact ⟨h, V, fun _ => hk⟩
    · exact ⟨fun _ => 0, fun _ => 0, fun h => absurd h hi⟩
  choose h V hhV using hex
  have inj : ∀ (h1 V1 h2 V2 : ℕ → ℝ), atState p ns h1 V1 = atState p ns h2 V2 → ∀ k < N, h1 k = h2 k ∧ V1 k = V2 k := by
    intro h1 V1 h2 V2 he k hk
    have := congrArg (fun l => (l[k]?).map (fun a => (a.h, a.V))) he
    rw [← hini'.1] at this
    simp only [atState, nodesOf, List.getElem?_mapIdx, List.getElem?_map, List.getElem?_range hk, Option.map_some, Option.some.injEq, Prod.mk.injEq, Fl.fin.injEq] at this
    exact this
  refine ⟨h, V, ((hhV 0 (by omega)).2.2.2 rfl).1, ((hhV 0 (by omega)).2.2.2 rfl).2, ?_, ?_⟩
  · rw [← hcall]
    have := (hhV bdy.length le_rfl).1
    rw [hST] at this
    simp only at this
    rw [this, ← hini'.1]
    apply List.ext_getElem
    · simp [atState, nodesOf]
    · intro i h1 h2
      simp [atState]
  · intro i b hb hcl
    have hi : i < bdy.length := (List.getElem?_eq_some_iff.mp hb).1
    obtain ⟨hn, a1, a2, _⟩ := hhV i (by omega)
    obtain ⟨hn1, _, _, _⟩ := hhV (i+1) (by omega)
    have hcn := hcaller (bdy.length - (i+1)) (by omega)
    rw [show bdy.length - (bdy.length - (i+1)) = i+1 by omega] at hcn
    obtain ⟨_, h', V', hn', _, _, hbal⟩ := C150_step p hMax N hN c dx hdx hB0 hBN solver hexact hsing ns rs hini Closed _ _ _ b.1 b.2 _
        (S i).1 (S (i+1)).1 (S (i+1)).2 (h i) (V i) a1 a2 hn (by rw [← (key i (by omega)).1]; exact hS i b hb) hcn
    have hj := inj _ _ _ _ (hn'.symm.trans hn1)
    exact (hbal (fun k hk => by rw [(hj k hk).1, (hj k hk).2]; exact hcl k hk)).congr (by show 2 ≤ N; omega) (fun k hk => (hj k hk).1) (fun k hk => (hj k hk).2)

/-- The flow into the channel at the start of timestep `k`: the river flow given for the timestep before, inflow less outflow of the initial state before
the first one. -/
def inflowBefore (start : ℝ) (bdy : List (ℝ × ℝ)) (k : ℕ) : ℝ := if k = 0 then start else ((bdy[k-1]?).map (·.1)).getD 0

open Finset in
/-- C150, closed lagoons that do not leak: over a call all timesteps of which converge, without resets, the water stored grows by what the river
brings, up to `(1 - Theta) * dt * Tol ^ 2` times the widths of the first and the last section per timestep. -/
theorem C150_filling (p : PrePars) (hMax : 0 < p.MaxIt) (hP : p.P = 0) (hdt : 0 ≤ p.dt) (hth : p.Theta ≤ 1) (N : ℕ) (hN : 2 ≤ N) (c : ℕ → ChanNode ℝ) (dx : ℕ → ℝ)
    (hdx : ∀ r < N - 1, 0 < dx r) (hB0 : 0 ≤ (c 0).B) (hBN : 0 ≤ (c (N-1)).B) (hh : ∀ k < N, 0 < (c k).h) (hV : ∀ k < N, (c k).V ≠ 0) (solver : Solver)
    (hexact : ∀ band err d, solver band err = .ok d → SolvesBand (2*N) band err d) (hsing : ∀ band err, solver band err ≠ .singular)
    (bdy : List (ℝ × ℝ)) (out : List (Fl ℝ × Fl ℝ))
    (hcall : solveFullPreissmann p true solver ((List.range (N-1)).map (fun r => fin (dx r))) ((List.range N).map (fun k => finNode (c k))) bdy = .ok out)
    (hconv : Converges p true solver ((List.range (N-1)).map (fun r => fin (dx r))) ((List.range N).map (fun k => finNode (c k))) bdy) :
    let b := basinOf N c dx
    let h0 := fun k => (c k).h
    let V0 := fun k => (c k).V
    ∃ h V : ℕ → ℕ → ℝ, out = (List.range N).map (fun k => (fin (h bdy.length k), fin (V bdy.length k))) ∧
      ((∀ i < bdy.length, ∀ k < N, h (i+1) k ≠ 0.0001 ∧ V (i+1) k ≠ 0.0001) →
        |b.stored (h bdy.length) - b.stored h0 -
          p.dt * ∑ i ∈ range bdy.length, (p.Theta * ((bdy[i]?).map (·.1)).getD 0 + (1 - p.Theta) * inflowBefore (b.flow h0 V0 0 - b.flow h0 V0 (N-1)) bdy i)| ≤
        bdy.length * (p.dt * ((1 - p.Theta) * (((c 0).B + (c (N-1)).B) * p.Tol ^ 2)))) := by
  intro b h0 V0
  obtain ⟨h, V, e0, e1, hout, hbal⟩ := C150_call p hMax N hN c dx hdx hB0 hBN hh hV solver hexact hsing true bdy out hcall hconv
  refine ⟨h, V, hout, fun hcl => ?_⟩
  set E : ℝ := p.dt * ((1 - p.Theta) * (((c 0).B + (c (N-1)).B) * p.Tol ^ 2)) with hE
  have hE0 : 0 ≤ E := by
    have : 0 ≤ 1 - p.Theta := by linarith
    positivity
  have flows : ∀ i ≤ bdy.length, |(b.flow (h i) (V i) 0 - b.flow (h i) (V i) (N-1)) - inflowBefore (b.flow h0 V0 0 - b.flow h0 V0 (N-1)) bdy i| ≤
      ((c 0).B + (c (N-1)).B) * p.Tol ^ 2 := by
    intro i hi
    cases i with
    | zero =>
      rw [e0, e1]
      simp only [inflowBefore, if_true, h0, V0]
      rw [sub_self, abs_zero]
      positivity
    | succ i =>
      have hb := List.getElem?_eq_getElem (show i < bdy.length by omega)
      obtain ⟨⟨o, ho, hoc, _⟩, hin, _⟩ := hbal i _ hb (hcl i (by omega))
      rw [hoc rfl, zero_sub, abs_neg] at ho
      simp only [inflowBefore, Nat.add_one_ne_zero, if_false, Nat.add_sub_cancel, hb, Option.map_some, Option.getD_some]
      have hin' := abs_le.mp hin
      have ho' := abs_le.mp ho
      change _ ∧ b.flow (h (i+1)) (V (i+1)) (N-1) ≤ (c (N-1)).B * p.Tol ^ 2 at ho'
      change _ ∧ b.flow (h (i+1)) (V (i+1)) 0 - (bdy[i]'(by omega)).1 ≤ (c 0).B * p.Tol ^ 2 at hin'
      obtain ⟨a1, a2⟩ := hin'
      obtain ⟨a3, a4⟩ := ho'
      change -((c 0).B * p.Tol ^ 2) ≤ b.flow (h (i+1)) (V (i+1)) 0 - (bdy[i]'(by omega)).1 at a1
      change -((c (N-1)).B * p.Tol ^ 2) ≤ b.flow (h (i+1)) (V (i+1)) (N-1) at a3
      rw [abs_le]
      constructor <;> linarith
  have step : ∀ i < bdy.length, |b.stored (h (i+1)) - b.stored (h i) -
      p.dt * (p.Theta * ((bdy[i]?).map (·.1)).getD 0 + (1 - p.Theta) * inflowBefore (b.flow h0 V0 0 - b.flow h0 V0 (N-1)) bdy i)| ≤ E := by
    intro i hi
    have hb := List.getElem?_eq_getElem hi
    obtain ⟨⟨o, _, hoc, hst⟩, _, _⟩ := hbal i _ hb (hcl i hi)
    have hst' : b.stored (h (i+1)) - b.stored (h i) = p.dt * (p.Theta * (bdy[i].1 - o) + (1 - p.Theta) * (b.flow (h i) (V i) 0 - b.flow (h i) (V i) (N-1)))
        - p.dt * (p.Theta * b.seepage p.P (h (i+1)) bdy[i].2 + (1 - p.Theta) * b.seepage p.P (h i) (seaBefore ((c (N-1)).z + (c (N-1)).h) bdy i)) := hst
    rw [hst', hoc rfl]
    simp only [Basin.seepage, hP, hb, Option.map_some, Option.getD_some]
    have : p.dt * (p.Theta * (bdy[i].1 - 0) + (1 - p.Theta) * (b.flow (h i) (V i) 0 - b.flow (h i) (V i) (N-1))) - p.dt * (p.Theta * (0 * seepHead b.N b.len (fun k => b.z k + h (i+1) k) bdy[i].2) +
        (1 - p.Theta) * (0 * seepHead b.N b.len (fun k => b.z k + h i k) (seaBefore ((c (N-1)).z + (c (N-1)).h) bdy i))) -
        p.dt * (p.Theta * bdy[i].1 + (1 - p.Theta) * inflowBefore (b.flow h0 V0 0 - b.flow h0 V0 (N-1)) bdy i) =
        p.dt * ((1 - p.Theta) * ((b.flow (h i) (V i) 0 - b.flow (h i) (V i) (N-1)) - inflowBefore (b.flow h0 V0 0 - b.flow h0 V0 (N-1)) bdy i)) := by ring
    rw [this, abs_mul, abs_mul, abs_of_nonneg hdt, abs_of_nonneg (by linarith : 0 ≤ 1 - p.Theta), hE]
    exact mul_le_mul_of_nonneg_left (mul_le_mul_of_nonneg_left (flows i (by omega)) (by linarith)) hdt
  have total : ∀ T ≤ bdy.length, |b.stored (h T) - b.stored h0 -
      p.dt * ∑ i ∈ range T, (p.Theta * ((bdy[i]?).map (·.1)).getD 0 + (1 - p.Theta) * inflowBefore (b.flow h0 V0 0 - b.flow h0 V0 (N-1)) bdy i)| ≤ T * E := by
    intro T
    induction T with
    | zero => intro _; rw [e0]; simp [h0]
    | succ T ih =>
      intro hT
      have a := ih (by omega)
      have a' := step T (by omega)
      rw [sum_range_succ, mul_add]
      rw [abs_le] at a a' ⊢
      push_cast
      constructor <;> linarith [a.1, a.2, a'.1, a'.2]
  exact total _ le_rfl

/-! ### A concrete case -/

/-- A closed basin of two sections one metre apart, one metre wide and deep, in which the water moves at 1 m/s towards the closed end. -/
noncomputable def fillPars : PrePars := { g := 10, n := 0, P := 0, Theta := 1, Beta := 1, Tol := 3, MaxIt := 5, dt := 1 }

/-- Its first corrections. -/
noncomputable def fillDelta : List (Fl ℝ) := [fin (-31/36), fin (31/36), fin (-41/36), fin (77/36)]

open Classical in
/-- A solver that knows the answer to this system and raises an exception for others. -/
noncomputable def fillSolver : Solver := fun band err => if SolvesBand 4 band err fillDelta then .ok fillDelta else .raised .other

theorem fill_call :
    solveFullPreissmann fillPars true fillSolver ((List.range (2-1)).map (fun _ => fin (1:ℝ))) ((List.range 2).map (fun k => finNode (plainChan k))) [(1, 0)] =
      .ok [(fin (67/36), fin (5/36)), (fin (77/36), fin (-41/36))] ∧
    Converges fillPars true fillSolver ((List.range (2-1)).map (fun _ => fin (1:ℝ))) ((List.range 2).map (fun k => finNode (plainChan k))) [(1, 0)] := by
  set st := statOf fillPars 2 plainChan (fun _ => 1) (fun _ => 2) (fun _ => 2) with hst
  have hini := preInit_of fillPars 2 le_rfl plainChan (fun _ => 1) (by intros; norm_num) (fun _ => 2) (fun _ => 2)
  rw [← hst] at hini
  set x := initX plainChan with hx
  have hx1 : ∀ i, x i = 1 := fun i => by simp [hx, initX, plainChan]; norm_num
  have hC : (preReaches (reachesOf st 2) (nodesOf fillPars st 2 x)).map (fun y =>
      (preC1 fillPars (fin 0) (fin (st.z 1) + fin (x 2)) y.1 y.2.1 y.2.2, preC2 fillPars y.1 y.2.1 y.2.2)) = constsOf st 2 := by
    rw [preReaches_of, List.map_map]
    unfold constsOf
    apply List.map_congr_left
    intro r hr
    simp only [Function.comp]
    rw [add_fin, preC1_of, preC2_of _ st x r (by rw [hx1]; norm_num) (by rw [hx1]; norm_num)]
    simp only [hx1, c1R, c2R, hst, statOf, plainChan, fillPars, sfR, Prod.mk.injEq, Fl.fin.injEq]
    norm_num
  have hpos : ∀ k < 2, 0 < x (2*k) := by intro k _; rw [hx1]; norm_num
  obtain ⟨e, he, hel, hget⟩ := preErr_of fillPars st 2 le_rfl true 1 0 x hpos
  obtain ⟨band, hb, hband⟩ := preBand_of fillPars st 2 le_rfl true x hpos (by intro k _; rw [hx1]; norm_num)
  have hsol : SolvesBand 4 band e fillDelta := by
    refine ⟨rfl, ?_⟩
    intro i hi
    refine ⟨fun j => jacR fillPars st 2 true x (fun v => v) i j,
      fun j => if j = 0 then -31/36 else if j = 1 then 31/36 else if j = 2 then -41/36 else 77/36,
      resR fillPars st 2 true 1 0 x i, ?_, ?_, hget i hi, ?_⟩
    · intro j hj h1 h2
      exact hband i j hi hj h1 h2
    · intro j hj
      have : j = 0 ∨ j = 1 ∨ j = 2 ∨ j = 3 := by omega
      rcases this with rfl | rfl | rfl | rfl <;> rfl
    · have : i = 0 ∨ i = 1 ∨ i = 2 ∨ i = 3 := by omega
      rcases this with rfl | rfl | rfl | rfl <;>
        simp [List.range_succ, jacR, systemMatrix, place, resR, derivR, contR, momR, sfR, hst, statOf, plainChan, fillPars, hx1, dx2R] <;>
        norm_num
  have hsolver : fillSolver band e = .ok fillDelta := by unfold fillSolver; rw [if_pos hsol]
  have hl : (nodesOf fillPars st 2 x).length = 2 := by simp [nodesOf]
  have g1 : gather fillDelta ((List.range 2).map (fun i => 2 * i)) = .ok [fin (-31/36), fin (-41/36)] := rfl
  have g2 : gather fillDelta ((List.range 2).map (fun i => 2 * i + 1)) = .ok [fin (31/36), fin (77/36)] := rfl
  have hall : fillDelta.all (fun x => x.abs <? fin fillPars.Tol) = true := by
    simp [fillDelta, fillPars, abs_lt]; norm_num
  have hnew : preNewton fillPars true fillSolver 1 0 (constsOf st 2) (reachesOf st 2) fillPars.MaxIt ⟨nodesOf fillPars st 2 x, none, none⟩ =
      .ok (⟨List.zipWith (fun a (x : Fl ℝ × Fl ℝ) => preUpdate fillPars a x.1 x.2) (nodesOf fillPars st 2 x)
        ([fin (-31/36), fin (-41/36)].zip [fin (31/36), fin (77/36)]), some fillDelta, none⟩, true) := by
    rw [show fillPars.MaxIt = 4 + 1 from rfl, preNewton.eq_def]
    simp only [bind, Except.bind, he, hb, hsolver, hl, g1, g2, hall]
    rfl
  have hlast := pyGet_nodes fillPars st 2 (by omega) x
  have hz1 : (nodeOf fillPars st x (2-1)).z + (nodeOf fillPars st x (2-1)).h = fin (st.z 1) + fin (x 2) := rfl
  have hfold : ([(1, 0)] : List (ℝ × ℝ)).foldlM (preStep fillPars true fillSolver ((List.range (2-1)).map (fun _ => fin (1:ℝ))) (reachesOf st 2) 1 0)
      (⟨nodesOf fillPars st 2 x, none, none⟩, fin (st.z 1) + fin (x 2)) =
      .ok (⟨List.zipWith (fun a (x : Fl ℝ × Fl ℝ) => preUpdate fillPars a x.1 x.2) (nodesOf fillPars st 2 x)
        ([fin (-31/36), fin (-41/36)].zip [fin (31/36), fin (77/36)]), some fillDelta, none⟩, fin 0) := by
    simp only [List.foldlM_cons, List.foldlM_nil, bind, Except.bind, pure, Except.pure]
    unfold preStep
    simp only [bind, Except.bind, pure, Except.pure, hC, hnew, if_true]
  refine ⟨?_, ?_⟩
  · unfold solveFullPreissmann
    rw [hini]
    simp only [bind, Except.bind, pure, Except.pure]
    rw [hlast]
    simp only [List.getLast?_singleton, Option.getD_some, hz1, hfold]
    simp only [nodesOf, List.range_succ, List.range_zero, List.nil_append, List.cons_append, List.map_cons, List.map_nil, List.zip_cons_cons, List.zip_nil_right,
      List.zipWith_cons_cons, List.zipWith_nil_right, preUpdate, nodeOf, hx1, sub_fin, clampH_fin, clampV_fin]
    norm_num
  · exact ⟨_, _, _, _, _, hini, hlast, by rw [hz1]; exact hfold, rfl⟩

/-- The hypotheses of C150_filling are met by that basin: in one second the river, with a flow of 1 m³/s, adds one cubic metre to the one that was there. -/
example : (∀ band err d, fillSolver band err = .ok d → SolvesBand 4 band err d) ∧ (∀ band err, fillSolver band err ≠ .singular) ∧
    ∃ out, solveFullPreissmann fillPars true fillSolver ((List.range (2-1)).map (fun _ => fin (1:ℝ))) ((List.range 2).map (fun k => finNode (plainChan k))) [(1, 0)] = .ok out ∧
      ∃ h V : ℕ → ℕ → ℝ, out = (List.range 2).map (fun k => (fin (h 1 k), fin (V 1 k))) ∧ (∀ k < 2, h 1 k ≠ 0.0001 ∧ V 1 k ≠ 0.0001) ∧
        (basinOf 2 plainChan (fun _ => 1)).stored (h 1) = 2 ∧ (basinOf 2 plainChan (fun _ => 1)).stored (fun k => (plainChan k).h) = 1 := by
  have he : ∀ band err d, fillSolver band err = .ok d → SolvesBand 4 band err d := by
    intro band err d h
    unfold fillSolver at h
    split at h
    · rename_i hs; cases h; exact hs
    · cases h
  have hs : ∀ band err, fillSolver band err ≠ .singular := by
    intro band err h
    unfold fillSolver at h
    split at h <;> cases h
  refine ⟨he, hs, _, fill_call.1, ?_⟩
  obtain ⟨h, V, hout, hb⟩ := C150_filling fillPars (by norm_num [fillPars]) rfl (by norm_num [fillPars]) (by norm_num [fillPars]) 2 le_rfl plainChan (fun _ => 1)
    (by intros; norm_num) (by norm_num [plainChan]) (by norm_num [plainChan]) (by intros; norm_num [plainChan]) (by intros; norm_num [plainChan]) fillSolver he hs _ _ fill_call.1 fill_call.2
  have hv : h 1 0 = 67/36 ∧ V 1 0 = 5/36 ∧ h 1 1 = 77/36 ∧ V 1 1 = -41/36 := by
    simp only [List.range_succ, List.range_zero, List.nil_append, List.cons_append, List.map_cons, List.map_nil, List.cons.injEq, Prod.mk.injEq, Fl.fin.injEq, List.length_cons,
      List.length_nil, zero_add] at hout
    exact ⟨hout.1.1.symm, hout.1.2.symm, hout.2.1.1.symm, hout.2.1.2.symm⟩
  obtain ⟨v0, v1, v2, v3⟩ := hv
  refine ⟨h, V, hout, ?_, ?_, ?_⟩
  · intro k hk
    have : k = 0 ∨ k = 1 := by omega
    rcases this with rfl | rfl
    · rw [v0, v1]; norm_num
    · rw [v2, v3]; norm_num
  · simp [Basin.stored, basinOf, channelVolume, lagoonVolume, plainChan, v0, v2]; norm_num
  · simp [Basin.stored, basinOf, channelVolume, lagoonVolume, plainChan]

end Verif.Props
