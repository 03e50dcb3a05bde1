import Verif.Props.Solvable
import Verif.Lemmas.Py

set_option autoImplicit false
set_option linter.unusedSectionVars false

/-! # Property C167: a system that cannot be solved does not end the unsteady solver -/

namespace Verif.Props
open Verif Verif.Model Verif.Spec Fl Real

/-- A solver that works on `n` unknowns: it raises nothing but LinAlgError, and its answers are vectors of the right size. -/
structure Proper (n : ℕ) (solver : Solver) : Prop where
  quiet : ∀ band err e, solver band err ≠ .raised e
  size : ∀ band err d, solver band err = .ok d → d.length = n

/-- The first linear system of a call (riv.py 160-263), for the first inflow and sea level `b`. -/
def FirstSystem (p : PrePars) (Closed : Bool) (dx : List (Fl ℝ)) (nodes : List (ChanNode (Fl ℝ))) (b : ℝ × ℝ) (band : ℕ → ℕ → Fl ℝ) (err : List (Fl ℝ)) : Prop :=
  ∃ ns rs nN, preInit p dx nodes = .ok (ns, rs) ∧ pyGet ns (-1) = .ok nN ∧ preBand p Closed rs ns = .ok band ∧
    preErr p Closed b.1 b.2 ((preReaches rs ns).map (fun x => (preC1 p (fin b.2) (nN.z + nN.h) x.1 x.2.1 x.2.2, preC2 p x.1 x.2.1 x.2.2))) rs ns = .ok err

/-- A state in which corrections for `N` nodes are at hand. -/
structure Ready (N : ℕ) (s : PreState) : Prop where
  nodes : s.nodes.length = N
  delta : ∃ d, s.Delta = some d ∧ d.length = 2 * N

theorem gather_inRange {α : Type} (l : List α) (is : List ℕ) (h : ∀ i ∈ is, i < l.length) : ∃ r, gather l is = .ok r := by
  induction is with
  | nil => exact ⟨[], rfl⟩
  | cons i is ih =>
    obtain ⟨r, hr⟩ := ih (fun j hj => h j (List.mem_cons_of_mem _ hj))
    have hi := h i (by simp)
    exact ⟨l[i] :: r, gather_cons_ok.mpr ⟨l[i], r, by rw [List.getElem?_eq_getElem hi], hr, rfl⟩⟩

theorem newton_ready {p : PrePars} {Closed : Bool} {N : ℕ} (hN : 1 ≤ N) {solver : Solver} (hp : Proper (2 * N) solver) (Q DsWl : ℝ) (C : List (Fl ℝ × Fl ℝ)) (rs : List PreReach) :
    ∀ (fuel : ℕ) (s : PreState), s.nodes.length = N → ((∃ d, s.Delta = some d ∧ d.length = 2 * N) ∨ (fuel ≠ 0 ∧ ∃ band err d, preBand p Closed rs s.nodes = .ok band ∧ preErr p Closed Q DsWl C rs s.nodes = .ok err ∧ solver band err = .ok d)) →
      ∃ r, preNewton p Closed solver Q DsWl C rs fuel s = .ok r ∧ Ready N r.1
  | 0, s, hs, hd => by
    rcases hd with hd | hd
    · exact ⟨_, preNewton_zero .., hs, hd⟩
    · exact absurd rfl hd.1
  | fuel + 1, s, hs, hd => by
    have hne : s.nodes ≠ [] := by intro h; rw [h] at hs; simp at hs; omega
    obtain ⟨n0, hn0⟩ : ∃ n0, ixGet s.nodes 0 = .ok n0 := by
      cases hh : s.nodes with
      | nil => exact absurd hh hne
      | cons a t => exact ⟨a, rfl⟩
    obtain ⟨nN, hnN⟩ : ∃ nN, pyGet s.nodes (-1) = .ok nN := ⟨s.nodes.getLast hne, pyGet_last.mpr (List.getLast?_eq_some_getLast hne)⟩
    obtain ⟨err, he⟩ : ∃ err, preErr p Closed Q DsWl C rs s.nodes = .ok err := by
      unfold preErr
      rw [hn0, hnN]
      exact ⟨_, rfl⟩
    obtain ⟨band, hb⟩ : ∃ band, preBand p Closed rs s.nodes = .ok band := by
      unfold preBand
      rw [hn0, hnN]
      exact ⟨_, rfl⟩
    obtain ⟨d, hcase, hl⟩ : ∃ d, (solver band err = .ok d ∨ (solver band err = .singular ∧ s.Delta = some d)) ∧ d.length = 2 * N := by
      cases hsol : solver band err with
      | ok d => exact ⟨d, Or.inl rfl, hp.size _ _ _ hsol⟩
      | raised e => exact absurd hsol (hp.quiet _ _ _)
      | singular =>
        rcases hd with ⟨d, hd, hl⟩ | ⟨-, band', err', d, hb', he', hd⟩
        · exact ⟨d, Or.inr ⟨rfl, hd⟩, hl⟩
        · rw [hb] at hb'
          rw [he] at he'
          cases hb'
          cases he'
          rw [hsol] at hd
          cases hd
    obtain ⟨dh, hdh⟩ := gather_inRange d ((List.range s.nodes.length).map (fun i => 2 * i)) (by
      intro i hi
      rw [List.mem_map] at hi
      obtain ⟨k, hk, rfl⟩ := hi
      rw [List.mem_range] at hk
      omega)
    obtain ⟨dV, hdV⟩ := gather_inRange d ((List.range s.nodes.length).map (fun i => 2 * i + 1)) (by
      intro i hi
      rw [List.mem_map] at hi
      obtain ⟨k, hk, rfl⟩ := hi
      rw [List.mem_range] at hk
      omega)
    have hlen : (List.zipWith (fun a (x : Fl ℝ × Fl ℝ) => preUpdate p a x.1 x.2) s.nodes (dh.zip dV)).length = N := by
      rw [List.length_zipWith, List.length_zip, gather_length hdh, gather_length hdV]
      simp [hs]
    have hrec := newton_ready (p := p) (Closed := Closed) hN hp Q DsWl C rs fuel
      { s with nodes := List.zipWith (fun a (x : Fl ℝ × Fl ℝ) => preUpdate p a x.1 x.2) s.nodes (dh.zip dV), Delta := some d } hlen (Or.inl ⟨d, rfl, hl⟩)
    rw [preNewton.eq_def]
    rcases hcase with hsol | ⟨hsol, hD⟩
    · simp only [bind, Except.bind, he, hb, hsol, hdh, hdV]
      split
      · exact ⟨_, rfl, hlen, d, rfl, hl⟩
      · exact hrec
    · simp only [bind, Except.bind, he, hb, hsol, hD, hdh, hdV]
      split
      · exact ⟨_, rfl, hlen, d, rfl, hl⟩
      · exact hrec

theorem newton_err {A Bc C : Fl ℝ} {Tol : ℝ} : ∀ (fuel : ℕ) (dep err : Fl ℝ) (e : PyErr), steadyNewton A Bc C Tol fuel dep err = .error e → e = .assertion
  | 0, dep, err, e, h => by
    rw [steadyNewton_zero] at h
    split at h
    · cases h; rfl
    · cases h
  | fuel + 1, dep, err, e, h => by
    rw [steadyNewton_succ] at h
    split at h
    · exact newton_err fuel _ _ e h
    · cases h

theorem prof_err {p : SteadyPars} : ∀ (dx z B : List (Fl ℝ)) (e : PyErr), z ≠ [] → B.length = z.length → dx.length = z.length - 1 → steadyProf p dx z B = .error e → e = .assertion
  | _, [], _, _, h, _, _, _ => absurd rfl h
  | _, [z], [b], _, _, _, _, h => by simp [steadyProf] at h
  | x :: dx, z :: z1 :: zs, b :: B, e, _, hl, hd, h => by
    rw [steadyProf] at h
    cases hr : steadyProf p dx (z1 :: zs) B with
    | error e' =>
      rw [hr] at h
      cases h
      exact prof_err dx (z1 :: zs) B e (by simp) (by simpa using hl) (by simpa using hd) hr
    | ok rest =>
      rw [hr] at h
      cases rest with
      | nil => exact absurd rfl (steadyProf_ne_nil p _ _ _ _ hr)
      | cons d ds =>
        simp only [bind, Except.bind] at h
        cases hdp : steadyDepth p x z b z1 d.dep d.en d.sf with
        | ok dep => rw [hdp] at h; cases h
        | error e' =>
          rw [hdp] at h
          cases h
          unfold steadyDepth at hdp
          simp only [bind, Except.bind, pure, Except.pure] at hdp
          split at hdp
          · cases hdp
            rename_i hn
            exact newton_err _ _ _ _ hn
          · cases hdp
  | [], z :: z1 :: zs, _, _, _, _, hd, _ => by simp at hd
  | _, z :: zs, [], _, _, hl, _, _ => by simp at hl
  | _, [z], b :: b1 :: B, _, _, hl, _, _ => by simp at hl

/-- The steady solver raises nothing but the AssertionError for too many iterations. -/
theorem steady_err {p : SteadyPars} {dx z B : List (Fl ℝ)} {e : PyErr} (hz : z ≠ []) (hB : B.length = z.length) (hdx : dx.length = z.length - 1)
    (h : solveSteady p dx z B = .error e) : e = .assertion := by
  rw [solveSteady_eq p dx z B hz hB hdx] at h
  cases hp : steadyProf p dx z B with
  | error e' =>
    rw [hp] at h
    cases h
    exact prof_err dx z B e hz hB hdx hp
  | ok pts => rw [hp] at h; cases h

theorem steady_out {p : SteadyPars} {dx z B hs vs : List (Fl ℝ)} (hz : z ≠ []) (hB : B.length = z.length) (hdx : dx.length = z.length - 1)
    (h : solveSteady p dx z B = .ok (hs, vs)) : hs.length = z.length ∧ vs.length = z.length := by
  rw [solveSteady_eq p dx z B hz hB hdx] at h
  cases hp : steadyProf p dx z B with
  | error e' => rw [hp] at h; cases h
  | ok pts =>
    rw [hp] at h
    simp only [Except.map, Except.ok.injEq, Prod.mk.injEq] at h
    have : ∀ (dx z B : List (Fl ℝ)) (pts : List SteadyPt), steadyProf p dx z B = .ok pts → pts.length = z.length := by
      intro dx z B
      fun_induction steadyProf p dx z B with
      | case1 => intro pts h; cases h; rfl
      | case2 dx dxs z z1 zs B Bs ih =>
        intro pts h
        cases hr : steadyProf p dxs (z1 :: zs) Bs with
        | error e' => rw [hr] at h; cases h
        | ok rest =>
          rw [hr] at h
          cases rest with
          | nil => cases h
          | cons d ds =>
            simp only [bind, Except.bind] at h
            cases hdp : steadyDepth p dx z B z1 d.dep d.en d.sf with
            | error e' => rw [hdp] at h; cases h
            | ok dep =>
              rw [hdp] at h
              cases h
              have := ih _ hr
              simp only [List.length_cons] at this ⊢
              omega
      | case3 => intro pts h; cases h
    rw [← h.1, ← h.2, List.length_map, List.length_map]
    exact ⟨this _ _ _ _ hp, this _ _ _ _ hp⟩

theorem step_ready {p : PrePars} {Closed : Bool} {N : ℕ} (hN : 1 ≤ N) {solver : Solver} (hp : Proper (2 * N) solver) {dx : List (Fl ℝ)} (hdx : dx.length = N - 1) {rs : List PreReach}
    {Ql Dl : ℝ} {sd : PreState × Fl ℝ} {b : ℝ × ℝ} (hs : sd.1.nodes.length = N)
    (hd : (∃ d, sd.1.Delta = some d ∧ d.length = 2 * N) ∨ (p.MaxIt ≠ 0 ∧ ∃ band err d, preBand p Closed rs sd.1.nodes = .ok band ∧
      preErr p Closed b.1 b.2 ((preReaches rs sd.1.nodes).map (fun x => (preC1 p (fin b.2) sd.2 x.1 x.2.1 x.2.2, preC2 p x.1 x.2.1 x.2.2))) rs sd.1.nodes = .ok err ∧ solver band err = .ok d)) :
    (∃ r, preStep p Closed solver dx rs Ql Dl sd b = .ok r ∧ Ready N r.1) ∨ preStep p Closed solver dx rs Ql Dl sd b = .error .assertion := by
  have hn' := newton_ready (p := p) (Closed := Closed) hN hp b.1 b.2 ((preReaches rs sd.1.nodes).map (fun x =>
    (preC1 p (fin b.2) sd.2 x.1 x.2.1 x.2.2, preC2 p x.1 x.2.1 x.2.2))) rs p.MaxIt sd.1 hs
  specialize hn' hd
  obtain ⟨⟨s, conv⟩, hn, hr⟩ := hn'
  unfold preStep
  simp only [bind, Except.bind, pure, Except.pure, hn]
  cases conv with
  | true => exact Or.inl ⟨_, rfl, hr⟩
  | false =>
    simp only [Bool.false_eq_true, if_false]
    have hl := hr.nodes
    simp only at hl
    have hlz : (s.nodes.map (·.z)).length = N := by rw [List.length_map, hl]
    have hlB : (s.nodes.map (·.B)).length = (s.nodes.map (·.z)).length := by rw [List.length_map, List.length_map]
    have hld : dx.length = (s.nodes.map (·.z)).length - 1 := by rw [hlz, hdx]
    have hz : s.nodes.map (·.z) ≠ [] := by
      intro h
      rw [h] at hlz
      exact absurd hlz (by simp; exact Nat.ne_of_lt hN)
    cases hst : solveSteady { n := p.n, Q := Ql, DsWL := Dl, Beta := p.Beta, Tol := p.Tol, MaxIt := p.MaxIt } dx (s.nodes.map (·.z)) (s.nodes.map (·.B)) with
    | error e =>
      right
      rw [steady_err hz hlB hld hst]
    | ok w =>
      obtain ⟨hs', vs⟩ := w
      left
      obtain ⟨l1, l2⟩ := steady_out hz hlB hld hst
      refine ⟨_, rfl, ?_, hr.delta⟩
      simp only [List.length_zipWith, List.length_zip, l1, l2, List.length_map, hl, min_self]

theorem fold_ready {p : PrePars} {Closed : Bool} {N : ℕ} (hN : 1 ≤ N) {solver : Solver} (hp : Proper (2 * N) solver) {dx : List (Fl ℝ)} (hdx : dx.length = N - 1) {rs : List PreReach}
    {Ql Dl : ℝ} : ∀ (bdy : List (ℝ × ℝ)) (sd : PreState × Fl ℝ), Ready N sd.1 →
      (∃ r, bdy.foldlM (preStep p Closed solver dx rs Ql Dl) sd = .ok r) ∨ bdy.foldlM (preStep p Closed solver dx rs Ql Dl) sd = .error .assertion
  | [], sd, _ => Or.inl ⟨sd, rfl⟩
  | b :: bdy, sd, h => by
    rw [List.foldlM_cons]
    rcases step_ready (p := p) (Closed := Closed) (rs := rs) (Ql := Ql) (Dl := Dl) (b := b) hN hp hdx h.nodes (Or.inl h.delta) with ⟨r, hr, hr'⟩ | hr
    · rw [hr]
      exact fold_ready hN hp hdx bdy r hr'
    · rw [hr]
      exact Or.inr rfl

/-- C167, partial: if the first system of a call is solved, no later one that cannot be solved stops the solver: it returns, or the steady solver it falls back on needs too many iterations.
Missing: a first system that cannot be solved, for which it is false. -/
theorem C167_partial (p : PrePars) (Closed : Bool) (solver : Solver) (dx : List (Fl ℝ)) (nodes : List (ChanNode (Fl ℝ))) (bdy : List (ℝ × ℝ)) (hdx : dx ≠ [])
    (hl : nodes.length = dx.length + 1) (hp : Proper (2 * nodes.length) solver) (hM : p.MaxIt ≠ 0)
    (hfirst : ∀ b band err, bdy.head? = some b → FirstSystem p Closed dx nodes b band err → ∃ d, solver band err = .ok d) :
    (∃ out, solveFullPreissmann p Closed solver dx nodes bdy = .ok out) ∨ solveFullPreissmann p Closed solver dx nodes bdy = .error .assertion := by
  have hlen : 1 ≤ dx.length := List.length_pos_iff.mpr hdx
  obtain ⟨ns, rs, hini, hns⟩ : ∃ ns rs, preInit p dx nodes = .ok (ns, rs) ∧ ns.length = nodes.length := by
    unfold preInit preDx2
    obtain ⟨d0, h0⟩ : ∃ d0, ixGet dx 0 = .ok d0 := by
      cases dx with
      | nil => exact absurd rfl hdx
      | cons a t => exact ⟨a, rfl⟩
    rw [h0, pyGet_last.mpr (List.getLast?_eq_some_getLast hdx)]
    refine ⟨_, _, rfl, ?_⟩
    simp
    omega
  have hne : ns ≠ [] := by intro h; rw [h] at hns; simp at hns; omega
  obtain ⟨nN, hnN⟩ : ∃ nN, pyGet ns (-1) = .ok nN := ⟨ns.getLast hne, pyGet_last.mpr (List.getLast?_eq_some_getLast hne)⟩
  obtain ⟨n0, hn0⟩ : ∃ n0, ixGet ns 0 = .ok n0 := by
    cases hh : ns with
    | nil => exact absurd hh hne
    | cons a t => exact ⟨a, rfl⟩
  obtain ⟨band, hb⟩ : ∃ band, preBand p Closed rs ns = .ok band := by
    unfold preBand
    rw [hn0, hnN]
    exact ⟨_, rfl⟩
  unfold solveFullPreissmann
  simp only [bind, Except.bind, pure, Except.pure, hini, hnN]
  cases bdy with
  | nil => exact Or.inl ⟨_, rfl⟩
  | cons b bdy =>
    obtain ⟨err, he⟩ : ∃ err, preErr p Closed b.1 b.2 ((preReaches rs ns).map (fun x => (preC1 p (fin b.2) (nN.z + nN.h) x.1 x.2.1 x.2.2, preC2 p x.1 x.2.1 x.2.2))) rs ns = .ok err := by
      unfold preErr
      rw [hn0, hnN]
      exact ⟨_, rfl⟩
    obtain ⟨d, hd⟩ := hfirst b band err rfl ⟨ns, rs, nN, hini, hnN, hb, he⟩
    rw [List.foldlM_cons]
    rcases step_ready (dx := dx) (p := p) (Closed := Closed) (rs := rs) (Ql := ((b :: bdy).getLast?.getD (0, 0)).1) (Dl := ((b :: bdy).getLast?.getD (0, 0)).2) (b := b)
      (sd := ({ nodes := ns, Delta := none, caller := none }, nN.z + nN.h)) (by omega) hp (by omega) hns (Or.inr ⟨hM, band, err, d, hb, he, hd⟩) with ⟨r, hr, hr'⟩ | hr
    · rw [hr]
      rcases fold_ready (dx := dx) (p := p) (Closed := Closed) (rs := rs) (Ql := ((b :: bdy).getLast?.getD (0, 0)).1) (Dl := ((b :: bdy).getLast?.getD (0, 0)).2) (by omega) hp (by omega) bdy r hr' with ⟨w, hw⟩ | hw
      · simp only [bind, Except.bind, hw]
        exact Or.inl ⟨_, rfl⟩
      · simp only [bind, Except.bind, hw]
        simp
    · rw [hr]
      exact Or.inr rfl

/-- C167 for calm water: from a state that is calm in every reach, every solver that answers when there is exactly one solution gets the call to its end, whatever the inflows and sea levels
and whatever happens to later systems; or the steady solver it falls back on needs too many iterations. -/
theorem C167_partial_calm (p : PrePars) (hM : p.MaxIt ≠ 0) (hg : 0 ≤ p.g) (hth : 0 < p.Theta) (hdt : 0 < p.dt) (hP : 0 ≤ p.P) (N : ℕ) (hN : 2 ≤ N) (c : ℕ → ChanNode ℝ) (dx : ℕ → ℝ)
    (hdx : ∀ r < N - 1, 0 < dx r) (hB : ∀ k < N, 0 < (c k).B) (hA : ∀ k < N, 0 ≤ (c k).LagArea) (hL : ∀ k < N, 0 ≤ (c k).LagLen) (hh : ∀ k < N, 0 < (c k).h) (hV : ∀ k < N, (c k).V ≠ 0)
    (hcalm : ∀ r < N - 1, Calm p.g p.n p.Beta p.Theta p.dt (flowOf c dx) r) (Closed : Bool) (solver : Solver) (hp : Proper (2 * N) solver)
    (hanswers : ∀ band err, (∃! d, SolvesBand (2*N) band err d) → ∃ d, solver band err = .ok d) (bdy : List (ℝ × ℝ)) :
    (∃ out, solveFullPreissmann p Closed solver ((List.range (N-1)).map fun r => fin (dx r)) ((List.range N).map fun k => finNode (c k)) bdy = .ok out) ∨
      solveFullPreissmann p Closed solver ((List.range (N-1)).map fun r => fin (dx r)) ((List.range N).map fun k => finNode (c k)) bdy = .error .assertion := by
  refine C167_partial p Closed solver _ _ bdy (by intro h; simp at h; omega) (by simp; omega) (by simpa using hp) hM ?_
  intro b band err _ ⟨ns, rs, nN, hini, hnN, hb, he⟩
  have hx : ∀ k < N, 0 < initX c (2*k) := fun k hk => by rw [initX_h (hh k hk)]; exact hh k hk
  have hnodes : ∀ st : PreStat, atState p (nodesOf p st N (initX c)) (fun k => (c k).h) (fun k => (c k).V) = nodesOf p st N (initX c) := by
    intro st
    rw [atState_of]
    unfold nodesOf
    apply List.map_congr_left
    intro k hk
    rw [List.mem_range] at hk
    have e1 := initX_h (hh k hk)
    have e2 := initX_V (hV k hk)
    have e3 : (if 2*k % 2 = 0 then (c (2*k/2)).h else (c (2*k/2)).V) = (c k).h := by
      rw [if_pos (by omega), show 2*k/2 = k by omega]
    have e4 : (if (2*k+1) % 2 = 0 then (c ((2*k+1)/2)).h else (c ((2*k+1)/2)).V) = (c k).V := by
      rw [if_neg (by omega), show (2*k+1)/2 = k by omega]
    simp only [nodeOf, e1, e2, e3, e4]
  have hcopy := hini
  have hini' := preInit_of p N hN c dx hdx (stepStat p N c dx b.2 ((c (N-1)).z + (c (N-1)).h)).C1 (stepStat p N c dx b.2 ((c (N-1)).z + (c (N-1)).h)).C2
  rw [hini] at hini'
  simp only [Except.ok.injEq, Prod.mk.injEq] at hini'
  obtain ⟨band0, hb0, huniq⟩ := C143_partial p hg hth hdt hP N hN c dx hdx hB hA hL _ _ hcopy (fun k => (c k).h) (fun k => (c k).V) hh hV Closed hcalm
  have hst : statOf p N c dx (stepStat p N c dx b.2 ((c (N-1)).z + (c (N-1)).h)).C1 (stepStat p N c dx b.2 ((c (N-1)).z + (c (N-1)).h)).C2 =
    stepStat p N c dx b.2 ((c (N-1)).z + (c (N-1)).h) := rfl
  rw [hst] at hini'
  obtain ⟨rfl, rfl⟩ := hini'
  rw [hnodes, hb] at hb0
  cases hb0
  rw [pyGet_nodes p _ N (by omega)] at hnN
  cases hnN
  have e : (nodeOf p (stepStat p N c dx b.2 ((c (N-1)).z + (c (N-1)).h)) (initX c) (N-1)).z +
      (nodeOf p (stepStat p N c dx b.2 ((c (N-1)).z + (c (N-1)).h)) (initX c) (N-1)).h = fin ((c (N-1)).z + (c (N-1)).h) := by
    simp only [nodeOf, initX_h (hh (N-1) (by omega)), add_fin]
    rfl
  rw [e, consts_step p N c dx hh hV] at he
  obtain ⟨err', he', hel, hev⟩ := preErr_of p (stepStat p N c dx b.2 ((c (N-1)).z + (c (N-1)).h)) N hN Closed b.1 b.2 (initX c) hx
  rw [he] at he'
  cases he'
  refine hanswers band err (huniq err hel ?_)
  intro e' he'
  obtain ⟨i, hi, rfl⟩ := List.mem_iff_getElem.mp he'
  have := hev i (by omega)
  rw [List.getElem?_eq_getElem hi] at this
  exact ⟨_, Option.some.inj this⟩

theorem rightSolver_proper (n : ℕ) : Proper n (rightSolver n) := by
  refine ⟨?_, fun band err d h => (rightSolver_exact n band err d h).1⟩
  intro band err e h
  unfold rightSolver at h
  split at h <;> cases h

/-- The hypotheses are met by the calm river of C143, for all boundary conditions. -/
example (bdy : List (ℝ × ℝ)) :
    (∃ out, solveFullPreissmann calmPars false (rightSolver (2*3)) ((List.range (3-1)).map fun _ => fin (50:ℝ)) ((List.range 3).map fun k => finNode (calmChan k)) bdy = .ok out) ∨
      solveFullPreissmann calmPars false (rightSolver (2*3)) ((List.range (3-1)).map fun _ => fin (50:ℝ)) ((List.range 3).map fun k => finNode (calmChan k)) bdy = .error .assertion := by
  refine C167_partial_calm calmPars (by norm_num [calmPars]) (by norm_num [calmPars]) (by norm_num [calmPars]) (by norm_num [calmPars]) (by norm_num [calmPars]) 3 (by norm_num) calmChan (fun _ => 50)
    (by intros; norm_num) (by intro k _; norm_num [calmChan]) ?_ (by intro k _; norm_num [calmChan]) (by intro k _; norm_num [calmChan]) (by intro k _; norm_num [calmChan]) calm_calm false _
    (rightSolver_proper _) (rightSolver_answers _) bdy
  intro k _
  simp only [calmChan]
  split <;> norm_num

/-- C167 is false of the code whenever the first system of a call cannot be solved: noise is added to the matrix, but it is not solved again; the corrections that are then applied do not exist. -/
theorem C167_refuted_general (p : PrePars) (Closed : Bool) (solver : Solver) (dx : List (Fl ℝ)) (nodes : List (ChanNode (Fl ℝ))) (b : ℝ × ℝ) (bdy : List (ℝ × ℝ)) (hM : p.MaxIt ≠ 0)
    (band : ℕ → ℕ → Fl ℝ) (err : List (Fl ℝ)) (hf : FirstSystem p Closed dx nodes b band err) (hs : solver band err = .singular) :
    solveFullPreissmann p Closed solver dx nodes (b :: bdy) = .error .unbound := by
  obtain ⟨ns, rs, nN, hini, hnN, hb, he⟩ := hf
  obtain ⟨k, hk⟩ := Nat.exists_eq_succ_of_ne_zero hM
  unfold solveFullPreissmann
  simp only [bind, Except.bind, pure, Except.pure, hini, hnN]
  rw [List.foldlM_cons]
  unfold preStep
  simp only [bind, Except.bind, pure, Except.pure]
  rw [hk, preNewton.eq_def]
  simp only [bind, Except.bind, he, hb, hs]

/-- Witness for C167: in the channel of C143, with slow flow in one metre of water, every solver that reports a matrix with more than one solution as singular (as `linalg.solve_banded` does)
makes the call raise UnboundLocalError, whatever the boundary conditions. -/
theorem C167_refuted (solver : Solver)
    (hsol : ∀ band d d' err, SolvesBand 4 band [fin 0, fin 0, fin 0, fin 0] d → SolvesBand 4 band [fin 0, fin 0, fin 0, fin 0] d' → d ≠ d' → solver band err = .singular)
    (b : ℝ × ℝ) (bdy : List (ℝ × ℝ)) : solveFullPreissmann shPars true solver [fin 1] [finNode (shChan 0), finNode (shChan 1)] (b :: bdy) = .error .unbound := by
  obtain ⟨ns, rs, band, d, d', hini, hb, h1, h2, hne⟩ := C143_refuted
  have hb' := hb
  unfold preBand at hb'
  simp only [bind, Except.bind, pure, Except.pure] at hb'
  split at hb'
  · cases hb'
  rename_i n0 hn0
  split at hb'
  · cases hb'
  rename_i nN hnN
  obtain ⟨err, he⟩ : ∃ err, preErr shPars true b.1 b.2 ((preReaches rs ns).map (fun x => (preC1 shPars (fin b.2) (nN.z + nN.h) x.1 x.2.1 x.2.2, preC2 shPars x.1 x.2.1 x.2.2))) rs ns = .ok err := by
    unfold preErr
    rw [hn0, hnN]
    exact ⟨_, rfl⟩
  exact C167_refuted_general shPars true solver _ _ b bdy (by norm_num [shPars]) band err ⟨ns, rs, nN, hini, hnN, hb, he⟩ (hsol band d d' err h1 h2 hne)

open Classical in
/-- Such a solver exists, and it is a proper one. -/
noncomputable def fullSolver : Solver := fun band err =>
  if ∃ d d', SolvesBand 4 band [fin 0, fin 0, fin 0, fin 0] d ∧ SolvesBand 4 band [fin 0, fin 0, fin 0, fin 0] d' ∧ d ≠ d' then .singular else rightSolver 4 band err

example : Proper (2 * 2) fullSolver ∧ ∀ band d d' err, SolvesBand 4 band [fin 0, fin 0, fin 0, fin 0] d → SolvesBand 4 band [fin 0, fin 0, fin 0, fin 0] d' → d ≠ d' →
    fullSolver band err = .singular := by
  refine ⟨⟨?_, ?_⟩, ?_⟩
  · intro band err e h
    unfold fullSolver rightSolver at h
    split at h
    · cases h
    · split at h <;> cases h
  · intro band err d h
    unfold fullSolver at h
    split at h
    · cases h
    · exact (rightSolver_exact 4 band err d h).1
  · intro band d d' err h1 h2 h3
    unfold fullSolver
    rw [if_pos ⟨d, d', h1, h2, h3⟩]

end Verif.Props
