import Verif.Lemmas.PartsReal

set_option autoImplicit false
set_option linter.unusedSectionVars false

/-! # The linear solver is only asked about systems with two equations per section -/

namespace Verif.Model
open Verif Fl

/-- The same solver, refusing systems of any other size. -/
noncomputable def onlySize (n : ℕ) (solver : Solver) : Solver := fun band err => if err.length = n then solver band err else .raised .other

theorem preErr_length {p : PrePars} {Closed : Bool} {Q DsWl : ℝ} {C : List (Fl ℝ × Fl ℝ)} {rs : List PreReach} {ns : List PreNode} {e : List (Fl ℝ)}
    (h : preErr p Closed Q DsWl C rs ns = .ok e) : e.length = 2 * ns.length := by
  unfold preErr at h
  simp only [bind_ok, pure_ok] at h
  obtain ⟨_, _, _, _, rfl⟩ := h
  exact errAssemble_length _ _ _ _ _ _

theorem preNewton_onlySize (p : PrePars) (Closed : Bool) (solver : Solver) (Q DsWl : ℝ) (C : List (Fl ℝ × Fl ℝ)) (rs : List PreReach) (N fuel : ℕ)
    (s : PreState) (hs : s.nodes.length = N) :
    preNewton p Closed (onlySize (2 * N) solver) Q DsWl C rs fuel s = preNewton p Closed solver Q DsWl C rs fuel s := by
  induction fuel generalizing s with
  | zero => rfl
  | succ fuel ih =>
    unfold preNewton
    cases he : preErr p Closed Q DsWl C rs s.nodes with
    | error e => rfl
    | ok err =>
      have hl : err.length = 2 * N := by rw [← hs]; exact preErr_length he
      simp only [bind, Except.bind]
      cases hb : preBand p Closed rs s.nodes with
      | error e => rfl
      | ok band =>
        have e1 : onlySize (2 * N) solver band err = solver band err := by unfold onlySize; rw [if_pos hl]
        simp only [e1]
        have step : ∀ d : List (Fl ℝ), ∀ dh dV, gather d ((List.range s.nodes.length).map (fun i => 2 * i)) = .ok dh →
            gather d ((List.range s.nodes.length).map (fun i => 2 * i + 1)) = .ok dV →
            (List.zipWith (fun a (x : Fl ℝ × Fl ℝ) => preUpdate p a x.1 x.2) s.nodes (dh.zip dV)).length = N := by
          intro d dh dV g1 g2
          have l1 := gather_length g1
          have l2 := gather_length g2
          rw [List.length_map, List.length_range] at l1 l2
          simp [l1, l2, hs]
        cases solver band err with
        | raised e => rfl
        | ok d =>
          simp only
          cases g1 : gather d ((List.range s.nodes.length).map (fun i => 2 * i)) with
          | error e => rfl
          | ok dh =>
            simp only
            cases g2 : gather d ((List.range s.nodes.length).map (fun i => 2 * i + 1)) with
            | error e => rfl
            | ok dV =>
              simp only
              rw [ih _ (step d dh dV g1 g2)]
        | singular =>
          simp only
          cases s.Delta with
          | none => rfl
          | some d =>
            simp only
            cases g1 : gather d ((List.range s.nodes.length).map (fun i => 2 * i)) with
            | error e => rfl
            | ok dh =>
              simp only
              cases g2 : gather d ((List.range s.nodes.length).map (fun i => 2 * i + 1)) with
              | error e => rfl
              | ok dV =>
                simp only
                rw [ih _ (step d dh dV g1 g2)]

theorem preStep_onlySize (p : PrePars) (Closed : Bool) (solver : Solver) (dx : List (Fl ℝ)) (rs : List PreReach) (Ql Dl : ℝ) (N : ℕ)
    (sd : PreState × Fl ℝ) (b : ℝ × ℝ) (hs : sd.1.nodes.length = N) :
    preStep p Closed (onlySize (2 * N) solver) dx rs Ql Dl sd b = preStep p Closed solver dx rs Ql Dl sd b := by
  unfold preStep
  simp only [preNewton_onlySize p Closed solver _ _ _ rs N _ _ hs]

theorem fold_onlySize (p : PrePars) (Closed : Bool) (solver : Solver) (dx : List (Fl ℝ)) (rs : List PreReach) (Ql Dl : ℝ) (N : ℕ)
    (bdy : List (ℝ × ℝ)) (sd : PreState × Fl ℝ) (hs : StateLen N sd.1) :
    bdy.foldlM (preStep p Closed (onlySize (2 * N) solver) dx rs Ql Dl) sd = bdy.foldlM (preStep p Closed solver dx rs Ql Dl) sd := by
  induction bdy generalizing sd with
  | nil => rfl
  | cons b bdy ih =>
    rw [List.foldlM_cons, List.foldlM_cons, preStep_onlySize p Closed solver dx rs Ql Dl N sd b hs.1]
    cases h : preStep p Closed solver dx rs Ql Dl sd b with
    | error e => rfl
    | ok sd' => exact ih sd' (preStep_len hs h)

theorem preInit_len {p : PrePars} {dx : List (Fl ℝ)} {nodes : List (ChanNode (Fl ℝ))} {ns : List PreNode} {rs : List PreReach}
    (hdx : dx.length + 1 = nodes.length) (h : preInit p dx nodes = .ok (ns, rs)) : ns.length = nodes.length := by
  unfold preInit at h
  simp only [bind_ok, pure_ok] at h
  obtain ⟨d2, h3, h1⟩ := h
  have := preDx2_len h3
  cases h1
  simp [this, hdx]

/-- A call is the same with a solver that refuses systems of any other size than two equations per section. -/
theorem preissmann_onlySize (p : PrePars) (Closed : Bool) (solver : Solver) (dx : List (Fl ℝ)) (nodes : List (ChanNode (Fl ℝ))) (bdy : List (ℝ × ℝ))
    (hdx : dx.length + 1 = nodes.length) :
    solveFullPreissmann p Closed (onlySize (2 * nodes.length) solver) dx nodes bdy = solveFullPreissmann p Closed solver dx nodes bdy := by
  unfold solveFullPreissmann
  cases h : preInit p dx nodes with
  | error e => rfl
  | ok x =>
    obtain ⟨ns, rs⟩ := x
    have hn := preInit_len hdx h
    simp only [bind, Except.bind]
    cases pyGet ns (-1) with
    | error e => rfl
    | ok nN =>
      simp only
      rw [fold_onlySize p Closed solver dx rs _ _ nodes.length bdy _ ⟨hn, fun c hc => by cases hc⟩]

end Verif.Model
