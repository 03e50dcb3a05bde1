import Verif.Lemmas.Sizes
import Verif.Lemmas.PreissmannRun

set_option autoImplicit false
set_option linter.unusedSectionVars false

/-! # Sizes of what the solvers of riv.py and coast.py return -/

namespace Verif.Model
open Verif Verif.Spec Fl

theorem steadyStep_len {p : SteadyPars} {dx z B : List (Fl ℝ)} {s s' : SteadyArr} {i : ℕ} (h : steadyStep p dx z B s i = .ok s') :
    s'.dep.length = s.dep.length ∧ s'.vel.length = s.vel.length := by
  unfold steadyStep at h
  simp only [bind_ok, pure_ok] at h
  obtain ⟨_, _, _, _, _, _, _, _, _, _, _, _, _, _, _, _, rfl⟩ := h
  exact ⟨List.length_set, List.length_set⟩

theorem solveSteady_len {p : SteadyPars} {dx z B d v : List (Fl ℝ)} (h : solveSteady p dx z B = .ok (d, v)) :
    d.length = z.length ∧ v.length = z.length := by
  unfold solveSteady at h
  simp only [bind_ok, pure_ok] at h
  obtain ⟨_, _, _, _, s, hs, he⟩ := h
  cases he
  refine foldlM_inv (fun s : SteadyArr => s.dep.length = z.length ∧ s.vel.length = z.length) _ (fun b a r hb hr => ?_) _ _ _ ?_ hs
  · obtain ⟨h1, h2⟩ := steadyStep_len hr
    exact ⟨h1.trans hb.1, h2.trans hb.2⟩
  · simp

theorem preNewton_len {p : PrePars} {Closed : Bool} {solver : Solver} {Q DsWl : ℝ} {C : List (Fl ℝ × Fl ℝ)} {rs : List PreReach} {fuel : ℕ}
    {s : PreState} {r : PreState × Bool} (h : preNewton p Closed solver Q DsWl C rs fuel s = .ok r) :
    r.1.nodes.length = s.nodes.length ∧ r.1.caller = s.caller := by
  induction fuel generalizing s with
  | zero =>
    rw [preNewton_zero] at h
    cases h
    exact ⟨rfl, rfl⟩
  | succ fuel ih =>
    obtain ⟨err, band, d, dh, dV, -, -, -, g1, g2, hr⟩ := preNewton_succ p Closed solver Q DsWl C rs fuel s r h
    have l1 := gather_length g1
    have l2 := gather_length g2
    rw [List.length_map, List.length_range] at l1 l2
    split at hr
    · rw [hr]
      refine ⟨?_, rfl⟩
      simp [l1, l2]
    · obtain ⟨i1, i2⟩ := ih hr
      refine ⟨?_, i2⟩
      rw [i1]
      simp [l1, l2]

/-- Both the working arrays and the caller's have `N` entries. -/
def StateLen (N : ℕ) (s : PreState) : Prop := s.nodes.length = N ∧ ∀ c, s.caller = some c → c.length = N

theorem preStep_len {p : PrePars} {Closed : Bool} {solver : Solver} {dx : List (Fl ℝ)} {rs : List PreReach} {Qlast DsLast : ℝ}
    {sd r : PreState × Fl ℝ} {bdy : ℝ × ℝ} {N : ℕ} (hs : StateLen N sd.1) (h : preStep p Closed solver dx rs Qlast DsLast sd bdy = .ok r) :
    StateLen N r.1 := by
  unfold preStep at h
  simp only [bind_ok] at h
  obtain ⟨⟨s, conv⟩, hn, h⟩ := h
  obtain ⟨l1, l2⟩ := preNewton_len hn
  simp only at l1 l2 h
  split at h
  · rw [pure_ok] at h
    rw [← h]
    exact ⟨l1.trans hs.1, fun c hc => hs.2 c (by rw [← l2]; exact hc)⟩
  · simp only [bind_ok, pure_ok] at h
    obtain ⟨⟨hs', Vs⟩, h1, h⟩ := h
    obtain ⟨k1, k2⟩ := solveSteady_len h1
    rw [List.length_map] at k1 k2
    rw [← h]
    refine ⟨?_, ?_⟩
    · simp [k1, k2, l1, hs.1]
    · intro c hc
      simp only at hc
      cases hcl : s.caller with
      | some c' =>
        rw [hcl] at hc
        simp only [Option.some.injEq] at hc
        rw [← hc]
        exact hs.2 c' (by rw [← l2]; exact hcl)
      | none =>
        rw [hcl] at hc
        simp only [Option.some.injEq] at hc
        rw [← hc, List.length_map, l1, hs.1]

theorem preDx2_len {dx d : List (Fl ℝ)} (h : preDx2 dx = .ok d) : d.length = dx.length + 1 := by
  unfold preDx2 at h
  simp only [bind_ok, pure_ok, ixGet_ok] at h
  obtain ⟨d0, h0, dN, _, rfl⟩ := h
  have : 0 < dx.length := (List.getElem?_eq_some_iff.mp h0).1
  simp
  omega

theorem preissmann_len {p : PrePars} {Closed : Bool} {solver : Solver} {dx : List (Fl ℝ)} {nodes : List (ChanNode (Fl ℝ))} {bdy : List (ℝ × ℝ)}
    {hv : List (Fl ℝ × Fl ℝ)} (hdx : dx.length + 1 = nodes.length) (h : solveFullPreissmann p Closed solver dx nodes bdy = .ok hv) :
    hv.length = nodes.length := by
  unfold solveFullPreissmann at h
  simp only [bind_ok, pure_ok] at h
  obtain ⟨⟨ns, rs⟩, h1, nN, _, ⟨s, x⟩, h2, rfl⟩ := h
  unfold preInit at h1
  simp only [bind_ok, pure_ok] at h1
  obtain ⟨d2, h3, h1⟩ := h1
  have hns : ns.length = nodes.length := by
    have := preDx2_len h3
    cases h1
    simp [this, hdx]
  have key : StateLen nodes.length (s, x).1 :=
    foldlM_inv (fun sd : PreState × Fl ℝ => StateLen nodes.length sd.1) _ (fun b a r hb hr => preStep_len hb hr) _ _ _
      ⟨hns, fun c hc => by cases hc⟩ h2
  cases hc : s.caller with
  | some c => exact key.2 c hc
  | none => simp [key.1]

/-- The functions of riv.py and coast.py return arrays of the right sizes. -/
theorem realParts_len (pp : PhysPars ℝ) (np : NumPars) (Dx : ℝ) (HydDt : ℤ) (solver : Solver) :
    PartsLen (realParts pp np Dx HydDt solver) where
  unsteady := by
    intro c N bdy hv hc h
    simp only [realParts, bind_ok] at h
    obtain ⟨b, _, h⟩ := h
    obtain ⟨c1, c2, c3, c4, c5, c6, c7, c8⟩ := hc
    have hl := preissmann_len (by simp [c1, c2, c3, c4, c5, c6, c8]) h
    rw [hl]
    simp [c1, c2, c3, c4, c5, c6]
  steady := by
    intro c N q w d v hc h
    simp only [realParts, bind_ok] at h
    obtain ⟨_, _, _, _, h⟩ := h
    obtain ⟨h1, h2⟩ := solveSteady_len h
    exact ⟨h1.trans hc.elev, h2.trans hc.elev⟩
  lst := by
    intro y w
    simp [realParts, longShoreTransport]
  overtop := by
    intro r sl rows q f h
    simp only [realParts, overtopping, bind_ok, pure_ok] at h
    obtain ⟨_, _, h⟩ := h
    cases h
    simp

end Verif.Model
