import Verif.Lemmas.EndStep
import Verif.Lemmas.Core
import Verif.Props.CoreSample

set_option autoImplicit false
set_option linter.unusedSectionVars false

/-! # C197: the outlet end always has a width -/

namespace Verif.Props
open Verif Verif.Model Verif.Spec Fl

variable {K : Type} [Field K] [LinearOrder K] [IsStrictOrderedRing K] [FloorRing K]

/-- C197, the part that holds, for one pass: if MaxMorChange is at most MinOutletWidth and, with an open outlet, the arguments of the step are regular, the
outlet end still has a positive width after a pass that began with one.  If the outlet was open it is wider than MinOutletWidth less MaxMorChange.
Missing: MaxMorChange greater than MinOutletWidth, which a configuration may state, refuted below. -/
theorem C197_step_partial {e : Env K} {s s1 : CoreSt K} {p : PassOut K} (hp : pass e s = .ok (p, s1)) (hB : 0 ≤ e.MaxMorChange)
    (hM : e.MaxMorChange ≤ e.pp.MinOutletWidth)
    (hreg : p.chan.closed = false → Regular e.pp (morIn e s p.chan p.dep p.hyd p.bed p.LST p.CST p.owp)) (w : K) (hw : s.EndWidth = fin w) (h0 : 0 < w) :
    ∃ w', s1.EndWidth = fin w' ∧ 0 < w' ∧ (p.chan.closed = true → w ≤ w') ∧ (p.chan.closed = false → e.pp.MinOutletWidth - e.MaxMorChange < w') := by
  obtain ⟨⟨_, _, hc⟩, ha⟩ := pass_inv hp
  obtain ⟨X0, s0, g0, g⟩ := update_ends_any hc.mor
  obtain ⟨f1, f2⟩ := force_ends g0
  have hs0 : ∃ w0, s0.endW = fin w0 ∧ 0 < w0 ∧ (p.chan.closed = true → w ≤ w0) ∧ (p.chan.closed = false → e.pp.MinOutletWidth - e.MaxMorChange < w0) := by
    cases hcl : p.chan.closed with
    | true =>
      have k := f1 hcl
      unfold MorSt.ends at k
      rw [Prod.mk.injEq] at k
      exact ⟨w, k.1.trans hw, h0, fun _ => le_refl _, by simp⟩
    | false =>
      obtain ⟨w0, k1, k2⟩ := (f2 hB (hreg hcl)).1 w hw
      have k3 := (open_width hc.chan hcl).2
      have k4 : s.EndWidth = (chanIn e s).EndWidth := rfl
      rw [← k4, hw] at k3
      have k5 : e.pp.MinOutletWidth < w := by simpa using k3
      have k6 : |w0 - w| ≤ e.MaxMorChange := k2
      have k7 := (abs_le.mp k6).1
      refine ⟨w0, k1, by linarith, by simp, fun _ => by linarith⟩
  obtain ⟨w0, q1, q2, q3, q4⟩ := hs0
  rw [ha.endWidth]
  rcases g with ⟨g, _⟩ | ⟨_, g, _⟩
  · exact ⟨w0, g.trans q1, q2, q3, q4⟩
  · rw [q1] at g
    have hm : pymax (fin w0) (fin (2 * e.pp.MinOutletWidth)) = fin (max w0 (2 * e.pp.MinOutletWidth)) := by
      unfold pymax
      by_cases hh : w0 < 2 * e.pp.MinOutletWidth
      · simp [hh, max_eq_right hh.le]
      · simp [hh, max_eq_left (not_lt.mp hh)]
    refine ⟨_, g.trans hm, lt_of_lt_of_le q2 (le_max_left _ _), fun h => (q3 h).trans (le_max_left _ _), fun h => lt_of_lt_of_le (q4 h) (le_max_left _ _)⟩

/-- C197 for whole runs. -/
theorem C197_run_partial {e : Env K} {s0 s : CoreSt K} {tr : List (CoreSt K × PassOut K × CoreSt K)} (hrun : Run e s0 tr s) (hB : 0 ≤ e.MaxMorChange)
    (hM : e.MaxMorChange ≤ e.pp.MinOutletWidth)
    (hreg : ∀ x ∈ tr, x.2.1.chan.closed = false → Regular e.pp (morIn e x.1 x.2.1.chan x.2.1.dep x.2.1.hyd x.2.1.bed x.2.1.LST x.2.1.CST x.2.1.owp))
    (w0 : K) (hw : s0.EndWidth = fin w0) (h0 : 0 < w0) :
    ∃ w, s.EndWidth = fin w ∧ 0 < w := by
  induction hrun with
  | start => exact ⟨w0, hw, h0⟩
  | @pass tr s s' p _ _ hp ih =>
    obtain ⟨w, k1, k2⟩ := ih (fun x hx => hreg x (by simp [hx]))
    obtain ⟨w', k3, k4, _⟩ := C197_step_partial hp hB hM (hreg (s, p, s') (by simp)) w k1 k2
    exact ⟨w', k3, k4⟩

/-! ## Witnesses -/

/-- The sample run with longshore transport into the mouth and the given limit. -/
def ewEnv (m : ℚ) : Env ℚ := { coEnv with MaxMorChange := m, parts := { coParts with lst := fun y0 _ => y0.tail.map (fun _ => fin 10) } }

/-- The sample with an outlet end half a metre wider than the smallest width of 1 m. -/
def ewLoad : LoadOut ℚ := { coLoad with EndWidth := fin (3/2) }

/-- C197 is false of the code: where MaxMorChange (2 m) exceeds MinOutletWidth (1 m), one regular step narrows an open outlet from 1.5 m to
-0.5 m, and the outlet counts as open afterwards. -/
theorem C197_refuted : ∃ s0 s1 p, initial (ewEnv 2) ewLoad = .ok s0 ∧ pass (ewEnv 2) s0 = .ok (p, s1) ∧ p.chan.closed = false ∧ (ewEnv 2).pp.MinOutletWidth = 1 ∧
    Regular (ewEnv 2).pp (morIn (ewEnv 2) s0 p.chan p.dep p.hyd p.bed p.LST p.CST p.owp) ∧ s0.EndWidth = fin (3/2) ∧ s1.EndWidth = fin (-1/2) ∧ s1.Closed = false := by
  have h : okAnd (initial (ewEnv 2) ewLoad) (fun s0 => okAnd (pass (ewEnv 2) s0) (fun x => decide (x.1.chan.closed = false ∧
      Regular (ewEnv 2).pp (morIn (ewEnv 2) s0 x.1.chan x.1.dep x.1.hyd x.1.bed x.1.LST x.1.CST x.1.owp) ∧ s0.EndWidth = fin (3/2) ∧ x.2.EndWidth = fin (-1/2) ∧
      x.2.Closed = false))) = true := by decide +kernel
  obtain ⟨s0, h0, h⟩ := okAnd_iff.mp h
  obtain ⟨⟨p, s1⟩, h1, h⟩ := okAnd_iff.mp h
  obtain ⟨k1, k2, k3, k4, k5⟩ := of_decide_eq_true h
  exact ⟨s0, s1, p, h0, h1, k1, rfl, k2, k3, k4, k5⟩

/-- Concrete case for `C197_step_partial` and `C197_run_partial`: with a limit of 1 m the outlet is narrowed to half a metre in the first pass and closed in the
second. -/
example : ∃ s0 s tr, initial (ewEnv 1) ewLoad = .ok s0 ∧ Run (ewEnv 1) s0 tr s ∧ tr.length = 2 ∧ (ewEnv 1).MaxMorChange ≤ (ewEnv 1).pp.MinOutletWidth ∧
    (∀ x ∈ tr, x.2.1.chan.closed = false → Regular (ewEnv 1).pp (morIn (ewEnv 1) x.1 x.2.1.chan x.2.1.dep x.2.1.hyd x.2.1.bed x.2.1.LST x.2.1.CST x.2.1.owp)) ∧
    s0.EndWidth = fin (3/2) ∧ s.EndWidth = fin (1/2) ∧ tr.map (fun x => x.2.1.chan.closed) = [false, true] := by
  have h : okAnd (initial (ewEnv 1) ewLoad) (fun s0 => okAnd (trace (ewEnv 1) s0 2) (fun x => decide (
      (∀ y ∈ x.1, y.2.1.chan.closed = false → Regular (ewEnv 1).pp (morIn (ewEnv 1) y.1 y.2.1.chan y.2.1.dep y.2.1.hyd y.2.1.bed y.2.1.LST y.2.1.CST y.2.1.owp)) ∧
      s0.EndWidth = fin (3/2) ∧ x.2.EndWidth = fin (1/2) ∧ x.1.map (fun y => y.2.1.chan.closed) = [false, true]))) = true := by decide +kernel
  obtain ⟨s0, h0, h⟩ := okAnd_iff.mp h
  obtain ⟨⟨tr, s⟩, h1, h⟩ := okAnd_iff.mp h
  obtain ⟨k1, k2, k3, k4⟩ := of_decide_eq_true h
  obtain ⟨r, l⟩ := trace_run h1
  exact ⟨s0, s, tr, h0, r, l, le_refl _, k1, k2, k3, k4⟩

end Verif.Props
