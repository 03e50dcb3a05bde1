import Verif.Props.EndWidth

set_option autoImplicit false
set_option linter.unusedSectionVars false

/-! # C198: the bed of the outlet end stays below the beach top -/

namespace Verif.Props
open Verif Verif.Model Verif.Spec Fl

variable {K : Type} [Field K] [LinearOrder K] [IsStrictOrderedRing K] [FloorRing K]

/-- C198, the part that holds, for one pass: the bed of the outlet end does not rise while the outlet is closed, nor by more than MaxMorChange while it is open; after
a breach found while the outlet is closed it is at most MaxOutletElev.  So a bed that is more than MaxMorChange below the beach top stays below it.
Missing: a bed closer to the beach top, refuted below. -/
theorem C198_step_partial {e : Env K} {s s1 : CoreSt K} {p : PassOut K} (hp : pass e s = .ok (p, s1)) (hB : 0 ≤ e.MaxMorChange)
    (hreg : p.chan.closed = false → Regular e.pp (morIn e s p.chan p.dep p.hyd p.bed p.LST p.CST p.owp)) (z : K) (hz : s.EndElev = fin z) :
    ∃ z', s1.EndElev = fin z' ∧ z' ≤ z + (if p.chan.closed then 0 else e.MaxMorChange) ∧ (z' < z - e.MaxMorChange → p.mor.Breach = true ∧ z' = e.pp.MaxOutletElev) := by
  obtain ⟨⟨_, _, hc⟩, ha⟩ := pass_inv hp
  obtain ⟨X0, s0, g0, g⟩ := update_ends_any hc.mor
  obtain ⟨f1, f2⟩ := force_ends g0
  have hs0 : ∃ z0, s0.endZ = fin z0 ∧ z0 ≤ z + (if p.chan.closed then 0 else e.MaxMorChange) ∧ z - e.MaxMorChange ≤ z0 := by
    cases hcl : p.chan.closed with
    | true =>
      have k := f1 hcl
      unfold MorSt.ends at k
      rw [Prod.mk.injEq] at k
      exact ⟨z, k.2.trans hz, by simp, by linarith⟩
    | false =>
      obtain ⟨z0, k1, k2⟩ := (f2 hB (hreg hcl)).2 z hz
      have k6 : |z0 - z| ≤ e.MaxMorChange := k2
      have k7 := abs_le.mp k6
      exact ⟨z0, k1, by simp only [Bool.false_eq_true, if_false]; linarith [k7.2], by linarith [k7.1]⟩
  obtain ⟨z0, q1, q2, q3⟩ := hs0
  rw [ha.endElev]
  rcases g with ⟨_, g⟩ | ⟨gb, _, g⟩
  · exact ⟨z0, g.trans q1, q2, fun h => absurd q3 (not_le.mpr h)⟩
  · rw [q1] at g
    by_cases hh : e.pp.MaxOutletElev < z0
    · have hm : pymin (fin z0) (fin e.pp.MaxOutletElev) = fin e.pp.MaxOutletElev := by simp [pymin, hh]
      exact ⟨_, g.trans hm, hh.le.trans q2, fun _ => ⟨gb, rfl⟩⟩
    · have hm : pymin (fin z0) (fin e.pp.MaxOutletElev) = fin z0 := by simp [pymin, hh]
      exact ⟨_, g.trans hm, q2, fun h => absurd q3 (not_le.mpr h)⟩

/-- C198 for whole runs: the bed has risen by at most MaxMorChange for each pass with an open outlet, so it is below the beach top as long as these are few enough. -/
theorem C198_run_partial {e : Env K} {s0 s : CoreSt K} {tr : List (CoreSt K × PassOut K × CoreSt K)} (hrun : Run e s0 tr s) (hB : 0 ≤ e.MaxMorChange)
    (hreg : ∀ x ∈ tr, x.2.1.chan.closed = false → Regular e.pp (morIn e x.1 x.2.1.chan x.2.1.dep x.2.1.hyd x.2.1.bed x.2.1.LST x.2.1.CST x.2.1.owp))
    (z0 : K) (hz : s0.EndElev = fin z0) (hfew : z0 + ((tr.filter (fun x => !x.2.1.chan.closed)).length : K) * e.MaxMorChange < e.pp.BeachTopElev) :
    ∃ z, s.EndElev = fin z ∧ z < e.pp.BeachTopElev := by
  suffices ∃ z, s.EndElev = fin z ∧ z ≤ z0 + ((tr.filter (fun x => !x.2.1.chan.closed)).length : K) * e.MaxMorChange by
    obtain ⟨z, k1, k2⟩ := this
    exact ⟨z, k1, lt_of_le_of_lt k2 hfew⟩
  clear hfew
  induction hrun with
  | start => exact ⟨z0, hz, by simp⟩
  | @pass tr s s' p _ _ hp ih =>
    obtain ⟨z, k1, k2⟩ := ih (fun x hx => hreg x (by simp [hx]))
    obtain ⟨z', k3, k4, _⟩ := C198_step_partial hp hB (hreg (s, p, s') (by simp)) z k1
    refine ⟨z', k3, ?_⟩
    rw [List.filter_append, List.length_append]
    cases hcl : p.chan.closed with
    | true =>
      rw [hcl] at k4
      simp only [if_true, add_zero] at k4
      simpa [hcl] using k4.trans k2
    | false =>
      rw [hcl] at k4
      simp only [Bool.false_eq_true, if_false] at k4
      have : z' ≤ z0 + (((tr.filter (fun x => !x.2.1.chan.closed)).length : K) + 1) * e.MaxMorChange := by linarith
      simpa [hcl] using this

/-! ## Witnesses -/

/-- The sample run with all bedload dropped at the outlet end and longshore transport `l`. -/
def ebEnv (l : ℚ) : Env ℚ :=
  { coEnv with parts := { coParts with
      bedload := fun B _ _ => .ok ((B.tail.map (fun _ => fin (1/10))).dropLast ++ [fin 0]), lst := fun y0 _ => y0.tail.map (fun _ => fin l) } }

/-- The sample with the bed of the outlet end 0.1 m below the beach top of 3 m. -/
def ebLoad : LoadOut ℚ := { coLoad with EndElev := fin (29/10), EndWidth := fin 3 }

/-- C198 is false of the code, and matters: one regular step raises the bed of an open outlet end from 2.9 m to 3.1 m, above the beach top of 3 m.  The outlet
is still open in the next pass, in which longshore transport into the mouth then widens it, from 3 m to 3.25 m; without this transport it stays 3 m wide. -/
theorem C198_refuted : ∃ s0 s1 p s2 p2 s3 p3, initial (ebEnv 0) ebLoad = .ok s0 ∧ pass (ebEnv 0) s0 = .ok (p, s1) ∧ p.chan.closed = false ∧
    Regular (ebEnv 0).pp (morIn (ebEnv 0) s0 p.chan p.dep p.hyd p.bed p.LST p.CST p.owp) ∧ s0.EndElev = fin (29/10) ∧ s1.EndElev = fin (31/10) ∧
    (ebEnv 0).pp.BeachTopElev = 3 ∧ s1.EndWidth = fin 3 ∧
    pass (ebEnv 10) s1 = .ok (p2, s2) ∧ p2.chan.closed = false ∧ p2.mor.Breach = false ∧ s2.EndWidth = fin (13/4) ∧
    pass (ebEnv 0) s1 = .ok (p3, s3) ∧ p3.chan.closed = false ∧ p3.mor.Breach = false ∧ s3.EndWidth = fin 3 := by
  have h : okAnd (initial (ebEnv 0) ebLoad) (fun s0 => okAnd (pass (ebEnv 0) s0) (fun x => okAnd (pass (ebEnv 10) x.2) (fun y => okAnd (pass (ebEnv 0) x.2) (fun u =>
      decide (x.1.chan.closed = false ∧ Regular (ebEnv 0).pp (morIn (ebEnv 0) s0 x.1.chan x.1.dep x.1.hyd x.1.bed x.1.LST x.1.CST x.1.owp) ∧
        s0.EndElev = fin (29/10) ∧ x.2.EndElev = fin (31/10) ∧ x.2.EndWidth = fin 3 ∧ y.1.chan.closed = false ∧ y.1.mor.Breach = false ∧ y.2.EndWidth = fin (13/4) ∧
        u.1.chan.closed = false ∧ u.1.mor.Breach = false ∧ u.2.EndWidth = fin 3))))) = true := by decide +kernel
  obtain ⟨s0, h0, h⟩ := okAnd_iff.mp h
  obtain ⟨⟨p, s1⟩, h1, h⟩ := okAnd_iff.mp h
  obtain ⟨⟨p2, s2⟩, h2, h⟩ := okAnd_iff.mp h
  obtain ⟨⟨p3, s3⟩, h3, h⟩ := okAnd_iff.mp h
  obtain ⟨k1, k2, k3, k4, k5, k6, k7, k8, k9, k10, k11⟩ := of_decide_eq_true h
  exact ⟨s0, s1, p, s2, p2, s3, p3, h0, h1, k1, k2, k3, k4, by decide +kernel, k5, h2, k6, k7, k8, h3, k9, k10, k11⟩

/-- Concrete case for `C198_step_partial` and `C198_run_partial`: two passes with an open outlet whose bed rises from 2 m. -/
example : ∃ s0 s tr z, initial (ebEnv 0) { ebLoad with EndElev := fin 2 } = .ok s0 ∧ Run (ebEnv 0) s0 tr s ∧ tr.length = 2 ∧
    (∀ x ∈ tr, x.2.1.chan.closed = false ∧ Regular (ebEnv 0).pp (morIn (ebEnv 0) x.1 x.2.1.chan x.2.1.dep x.2.1.hyd x.2.1.bed x.2.1.LST x.2.1.CST x.2.1.owp)) ∧
    s0.EndElev = fin 2 ∧ 0 ≤ (ebEnv 0).MaxMorChange ∧ 2 + 2 * (ebEnv 0).MaxMorChange < (ebEnv 0).pp.BeachTopElev ∧ s.EndElev = fin z ∧ 2 < z := by
  have h : okAnd (initial (ebEnv 0) { ebLoad with EndElev := fin 2 }) (fun s0 => okAnd (trace (ebEnv 0) s0 2) (fun x => decide (
      (∀ y ∈ x.1, y.2.1.chan.closed = false ∧ Regular (ebEnv 0).pp (morIn (ebEnv 0) y.1 y.2.1.chan y.2.1.dep y.2.1.hyd y.2.1.bed y.2.1.LST y.2.1.CST y.2.1.owp)) ∧
      s0.EndElev = fin 2 ∧ x.2.EndElev = fin (12/5)))) = true := by decide +kernel
  obtain ⟨s0, h0, h⟩ := okAnd_iff.mp h
  obtain ⟨⟨tr, s⟩, h1, h⟩ := okAnd_iff.mp h
  obtain ⟨k1, k2, k3⟩ := of_decide_eq_true h
  obtain ⟨r, l⟩ := trace_run h1
  exact ⟨s0, s, tr, 12/5, h0, r, l, k1, k2, by decide +kernel, by decide +kernel, k3, by norm_num⟩

end Verif.Props
