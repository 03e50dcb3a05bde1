import Verif.Spec.TwoFiles
import Verif.Props.Runs

set_option autoImplicit false
set_option linter.unusedSectionVars false

/-! # C187: the two output files agree -/

namespace Verif.Props
open Verif Verif.Model Verif.Spec Fl

variable {K : Type} [Field K] [LinearOrder K] [IsStrictOrderedRing K] [FloorRing K]

theorem nanmean_spec (l : List (Fl K)) : MeanOf l (nanmean l) := by
  intro xs h
  unfold nanmean
  simp only [h, List.length_map, Fl.sum_map_fin]
  constructor
  · rintro rfl
    show Fl.div _ _ = _
    simp [Fl.div, infOfSign]
  · intro hne
    have hl : (xs.length : K) ≠ 0 := by
      rw [Nat.cast_ne_zero]
      exact (List.length_pos_iff.mpr hne).ne'
    refine ⟨xs.sum / xs.length, ?_, div_mul_cancel₀ _ hl⟩
    show Fl.div _ _ = _
    simp [Fl.div, hl]

/-- The last entry selected, where the last flag is selected. -/
theorem maskSel_last {α : Type} (flag : List ℕ) (f : ℕ) (P : ℕ → Bool) (hP : P f = true) (l : List α) (x : α) (hl : l.length = flag.length + 1)
    (hx : l.getLast? = some x) : (maskSel (flag ++ [f]) P l).getLast? = some x := by
  obtain ⟨l', rfl⟩ : ∃ l', l = l' ++ [x] := by
    have hne : l ≠ [] := by rintro rfl; cases hx
    refine ⟨l.dropLast, ?_⟩
    rw [List.getLast?_eq_some_getLast hne] at hx
    cases hx
    exact (List.dropLast_append_getLast hne).symm
  have hl' : flag.length = l'.length := by simpa using hl.symm
  unfold maskSel
  rw [List.zip_append hl', List.filterMap_append]
  simp [hP]

/-- C187, what holds: whenever a step writes both a record and a line of the time series, the two agree in time, sea level, inflow, waves,
outlet ends and closure; the mean lagoon level is the mean of the recorded levels; the sediment inflow is the recorded bedload of the first
section; and with an open outlet the outflow is recorded depth times recorded velocity at the outlet end times the width that it had before
the step.  Missing: the width recorded is the one after the step (`C187_refuted`). -/
theorem C187_partial {e : Env K} (hP : PartsLen e.parts) {ld : LoadOut K} (hl : LoadSized ld) {s0 s s1 : CoreSt K} {p : PassOut K}
    {tr : List (CoreSt K × PassOut K × CoreSt K)} (h0 : initial e ld = .ok s0) (h : Run e s0 tr s) (hp : pass e s = .ok (p, s1))
    (r : Snapshot K) (t : TsRec K) (hr : s1.outs = s.outs ++ [r]) (ht : s1.ts = s.ts ++ [t]) :
    t.time = r.time ∧ t.SeaLevel = r.SeaLevel ∧ t.RivFlow = r.RivFlow ∧ t.Hs_offshore = r.Hs_offshore ∧ t.EDir_h = r.EDir_h ∧
    t.EndX0 = r.EndX0 ∧ t.EndX1 = r.EndX1 ∧ t.Closed = r.Closed ∧ MeanOf r.LagoonWL t.MeanLagoonWl ∧
    r.RiverBedload.head? = some t.SedInflow ∧
    (r.Closed = false → ∃ d v, r.EndDep.getLast? = some d ∧ r.EndVel.getLast? = some v ∧ t.LagOutflow = d * v * s.EndWidth) := by
  have hsz := (run_sized hP hl h0 h).1
  have hp' := hp
  unfold Verif.Model.pass at hp'
  simp only [bind_ok, pure_ok] at hp'
  obtain ⟨p1, hcomp, s2, _, he⟩ := hp'
  cases he
  have hk := compute_ok hP hsz hcomp
  obtain ⟨⟨fl, sl, hc⟩, ha⟩ := pass_inv hp
  rcases ha.outs with ⟨_, h2, _⟩ | ⟨_, _, bl, h2, hbl⟩
  · rw [h2] at hr
    have := congrArg List.length hr
    simp at this
  rcases ha.ts with ⟨_, h3, _⟩ | ⟨_, _, t', h3, hts⟩
  · rw [h3] at ht
    have := congrArg List.length ht
    simp at this
  rw [h2] at hr
  rw [h3] at ht
  have hr' : snapshot s p s1.time bl = r := by simpa using hr
  have ht' : t' = t := by simpa using ht
  subst hr' ht'
  unfold tsRecord at hts
  simp only [bind_ok, pure_ok, pyGet_last] at hts
  obtain ⟨d, hd, v, hv, w, hw, b, hb, rfl⟩ := hts
  refine ⟨rfl, rfl, rfl, rfl, rfl, rfl, rfl, rfl, nanmean_spec _, ?_, ?_⟩
  · show (maskSel p.chan.flag.dropLast (· == 0) p.bed).head? = some b
    obtain ⟨n, hn⟩ : ∃ n, ld.RiverElev.length = n + 1 := ⟨ld.RiverElev.length - 1, by have := hk.pos; omega⟩
    have hf := hk.chan.flag
    have hne := List.length_pos_iff.mpr hk.chan.ne
    obtain ⟨m, hm⟩ : ∃ m, p.chan.online.length = m + 1 := ⟨p.chan.online.length - 1, by omega⟩
    rw [hn, hm] at hf
    obtain ⟨tl, htl⟩ : ∃ tl, p.chan.flag.dropLast = 0 :: tl := by
      rw [hf]
      simp only [List.replicate_succ, List.cons_append, List.dropLast_cons_of_ne_nil (by simp : List.replicate n 0 ++ 1 :: List.replicate m 1 ++ _ ≠ _)]
      exact ⟨_, rfl⟩
    rw [htl]
    rw [ixGet_ok] at hb
    cases hbed : p.bed with
    | nil => rw [hbed] at hb; cases hb
    | cons y ys =>
      rw [hbed] at hb
      simp only [List.getElem?_cons_zero, Option.some.injEq] at hb
      simp [maskSel, hb]
  · intro hcl
    have hcl' : p.chan.closed = false := hcl
    have hf := hk.chan.flag
    rw [hcl'] at hf
    simp only [Bool.false_eq_true, if_false] at hf
    have hf' : p.chan.flag = (List.replicate ld.RiverElev.length 0 ++ List.replicate p.chan.online.length 1 ++ List.replicate p.chan.outlet.length 2 ++ [3]) ++ [4] := by
      rw [hf]; simp
    have hst := hc.store
    unfold storeHydraulics at hst
    rw [hcl'] at hst
    simp only [bind_ok, pure_ok, Bool.false_eq_true, if_false] at hst
    obtain ⟨wl, _, mn, _, mx, _, wmin, _, wmax, _, lv, _, od, _, ov, _, hh⟩ := hst
    have hld := hk.dep
    have hlv := hk.vel
    rw [hf'] at hld hlv
    refine ⟨d, v, ?_, ?_, ?_⟩
    · show p.hyd.EndDep.getLast? = some d
      rw [← hh]
      show (maskSel p.chan.flag (fun f => f == 3 || f == 4) p.dep).getLast? = some d
      rw [hf']
      exact maskSel_last _ 4 _ (by decide) _ _ (by rw [hld, List.length_append]; rfl) hd
    · show p.hyd.EndVel.getLast? = some v
      rw [← hh]
      show (maskSel p.chan.flag (fun f => f == 3 || f == 4) p.vel).getLast? = some v
      rw [hf']
      exact maskSel_last _ 4 _ (by decide) _ _ (by rw [hlv, List.length_append]; rfl) hv
    · obtain ⟨X0, r0, ow, C1, st1, st, onRows, outRows, H⟩ := assemble_inv hc.chan
      have hg := H.geom
      unfold chanGeom at hg
      simp only [Prod.mk.injEq] at hg
      have hwid := hg.2.2.2.1
      rw [hcl'] at hwid
      simp only [Bool.false_eq_true, if_false] at hwid
      rw [hwid] at hw
      have : w = s.EndWidth := by
        rw [← List.append_assoc] at hw
        simp [chanIn] at hw
        exact hw.symm
      show d * v * w = _
      rw [this]

/-- C187 at the start: the first record and the first line of the time series agree too; the outflow is that of the recorded state. -/
theorem C187_first {e : Env K} {ld : LoadOut K} {s0 : CoreSt K} (h0 : initial e ld = .ok s0) :
    ∃ r t, s0.outs = [r] ∧ s0.ts = [t] ∧ t.time = r.time ∧ t.SeaLevel = r.SeaLevel ∧ t.RivFlow = r.RivFlow ∧ t.Hs_offshore = r.Hs_offshore ∧
      t.EDir_h = r.EDir_h ∧ t.EndX0 = r.EndX0 ∧ t.EndX1 = r.EndX1 ∧ t.Closed = r.Closed ∧ MeanOf r.LagoonWL t.MeanLagoonWl ∧
      (∀ b ∈ r.RiverBedload, b = t.SedInflow) := by
  unfold initial at h0
  simp only [bind_ok, pure_ok] at h0
  obtain ⟨fl, _, sl, _, w, _, c, hc, q, _, sq, _, ⟨dep, vel⟩, _, hyd, _, d, _, v, _, cw, _, rfl⟩ := h0
  refine ⟨_, _, rfl, rfl, rfl, rfl, rfl, rfl, rfl, rfl, rfl, rfl, nanmean_spec _, ?_⟩
  intro b hb
  exact List.eq_of_mem_replicate hb

/-- The sample run with longshore transport that narrows the outlet, and a record every 30 s. -/
def tfEnv : Env ℚ := { coEnv with
  parts := { coParts with lst := fun y0 _ => y0.tail.map (fun _ => fin (1/100)) }
  oo := { coEnv.oo with OutInt := 30 * sec } }

/-- C187 as stated fails: in the first step of the sample run 6 m3/s leave through the outlet, of depth 1 m and velocity 1 m/s, by the time
series; the record has the same depth and velocity and a narrower outlet, through which less than 6 m3/s pass. -/
theorem C187_refuted : ∃ (s0 s1 : CoreSt ℚ) (p : PassOut ℚ) (r : Snapshot ℚ) (t : TsRec ℚ) (w : ℚ), initial tfEnv coLoad = .ok s0 ∧
    pass tfEnv s0 = .ok (p, s1) ∧ s1.outs = s0.outs ++ [r] ∧ s1.ts = s0.ts ++ [t] ∧ t.time = r.time ∧ r.Closed = false ∧
    r.EndDep.getLast? = some (fin 1) ∧ r.EndVel.getLast? = some (fin 1) ∧ r.EndWidth = fin w ∧ w < 6 ∧ t.LagOutflow = fin 6 := by
  have h : okAnd (initial tfEnv coLoad) (fun s0 => okAnd (pass tfEnv s0) (fun x =>
      match x.2.outs, x.2.ts, x.2.EndWidth with
      | [r0, r], [t0, t], fin w => decide (s0.outs = [r0] ∧ s0.ts = [t0] ∧ t.time = r.time ∧ r.Closed = false ∧ r.EndDep.getLast? = some (fin 1) ∧
          r.EndVel.getLast? = some (fin 1) ∧ r.EndWidth = fin w ∧ w < 6 ∧ t.LagOutflow = fin 6)
      | _, _, _ => false)) = true := by decide +kernel
  obtain ⟨s0, h0, h⟩ := okAnd_iff.mp h
  obtain ⟨⟨p, s1⟩, h1, h⟩ := okAnd_iff.mp h
  simp only at h
  split at h
  · rename_i r0 r t0 t w e1 e2 e3
    obtain ⟨a, b, c, d, f, g, i, j, k⟩ := of_decide_eq_true h
    exact ⟨s0, s1, p, r, t, w, h0, h1, by rw [e1, a]; rfl, by rw [e2, b]; rfl, c, d, f, g, i, j, k⟩
  · cases h

/-- The hypotheses of C187_partial are met by that step. -/
example : PartsLen tfEnv.parts ∧ LoadSized coLoad ∧ ∃ s0 s1 p r t, initial tfEnv coLoad = .ok s0 ∧ Run tfEnv s0 [] s0 ∧ pass tfEnv s0 = .ok (p, s1) ∧
    s1.outs = s0.outs ++ [r] ∧ s1.ts = s0.ts ++ [t] := by
  obtain ⟨s0, s1, p, r, t, w, h0, h1, h2, h3, -⟩ := C187_refuted
  exact ⟨⟨coParts_len.unsteady, coParts_len.steady, by intros; simp [tfEnv], coParts_len.overtop⟩, coLoad_sized, s0, s1, p, r, t, h0, .start, h1, h2, h3⟩

end Verif.Props
