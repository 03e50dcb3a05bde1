import Verif.Lemmas.PartsReal
import Verif.Lemmas.RiverKeep
import Verif.Lemmas.LoadReal
import Verif.Lemmas.Causal
import Verif.Spec.Run
import Verif.Props.Out
import Verif.Props.Core

set_option autoImplicit false
set_option linter.unusedSectionVars false

/-! # C91-C97: whole runs -/

namespace Verif.Props
open Verif Verif.Model Verif.Spec Fl

variable {K : Type} [Field K] [LinearOrder K] [IsStrictOrderedRing K] [FloorRing K]

/-! ## C91 -/

theorem recordFits {xs : List K} {nr : ℕ} {r : Snapshot K} (h : RecOk xs nr r) : RecordFits xs nr r := by
  obtain ⟨hx, hs, h1, h2⟩ := h
  refine ⟨hx, ⟨hs.lwl, hs.lv, hs.lb⟩, ⟨hs.od, hs.ov, hs.ob⟩, ⟨hs.cst, hs.op, ?_⟩, ⟨hs.re, hs.rd, hs.rv, hs.rb⟩, h1, h2⟩
  have := hs.lst
  omega

/-- C91: throughout a run the transects stay where they were, the river keeps its number of sections, and every record
has the sizes of the file created at the start. -/
theorem C91_sizes {e : Env K} (hP : PartsLen e.parts) {ld : LoadOut K} (hl : LoadSized ld) {s0 s : CoreSt K}
    {tr : List (CoreSt K × PassOut K × CoreSt K)} (h0 : initial e ld = .ok s0) (h : Run e s0 tr s) :
    s.rows.map (·.x) = ld.rows.map (·.x) ∧ s.RiverElev.length = ld.RiverElev.length ∧
    (∀ r ∈ s.outs, RecordFits (ld.rows.map (·.x)) ld.RiverElev.length r) := by
  obtain ⟨a, b⟩ := run_sized hP hl h0 h
  exact ⟨a.rows, a.riv, fun r hr => recordFits (b r hr)⟩

theorem write_total {st : Storage K} {f : NcFile K} {r : Snapshot K} {xs : List K} {nr : ℕ} (hx : f.nx = xs.length) (hr : f.nr = nr)
    (h : RecOk xs nr r) : ∃ f', writeCurrent st f r = .ok f' ∧ f'.nx = f.nx ∧ f'.nr = f.nr := by
  obtain ⟨_, hs, h1, h2⟩ := h
  obtain ⟨d0, d1, hD⟩ := List.length_eq_two.mp h1
  obtain ⟨v0, v1, hV⟩ := List.length_eq_two.mp h2
  have ha := assignments_forward (d0 := d0) (d1 := d1) (v0 := v0) (v1 := v1) hs (by rw [hD]; rfl) (by rw [hV]; rfl) (by rw [hD]; rfl) (by rw [hV]; rfl)
  refine ⟨_, bind_ok.mpr ⟨_, by rw [hx, hr]; exact ha, rfl⟩, rfl, rfl⟩

theorem writeAll_total {st : Storage K} {xs : List K} {nr : ℕ} : ∀ (ss : List (Snapshot K)) (f : NcFile K), f.nx = xs.length → f.nr = nr →
    (∀ r ∈ ss, RecOk xs nr r) → ∃ f', writeAll st f ss = .ok f' := by
  intro ss
  induction ss with
  | nil => intro f _ _ _; exact ⟨f, rfl⟩
  | cons r ss ih =>
    intro f hx hr hs
    obtain ⟨g, h1, h2, h3⟩ := write_total (st := st) hx hr (hs r (List.mem_cons_self ..))
    obtain ⟨f', h4⟩ := ih g (h2.trans hx) (h3.trans hr) (fun r hr => hs r (List.mem_cons_of_mem _ hr))
    exact ⟨f', bind_ok.mpr ⟨g, h1, h4⟩⟩

/-- C91: writing the records never fails, and the whole history can be read back from the file. -/
theorem C91_written {e : Env K} (hP : PartsLen e.parts) {ld : LoadOut K} (hl : LoadSized ld) {s0 s : CoreSt K}
    {tr : List (CoreSt K × PassOut K × CoreSt K)} (h0 : initial e ld = .ok s0) (h : Run e s0 tr s) (st : Storage K) :
    ∃ f, writeAll st (emptyFile st (ld.rows.map (·.x)) ld.RiverElev) s.outs = .ok f ∧ f.times.length = s.outs.length ∧
      ∀ i r, s.outs[i]? = some r → ∃ o, readTimestep f i = .ok o ∧ ReadBack st.num st.time r o := by
  obtain ⟨_, b⟩ := run_sized hP hl h0 h
  obtain ⟨f, hf⟩ := writeAll_total (st := st) (xs := ld.rows.map (·.x)) s.outs (emptyFile st (ld.rows.map (·.x)) ld.RiverElev) rfl rfl b
  obtain ⟨h1, h2⟩ := C68_all_partial (fun r hr => (b r hr).x) hf
  exact ⟨f, hf, h1, h2⟩

/-- C91: the hypothesis on the numerical functions holds for those of the code. -/
theorem C91_real_parts (pp : PhysPars ℝ) (np : NumPars) (Dx : ℝ) (HydDt : ℤ) (solver : Solver) : PartsLen (realParts pp np Dx HydDt solver) :=
  realParts_len pp np Dx HydDt solver

/-- C91: the hypothesis on the initial state holds for the default shoreline. -/
theorem C91_default_load {c : ShoreCfg K} {slope len : K} {ld : LoadOut K} (h : defaultLoad c slope len = .ok ld) : LoadSized ld := by
  unfold defaultLoad at h
  simp only [bind_ok, pure_ok] at h
  obtain ⟨riv, _, rows, _, rfl⟩ := h
  constructor <;> simp

/-- C91: the hypothesis on the initial state holds for real-world shorelines. -/
theorem C91_real_load {c : RealCfg K} {slope len : K} {shore cliff lagoon outlet : List (K × K)} {ld : LoadOut K}
    (h : realLoadMod c slope len shore cliff lagoon outlet = .ok ld) : LoadSized ld := by
  unfold realLoadMod at h
  simp only [bind_ok, pure_ok] at h
  obtain ⟨riv, _, ⟨rows, e0, e1⟩, _, rfl⟩ := h
  constructor <;> simp

/-- C91: the hypothesis on the initial state holds for a hot start from the records of an earlier run. -/
theorem C91_hot_load {e : Env K} (hP : PartsLen e.parts) {ld : LoadOut K} (hl : LoadSized ld) {s0 s : CoreSt K}
    {tr : List (CoreSt K × PassOut K × CoreSt K)} (h0 : initial e ld = .ok s0) (h : Run e s0 tr s) {st : Storage K} {f : NcFile K}
    (hf : writeAll st (emptyFile st (ld.rows.map (·.x)) ld.RiverElev) s.outs = .ok f) {t a : ℤ} {Dx : K} {ld' : LoadOut K}
    (hh : hotStart f t Dx = .ok (ld', a)) : LoadSized ld' ∧ ld'.rows.map (·.x) = ld.rows.map (fun r => st.num r.x) ∧
      ld'.RiverElev.length = ld.RiverElev.length := by
  obtain ⟨_, b⟩ := run_sized hP hl h0 h
  obtain ⟨h1, h2⟩ := C68_all_partial (fun r hr => (b r hr).x) hf
  unfold hotStart at hh
  simp only [bind_ok, pure_ok] at hh
  obtain ⟨⟨ix, a'⟩, hc, r, hr, _, _, _, _, _, _, he⟩ := hh
  have hi : ∃ i, ix = [i] ∧ readTimestep f i = .ok r := by
    unfold readIxs at hr
    simp only at hr
    split at hr
    · exact ⟨_, rfl, hr⟩
    · cases hr
  obtain ⟨i, rfl, hri⟩ := hi
  have hlt : i < f.times.length := by
    unfold readTimestep at hri
    simp only [bind_ok] at hri
    obtain ⟨_, hv, _⟩ := hri
    unfold readVar at hv
    split at hv
    · assumption
    · cases hv
  rw [h1] at hlt
  obtain ⟨o, ho, hb⟩ := h2 i _ (List.getElem?_eq_getElem hlt)
  rw [hri] at ho
  cases ho
  have hk := b _ (List.getElem_mem hlt)
  generalize s.outs[i] = q at hb hk
  obtain ⟨kx, ks, _, _⟩ := hk
  cases he
  have hn : r.rows.length = q.rows.length := by rw [hb.rows, List.length_map]
  have e1 := ks.rows
  have e2 := ks.re
  have e3 := ks.rd
  have e4 := ks.rv
  have e5 := ks.lwl
  have e6 := ks.lv
  have e7 := ks.od
  have e8 := ks.ov
  refine ⟨⟨?_, ?_, ?_, ?_, ?_, ?_, rfl, rfl⟩, ?_, ?_⟩
  · show r.RiverWL.length = r.RiverElev.length
    rw [hb.rivWL, hb.rivZ]; simp; omega
  · show r.RiverVel.length = r.RiverElev.length
    rw [hb.rivVel, hb.rivZ]; simp; omega
  · show r.LagoonWL.length = r.rows.length
    rw [hb.lagWL, hn]; simp; omega
  · show r.LagoonVel.length = r.rows.length
    rw [hb.lagVel, hn]; simp; omega
  · show (List.zipWith _ r.OutletWL r.rows).length = r.rows.length
    rw [List.length_zipWith, hb.outWL, List.length_zipWith, hn]; omega
  · show r.OutletVel.length = r.rows.length
    rw [hb.outVel, hn]; simp; omega
  · show r.rows.map (·.x) = _
    rw [hb.rows, List.map_map]
    have : q.rows.map ((fun t : Transect K => t.x) ∘ roundRow st.num (roundFl st.num)) = (q.rows.map (·.x)).map st.num := by rw [List.map_map]; rfl
    rw [this, kx, List.map_map]; rfl
  · show r.RiverElev.length = _
    rw [hb.rivZ, List.length_map, e2]

theorem coParts_len : PartsLen coParts where
  unsteady := by intro c N bdy hv _ h; cases h
  steady := by
    intro c N q w d v hc h
    cases h
    simp [hc.elev]
  lst := by intro y w; simp [coParts]
  overtop := by
    intro r sl rows q f h
    cases h
    simp

theorem coLoad_sized : LoadSized coLoad := by constructor <;> decide +kernel

/-- The example run writes three records. -/
example : PartsLen coEnv.parts ∧ LoadSized coLoad ∧ ∃ s0 tr s, initial coEnv coLoad = .ok s0 ∧ Run coEnv s0 tr s ∧ s.outs.length = 3 := by
  obtain ⟨s0, tr, s, h0, h, _, _, _, _, _, ho, _⟩ := co_run
  exact ⟨coParts_len, coLoad_sized, s0, tr, s, h0, h, by simpa using congrArg List.length ho⟩

/-! ## C92 -/

/-- `compute` sees only the physical state and not the output options. -/
theorem compute_same {e : Env K} {s s' : CoreSt K} (h : SamePhysics s s') (oo : OutOpts) : compute { e with oo := oo } s' = compute e s := by
  cases s; cases s'
  obtain ⟨h1, h2, h3, h4, h5, h6, h7, h8, h9, h10, h11, h12, h13⟩ := h
  simp only at h1 h2 h3 h4 h5 h6 h7 h8 h9 h10 h11 h12 h13
  subst h1 h2 h3 h4 h5 h6 h7 h8 h9 h10 h11 h12 h13
  rfl

theorem advance_same {e : Env K} {s s' t t' : CoreSt K} {p : PassOut K} (h : SamePhysics s s') {oo : OutOpts} (h1 : advance e s p = .ok t)
    (h2 : advance { e with oo := oo } s' p = .ok t') : SamePhysics t t' := by
  have a := advance_inv h1
  have b := advance_inv h2
  have hst : stepOf { e with oo := oo } s' p = stepOf e s p := by
    unfold stepOf
    rw [h.time]
  have hr : t'.RivDep = t.RivDep ∧ t'.RivVel = t.RivVel := by
    unfold advance at h1 h2
    simp only [bind_ok, pure_ok] at h1 h2
    obtain ⟨_, _, _, _, rfl⟩ := h1
    obtain ⟨_, _, _, _, rfl⟩ := h2
    exact ⟨rfl, rfl⟩
  exact ⟨by rw [a.time, b.time, h.time, hst], by rw [a.dt, b.dt, hst], by rw [a.passes, b.passes, h.passes], by rw [a.rows, b.rows],
    by rw [a.endX0, b.endX0], by rw [a.endX1, b.endX1], by rw [a.endWidth, b.endWidth], by rw [a.endElev, b.endElev], by rw [a.riv, b.riv],
    hr.1, hr.2, by rw [a.hyd, b.hyd], by rw [a.closed, b.closed]⟩

theorem same_sized {xs : List K} {nr : ℕ} {s s' : CoreSt K} (h : SamePhysics s s') (hs : Sized xs nr s) : Sized xs nr s' := by
  obtain ⟨a1, a2, a3, a4, a5, a6, a7, a8, a9, a10⟩ := hs
  exact ⟨by rw [h.rows]; exact a1, by rw [h.riverElev]; exact a2, by rw [h.rivDep]; exact a3, by rw [h.rivVel]; exact a4, by rw [h.hyd]; exact a5,
    by rw [h.hyd]; exact a6, by rw [h.hyd]; exact a7, by rw [h.hyd]; exact a8, by rw [h.hyd]; exact a9, by rw [h.hyd]; exact a10⟩

/-- One pass from the same physical state, with any output options: the same exception, or the same results. -/
theorem pass_same {e : Env K} (hP : PartsLen e.parts) {xs : List K} {nr : ℕ} {s s' : CoreSt K} (hs : Sized xs nr s) (h : SamePhysics s s') (oo : OutOpts) :
    (∃ err, pass e s = .error err ∧ pass { e with oo := oo } s' = .error err) ∨
    (∃ p t t', pass e s = .ok (p, t) ∧ pass { e with oo := oo } s' = .ok (p, t') ∧ SamePhysics t t') := by
  have hc := compute_same h oo (e := e)
  cases hk : compute e s with
  | error err =>
    left
    rw [hk] at hc
    refine ⟨err, ?_, ?_⟩
    · show (do let p ← compute e s; _) = _
      rw [hk]; rfl
    · show (do let p ← compute { e with oo := oo } s'; _) = _
      rw [hc]; rfl
  | ok p =>
    right
    rw [hk] at hc
    have hp := compute_ok hP hs hk
    obtain ⟨t, ht⟩ := advance_total (e := e) hs hp
    obtain ⟨t', ht'⟩ := advance_total (e := { e with oo := oo }) (same_sized h hs) hp
    exact ⟨p, t, t', bind_ok.mpr ⟨p, hk, bind_ok.mpr ⟨t, ht, rfl⟩⟩, bind_ok.mpr ⟨p, hc, bind_ok.mpr ⟨t', ht', rfl⟩⟩, advance_same h ht ht'⟩

/-- The state before the loop. -/
theorem initial_same {e : Env K} {ld : LoadOut K} {s0 : CoreSt K} (h : initial e ld = .ok s0) (oo : OutOpts) :
    ∃ s0', initial { e with oo := oo } ld = .ok s0' ∧ SamePhysics s0 s0' ∧ s0'.outs = s0.outs ∧ s0'.ts = s0.ts := by
  unfold initial at h ⊢
  simp only [bind_ok, pure_ok] at h ⊢
  obtain ⟨fl, a1, sl, a2, w, a3, c, hc, q, a4, sq, a5, ⟨dep, vel⟩, a6, hyd, a7, d, a8, v, a9, cw, a10, rfl⟩ := h
  exact ⟨_, ⟨fl, a1, sl, a2, w, a3, c, hc, q, a4, sq, a5, (dep, vel), a6, hyd, a7, d, a8, v, a9, cw, a10, rfl⟩,
    ⟨rfl, rfl, rfl, rfl, rfl, rfl, rfl, rfl, rfl, rfl, rfl, rfl, rfl⟩, rfl, rfl⟩

/-- C92: the intervals of output, time series, logging and plotting do not influence the simulation: with any other
intervals the run goes through the same passes, with the same results and the same states, and the next pass raises the
same exception, or none. Missing from the full claim: a plot
that raises ends the run (`C92_refuted` in Props/View). -/
theorem C92_noninterference_partial {e : Env K} (hP : PartsLen e.parts) {ld : LoadOut K} (hl : LoadSized ld) {s0 s : CoreSt K}
    {tr : List (CoreSt K × PassOut K × CoreSt K)} (h0 : initial e ld = .ok s0) (h : Run e s0 tr s) (oo : OutOpts) :
    ∃ s0' tr' s', initial { e with oo := oo } ld = .ok s0' ∧ Run { e with oo := oo } s0' tr' s' ∧
      List.Forall₂ (fun x y => SamePhysics x.1 y.1 ∧ y.2.1 = x.2.1 ∧ SamePhysics x.2.2 y.2.2) tr tr' ∧ SamePhysics s s' ∧
      ∀ err, pass e s = .error err ↔ pass { e with oo := oo } s' = .error err := by
  obtain ⟨s0', i1, i2, _⟩ := initial_same h0 oo
  suffices hs : ∃ tr' s', Run { e with oo := oo } s0' tr' s' ∧
      List.Forall₂ (fun x y => SamePhysics x.1 y.1 ∧ y.2.1 = x.2.1 ∧ SamePhysics x.2.2 y.2.2) tr tr' ∧ SamePhysics s s' by
    obtain ⟨tr', s', r1, r2, r3⟩ := hs
    refine ⟨s0', tr', s', i1, r1, r2, r3, fun err => ?_⟩
    rcases pass_same hP (run_sized hP hl h0 h).1 r3 oo with ⟨err', p1, p2⟩ | ⟨p, t, t', p1, p2, _⟩
    · rw [p1, p2]
    · rw [p1, p2]; simp
  induction h with
  | start => exact ⟨[], s0', .start, .nil, i2⟩
  | @pass tr s s1 p hr hle hp ih =>
    obtain ⟨tr', s', r1, r2, r3⟩ := ih
    rcases pass_same hP (run_sized hP hl h0 hr).1 r3 oo with ⟨err', p1, p2⟩ | ⟨p', t, t', p1, p2, p3⟩
    · rw [hp] at p1; cases p1
    · rw [hp] at p1
      cases p1
      refine ⟨tr' ++ [(s', p, t')], t', .pass r1 (by rw [r3.time]; exact hle) p2, ?_, p3⟩
      exact List.rel_append r2 (.cons ⟨r3, rfl, p3⟩ .nil)

/-- The example run with other intervals: plotting every 10 s, output every 10 s. -/
example : ∃ s0 s0' tr s, initial coEnv coLoad = .ok s0 ∧ Run coEnv s0 tr s ∧ tr.length = 3 ∧
    initial { coEnv with oo := ⟨10 * sec, 10 * sec, 10 * sec, 10 * sec⟩ } coLoad = .ok s0' ∧ s0'.outTime ≠ s0.outTime := by
  obtain ⟨s0, tr, s, h0, h, ht, _⟩ := co_run
  obtain ⟨s0', h1, _⟩ := initial_same h0 ⟨10 * sec, 10 * sec, 10 * sec, 10 * sec⟩
  refine ⟨s0, s0', tr, s, h0, h, by simpa using congrArg List.length ht, h1, ?_⟩
  rw [(initial_inv h0).2.2.1, (initial_inv h1).2.2.1]
  decide

/-! ## C93 -/

/-- The same settings with another EndTime. -/
def withEnd (e : Env K) (E : ℤ) : Env K := { e with tp := { e.tp with EndTime := E } }

/-- A pass that ends before EndTime is a pass with any later EndTime, and the other way round. -/
theorem pass_end {e : Env K} {s s1 : CoreSt K} {p : PassOut K} (hs : s1.time < e.tp.EndTime) {E : ℤ} (hE : e.tp.EndTime ≤ E) :
    pass e s = .ok (p, s1) ↔ pass (withEnd e E) s = .ok (p, s1) := by
  have key : ∀ s2, s2.time < e.tp.EndTime → (advance e s p = .ok s2 ↔ advance (withEnd e E) s p = .ok s2) := by
    intro s2 hs2
    by_cases hcl : e.tp.EndTime - s.time < p.mor.MorDt
    · constructor
      · intro h
        have ht := (advance_inv h).time
        unfold stepOf at ht
        rw [if_pos hcl] at ht
        omega
      · intro h
        have ht := (advance_inv h).time
        unfold stepOf at ht
        change s2.time = s.time + (if E - s.time < p.mor.MorDt then E - s.time else p.mor.MorDt) at ht
        split_ifs at ht <;> omega
    · have hcl' : ¬ E - s.time < p.mor.MorDt := by omega
      have h1 : (if e.tp.EndTime - s.time < p.mor.MorDt then e.tp.EndTime - s.time else p.mor.MorDt) = p.mor.MorDt := if_neg hcl
      have h2 : (if (withEnd e E).tp.EndTime - s.time < p.mor.MorDt then (withEnd e E).tp.EndTime - s.time else p.mor.MorDt) = p.mor.MorDt := if_neg hcl'
      have hoo : (withEnd e E).oo = e.oo := rfl
      unfold advance
      rw [h1, h2, hoo]
  unfold pass
  simp only [bind_ok, pure_ok]
  constructor
  · rintro ⟨p1, h1, s2, h2, he⟩
    cases he
    exact ⟨p, h1, s1, (key _ hs).mp h2, rfl⟩
  · rintro ⟨p1, h1, s2, h2, he⟩
    cases he
    exact ⟨p, h1, s1, (key _ hs).mpr h2, rfl⟩

/-- C93: until EndTime is reached a run does not depend on EndTime: the runs before EndTime are the same, with the same
states and records, for any later EndTime. -/
theorem C93_prefix {e : Env K} {ld : LoadOut K} (hse : e.tp.StartTime ≤ e.tp.EndTime) (hmin : 0 ≤ e.tp.MorDtMin) {E : ℤ} (hE : e.tp.EndTime ≤ E)
    (tr : List (CoreSt K × PassOut K × CoreSt K)) (s0 s : CoreSt K) (hs : s.time < e.tp.EndTime) :
    (initial e ld = .ok s0 ∧ Run e s0 tr s) ↔ (initial (withEnd e E) ld = .ok s0 ∧ Run (withEnd e E) s0 tr s) := by
  have h0 : initial (withEnd e E) ld = initial e ld := rfl
  rw [h0]
  constructor
  · rintro ⟨hi, h⟩
    refine ⟨hi, ?_⟩
    have hT := TimeInv.initial hi hse hmin
    induction h with
    | start => exact .start
    | @pass tr s s1 p hr hle hp ih =>
      exact .pass (ih (lt_of_le_of_lt ((hr.timeInv hT).step hp).2 hs)) (hle.trans hE) ((pass_end hs hE).mp hp)
  · rintro ⟨hi, h⟩
    refine ⟨hi, ?_⟩
    have hT : TimeInv (withEnd e E) s0 := TimeInv.initial (e := withEnd e E) (h0.trans hi) (hse.trans hE) hmin
    induction h with
    | start => exact .start
    | @pass tr s s1 p hr hle hp ih =>
      have hlt := lt_of_le_of_lt ((hr.timeInv hT).step hp).2 hs
      exact .pass (ih hlt) hlt.le ((pass_end hs hE).mpr hp)

/-- The example run is at 120 s after its first pass; another one goes on until 1000 s. -/
example : ∃ s0 tr s, initial coEnv coLoad = .ok s0 ∧ Run coEnv s0 tr s ∧ tr.length = 1 ∧ s.time < coEnv.tp.EndTime ∧ 0 < s.time ∧
    coEnv.tp.EndTime ≤ 1000 * sec ∧ coEnv.tp.StartTime ≤ coEnv.tp.EndTime ∧ 0 ≤ coEnv.tp.MorDtMin := by
  have h : okAnd (initial coEnv coLoad) (fun s0 => okAnd (trace coEnv s0 1) (fun x => decide (x.2.time < coEnv.tp.EndTime) && decide (0 < x.2.time))) = true := by
    decide +kernel
  obtain ⟨s0, h0, h⟩ := okAnd_iff.mp h
  obtain ⟨⟨tr, s⟩, h1, h⟩ := okAnd_iff.mp h
  simp only [Bool.and_eq_true, decide_eq_true_eq] at h
  exact ⟨s0, tr, s, h0, (trace_run h1).1, (trace_run h1).2, h.1, h.2, by decide, by decide, by decide⟩

/-! ## C94 -/

/-- C94 refuted, in general: when the last step is shortened to end at EndTime, the coast recorded for EndTime is the one
which a run with a later EndTime has at the later time when its full step ends. -/
theorem C94_refuted_general {e : Env K} {s s1 : CoreSt K} {p : PassOut K} (h : pass e s = .ok (p, s1)) (hcl : e.tp.EndTime - s.time < p.mor.MorDt)
    {E : ℤ} (hE : s.time + p.mor.MorDt ≤ E) {p' : PassOut K} {s2 : CoreSt K} (h2 : pass (withEnd e E) s = .ok (p', s2)) :
    s1.time = e.tp.EndTime ∧ s2.time = s.time + p.mor.MorDt ∧ s1.time < s2.time ∧
    s1.rows = s2.rows ∧ s1.RiverElev = s2.RiverElev ∧ s1.EndX0 = s2.EndX0 ∧ s1.EndX1 = s2.EndX1 ∧ s1.EndWidth = s2.EndWidth ∧ s1.EndElev = s2.EndElev := by
  have hp : p' = p := by
    unfold pass at h h2
    simp only [bind_ok, pure_ok] at h h2
    obtain ⟨q, c1, _, _, he⟩ := h
    obtain ⟨q', c2, _, _, he'⟩ := h2
    cases he
    cases he'
    exact ok_inj.mp (c2.symm.trans c1)
  subst hp
  have a := (pass_inv h).2
  have b := (pass_inv h2).2
  have ta := a.time
  have tb := b.time
  unfold stepOf at ta tb
  rw [if_pos hcl] at ta
  rw [if_neg (show ¬ (withEnd e E).tp.EndTime - s.time < p'.mor.MorDt by show ¬ E - s.time < _; omega)] at tb
  exact ⟨by omega, tb, by omega, by rw [a.rows, b.rows], by rw [a.riv, b.riv], by rw [a.endX0, b.endX0], by rw [a.endX1, b.endX1],
    by rw [a.endWidth, b.endWidth], by rw [a.endElev, b.endElev]⟩

/-- The example with longshore transport that increases along the coast, so that the shoreline retreats. -/
def coDrift : Env ℚ :=
  { coEnv with parts := { coParts with lst := fun y0 _ => (List.range (y0.length - 1)).map (fun i : ℕ => fin ((i : ℚ) / 1000)) } }

/-- C94 refuted: a run that ends after 20 s has, at its end, the same shoreline as a run with EndTime 1000 s has after 120 s,
and this is not the initial one. -/
theorem C94_refuted : ∃ (s0 : CoreSt ℚ) (p : PassOut ℚ) (s1 s2 : CoreSt ℚ), initial (withEnd coDrift (20 * sec)) coLoad = .ok s0 ∧
    pass (withEnd coDrift (20 * sec)) s0 = .ok (p, s1) ∧ pass (withEnd coDrift (1000 * sec)) s0 = .ok (p, s2) ∧
    s1.time = 20 * sec ∧ s2.time = 120 * sec ∧ s1.rows = s2.rows ∧ s1.rows ≠ s0.rows := by
  have h : okAnd (initial (withEnd coDrift (20 * sec)) coLoad) (fun s0 => okAnd (pass (withEnd coDrift (20 * sec)) s0) (fun x =>
      okAnd (pass (withEnd coDrift (1000 * sec)) s0) (fun y => decide (x.2.time = 20 * sec) && (decide (x.1.mor.MorDt = 120 * sec) &&
        decide (x.2.rows ≠ s0.rows))))) = true := by decide +kernel
  obtain ⟨s0, h0, h⟩ := okAnd_iff.mp h
  obtain ⟨⟨p, s1⟩, h1, h⟩ := okAnd_iff.mp h
  obtain ⟨⟨p', s2⟩, h2, h⟩ := okAnd_iff.mp h
  simp only [Bool.and_eq_true, decide_eq_true_eq] at h
  obtain ⟨a, b, c⟩ := h
  have ht : s0.time = 0 := (initial_inv h0).1
  have hp : p' = p := by
    unfold pass at h1 h2
    simp only [bind_ok, pure_ok] at h1 h2
    obtain ⟨q, c1, _, _, he⟩ := h1
    obtain ⟨q', c2, _, _, he'⟩ := h2
    cases he
    cases he'
    exact ok_inj.mp (c2.symm.trans c1)
  subst hp
  have hr := C94_refuted_general (e := withEnd coDrift (20 * sec)) (E := 1000 * sec) h1 (by rw [ht, b]; decide) (by rw [ht, b]; decide) h2
  refine ⟨s0, p', s1, s2, h0, h1, h2, a, ?_, hr.2.2.2.1, c⟩
  rw [hr.2.1, ht, b]
  decide

/-- C94, partial: in every other pass the clock advances by the step that the morphology used. -/
theorem C94_partial {e : Env K} {s s1 : CoreSt K} {p : PassOut K} (h : pass e s = .ok (p, s1)) (hcl : s.time + p.mor.MorDt ≤ e.tp.EndTime) :
    s1.time - s.time = p.mor.MorDt := by
  have a := (pass_inv h).2.time
  unfold stepOf at a
  rw [if_neg (by omega)] at a
  omega

/-- The first pass of the example is not shortened. -/
example : ∃ s0 p s1, initial coEnv coLoad = .ok s0 ∧ pass coEnv s0 = .ok (p, s1) ∧ s0.time + p.mor.MorDt ≤ coEnv.tp.EndTime ∧ 0 < p.mor.MorDt := by
  have h : okAnd (initial coEnv coLoad) (fun s0 => okAnd (pass coEnv s0) (fun x => decide (s0.time + x.1.mor.MorDt ≤ coEnv.tp.EndTime) &&
    decide (0 < x.1.mor.MorDt))) = true := by decide +kernel
  obtain ⟨s0, h0, h⟩ := okAnd_iff.mp h
  obtain ⟨⟨p, s1⟩, h1, h⟩ := okAnd_iff.mp h
  simp only [Bool.and_eq_true, decide_eq_true_eq] at h
  exact ⟨s0, p, s1, h0, h1, h⟩

/-! ## C95 -/

/-- The same settings with other forcing. -/
def withForcing (e : Env K) (flow sea : Series K) (waves : List (ℤ × Wave K)) : Env K := { e with flow := flow, sea := sea, waves := waves }

theorem compute_causal {e : Env K} {flow sea : Series K} {waves : List (ℤ × Wave K)} {T : ℤ} (hf : SameUntil T e.flow flow)
    (hs : SameUntil T e.sea sea) (hw : SameUntil T e.waves waves) {s : CoreSt K} (hd : 0 ≤ s.dt) (hT : s.time + s.dt ≤ T) :
    compute (withForcing e flow sea waves) s = compute e s := by
  have hw' : wavesAt waves s.time = wavesAt e.waves s.time := wavesAt_same hw (by omega)
  have hh : ∀ c fl sl, hydraulics (withForcing e flow sea waves) c fl sl = hydraulics e c fl sl := fun _ _ _ => rfl
  have hm : ∀ c dep hyd bed L C o, morIn (withForcing e flow sea waves) s c dep hyd bed L C o = morIn e s c dep hyd bed L C o := fun _ _ _ _ _ _ _ => rfl
  have hc : chanIn (withForcing e flow sea waves) s = chanIn e s := rfl
  have ob : ∀ {A B : Type} (a : A) (g : A → Except PyErr B), (Except.ok a >>= g) = g a := fun _ _ => rfl
  have oe : ∀ {A B : Type} (a : PyErr) (g : A → Except PyErr B), ((Except.error a : Except PyErr A) >>= g) = .error a := fun _ _ => rfl
  unfold compute
  simp only [hh, hm, hc]
  simp only [withForcing, hw']
  cases hy : hydTimes s.time s.dt e.tp.HydDt with
  | error err => simp only [oe]
  | ok win =>
    have hle : ∀ t ∈ win, t ≤ T := fun t ht => (hydTimes_le hd hy t ht).trans hT
    simp only [ob, interpolateAt_same hf hle, interpolateAt_same hs hle]

/-- C95: a run until some time does not depend on later forcing: records of flow, sea level and waves after the first one at or
after `T` can be changed without any effect on passes whose hydraulic window ends by `T`, or on the records written. -/
theorem C95_causal {e : Env K} {ld : LoadOut K} {flow sea : Series K} {waves : List (ℤ × Wave K)} {T : ℤ} (hse : e.tp.StartTime ≤ e.tp.EndTime)
    (hmin : 0 ≤ e.tp.MorDtMin) (hf : SameUntil T e.flow flow) (hs : SameUntil T e.sea sea) (hw : SameUntil T e.waves waves)
    {s0 s : CoreSt K} {tr : List (CoreSt K × PassOut K × CoreSt K)} (h0 : initial e ld = .ok s0) (h : Run e s0 tr s)
    (hST : e.tp.StartTime ≤ T) (hT : ∀ x ∈ tr, x.1.time + x.1.dt ≤ T) :
    initial (withForcing e flow sea waves) ld = .ok s0 ∧ Run (withForcing e flow sea waves) s0 tr s := by
  constructor
  · have hq : ∀ u ∈ [e.tp.StartTime], u ≤ T := by intro u hu; rw [List.mem_singleton] at hu; omega
    have e1 : interpolateAt flow [e.tp.StartTime] = interpolateAt e.flow [e.tp.StartTime] := interpolateAt_same hf hq
    have e2 : interpolateAt sea [e.tp.StartTime] = interpolateAt e.sea [e.tp.StartTime] := interpolateAt_same hs hq
    have e3 : wavesAt waves e.tp.StartTime = wavesAt e.waves e.tp.StartTime := wavesAt_same hw hST
    rw [← h0]
    unfold initial
    simp only [withForcing]
    rw [e1, e2, e3]
  · have hi := TimeInv.initial h0 hse hmin
    induction h with
    | start => exact .start
    | @pass tr s s1 p hr hle hp ih =>
      refine .pass (ih (fun x hx => hT x (List.mem_append_left _ hx))) hle ?_
      have hc := compute_causal hf hs hw (hr.timeInv hi).dt (hT (s, p, s1) (by simp))
      unfold Verif.Model.pass at hp ⊢
      rw [hc]
      exact hp

/-- The first pass of the example needs forcing until 30 s; a flood after 1000 s makes no difference. -/
example : SameUntil (30 * sec) coEnv.flow (coEnv.flow ++ [(2000 * sec, fin 5000)]) ∧ coEnv.tp.StartTime ≤ 30 * sec ∧
    ∃ s0 tr s, initial coEnv coLoad = .ok s0 ∧ Run coEnv s0 tr s ∧ tr.length = 1 ∧ ∀ x ∈ tr, x.1.time + x.1.dt ≤ 30 * sec := by
  refine ⟨⟨by decide, by decide, coEnv.flow, [], _, by simp, rfl, (1000 * sec, fin 50), by simp [coEnv], by decide⟩, by decide, ?_⟩
  have h : okAnd (initial coEnv coLoad) (fun s0 => okAnd (trace coEnv s0 1) (fun x => decide (∀ y ∈ x.1, y.1.time + y.1.dt ≤ 30 * sec))) = true := by
    decide +kernel
  obtain ⟨s0, h0, h⟩ := okAnd_iff.mp h
  obtain ⟨⟨tr, s⟩, h1, h⟩ := okAnd_iff.mp h
  exact ⟨s0, tr, s, h0, (trace_run h1).1, (trace_run h1).2, of_decide_eq_true h⟩

/-! ## C96 -/

/-- C96, partial: a record written in a pass holds the state after the pass, apart from the closed flag, and that too unless
the barrier of a closed lagoon was breached in that pass.  (Missing: the flag after such a breach.) -/
theorem C96_partial {e : Env K} {s s1 : CoreSt K} {p : PassOut K} (h : pass e s = .ok (p, s1)) (r : Snapshot K) (hr : s1.outs = s.outs ++ [r]) :
    RecordOf { s1 with Closed := r.Closed } r ∧ (RecordOf s1 r ↔ ¬ (r.Closed = true ∧ p.mor.Breach = true)) := by
  have a := (pass_inv h).2
  have hrv : s1.RivDep = maskSel p.chan.flag (· == 0) p.dep ∧ s1.RivVel = maskSel p.chan.flag (· == 0) p.vel := by
    unfold pass at h
    simp only [bind_ok, pure_ok] at h
    obtain ⟨p1, _, s2, h2, he⟩ := h
    cases he
    unfold advance at h2
    simp only [bind_ok, pure_ok] at h2
    obtain ⟨_, _, _, _, rfl⟩ := h2
    exact ⟨rfl, rfl⟩
  rcases a.outs with ⟨_, h2, _⟩ | ⟨_, _, bl, h2, _⟩
  · rw [h2] at hr
    have := congrArg List.length hr
    simp at this
  · rw [h2] at hr
    have hr' : snapshot s p s1.time bl = r := by simpa using hr
    subst hr'
    have hw : RecordOf { s1 with Closed := p.chan.closed } (snapshot s p s1.time bl) :=
      ⟨rfl, a.rows.symm, a.endX0.symm, a.endX1.symm, a.endWidth.symm, a.endElev.symm, a.riv.symm, hrv.1.symm, hrv.2.symm,
        by rw [a.hyd]; rfl, by rw [a.hyd]; rfl, by rw [a.hyd]; rfl, by rw [a.hyd]; rfl, by rw [a.hyd]; rfl, by rw [a.hyd]; rfl, rfl⟩
    refine ⟨hw, ?_⟩
    have hcl := a.closed
    constructor
    · rintro hk ⟨h3, h4⟩
      have := hk.closed
      rw [hcl, h4, h3] at this
      cases this
    · intro hn
      refine ⟨hw.time, hw.rows, hw.endX0, hw.endX1, hw.endWidth, hw.endElev, hw.riverElev, hw.rivDep, hw.rivVel, hw.lagWL, hw.lagVel, hw.outDep, hw.outVel,
        hw.endDep, hw.endVel, ?_⟩
      rw [hcl]
      change ¬ (p.chan.closed = true ∧ _) at hn
      show p.chan.closed = _
      cases hb : p.mor.Breach
      · rfl
      · cases hc : p.chan.closed
        · rfl
        · exact absurd ⟨hc, hb⟩ hn

/-- A record written without breach: first pass of the example. -/
example : ∃ (s0 s1 : CoreSt ℚ) (p : PassOut ℚ) (r : Snapshot ℚ), pass coEnv s0 = .ok (p, s1) ∧ s1.outs = s0.outs ++ [r] ∧ RecordOf s1 r := by
  have h : okAnd (initial coEnv coLoad) (fun s0 => okAnd (pass coEnv s0) (fun x => !x.1.mor.Breach && decide (s0.outTime ≤ x.2.time))) = true := by
    decide +kernel
  obtain ⟨s0, h0, h⟩ := okAnd_iff.mp h
  obtain ⟨⟨p, s1⟩, h1, h⟩ := okAnd_iff.mp h
  simp only [Bool.and_eq_true, decide_eq_true_eq, Bool.not_eq_true'] at h
  rcases (pass_inv h1).2.outs with ⟨h2, _⟩ | ⟨_, _, bl, h2, _⟩
  · omega
  · exact ⟨s0, s1, p, _, h1, h2, (C96_partial h1 _ h2).2.mpr (by rw [h.1]; simp)⟩

/-- C96 refuted, in general: if the barrier of a closed lagoon is breached in a pass and a record is written, the record says
that the outlet is closed while the model goes on with an open one. -/
theorem C96_refuted_general {e : Env K} {s s1 : CoreSt K} {p : PassOut K} (h : pass e s = .ok (p, s1)) (r : Snapshot K) (hr : s1.outs = s.outs ++ [r])
    (hc : s.Closed = true) (hb : p.mor.Breach = true) : r.Closed = true ∧ s1.Closed = false := by
  obtain ⟨⟨fl, sl, hk⟩, a⟩ := pass_inv h
  have hcl : p.chan.closed = true := assemble_keeps_closed hk.chan hc
  refine ⟨?_, by rw [a.closed, hb]; rfl⟩
  rcases a.outs with ⟨_, h2, _⟩ | ⟨_, _, bl, h2, _⟩
  · rw [h2] at hr
    have := congrArg List.length hr
    simp at this
  · rw [h2] at hr
    have hr' : snapshot s p s1.time bl = r := by simpa using hr
    subst hr'
    exact hcl

/-- A run started from such a record (see C68 for what is restored) starts with a closed outlet: the breach is lost. -/
theorem C96_hotstart_loses_breach {e e' : Env K} {s s1 s0 : CoreSt K} {p : PassOut K} (h : pass e s = .ok (p, s1)) (r : Snapshot K)
    (hr : s1.outs = s.outs ++ [r]) (hc : s.Closed = true) (hb : p.mor.Breach = true) {ld : LoadOut K} (hld : Restored r ld)
    (h0 : initial e' ld = .ok s0) : s0.Closed = true ∧ s1.Closed = false := by
  obtain ⟨a, b⟩ := C96_refuted_general h r hr hc hb
  exact ⟨(initial_inv h0).2.2.2.2.2.2.2 (hld.closed.trans a), b⟩

/-- C96 refuted: the flooded lagoon breaches in the first pass; the record written says it is closed. -/
theorem C96_refuted : ∃ (s0 s1 : CoreSt ℚ) (p : PassOut ℚ) (r : Snapshot ℚ), initial coFlood { coLoad with Closed := true } = .ok s0 ∧
    pass coFlood s0 = .ok (p, s1) ∧ s1.outs = s0.outs ++ [r] ∧ r.time = s1.time ∧ r.Closed = true ∧ s1.Closed = false := by
  have h : okAnd (initial coFlood { coLoad with Closed := true }) (fun s0 => okAnd (pass coFlood s0) (fun x =>
      s0.Closed && (x.1.mor.Breach && decide (s0.outTime ≤ x.2.time)))) = true := by decide +kernel
  obtain ⟨s0, h0, h⟩ := okAnd_iff.mp h
  obtain ⟨⟨p, s1⟩, h1, h⟩ := okAnd_iff.mp h
  simp only [Bool.and_eq_true, decide_eq_true_eq] at h
  obtain ⟨a, b, c⟩ := h
  rcases (pass_inv h1).2.outs with ⟨h2, _⟩ | ⟨_, _, bl, h2, _⟩
  · omega
  · obtain ⟨k1, k2⟩ := C96_refuted_general h1 _ h2 a b
    exact ⟨s0, s1, p, _, h0, h1, h2, rfl, k1, k2⟩

/-! ## C97 -/

/-- The settings for going on from state `s`: StartTime is its time, and the contents of uninitialised memory are those that
the run it comes from would see.  Output options may differ. -/
def restart (e : Env K) (s : CoreSt K) (oo : OutOpts) : Env K :=
  { e with tp := { e.tp with StartTime := s.time }, junk1 := fun n => e.junk1 (s.passes + n), junk2 := fun n => e.junk2 (s.passes + n), oo := oo }

/-- The example until 1000 s with a rising river. -/
def coRise : Env ℚ := withEnd { coEnv with flow := [(0, fin 50), (2000 * sec, fin 2050)] } (1000 * sec)

/-- C97 refuted: after 120 s a record is written; a run started from it writes a record for 240 s, as the original run does, but
with another river flow: the step, and with it the time for which flow and sea level are taken, starts again from MorDtMin. -/
theorem C97_refuted : ∃ (s0 s1 s2 s0' s1' : CoreSt ℚ) (p1 p2 p1' : PassOut ℚ) (f : NcFile ℚ) (ld : LoadOut ℚ),
    initial coRise coLoad = .ok s0 ∧ pass coRise s0 = .ok (p1, s1) ∧ pass coRise s1 = .ok (p2, s2) ∧
    writeAll exact (emptyFile exact (coLoad.rows.map (·.x)) coLoad.RiverElev) s1.outs = .ok f ∧ hotStart f s1.time coRise.Dx = .ok (ld, s1.time) ∧
    initial (restart coRise s1 coRise.oo) ld = .ok s0' ∧ pass (restart coRise s1 coRise.oo) s0' = .ok (p1', s1') ∧
    s2.time = 240 * sec ∧ s1'.time = 240 * sec ∧ p2.flow = fin 290 ∧ p1'.flow = fin 200 := by
  have h : okAnd (initial coRise coLoad) (fun s0 => okAnd (pass coRise s0) (fun x => okAnd (pass coRise x.2) (fun y =>
      okAnd (writeAll exact (emptyFile exact (coLoad.rows.map (·.x)) coLoad.RiverElev) x.2.outs) (fun f =>
      okAnd (hotStart f x.2.time coRise.Dx) (fun l => okAnd (initial (restart coRise x.2 coRise.oo) l.1) (fun s0' =>
      okAnd (pass (restart coRise x.2 coRise.oo) s0') (fun z => decide (l.2 = x.2.time) && (decide (y.2.time = 240 * sec) &&
        (decide (z.2.time = 240 * sec) && (decide (y.1.flow = fin 290) && decide (z.1.flow = fin 200))))))))))) = true := by decide +kernel
  obtain ⟨s0, h0, h⟩ := okAnd_iff.mp h
  obtain ⟨⟨p1, s1⟩, h1, h⟩ := okAnd_iff.mp h
  obtain ⟨⟨p2, s2⟩, h2, h⟩ := okAnd_iff.mp h
  obtain ⟨f, h3, h⟩ := okAnd_iff.mp h
  obtain ⟨⟨ld, a⟩, h4, h⟩ := okAnd_iff.mp h
  obtain ⟨s0', h5, h⟩ := okAnd_iff.mp h
  obtain ⟨⟨p1', s1'⟩, h6, h⟩ := okAnd_iff.mp h
  simp only [Bool.and_eq_true, decide_eq_true_eq] at h
  obtain ⟨rfl, k⟩ := h
  exact ⟨s0, s1, s2, s0', s1', p1, p2, p1', f, ld, h0, h1, h2, h3, h4, h5, h6, k⟩

theorem compute_restart {e : Env K} {s t t' : CoreSt K} (h : SameCoast t t') (hp : t.passes = s.passes + t'.passes) (oo : OutOpts) :
    compute (restart e s oo) t' = compute e t := by
  cases t; cases t'
  obtain ⟨h1, h2, _, h4, h5, h6, h7, h8, h9, h10, h11, h12, h13⟩ := h
  simp only at h1 h2 h4 h5 h6 h7 h8 h9 h10 h11 h12 h13 hp
  subst h1 h2 hp h4 h5 h6 h7 h8 h9 h10 h11 h12 h13
  rfl

theorem coast_sized {xs : List K} {nr : ℕ} {s s' : CoreSt K} (h : SameCoast s s') (hs : Sized xs nr s) : Sized xs nr s' := by
  obtain ⟨a1, a2, a3, a4, a5, a6, a7, a8, a9, a10⟩ := same_sized h hs
  exact ⟨a1, a2, a3, a4, a5, a6, a7, a8, a9, a10⟩

theorem advance_restart {e : Env K} {s t t' u u' : CoreSt K} {p : PassOut K} (h : SameCoast t t') {oo : OutOpts} (h1 : advance e t p = .ok u)
    (h2 : advance (restart e s oo) t' p = .ok u') : SameCoast u u' ∧ u.passes = t.passes + 1 ∧ u'.passes = t'.passes + 1 := by
  have a := advance_inv h1
  have b := advance_inv h2
  have ht : t'.time = t.time := h.time
  have hst : stepOf (restart e s oo) t' p = stepOf e t p := by
    unfold stepOf
    rw [ht]
    rfl
  have hr : u'.RivDep = u.RivDep ∧ u'.RivVel = u.RivVel := by
    unfold advance at h1 h2
    simp only [bind_ok, pure_ok] at h1 h2
    obtain ⟨_, _, _, _, rfl⟩ := h1
    obtain ⟨_, _, _, _, rfl⟩ := h2
    exact ⟨rfl, rfl⟩
  refine ⟨⟨?_, ?_, rfl, ?_, ?_, ?_, ?_, ?_, ?_, hr.1, hr.2, ?_, ?_⟩, a.passes, b.passes⟩
  · show u'.time = u.time
    rw [a.time, b.time, ht, hst]
  · show u'.dt = u.dt
    rw [a.dt, b.dt, hst]
  · show u'.rows = u.rows
    rw [a.rows, b.rows]
  · show u'.EndX0 = u.EndX0
    rw [a.endX0, b.endX0]
  · show u'.EndX1 = u.EndX1
    rw [a.endX1, b.endX1]
  · show u'.EndWidth = u.EndWidth
    rw [a.endWidth, b.endWidth]
  · show u'.EndElev = u.EndElev
    rw [a.endElev, b.endElev]
  · show u'.RiverElev = u.RiverElev
    rw [a.riv, b.riv]
  · show u'.hyd = u.hyd
    rw [a.hyd, b.hyd]
  · show u'.Closed = u.Closed
    rw [a.closed, b.closed]

/-- The state in which a warm restart begins. -/
theorem initial_restart {e : Env K} {xs : List K} {nr : ℕ} {s s0' : CoreSt K} (hs : Sized xs nr s) {r : Snapshot K} (hr : RecordOf s r)
    {ld : LoadOut K} (hld : Restored r ld) {oo : OutOpts} (hdt : s.dt = e.tp.MorDtMin) (hwarm : ∃ v ∈ s.hyd.LagoonVel, (v ==? fin 0) = false)
    (hdn : ∀ x ∈ s.RivDep, x.isnan = false) (hvn : ∀ x ∈ s.RivVel, x.isnan = false)
    (h0 : initial (restart e s oo) ld = .ok s0') (hcl : s0'.Closed = s.Closed) : SameCoast s s0' ∧ s0'.passes = 0 := by
  have hch : firstChan ld e.Dx = chanIn e s := by
    unfold firstChan chanIn
    rw [hld.rows, hld.rivZ, hld.endX0, hld.endX1, hld.endW, hld.endZ, hld.rivVel, hld.lagWL, hld.lagVel, hld.outDep, hld.outVel, hld.endDep, hld.endVel,
      hld.closed, hr.rows, hr.riverElev, hr.endX0, hr.endX1, hr.endWidth, hr.endElev, hr.rivVel, hr.lagWL, hr.lagVel, hr.outDep, hr.outVel, hr.endDep,
      hr.endVel, hr.closed, ← hr.rivDep, ← hr.riverElev, ← hld.rivZ, hld.rivDep]
  have hcold : ld.LagoonVel.all (· ==? fin 0) = false := by
    rw [hld.lagVel, hr.lagVel, List.all_eq_false]
    obtain ⟨v, hv, hv0⟩ := hwarm
    exact ⟨v, hv, by simp [hv0]⟩
  unfold initial at h0
  simp only [bind_ok, pure_ok] at h0
  obtain ⟨fl, a1, sl, a2, w, a3, c, hc, q, a4, sq, a5, ⟨dep, vel⟩, a6, hyd, a7, d, a8, v, a9, cw, a10, rfl⟩ := h0
  rw [hcold] at a6 a7
  simp only [Bool.false_eq_true, if_false] at a6 a7
  cases a6
  cases a7
  change assembleChannel e.pp (firstChan ld e.Dx) = .ok c at hc
  rw [hch] at hc
  obtain ⟨k1, k2⟩ := river_kept hc (by show s.RivDep.length = s.RiverElev.length; rw [hs.rd, hs.riv]) (by show s.RivVel.length = s.RiverElev.length; rw [hs.rv, hs.riv])
    hs.ed hs.ev hdn hvn
  refine ⟨⟨rfl, hdt.symm, rfl, ?_, ?_, ?_, ?_, ?_, ?_, k1, k2, ?_, hcl⟩, rfl⟩
  · exact hld.rows.trans hr.rows
  · exact hld.endX0.trans hr.endX0
  · exact hld.endX1.trans hr.endX1
  · exact hld.endW.trans hr.endWidth
  · exact hld.endZ.trans hr.endElev
  · exact hld.rivZ.trans hr.riverElev
  · show (⟨ld.LagoonWL, ld.LagoonVel, ld.OutletDep, ld.OutletVel, ld.EndDep, ld.EndVel⟩ : HydStore K) = s.hyd
    rw [hld.lagWL, hld.lagVel, hld.outDep, hld.outVel, hld.endDep, hld.endVel, hr.lagWL, hr.lagVel, hr.outDep, hr.outVel, hr.endDep, hr.endVel]

/-- C97, partial: a run started from a record goes on as the run that wrote it would have done, pass for pass, if the step
was MorDtMin when the record was written, the lagoon was not still everywhere, depths and velocities in the river are
numbers, the record holds the state (see C96) and the channel opened or closed flag is confirmed when the channel is first
assembled.  (Missing: other steps, lagoons without any flow, which are started as if from a cold start, and flags that
change when the channel is first assembled.) -/
theorem C97_partial {e : Env K} (hP : PartsLen e.parts) {ld0 : LoadOut K} (hl : LoadSized ld0) {si s t : CoreSt K}
    {tr tr2 : List (CoreSt K × PassOut K × CoreSt K)} (hi : initial e ld0 = .ok si) (h : Run e si tr s) {r : Snapshot K} (hr : RecordOf s r)
    {ld : LoadOut K} (hld : Restored r ld) {oo : OutOpts} (hdt : s.dt = e.tp.MorDtMin) (hwarm : ∃ v ∈ s.hyd.LagoonVel, (v ==? fin 0) = false)
    (hdn : ∀ x ∈ s.RivDep, x.isnan = false) (hvn : ∀ x ∈ s.RivVel, x.isnan = false) {s0' : CoreSt K}
    (h0 : initial (restart e s oo) ld = .ok s0') (hcl : s0'.Closed = s.Closed) (h2 : Run e s tr2 t) :
    ∃ tr' t', Run (restart e s oo) s0' tr' t' ∧
      List.Forall₂ (fun x y => SameCoast x.1 y.1 ∧ y.2.1 = x.2.1 ∧ SameCoast x.2.2 y.2.2) tr2 tr' ∧ SameCoast t t' := by
  obtain ⟨hsz, _⟩ := run_sized hP hl hi h
  obtain ⟨i1, i2⟩ := initial_restart hsz hr hld hdt hwarm hdn hvn h0 hcl
  suffices key : Sized (ld0.rows.map (·.x)) ld0.RiverElev.length t ∧ ∃ tr' t', Run (restart e s oo) s0' tr' t' ∧
      List.Forall₂ (fun x y => SameCoast x.1 y.1 ∧ y.2.1 = x.2.1 ∧ SameCoast x.2.2 y.2.2) tr2 tr' ∧ SameCoast t t' ∧ t.passes = s.passes + t'.passes by
    obtain ⟨_, tr', t', k1, k2, k3, _⟩ := key
    exact ⟨tr', t', k1, k2, k3⟩
  induction h2 with
  | start => exact ⟨hsz, [], s0', .start, .nil, i1, by rw [i2]; rfl⟩
  | @pass tr2 t u p hrun hle hp ih =>
    obtain ⟨hst, tr', t', k1, k2, k3, k4⟩ := ih
    have hp' := hp
    unfold Verif.Model.pass at hp'
    simp only [bind_ok, pure_ok] at hp'
    obtain ⟨p1, hc, u1, ha, he⟩ := hp'
    cases he
    have hc' := compute_restart k3 k4 oo (e := e)
    rw [hc] at hc'
    have hok := compute_ok hP hst hc
    obtain ⟨u', ha'⟩ := advance_total (e := restart e s oo) (coast_sized k3 hst) hok
    obtain ⟨j1, j2, j3⟩ := advance_restart k3 ha ha'
    have hle' : t'.time ≤ (restart e s oo).tp.EndTime := by
      have : t'.time = t.time := k3.time
      rw [this]
      exact hle
    refine ⟨(pass_sized hP hst hp).1, tr' ++ [(t', p, u')], u', .pass k1 hle' (bind_ok.mpr ⟨p, hc', bind_ok.mpr ⟨u', ha', rfl⟩⟩), ?_, j1, by omega⟩
    exact List.rel_append k2 (.cons ⟨k3, rfl, j1⟩ .nil)

/-- The example with a smallest step of 120 s, until 1000 s. -/
def coEven : Env ℚ := withEnd { coEnv with tp := { coEnv.tp with MorDtMin := 120 * sec } } (1000 * sec)

/-- The example, written after 120 s, read by `hotStart` and continued. -/
example : ∃ (s0 s t s0' : CoreSt ℚ) (p q : PassOut ℚ) (r : Snapshot ℚ) (f : NcFile ℚ) (ld : LoadOut ℚ),
    initial coEven coLoad = .ok s0 ∧ Run coEven s0 [(s0, p, s)] s ∧ RecordOf s r ∧ s.outs = s0.outs ++ [r] ∧
    writeAll exact (emptyFile exact (coLoad.rows.map (·.x)) coLoad.RiverElev) s.outs = .ok f ∧ hotStart f s.time coEven.Dx = .ok (ld, s.time) ∧
    Restored r ld ∧ s.dt = coEven.tp.MorDtMin ∧ (∃ v ∈ s.hyd.LagoonVel, (v ==? fin 0) = false) ∧ (∀ x ∈ s.RivDep, x.isnan = false) ∧
    (∀ x ∈ s.RivVel, x.isnan = false) ∧ initial (restart coEven s coEven.oo) ld = .ok s0' ∧ s0'.Closed = s.Closed ∧ Run coEven s [(s, q, t)] t := by
  have h : okAnd (initial coEven coLoad) (fun s0 => okAnd (pass coEven s0) (fun x => okAnd (pass coEven x.2) (fun _ =>
      okAnd (writeAll exact (emptyFile exact (coLoad.rows.map (·.x)) coLoad.RiverElev) x.2.outs) (fun f =>
      okAnd (hotStart f x.2.time coEven.Dx) (fun l => okAnd (initial (restart coEven x.2 coEven.oo) l.1) (fun s0' =>
        decide (l.2 = x.2.time) && (!x.1.mor.Breach && (decide (s0.outTime ≤ x.2.time) && (decide (s0.time ≤ coEven.tp.EndTime) &&
        (decide (x.2.time ≤ coEven.tp.EndTime) && (decide (x.2.dt = coEven.tp.MorDtMin) && (decide (∃ v ∈ x.2.hyd.LagoonVel, (v ==? fin 0) = false) &&
        (decide (∀ y ∈ x.2.RivDep, y.isnan = false) && (decide (∀ y ∈ x.2.RivVel, y.isnan = false) && (decide (s0'.Closed = x.2.Closed) &&
        (decide (l.1.rows = x.2.rows ∧ l.1.RiverElev = x.2.RiverElev ∧ l.1.EndX0 = x.2.EndX0 ∧ l.1.EndX1 = x.2.EndX1 ∧ l.1.EndWidth = x.2.EndWidth ∧
          l.1.EndElev = x.2.EndElev ∧ l.1.RiverVel = x.2.RivVel ∧ List.zipWith (· - ·) l.1.RiverWL l.1.RiverElev = x.2.RivDep ∧
          l.1.LagoonWL = x.2.hyd.LagoonWL ∧ l.1.LagoonVel = x.2.hyd.LagoonVel ∧ l.1.OutletDep = x.2.hyd.OutletDep ∧ l.1.OutletVel = x.2.hyd.OutletVel ∧
          l.1.EndDep = x.2.hyd.EndDep ∧ l.1.EndVel = x.2.hyd.EndVel ∧ l.1.Closed = x.2.Closed))))))))))))))))) = true := by
    decide +kernel
  obtain ⟨s0, h0, h⟩ := okAnd_iff.mp h
  obtain ⟨⟨p, s⟩, h1, h⟩ := okAnd_iff.mp h
  obtain ⟨⟨q, t⟩, h2, h⟩ := okAnd_iff.mp h
  obtain ⟨f, h3, h⟩ := okAnd_iff.mp h
  obtain ⟨⟨ld, a⟩, h4, h⟩ := okAnd_iff.mp h
  obtain ⟨s0', h5, h⟩ := okAnd_iff.mp h
  simp only [Bool.and_eq_true, decide_eq_true_eq, Bool.not_eq_true'] at h
  obtain ⟨rfl, k1, k2, k3, k4, k5, k6, k7, k8, k9, c1, c2, c3, c4, c5, c6, c7, c8, c9, c10, c11, c12, c13, c14, c15⟩ := h
  rcases (pass_inv h1).2.outs with ⟨g, _⟩ | ⟨_, _, bl, g, _⟩
  · omega
  · have hr := (C96_partial h1 _ g).2.mpr (by rw [k1]; simp)
    exact ⟨s0, s, t, s0', p, q, _, f, ld, h0, .pass .start k3 h1, hr, g, h3, h4,
      ⟨c1.trans hr.rows.symm, c2.trans hr.riverElev.symm, c3.trans hr.endX0.symm, c4.trans hr.endX1.symm, c5.trans hr.endWidth.symm,
        c6.trans hr.endElev.symm, c7.trans hr.rivVel.symm, c8.trans hr.rivDep.symm, c9.trans hr.lagWL.symm, c10.trans hr.lagVel.symm,
        c11.trans hr.outDep.symm, c12.trans hr.outVel.symm, c13.trans hr.endDep.symm, c14.trans hr.endVel.symm, c15.trans hr.closed.symm⟩,
      k5, k6, k7, k8, h5, k9, .pass .start k4 h2⟩

end Verif.Props
