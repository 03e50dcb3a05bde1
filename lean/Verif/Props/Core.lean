import Verif.Lemmas.Run
import Verif.Props.CoreSample

set_option autoImplicit false
set_option linter.unusedSectionVars false

/-! # C54-C58: the main loop

A run starts from the state `s0` set up before the loop (`initial`); `tr` lists its passes (state before, what was
computed, state after); `s` is the state reached. -/

namespace Verif.Props
open Verif Verif.Model Verif.Spec Fl

variable {K : Type} [Field K] [LinearOrder K] [IsStrictOrderedRing K] [FloorRing K]

/-- A run of three passes used as an example.  It ends with an IndexError. -/
theorem co_run : ∃ (s0 : CoreSt ℚ) (tr : List (CoreSt ℚ × PassOut ℚ × CoreSt ℚ)) (s : CoreSt ℚ),
    initial coEnv coLoad = .ok s0 ∧ Run coEnv s0 tr s ∧ tr.map (fun x => x.1.time) = [0, 120 * sec, 150 * sec] ∧
    s.time = 150 * sec ∧ s.dt = 0 ∧ tr.map (fun x => x.2.1.window.length) = [3, 12, 3] ∧ pass coEnv s = .error .index ∧
    s.outs.map (fun r => r.time) = [0, 120 * sec, 150 * sec] ∧ s.ts.map (fun r => r.time) = [0, 120 * sec, 150 * sec, 150 * sec] := by
  have h : okAnd (initial coEnv coLoad) (fun s0 => okAnd (trace coEnv s0 3) (fun x =>
      decide (x.1.map (fun x => x.1.time) = [0, 120 * sec, 150 * sec]) && (decide (x.2.time = 150 * sec) && (decide (x.2.dt = 0) &&
      (decide (x.1.map (fun x => x.2.1.window.length) = [3, 12, 3]) &&
      ((match pass coEnv x.2 with | .error .index => true | _ => false) &&
      (decide (x.2.outs.map (fun r => r.time) = [0, 120 * sec, 150 * sec]) &&
      decide (x.2.ts.map (fun r => r.time) = [0, 120 * sec, 150 * sec, 150 * sec])))))))) = true := by decide +kernel
  obtain ⟨s0, h0, h⟩ := okAnd_iff.mp h
  obtain ⟨⟨tr, s⟩, h1, h⟩ := okAnd_iff.mp h
  simp only [Bool.and_eq_true, decide_eq_true_eq] at h
  obtain ⟨a, b, c, d, f, g, k⟩ := h
  refine ⟨s0, tr, s, h0, (trace_run h1).1, a, b, c, d, ?_, g, k⟩
  split at f
  · assumption
  · cases f

/-! ## C54 -/

/-- C54: the time never decreases and never exceeds EndTime; every record of both files has a time between StartTime
and EndTime. -/
theorem C54_time {e : Env K} {ld : LoadOut K} {s0 s : CoreSt K} {tr : List (CoreSt K × PassOut K × CoreSt K)}
    (hse : e.tp.StartTime ≤ e.tp.EndTime) (hmin : 0 ≤ e.tp.MorDtMin) (h0 : initial e ld = .ok s0) (h : Run e s0 tr s) :
    s.time ≤ e.tp.EndTime ∧ (∀ x ∈ tr, x.1.time ≤ x.2.2.time) ∧
    Within e.tp.StartTime e.tp.EndTime (s.outs.map (·.time)) ∧ Within e.tp.StartTime e.tp.EndTime (s.ts.map (·.time)) := by
  have hi0 := TimeInv.initial h0 hse hmin
  have hi := h.timeInv hi0
  refine ⟨hi.hi, ?_, ?_, ?_⟩
  · intro x hx
    obtain ⟨_, hp, tr', hr⟩ := h.trace_inv hx
    exact ((hr.timeInv hi0).step hp).2
  · intro t ht
    obtain ⟨r, hr, rfl⟩ := List.mem_map.mp ht
    exact ⟨(hi.outs r hr).1, (hi.outs r hr).2.trans hi.hi⟩
  · intro t ht
    obtain ⟨r, hr, rfl⟩ := List.mem_map.mp ht
    exact ⟨(hi.ts r hr).1, (hi.ts r hr).2.trans hi.hi⟩

/-- The hypotheses hold in the example run. -/
example : coEnv.tp.StartTime ≤ coEnv.tp.EndTime ∧ 0 ≤ coEnv.tp.MorDtMin ∧ ∃ s0 tr s, initial coEnv coLoad = .ok s0 ∧ Run coEnv s0 tr s ∧ tr ≠ [] := by
  obtain ⟨s0, tr, s, h0, h, ht, _⟩ := co_run
  exact ⟨by decide, by decide, s0, tr, s, h0, h, by rintro rfl; cases ht⟩

/-! ## C55 -/

/-- C55 refuted: the run of the example reaches EndTime and then fails with an IndexError. -/
theorem C55_refuted : ∃ (s0 : CoreSt ℚ) (tr : List (CoreSt ℚ × PassOut ℚ × CoreSt ℚ)) (s : CoreSt ℚ),
    initial coEnv coLoad = .ok s0 ∧ Run coEnv s0 tr s ∧ s.time = coEnv.tp.EndTime ∧ pass coEnv s = .error .index := by
  obtain ⟨s0, tr, s, h0, h, _, ht, _, _, hp, _⟩ := co_run
  exact ⟨s0, tr, s, h0, h, ht, hp⟩

/-- C55 refuted, in general: no run returns normally. -/
theorem C55_refuted_general {e : Env K} {ld : LoadOut K} {s : CoreSt K}
    (hse : e.tp.StartTime ≤ e.tp.EndTime) (hmin : 0 ≤ e.tp.MorDtMin) : ¬ Returns e ld s := by
  rintro ⟨s0, tr, h0, h, hn⟩
  exact hn (C54_time hse hmin h0 h).1

/-- With a positive MorDtMin, a run makes no more than `(EndTime - StartTime) / d + 2` passes, where `d` is the smaller of
MorDtMin and half a second. -/
theorem passes_bounded {e : Env K} {ld : LoadOut K} {s0 s : CoreSt K} {tr : List (CoreSt K × PassOut K × CoreSt K)}
    (hse : e.tp.StartTime ≤ e.tp.EndTime) (hmin : 0 < e.tp.MorDtMin) (h0 : initial e ld = .ok s0) (h : Run e s0 tr s) :
    (tr.length : ℤ) ≤ (e.tp.EndTime - e.tp.StartTime) / min e.tp.MorDtMin 500000000 + 2 := by
  have hi0 := TimeInv.initial h0 hse hmin.le
  have hi := h.timeInv hi0
  obtain ⟨t0, d0, _⟩ := initial_inv h0
  have hd : 0 < min e.tp.MorDtMin 500000000 := by omega
  have hl := h.lower hi0 (d := min e.tp.MorDtMin 500000000) (by rw [d0]; exact min_le_left _ _) (min_le_right _ _) hd
  generalize min e.tp.MorDtMin 500000000 = d at *
  have key : ∀ n : ℤ, e.tp.StartTime + n * d ≤ e.tp.EndTime → n ≤ (e.tp.EndTime - e.tp.StartTime) / d := by
    intro n hn
    rw [Int.le_ediv_iff_mul_le hd]
    omega
  have hhi := hi.hi
  rw [t0] at hl
  rcases hl with ⟨_, a⟩ | ⟨_, a, _⟩ | ⟨_, a, _⟩
  · have := key _ (a.trans hhi); omega
  · have := key _ (a.trans hhi); omega
  · have := key _ (a.trans hhi); omega

/-- C55, partial: with a positive MorDtMin, every run comes to an end: it cannot go on for ever, and the only way in which it
stops is by an exception, raised in some pass with the time not beyond EndTime.  (Missing: it should return.) -/
theorem C55_partial {e : Env K} {ld : LoadOut K} {s0 : CoreSt K} (hse : e.tp.StartTime ≤ e.tp.EndTime) (hmin : 0 < e.tp.MorDtMin)
    (h0 : initial e ld = .ok s0) :
    (∃ N : ℕ, ∀ tr s, Run e s0 tr s → tr.length ≤ N) ∧
    ∃ (tr : List (CoreSt K × PassOut K × CoreSt K)) (s : CoreSt K) (err : PyErr),
      Run e s0 tr s ∧ s.time ≤ e.tp.EndTime ∧ pass e s = .error err := by
  have hb : ∀ tr s, Run e s0 tr s → tr.length ≤ ((e.tp.EndTime - e.tp.StartTime) / min e.tp.MorDtMin 500000000 + 2).toNat := by
    intro tr s h
    have := passes_bounded hse hmin h0 h
    omega
  refine ⟨⟨_, hb⟩, ?_⟩
  by_contra hno
  have hall : ∀ n : ℕ, ∃ tr s, Run e s0 tr s ∧ tr.length = n := by
    intro n
    induction n with
    | zero => exact ⟨[], s0, .start, rfl⟩
    | succ n ih =>
      obtain ⟨tr, s, hr, hl⟩ := ih
      have hle := (C54_time hse hmin.le h0 hr).1
      rcases hp : pass e s with err | ⟨p, s'⟩
      · exact absurd ⟨tr, s, err, hr, hle, hp⟩ hno
      · exact ⟨_, _, .pass hr hle hp, by simp [hl]⟩
  obtain ⟨tr, s, hr, hl⟩ := hall (((e.tp.EndTime - e.tp.StartTime) / min e.tp.MorDtMin 500000000 + 2).toNat + 1)
  have := hb tr s hr
  omega

/-- C55, partial: a run that has made at least `(EndTime - StartTime) / d + 1` passes has reached EndTime, so the model time does
get there unless a pass raises. -/
theorem C55_reaches_partial {e : Env K} {ld : LoadOut K} {s0 s : CoreSt K} {tr : List (CoreSt K × PassOut K × CoreSt K)}
    (hse : e.tp.StartTime ≤ e.tp.EndTime) (hmin : 0 < e.tp.MorDtMin) (h0 : initial e ld = .ok s0) (h : Run e s0 tr s)
    (hn : (e.tp.EndTime - e.tp.StartTime) / min e.tp.MorDtMin 500000000 + 1 ≤ tr.length) : s.time = e.tp.EndTime := by
  have hi0 := TimeInv.initial h0 hse hmin.le
  have hi := h.timeInv hi0
  obtain ⟨t0, d0, _⟩ := initial_inv h0
  have hd : 0 < min e.tp.MorDtMin 500000000 := by omega
  have hl := h.lower hi0 (d := min e.tp.MorDtMin 500000000) (by rw [d0]; exact min_le_left _ _) (min_le_right _ _) hd
  generalize min e.tp.MorDtMin 500000000 = d at *
  have hhi := hi.hi
  rw [t0] at hl
  rcases hl with ⟨_, a⟩ | ⟨a, _, _⟩ | ⟨a, _, _⟩
  · exfalso
    have : (tr.length : ℤ) ≤ (e.tp.EndTime - e.tp.StartTime) / d := by
      rw [Int.le_ediv_iff_mul_le hd]
      omega
    omega
  · exact a
  · exact a

/-- C55: what happens at the end.  Once EndTime is reached at most one more pass succeeds. -/
theorem C55_end {e : Env K} {s s' s'' : CoreSt K} {p p' : PassOut K} (ht : s.time = e.tp.EndTime) (hd : 0 ≤ s.dt)
    (h1 : pass e s = .ok (p, s')) : pass e s' ≠ .ok (p', s'') := by
  intro h2
  obtain ⟨a, b, c⟩ := step_nonneg h1 hd ht.le
  have ha := (pass_inv h1).2
  have hdt : s'.dt = 0 := by rw [ha.dt]; omega
  obtain ⟨⟨fl, sl, hc⟩, _⟩ := pass_inv h2
  have hw := hc.window
  unfold hydTimes at hw
  split at hw
  · cases hw
  · rw [hdt] at hw
    simp only [Int.zero_ediv, Int.toNat_zero, List.range_zero] at hw
    exact pass_empty h2 (ok_inj.mp hw).symm

/-! ## C56 -/

/-- C56: the number of records of either file up to any time is at most one per interval elapsed and the initial one, and
their times never decrease. -/
theorem C56_cadence {e : Env K} {ld : LoadOut K} {s0 s : CoreSt K} {tr : List (CoreSt K × PassOut K × CoreSt K)}
    (hse : e.tp.StartTime ≤ e.tp.EndTime) (hmin : 0 ≤ e.tp.MorDtMin) (ho : 0 < e.oo.OutInt) (hts : 0 < e.oo.TsOutInt)
    (h0 : initial e ld = .ok s0) (h : Run e s0 tr s) :
    AtMostPerInterval e.tp.StartTime e.oo.OutInt (s.outs.map (·.time)) ∧ NonDecreasing (s.outs.map (·.time)) ∧
    AtMostPerInterval e.tp.StartTime e.oo.TsOutInt (s.ts.map (·.time)) ∧ NonDecreasing (s.ts.map (·.time)) := by
  have hi0 := TimeInv.initial h0 hse hmin
  obtain ⟨t0, d0, o0, ts0, _, ⟨r, e1, e2, _⟩, ⟨r', e3, e4⟩, _⟩ := initial_inv h0
  have hs : Sched e.tp.StartTime e.oo.OutInt s.time s.outTime (s.outs.map (·.time)) ∧
      Sched e.tp.StartTime e.oo.TsOutInt s.time s.tsTime (s.ts.map (·.time)) := by
    induction h with
    | start =>
      constructor
      · rw [e1, List.map_singleton, e2]
        refine ⟨by rw [o0]; simp, by simp, by intro t ht; rw [List.mem_singleton] at ht; omega, ?_⟩
        intro k t hk
        rw [List.getElem?_singleton] at hk
        split at hk
        · next hz => cases hk; simp [hz]
        · cases hk
      · rw [e3, List.map_singleton, e4]
        refine ⟨by rw [ts0]; simp, by simp, by intro t ht; rw [List.mem_singleton] at ht; omega, ?_⟩
        intro k t hk
        rw [List.getElem?_singleton] at hk
        split at hk
        · next hz => cases hk; simp [hz]
        · cases hk
    | pass hr _ hp ih =>
      obtain ⟨_, hle⟩ := (hr.timeInv hi0).step hp
      obtain ⟨_, ha⟩ := pass_inv hp
      exact ⟨ih.1.step hle (outs_step ha), ih.2.step hle (ts_step ha)⟩
  exact ⟨hs.1.atMost ho, hs.1.sorted, hs.2.atMost hts, hs.2.sorted⟩

/-- C56: while steps are no longer than the output interval, no scheduled output is skipped. -/
theorem C56_no_skip {e : Env K} {ld : LoadOut K} {s0 s : CoreSt K} {tr : List (CoreSt K × PassOut K × CoreSt K)}
    (hse : e.tp.StartTime ≤ e.tp.EndTime) (hmin : 0 ≤ e.tp.MorDtMin) (ho : 0 < e.oo.OutInt)
    (h0 : initial e ld = .ok s0) (h : Run e s0 tr s) (hstep : ∀ x ∈ tr, x.2.2.time - x.1.time ≤ e.oo.OutInt) :
    NoneSkipped e.tp.StartTime e.oo.OutInt s.time (s.outs.map (·.time)) := by
  have hi0 := TimeInv.initial h0 hse hmin
  obtain ⟨t0, d0, o0, ts0, _, ⟨r, e1, e2, _⟩, ⟨r', e3, e4⟩, _⟩ := initial_inv h0
  have hs : Tight e.tp.StartTime e.oo.OutInt s.time s.outTime (s.outs.map (·.time)) := by
    induction h with
    | start =>
      rw [e1, List.map_singleton, e2]
      refine ⟨⟨by rw [o0]; simp, by simp, by intro t ht; rw [List.mem_singleton] at ht; omega, ?_⟩, by omega, ?_⟩
      · intro k t hk
        rw [List.getElem?_singleton] at hk
        split at hk
        · next hz => cases hk; simp [hz]
        · cases hk
      · intro k t hk
        rw [List.getElem?_singleton] at hk
        split at hk
        · next hz => cases hk; simp [hz, ho]
        · cases hk
    | @pass tr s s' p hr _ hp ih =>
      obtain ⟨_, hle⟩ := (hr.timeInv hi0).step hp
      obtain ⟨_, ha⟩ := pass_inv hp
      have hl := hstep (s, p, s') (by simp)
      exact (ih (fun x hx => hstep x (List.mem_append_left _ hx))).step hle hl (outs_step ha)
  exact hs.noneSkipped ho

/-- C56: the same for the time series file. -/
theorem C56_no_skip_ts {e : Env K} {ld : LoadOut K} {s0 s : CoreSt K} {tr : List (CoreSt K × PassOut K × CoreSt K)}
    (hse : e.tp.StartTime ≤ e.tp.EndTime) (hmin : 0 ≤ e.tp.MorDtMin) (ho : 0 < e.oo.TsOutInt)
    (h0 : initial e ld = .ok s0) (h : Run e s0 tr s) (hstep : ∀ x ∈ tr, x.2.2.time - x.1.time ≤ e.oo.TsOutInt) :
    NoneSkipped e.tp.StartTime e.oo.TsOutInt s.time (s.ts.map (·.time)) := by
  have hi0 := TimeInv.initial h0 hse hmin
  obtain ⟨t0, d0, o0, ts0, _, ⟨r, e1, e2, _⟩, ⟨r', e3, e4⟩, _⟩ := initial_inv h0
  have hs : Tight e.tp.StartTime e.oo.TsOutInt s.time s.tsTime (s.ts.map (·.time)) := by
    induction h with
    | start =>
      rw [e3, List.map_singleton, e4]
      refine ⟨⟨by rw [ts0]; simp, by simp, by intro t ht; rw [List.mem_singleton] at ht; omega, ?_⟩, by omega, ?_⟩
      · intro k t hk
        rw [List.getElem?_singleton] at hk
        split at hk
        · next hz => cases hk; simp [hz]
        · cases hk
      · intro k t hk
        rw [List.getElem?_singleton] at hk
        split at hk
        · next hz => cases hk; simp [hz, ho]
        · cases hk
    | @pass tr s s' p hr _ hp ih =>
      obtain ⟨_, hle⟩ := (hr.timeInv hi0).step hp
      obtain ⟨_, ha⟩ := pass_inv hp
      have hl := hstep (s, p, s') (by simp)
      exact (ih (fun x hx => hstep x (List.mem_append_left _ hx))).step hle hl (ts_step ha)
  exact hs.noneSkipped ho

/-- The intervals of the example are positive; with the step limited to 60 s its steps are no longer than the output
interval, and the records come at 0, 60, 120 and 150 s (the last one was due at 180 s if at all: see `co_run` for
how a long step makes records come early afterwards). -/
def coEnv60 : Env ℚ := { coEnv with tp := { coEnv.tp with MorDtMax := 60 * sec } }

example : 0 < coEnv60.oo.OutInt ∧ 0 < coEnv60.oo.TsOutInt ∧ ∃ s0 tr s, initial coEnv60 coLoad = .ok s0 ∧ Run coEnv60 s0 tr s ∧
    (∀ x ∈ tr, x.2.2.time - x.1.time ≤ coEnv60.oo.OutInt) ∧ s.outs.map (fun r => r.time) = [0, 60 * sec, 120 * sec] ∧ s.time = 150 * sec := by
  have h : okAnd (initial coEnv60 coLoad) (fun s0 => okAnd (trace coEnv60 s0 3) (fun x =>
      decide (∀ y ∈ x.1, y.2.2.time - y.1.time ≤ coEnv60.oo.OutInt) && (decide (x.2.outs.map (fun r => r.time) = [0, 60 * sec, 120 * sec]) &&
      decide (x.2.time = 150 * sec)))) = true := by decide +kernel
  obtain ⟨s0, h0, h⟩ := okAnd_iff.mp h
  obtain ⟨⟨tr, s⟩, h1, h⟩ := okAnd_iff.mp h
  simp only [Bool.and_eq_true, decide_eq_true_eq] at h
  exact ⟨by decide, by decide, s0, tr, s, h0, (trace_run h1).1, h⟩

/-! ## C57 -/

/-- The time covered by the hydraulics in a pass: as many steps of HydDt as there are times at which flow and sea
level are given to the solver, from the time at the start of the pass. -/
def hydWindow (e : Env K) (x : CoreSt K × PassOut K × CoreSt K) : ℤ × ℤ := (x.1.time, x.1.time + e.tp.HydDt * x.2.1.window.length)

/-- The time over which morphology is advanced in a pass. -/
def morWindow (x : CoreSt K × PassOut K × CoreSt K) : ℤ × ℤ := (x.1.time, x.2.2.time)

/-- C57 refuted: in the example run the hydraulics cover 30 s, 120 s and 30 s while morphology advances by 120 s, 30 s and
nothing, so the windows neither match nor tile. -/
theorem C57_refuted : ∃ (s0 : CoreSt ℚ) (tr : List (CoreSt ℚ × PassOut ℚ × CoreSt ℚ)) (s : CoreSt ℚ),
    initial coEnv coLoad = .ok s0 ∧ Run coEnv s0 tr s ∧
    tr.map (hydWindow coEnv) = [(0, 30 * sec), (120 * sec, 240 * sec), (150 * sec, 180 * sec)] ∧
    tr.map morWindow = [(0, 120 * sec), (120 * sec, 150 * sec), (150 * sec, 150 * sec)] := by
  have h : okAnd (initial coEnv coLoad) (fun s0 => okAnd (trace coEnv s0 3) (fun x =>
      decide (x.1.map (hydWindow coEnv) = [(0, 30 * sec), (120 * sec, 240 * sec), (150 * sec, 180 * sec)]) &&
      decide (x.1.map morWindow = [(0, 120 * sec), (120 * sec, 150 * sec), (150 * sec, 150 * sec)]))) = true := by decide +kernel
  obtain ⟨s0, h0, h⟩ := okAnd_iff.mp h
  obtain ⟨⟨tr, s⟩, h1, h⟩ := okAnd_iff.mp h
  simp only [Bool.and_eq_true, decide_eq_true_eq] at h
  exact ⟨s0, tr, s, h0, (trace_run h1).1, h⟩

/-- C57 refuted, in general: every pass made at EndTime runs the hydraulics beyond EndTime while morphology does not
advance. -/
theorem C57_refuted_general {e : Env K} {s s' : CoreSt K} {p : PassOut K} (hh : 0 < e.tp.HydDt) (ht : s.time = e.tp.EndTime) (hd : 0 ≤ s.dt)
    (h : pass e s = .ok (p, s')) : (hydWindow e (s, p, s')).2 > e.tp.EndTime ∧ (morWindow (s, p, s')).2 = e.tp.EndTime := by
  obtain ⟨a, b, c⟩ := step_nonneg h hd ht.le
  have ha := (pass_inv h).2.time
  have hw : 0 < p.window.length := List.length_pos_iff.mpr (pass_empty h)
  refine ⟨?_, show s'.time = _ by omega⟩
  show s.time + e.tp.HydDt * p.window.length > _
  have : 0 < e.tp.HydDt * (p.window.length : ℤ) := mul_pos hh (by exact_mod_cast hw)
  omega

/-- The times in the window, and their number. -/
theorem window_length {e : Env K} {s s' : CoreSt K} {p : PassOut K} (hd : 0 ≤ s.dt) (hh : 0 < e.tp.HydDt) (h : pass e s = .ok (p, s')) :
    (p.window.length : ℤ) = s.dt / e.tp.HydDt ∧ ∀ (k : ℕ) (t : ℤ), p.window[k]? = some t → t = s.time + (k + 1) * e.tp.HydDt := by
  obtain ⟨⟨fl, sl, hc⟩, _⟩ := pass_inv h
  have hw := hc.window
  unfold hydTimes at hw
  rw [if_neg hh.ne'] at hw
  rw [← ok_inj.mp hw]
  constructor
  · rw [List.length_map, List.length_range]
    exact Int.toNat_of_nonneg (Int.ediv_nonneg hd hh.le)
  · intro k t hk
    rw [List.getElem?_map] at hk
    obtain ⟨i, hi, rfl⟩ := Option.map_eq_some_iff.mp hk
    obtain ⟨_, rfl⟩ := List.getElem?_eq_some_iff.mp hi
    simp

/-- C57, partial: the hydraulics of a pass cover the whole hydraulic steps in the step chosen at the end of the pass before,
and the two windows are the same when that step is a multiple of HydDt, `updateMorphology` keeps it, and it does not lead
beyond EndTime.  (Missing: the step changes.) -/
theorem C57_partial {e : Env K} {s s' : CoreSt K} {p : PassOut K} (hd : 0 ≤ s.dt) (hh : 0 < e.tp.HydDt) (h : pass e s = .ok (p, s')) :
    hydWindow e (s, p, s') = (s.time, s.time + (s.dt - s.dt % e.tp.HydDt)) ∧
    (e.tp.HydDt ∣ s.dt → p.mor.MorDt = s.dt → s.time + s.dt ≤ e.tp.EndTime → hydWindow e (s, p, s') = morWindow (s, p, s')) := by
  have hl := (window_length hd hh h).1
  have h1 : hydWindow e (s, p, s') = (s.time, s.time + (s.dt - s.dt % e.tp.HydDt)) := by
    show (s.time, s.time + e.tp.HydDt * (p.window.length : ℤ)) = _
    rw [hl, Int.emod_def]
    congr 1
    ring
  refine ⟨h1, fun hdvd hm hend => ?_⟩
  rw [h1, Int.emod_eq_zero_of_dvd hdvd, sub_zero]
  show _ = (s.time, s'.time)
  rw [(pass_inv h).2.time]
  unfold stepOf
  rw [if_neg (by omega), hm]

/-- The steps for which the windows agree, exactly. -/
theorem C57_iff_partial {e : Env K} {s s' : CoreSt K} {p : PassOut K} (hd : 0 ≤ s.dt) (hh : 0 < e.tp.HydDt) (h : pass e s = .ok (p, s')) :
    hydWindow e (s, p, s') = morWindow (s, p, s') ↔ s.dt - s.dt % e.tp.HydDt = min p.mor.MorDt (e.tp.EndTime - s.time) := by
  rw [(C57_partial hd hh h).1]
  show _ = (s.time, s'.time) ↔ _
  rw [(pass_inv h).2.time, Prod.mk.injEq]
  simp only [true_and, add_right_inj]
  unfold stepOf
  split <;> omega

/-- The windows of the passes of a run tile if in each of them the two windows are the same. -/
theorem C57_tile_partial {e : Env K} {s0 s : CoreSt K} {tr : List (CoreSt K × PassOut K × CoreSt K)} (h : Run e s0 tr s)
    (heq : ∀ x ∈ tr, hydWindow e x = morWindow x) : Tile (tr.map (hydWindow e)) := by
  suffices hs : Tile (tr.map (hydWindow e)) ∧ ∀ w, (tr.map (hydWindow e)).getLast? = some w → w.2 = s.time from hs.1
  induction h with
  | start => exact ⟨trivial, fun w hw => by cases hw⟩
  | @pass tr s s' p hr _ hp ih =>
    obtain ⟨i1, i2⟩ := ih (fun x hx => heq x (List.mem_append_left _ hx))
    have hlast := heq (s, p, s') (by simp)
    have tile_snoc : ∀ (l : List (ℤ × ℤ)) (w : ℤ × ℤ), Tile l → (∀ v, l.getLast? = some v → v.2 = w.1) → Tile (l ++ [w]) := by
      intro l w
      induction l with
      | nil => intro _ _; trivial
      | cons a l ih =>
        intro ht hv
        cases l with
        | nil => exact ⟨hv a rfl, trivial⟩
        | cons b l =>
          refine ⟨ht.1, ih ht.2 (fun v hv' => hv v ?_)⟩
          rw [List.getLast?_cons_cons]; exact hv'
    rw [List.map_append, List.map_singleton]
    refine ⟨tile_snoc _ _ i1 (fun v hv => i2 v hv), ?_⟩
    intro w hw
    rw [List.getLast?_append, List.getLast?_singleton] at hw
    simp only [Option.some_or, Option.some.injEq] at hw
    rw [← hw, hlast]
    rfl

/-- A pass in which the windows agree: the second one of the example with the step limited to 60 s. -/
example : ∃ s p s', pass coEnv60 s = .ok (p, s') ∧ 0 ≤ s.dt ∧ 0 < coEnv60.tp.HydDt ∧ coEnv60.tp.HydDt ∣ s.dt ∧ p.mor.MorDt = s.dt ∧
    s.time + s.dt ≤ coEnv60.tp.EndTime ∧ 0 < s.dt := by
  have h : okAnd (after coEnv60 coLoad 1) (fun s => okAnd (pass coEnv60 s) (fun x => decide (0 ≤ s.dt) && (decide (0 < coEnv60.tp.HydDt) &&
    (decide (coEnv60.tp.HydDt ∣ s.dt) && (decide (x.1.mor.MorDt = s.dt) && (decide (s.time + s.dt ≤ coEnv60.tp.EndTime) && decide (0 < s.dt))))))) = true := by
    decide +kernel
  obtain ⟨s, h0, h⟩ := okAnd_iff.mp h
  obtain ⟨⟨p, s'⟩, h1, h⟩ := okAnd_iff.mp h
  simp only [Bool.and_eq_true, decide_eq_true_eq] at h
  exact ⟨s, p, s', h1, h⟩

/-! ## C58 -/

/-- C58: in every pass, a closed outlet stays closed through channel assembly; after assembly nothing closes the outlet; and
it is opened after assembly exactly if the morphology step reported a breach. -/
theorem C58_transitions {e : Env K} {s0 s : CoreSt K} {tr : List (CoreSt K × PassOut K × CoreSt K)} (h : Run e s0 tr s) :
    ∀ x ∈ tr,
      (∃ a : ChanIn K, a.Closed = x.1.Closed ∧ a.rows = x.1.rows ∧ assembleChannel e.pp a = .ok x.2.1.chan) ∧
      (x.1.Closed = false → x.2.2.Closed = true → x.2.1.chan.closed = true) ∧
      (x.1.Closed = true → x.2.1.chan.closed = true) ∧
      (x.1.Closed = true → (x.2.2.Closed = false ↔ x.2.1.mor.Breach = true)) := by
  intro x hx
  obtain ⟨_, hp, _⟩ := h.trace_inv hx
  obtain ⟨⟨fl, sl, hc⟩, ha⟩ := pass_inv hp
  have hcl := ha.closed
  have hk : x.1.Closed = true → x.2.1.chan.closed = true := fun hc1 => assemble_keeps_closed hc.chan hc1
  refine ⟨⟨_, rfl, rfl, hc.chan⟩, ?_, hk, ?_⟩
  · intro _ h2
    rw [hcl] at h2
    split at h2
    · cases h2
    · exact h2
  · intro h1
    rw [hcl]
    split
    · next hb => simp [hb]
    · next hb => simp [hb, hk h1]

/-- C58: the morphology step works on the transects the channel was assembled from, with the outlet state and the outlet
transects found by the assembly. -/
theorem C58_morphology {e : Env K} {s0 s : CoreSt K} {tr : List (CoreSt K × PassOut K × CoreSt K)} (h : Run e s0 tr s) :
    ∀ x ∈ tr, ∃ (j1 j2 : ℕ → Bool) (a : MorIn K), a.Closed = x.2.1.chan.closed ∧ a.rows = x.1.rows ∧ a.outlet = x.2.1.chan.outlet ∧
      a.online = x.2.1.chan.online ∧ a.ChanFlag = x.2.1.chan.flag ∧ updateMorphology e.pp j1 j2 a = .ok x.2.1.mor := by
  intro x hx
  obtain ⟨_, hp, _⟩ := h.trace_inv hx
  obtain ⟨⟨fl, sl, hc⟩, _⟩ := pass_inv hp
  exact ⟨_, _, _, rfl, rfl, rfl, rfl, rfl, hc.mor⟩

/-- The flag seen by one pass is the one left by the pass before. -/
theorem C58_chain {e : Env K} {s0 s : CoreSt K} {tr : List (CoreSt K × PassOut K × CoreSt K)} (h : Run e s0 tr s) :
    (s0 :: tr.map (fun x => x.2.2)) = tr.map (fun x => x.1) ++ [s] := by
  induction h with
  | start => rfl
  | pass _ _ _ ih => simp only [List.map_append, List.map_singleton, ← ih, List.cons_append]

/-- C58, before the first pass: the outlet is closed if it was loaded as closed or if the first channel assembly closes it. -/
theorem C58_start {e : Env K} {ld : LoadOut K} {s : CoreSt K} (h : initial e ld = .ok s) :
    (∃ (a : ChanIn K) (c : ChanOut K), a.Closed = ld.Closed ∧ a.rows = ld.rows ∧ assembleChannel e.pp a = .ok c ∧ s.Closed = c.closed) ∧
    (ld.Closed = true → s.Closed = true) := by
  refine ⟨?_, (initial_inv h).2.2.2.2.2.2.2⟩
  unfold initial at h
  simp only [bind_ok, pure_ok] at h
  obtain ⟨fl, _, sl, _, w, _, c, hc, q, _, sq, _, ⟨dep, vel⟩, _, hyd, _, d, _, v, _, cw, _, rfl⟩ := h
  exact ⟨_, c, rfl, rfl, hc, rfl⟩

/-- Hydraulics that flood the lagoon. -/
def coFlood : Env ℚ :=
  { coEnv with parts := { coParts with steady := fun c _ _ => .ok (c.elev.map (fun _ => fin 20), c.elev.map (fun _ => fin 1)) } }

/-- A pass that starts with a closed outlet and breaches the barrier. -/
example : ∃ s0 x s, initial coFlood { coLoad with Closed := true } = .ok s0 ∧ Run coFlood s0 [x] s ∧ x.1.Closed = true ∧ x.2.1.mor.Breach = true ∧
    x.2.2.Closed = false := by
  have h : okAnd (initial coFlood { coLoad with Closed := true }) (fun s0 => okAnd (trace coFlood s0 1) (fun x =>
      match x.1 with | [y] => y.1.Closed && (y.2.1.mor.Breach && !y.2.2.Closed) | _ => false)) = true := by decide +kernel
  obtain ⟨s0, h0, h⟩ := okAnd_iff.mp h
  obtain ⟨⟨tr, s⟩, h1, h⟩ := okAnd_iff.mp h
  simp only at h
  split at h
  · simp only [Bool.and_eq_true, Bool.not_eq_true'] at h
    exact ⟨s0, _, s, h0, (trace_run h1).1, h⟩
  · cases h

/-- A pass that starts with an open outlet, which assembly closes since the lagoon is too narrow at 10 m. -/
example : ∃ s0 x s, Run coEnv s0 [x] s ∧ x.1.Closed = false ∧ x.2.1.chan.closed = true ∧ x.2.2.Closed = true := by
  have h : okAnd (initial coEnv coLoad) (fun s0 => okAnd (trace coEnv { s0 with rows := s0.rows.set 5 { brRow 10 with y3 := fin (1/2) } } 1)
      (fun x => match x.1 with | [y] => !y.1.Closed && (y.2.1.chan.closed && y.2.2.Closed) | _ => false)) = true := by decide +kernel
  obtain ⟨s0, h0, h⟩ := okAnd_iff.mp h
  obtain ⟨⟨tr, s⟩, h1, h⟩ := okAnd_iff.mp h
  simp only at h
  split at h
  · simp only [Bool.and_eq_true, Bool.not_eq_true'] at h
    exact ⟨_, _, s, (trace_run h1).1, h⟩
  · cases h

end Verif.Props
