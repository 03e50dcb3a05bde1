import Verif.Props.ClosedFlow

set_option autoImplicit false
set_option linter.unusedSectionVars false

/-! # C194: the timestep recorded in the time series file -/

namespace Verif.Props
open Verif Verif.Model Verif.Spec Fl

variable {K : Type} [Field K] [LinearOrder K] [IsStrictOrderedRing K] [FloorRing K]

/-- The timestep and time on the line that a step writes. -/
theorem ts_step {e : Env K} {s s1 : CoreSt K} {p : PassOut K} (hp : pass e s = .ok (p, s1)) {t : TsRec K} (ht : s1.ts = s.ts ++ [t]) :
    t.time = s1.time ∧ t.mordt = secs (s1.time - s.time) := by
  obtain ⟨⟨fl, sl, hc⟩, ha⟩ := pass_inv hp
  rcases ha.ts with ⟨_, h3, _⟩ | ⟨_, _, t', h3, hts⟩
  · rw [h3] at ht
    have := congrArg List.length ht
    simp at this
  rw [h3] at ht
  have ht' : t' = t := by simpa using ht
  subst ht'
  unfold tsRecord at hts
  simp only [bind_ok, pure_ok] at hts
  obtain ⟨d, hd, v, hv, w, hw, b, hb, rfl⟩ := hts
  refine ⟨rfl, ?_⟩
  show secs s1.dt = _
  rw [ha.dt, ha.time]
  congr 1; ring

/-- As long as no step is shorter than the output interval of the time series, every step writes a line, and the last line is at the current time. -/
theorem ts_every {e : Env K} {ld : LoadOut K} {s0 s : CoreSt K} {tr : List (CoreSt K × PassOut K × CoreSt K)} (h0 : initial e ld = .ok s0) (h : Run e s0 tr s)
    (hev : ∀ x ∈ tr, e.oo.TsOutInt ≤ x.2.2.time - x.1.time) :
    s.tsTime ≤ s.time + e.oo.TsOutInt ∧ s.ts.map (fun t => t.time) = s0.time :: tr.map (fun x => x.2.2.time) ∧
      (s.ts.drop 1).map (fun t => t.mordt) = tr.map (fun x => secs (x.2.2.time - x.1.time)) := by
  induction h with
  | start =>
    unfold initial at h0
    simp only [bind_ok, pure_ok] at h0
    obtain ⟨fl, _, sl, _, w, _, c, _, q, _, sq, _, ⟨dep, vel⟩, _, hyd, _, d, _, v, _, cw, _, rfl⟩ := h0
    exact ⟨le_rfl, rfl, rfl⟩
  | @pass tr s s' p hr hle hp ih =>
    obtain ⟨i1, i2, i3⟩ := ih (fun x hx => hev x (List.mem_append_left _ hx))
    have hs := hev (s, p, s') (by simp)
    simp only at hs
    obtain ⟨_, ha⟩ := pass_inv hp
    rcases ha.ts with ⟨hlt, _, _⟩ | ⟨_, h2, t, h3, _⟩
    · omega
    obtain ⟨t1, t2⟩ := ts_step hp h3
    have hne : 1 ≤ s.ts.length := by
      have := congrArg List.length i2
      simp at this
      omega
    refine ⟨by rw [h2]; omega, ?_, ?_⟩
    · rw [h3, List.map_append, i2, List.map_append]
      simp [t1]
    · rw [h3, List.drop_append_of_le_length hne, List.map_append, i3, List.map_append]
      simp [t2]

/-- What a run joins up to: every step begins at the time at which the one before ended. -/
theorem run_joins {e : Env K} {s0 s : CoreSt K} {tr : List (CoreSt K × PassOut K × CoreSt K)} (h : Run e s0 tr s) :
    (tr.map (fun x => x.2.2.time - x.1.time)).sum = s.time - s0.time ∧
      ∀ (i : ℕ) (x : CoreSt K × PassOut K × CoreSt K), tr[i]? = some x → (s0.time :: tr.map (fun x => x.2.2.time))[i]? = some x.1.time := by
  induction h with
  | start => exact ⟨by simp, by simp⟩
  | @pass tr s s' p hr hle hp ih =>
    obtain ⟨i1, i2⟩ := ih
    have last : (s0.time :: tr.map (fun x => x.2.2.time))[tr.length]? = some s.time := by
      clear i1 i2 hle hp
      cases hr with
      | start => rfl
      | pass _ _ _ => simp
    refine ⟨by rw [List.map_append, List.sum_append, i1]; simp, ?_⟩
    intro i x hx
    rw [List.map_append, ← List.cons_append]
    by_cases hi : i < tr.length
    · rw [List.getElem?_append_left hi] at hx
      rw [List.getElem?_append_left (by simp; omega)]
      exact i2 i x hx
    · rw [List.getElem?_append_right (by omega)] at hx
      have : i - tr.length = 0 := by
        by_contra hc
        rw [List.getElem?_eq_none (by simp; omega)] at hx
        cases hx
      rw [this] at hx
      simp only [List.getElem?_cons_zero, Option.some.injEq] at hx
      subst hx
      have : i = tr.length := by omega
      subst this
      rw [List.getElem?_append_left (by simp)]
      exact last

/-- A time in nanoseconds that is a whole number of seconds, less than a day. -/
def WholeSeconds (t : ℤ) : Prop := ∃ k : ℤ, 0 ≤ k ∧ k < 86400 ∧ t = k * 1000000000

theorem secs_whole {t : ℤ} (h : WholeSeconds t) : secs t * 1000000000 = t := by
  obtain ⟨k, h0, h1, rfl⟩ := h
  unfold secs
  omega

/-- C194, partial: if no step is shorter than the output interval of the time series, and all are whole numbers of seconds of less than a day, every line but the
first records the seconds since the line before, and the timesteps recorded add up to the time simulated.
Missing: shorter steps (`C194_refuted_between`), longer ones (`C194_refuted_long`), and the first line (`C194_refuted_first`). -/
theorem C194_partial {e : Env K} {ld : LoadOut K} {s0 s : CoreSt K} {tr : List (CoreSt K × PassOut K × CoreSt K)} (h0 : initial e ld = .ok s0) (h : Run e s0 tr s)
    (hev : ∀ x ∈ tr, e.oo.TsOutInt ≤ x.2.2.time - x.1.time) (hw : ∀ x ∈ tr, WholeSeconds (x.2.2.time - x.1.time)) :
    (∀ i a b, s.ts[i]? = some a → s.ts[i+1]? = some b → b.mordt * 1000000000 = b.time - a.time) ∧
    ((s.ts.drop 1).map (fun t => t.mordt)).sum * 1000000000 = s.time - e.tp.StartTime := by
  obtain ⟨_, h2, h3⟩ := ts_every h0 h hev
  obtain ⟨j1, j2⟩ := run_joins h
  have hst : s0.time = e.tp.StartTime := by
    unfold initial at h0
    simp only [bind_ok, pure_ok] at h0
    obtain ⟨fl, _, sl, _, w, _, c, _, q, _, sq, _, ⟨dep, vel⟩, _, hyd, _, d, _, v, _, cw, _, rfl⟩ := h0
    rfl
  constructor
  · intro i a b ha hb
    have ea : (s.ts.map (fun t => t.time))[i]? = some a.time := by rw [List.getElem?_map, ha]; rfl
    have eb : (s.ts.map (fun t => t.time))[i+1]? = some b.time := by rw [List.getElem?_map, hb]; rfl
    have em : ((s.ts.drop 1).map (fun t => t.mordt))[i]? = some b.mordt := by
      rw [List.getElem?_map, List.getElem?_drop, Nat.add_comm, hb]; rfl
    rw [h2] at ea eb
    rw [h3, List.getElem?_map] at em
    rw [List.getElem?_cons_succ, List.getElem?_map] at eb
    cases hx : tr[i]? with
    | none => rw [hx] at em; cases em
    | some x =>
      rw [hx] at em eb
      have := j2 i x hx
      rw [ea] at this
      have e1 := Option.some.inj this
      have e2 : x.2.2.time = b.time := Option.some.inj eb
      have e3 : secs (x.2.2.time - x.1.time) = b.mordt := Option.some.inj em
      rw [← e3, secs_whole (hw x (List.mem_of_getElem? hx)), e1, e2]
  · rw [h3, ← hst, ← j1]
    clear h2 h3 j1 j2 hev h
    induction tr with
    | nil => rfl
    | cons x tr ih =>
      have := ih (fun y hy => hw y (List.mem_cons_of_mem _ hy))
      rw [List.map_cons, List.map_cons, List.sum_cons, List.sum_cons, add_mul, this, secs_whole (hw x List.mem_cons_self)]

/-- C194 is false for steps of a day or more, of which only the part beyond whole days is recorded, in whole seconds. -/
theorem C194_refuted_long {e : Env K} {s s1 : CoreSt K} {p : PassOut K} (hp : pass e s = .ok (p, s1)) {t : TsRec K} (ht : s1.ts = s.ts ++ [t])
    (hlong : 86400 * 1000000000 ≤ s1.time - s.time) : t.mordt * 1000000000 < s1.time - s.time := by
  obtain ⟨_, h2⟩ := ts_step hp ht
  rw [h2]
  unfold secs
  omega

/-- C194 is false of the first line, which records the shortest timestep though no time has passed. -/
theorem C194_refuted_first {e : Env K} {ld : LoadOut K} {s0 : CoreSt K} (h0 : initial e ld = .ok s0) (hw : WholeSeconds e.tp.MorDtMin) (hpos : 0 < e.tp.MorDtMin) :
    ∃ t, s0.ts = [t] ∧ t.time = e.tp.StartTime ∧ t.mordt * 1000000000 = e.tp.MorDtMin ∧ t.mordt ≠ 0 := by
  unfold initial at h0
  simp only [bind_ok, pure_ok] at h0
  obtain ⟨fl, _, sl, _, w, _, c, _, q, _, sq, _, ⟨dep, vel⟩, _, hyd, _, d, _, v, _, cw, _, rfl⟩ := h0
  have := secs_whole hw
  refine ⟨_, rfl, rfl, this, ?_⟩
  intro hz
  have hz' : secs e.tp.MorDtMin = 0 := hz
  rw [hz'] at this
  omega

/-- C194 is false if a step in between wrote no line: the time since the line before includes that step. -/
theorem C194_refuted_between {e : Env K} {s s1 s2 : CoreSt K} {p q : PassOut K} (_ : pass e s = .ok (p, s1)) (hskip : s1.ts = s.ts) (hq : pass e s1 = .ok (q, s2))
    {a b : TsRec K} {l : List (TsRec K)} (ha : s.ts = l ++ [a]) (hat : a.time = s.time) (hfirst : s.time < s1.time) (hb : s2.ts = s1.ts ++ [b])
    (hsec : 0 ≤ s2.time - s1.time) : s2.ts = l ++ [a, b] ∧ b.mordt * 1000000000 < b.time - a.time := by
  obtain ⟨h1, h2⟩ := ts_step hq hb
  refine ⟨by rw [hb, hskip, ha]; simp, ?_⟩
  rw [h1, h2, hat]
  unfold secs
  omega

/-! ## Concrete cases -/

/-- The sample run writes a line every step. -/
example : ∃ s0 tr s, initial coEnv coLoad = .ok s0 ∧ Run coEnv s0 tr s ∧ (∀ x ∈ tr, coEnv.oo.TsOutInt ≤ x.2.2.time - x.1.time) ∧
    (∀ x ∈ tr, WholeSeconds (x.2.2.time - x.1.time)) ∧ s.ts.map (fun t => (t.time, t.mordt)) = [(0, 30), (120 * sec, 120), (150 * sec, 30)] := by
  have h : okAnd (initial coEnv coLoad) (fun s0 => okAnd (trace coEnv s0 2) (fun x =>
      decide (∀ y ∈ x.1, coEnv.oo.TsOutInt ≤ y.2.2.time - y.1.time) && (decide (∀ y ∈ x.1, y.2.2.time - y.1.time = 120 * 1000000000 ∨ y.2.2.time - y.1.time = 30 * 1000000000) &&
      decide (x.2.ts.map (fun t => (t.time, t.mordt)) = [(0, 30), (120 * sec, 120), (150 * sec, 30)])))) = true := by decide +kernel
  obtain ⟨s0, h0, h⟩ := okAnd_iff.mp h
  obtain ⟨⟨tr, s⟩, h1, h⟩ := okAnd_iff.mp h
  simp only [Bool.and_eq_true, decide_eq_true_eq] at h
  refine ⟨s0, tr, s, h0, (trace_run h1).1, h.1, fun x hx => ?_, h.2.2⟩
  rcases h.2.1 x hx with g | g
  · exact ⟨120, by norm_num, by norm_num, g⟩
  · exact ⟨30, by norm_num, by norm_num, g⟩

/-- The sample with steps of one to two days. -/
def dayEnv : Env ℚ := { coEnv with
  tp := ⟨0, 400000 * sec, 43200 * sec, 86400 * sec, 172800 * sec⟩
  flow := [(0, fin 50), (1000000 * sec, fin 50)]
  sea := [(0, fin 0), (1000000 * sec, fin 0)]
  waves := [(0, coWave), (1000000 * sec, coWave)] }

/-- The hypotheses of C194_refuted_long are met: a step of a day is recorded as 0 s. -/
example : ∃ s s1 p t, pass dayEnv s = .ok (p, s1) ∧ s1.ts = s.ts ++ [t] ∧ 86400 * 1000000000 ≤ s1.time - s.time ∧ t.mordt = 0 := by
  have h : okAnd (initial dayEnv coLoad) (fun s0 => okAnd (pass dayEnv s0) (fun x => match x.2.ts.getLast? with
      | none => false
      | some t => decide (x.2.ts.map (fun r => (r.time, r.mordt)) = s0.ts.map (fun r => (r.time, r.mordt)) ++ [(t.time, t.mordt)] ∧
          x.2.ts.length = s0.ts.length + 1 ∧ 86400 * 1000000000 ≤ x.2.time - s0.time ∧ t.mordt = 0))) = true := by decide +kernel
  obtain ⟨s0, h0, h⟩ := okAnd_iff.mp h
  obtain ⟨⟨p, s1⟩, h1, h⟩ := okAnd_iff.mp h
  cases ht : s1.ts.getLast? with
  | none => simp only [ht] at h; cases h
  | some t =>
    simp only [ht] at h
    obtain ⟨_, h4, h5, h6⟩ := of_decide_eq_true h
    obtain ⟨_, ha⟩ := pass_inv h1
    rcases ha.ts with ⟨_, h3, _⟩ | ⟨_, _, t', h3, _⟩
    · rw [h3] at h4; omega
    · have : t' = t := by rw [h3] at ht; simpa using ht
      subst this
      exact ⟨s0, s1, p, t', h1, h3, h5, h6⟩

/-- The hypotheses of C194_refuted_first are met by the sample. -/
example : WholeSeconds coEnv.tp.MorDtMin ∧ 0 < coEnv.tp.MorDtMin ∧ ∃ s0, initial coEnv coLoad = .ok s0 := by
  refine ⟨⟨30, by norm_num, by norm_num, rfl⟩, by decide, ?_⟩
  have h : okAnd (initial coEnv coLoad) (fun _ => true) = true := by decide +kernel
  obtain ⟨s0, h0, _⟩ := okAnd_iff.mp h
  exact ⟨s0, h0⟩

/-- The sample with a line of the time series every 150 s only. -/
def rareEnv : Env ℚ := { coEnv with oo := ⟨60 * sec, 150 * sec, 60 * sec, 0⟩ }

/-- The hypotheses of C194_refuted_between are met: a line 150 s after the one before records 30 s. -/
example : ∃ s s1 s2 p q a b l, pass rareEnv s = .ok (p, s1) ∧ s1.ts = s.ts ∧ pass rareEnv s1 = .ok (q, s2) ∧ s.ts = l ++ [a] ∧ a.time = s.time ∧ s.time < s1.time ∧
    s2.ts = s1.ts ++ [b] ∧ 0 ≤ s2.time - s1.time ∧ b.time - a.time = 150 * sec ∧ b.mordt = 30 := by
  have h : okAnd (initial rareEnv coLoad) (fun s0 => okAnd (pass rareEnv s0) (fun x => okAnd (pass rareEnv x.2) (fun y =>
      match s0.ts.getLast?, y.2.ts.getLast? with
      | some a, some b => decide (x.2.ts.length = s0.ts.length ∧ y.2.ts.length = x.2.ts.length + 1 ∧ s0.ts.length = 1 ∧ a.time = s0.time ∧ s0.time < x.2.time ∧
          0 ≤ y.2.time - x.2.time ∧ b.time - a.time = 150 * sec ∧ b.mordt = 30)
      | _, _ => false))) = true := by decide +kernel
  obtain ⟨s0, h0, h⟩ := okAnd_iff.mp h
  obtain ⟨⟨p, s1⟩, h1, h⟩ := okAnd_iff.mp h
  obtain ⟨⟨q, s2⟩, h2, h⟩ := okAnd_iff.mp h
  cases ha : s0.ts.getLast? with
  | none => simp only [ha] at h; cases h
  | some a =>
  cases hb : s2.ts.getLast? with
  | none => simp only [ha, hb] at h; cases h
  | some b =>
    simp only [ha, hb] at h
    obtain ⟨g1, g2, g3, g4, g5, g6, g7, g8⟩ := of_decide_eq_true h
    obtain ⟨_, A⟩ := pass_inv h1
    obtain ⟨_, B⟩ := pass_inv h2
    have e1 : s1.ts = s0.ts := by
      rcases A.ts with ⟨_, h3, _⟩ | ⟨_, _, t', h3, _⟩
      · exact h3
      · rw [h3] at g1; simp at g1
    have e2 : s2.ts = s1.ts ++ [b] := by
      rcases B.ts with ⟨_, h3, _⟩ | ⟨_, _, t', h3, _⟩
      · have g2' : s2.ts.length = s1.ts.length + 1 := g2
        exact absurd ((congrArg List.length h3).symm.trans g2') (Nat.ne_of_lt (Nat.lt_succ_self _))
      · have : t' = b := by rw [h3] at hb; simpa using hb
        rw [h3, this]
    have e3 : s0.ts = [] ++ [a] := by
      obtain ⟨x, hx⟩ := List.length_eq_one_iff.mp g3
      rw [hx] at ha ⊢
      simpa using ha
    exact ⟨s0, s1, s2, p, q, a, b, [], h1, e1, h2, e3, g4, g5, e2, g6, g7, g8⟩

end Verif.Props
