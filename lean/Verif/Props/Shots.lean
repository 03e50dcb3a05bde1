import Verif.Props.Synth
import Verif.Props.Hydro
import Verif.Spec.Shots

set_option autoImplicit false
set_option linter.unusedSectionVars false

/-! # C220: the synthetic flow is the sum of its events -/

namespace Verif.Props
open Verif Verif.Model Verif.Spec Fl

theorem days_eq (T t : ℤ) : ((t - T : ℤ) : ℝ) / 10 ^ 9 / 86400 = daysFrom T t := by
  unfold daysFrom
  ring

theorem days_add (a b c : ℤ) : daysFrom a b + daysFrom b c = daysFrom a c := by
  unfold daysFrom
  push_cast
  ring

theorem store_later (k P : ℝ) (T : ℤ) (q : ℝ) (ev : List (ℤ × ℝ)) (t u : ℤ) :
    store k P T q ev t * Real.exp (-k * daysFrom t u) = store k P T q ev u := by
  have key : ∀ a : ℤ, Real.exp (-k * daysFrom a t) * Real.exp (-k * daysFrom t u) = Real.exp (-k * daysFrom a u) := by
    intro a
    rw [← Real.exp_add, ← days_add a t u]
    congr 1
    ring
  unfold store
  rw [add_mul, mul_assoc, key, ← List.sum_map_mul_right]
  congr 2
  refine List.map_congr_left fun e _ => ?_
  rw [mul_assoc, key]

theorem store_event (k P : ℝ) (T : ℤ) (q : ℝ) (ev : List (ℤ × ℝ)) (t : ℤ) (size : ℝ) :
    store k P T q (ev ++ [(t, size)]) t = store k P T q ev t + size * P := by
  unfold store
  rw [List.map_append, List.sum_append]
  simp [daysFrom]
  ring

/-- The second part of a pass of the loop. -/
theorem shotTail_eq {p : ShotPars} {d2 : ℝ} {s s' : ShotState} {gap : ℤ} {size : ℝ} {ts : List (ℤ × ℝ)} {a : List ℤ}
    (h : shotTail p d2 s gap size (ts, a ++ [s.last + gap]) = .ok s') :
    s'.last = s.last + gap ∧ s'.r1 = s.r1 * Real.exp (-p.DecayRate1 * daysFrom s.last (s.last + gap)) + size * p.PropRate1 ∧
    s'.r2 = s.r2 * Real.exp (-d2 * daysFrom s.last (s.last + gap)) + size * (1 - p.PropRate1) ∧
    s'.ts = ts ++ (a.map (fun t => (t, s.r1 * Real.exp (-p.DecayRate1 * daysFrom s.last t) + s.r2 * Real.exp (-d2 * daysFrom s.last t))) ++
      [(s.last + gap, s'.r1 + s'.r2)]) := by
  unfold shotTail at h
  simp only [bind_ok, pyGet_last, pure_ok, days_eq] at h
  obtain ⟨e1, h1, e2, h2, rfl⟩ := h
  rw [List.map_append, List.map_singleton, List.getLast?_append_of_ne_nil _ (by simp)] at h1 h2
  cases h1
  cases h2
  refine ⟨rfl, rfl, rfl, ?_⟩
  simp only
  congr 1
  have set_last : ∀ (l : List ℝ) (x y : ℝ), (l ++ [x]).set ((l ++ [x]).length - 1) y = l ++ [y] := by
    intro l x y
    simp
  rw [List.map_append, List.map_append, List.map_singleton, List.map_singleton, set_last, set_last, List.zipWith_append (by simp), List.zip_append (by simp)]
  congr 1
  induction a with
  | nil => rfl
  | cons x a ih => simpa using ih

/-- The times of a pass end with that of the event. -/
theorem shotHead_eq {p : ShotPars} {ci : ℤ} {s : ShotState} {gap : ℤ} {size : ℝ} {x : List (ℤ × ℝ) × List ℤ} (h : shotHead p ci s gap size = .ok x) :
    (∃ a, x.2 = a ++ [s.last + gap]) ∧ (p.RisingLimbTime ≤ gap → 0 < ci → x.1 = s.ts ∧ ∃ a, x.2 = a ++ [s.last + gap] ∧
      ∀ t ∈ a, s.last ≤ t ∧ t ≤ s.last + gap - p.RisingLimbTime) := by
  unfold shotHead at h
  split at h
  · rename_i hg
    simp only [bind_ok, pyGet_last, pure_ok] at h
    obtain ⟨v, _, e, _, rfl⟩ := h
    exact ⟨⟨[], rfl⟩, fun hg' => by omega⟩
  · simp only [bind_ok, pure_ok] at h
    obtain ⟨r, hr, rfl⟩ := h
    have e : r.filter (fun t => decide (t ≠ s.last)) ++ [s.last + gap - p.RisingLimbTime, s.last + gap] =
        (r.filter (fun t => decide (t ≠ s.last)) ++ [s.last + gap - p.RisingLimbTime]) ++ [s.last + gap] := by simp
    refine ⟨⟨_, e⟩, fun hg hci => ⟨rfl, _, e, ?_⟩⟩
    intro t ht
    rcases List.mem_append.mp ht with ht | ht
    · obtain ⟨l, hl, hget⟩ := dateRange_ok (a := s.last) (b := s.last + gap - p.RisingLimbTime) hci
      rw [hl] at hr
      cases hr
      obtain ⟨i, hi⟩ := List.mem_iff_getElem?.mp (List.mem_of_mem_filter ht)
      obtain ⟨e1, e2⟩ := (hget i t).mp hi
      have : (0 : ℤ) ≤ i * ci := mul_nonneg (by positivity) hci.le
      exact ⟨by omega, e2⟩
    · rw [List.mem_singleton] at ht
      omega

/-- What the loop keeps: both components are what is left of the start and of the events so far; the last record is their sum. -/
structure Stores (p : ShotPars) (d2 : ℝ) (T : ℤ) (q1 q2 : ℝ) (s : ShotState) (ev : List (ℤ × ℝ)) : Prop where
  one : s.r1 = store p.DecayRate1 p.PropRate1 T q1 ev s.last
  two : s.r2 = store d2 (1 - p.PropRate1) T q2 ev s.last
  final : s.ts.getLast? = some (s.last, s.r1 + s.r2)

/-- And every record is what is left of the start and of the events up to its time. -/
structure Sums (p : ShotPars) (d2 : ℝ) (T : ℤ) (q1 q2 : ℝ) (s : ShotState) (ev : List (ℤ × ℝ)) : Prop where
  past : ∀ e ∈ ev, e.1 ≤ s.last
  recs : ∀ r ∈ s.ts, r.1 ≤ s.last ∧ r.2 = store p.DecayRate1 p.PropRate1 T q1 (ev.filter fun e => decide (e.1 ≤ r.1)) r.1 +
    store d2 (1 - p.PropRate1) T q2 (ev.filter fun e => decide (e.1 ≤ r.1)) r.1

theorem stores_step {p : ShotPars} {d2 : ℝ} {T : ℤ} {q1 q2 : ℝ} {s s' : ShotState} {ev : List (ℤ × ℝ)} {ci gap : ℤ} {size : ℝ} (H : Stores p d2 T q1 q2 s ev)
    (h : shotStep p d2 ci s gap size = .ok s') : s'.last = s.last + gap ∧ Stores p d2 T q1 q2 s' (ev ++ [(s.last + gap, size)]) ∧
    (p.RisingLimbTime ≤ gap → 0 < ci → 0 < p.RisingLimbTime → Sums p d2 T q1 q2 s ev → Sums p d2 T q1 q2 s' (ev ++ [(s.last + gap, size)])) := by
  rw [shotStep_eq, bind_ok] at h
  obtain ⟨⟨ts, times⟩, h1, h2⟩ := h
  obtain ⟨⟨a, ha⟩, hb⟩ := shotHead_eq h1
  simp only at ha
  subst ha
  obtain ⟨k1, k2, k3, k4⟩ := shotTail_eq h2
  have c1 : s'.r1 = store p.DecayRate1 p.PropRate1 T q1 (ev ++ [(s.last + gap, size)]) (s.last + gap) := by
    rw [k2, store_event, H.one, store_later]
  have c2 : s'.r2 = store d2 (1 - p.PropRate1) T q2 (ev ++ [(s.last + gap, size)]) (s.last + gap) := by
    rw [k3, store_event, H.two, store_later]
  refine ⟨k1, ⟨by rw [k1, c1], by rw [k1, c2], ?_⟩, ?_⟩
  · rw [k4, k1, ← List.append_assoc, List.getLast?_append_of_ne_nil _ (by simp)]
    rfl
  · intro hg hci hr S
    obtain ⟨e1, a', e2, hrange⟩ := hb hg hci
    simp only at e1 e2
    have e2 := List.append_cancel_right e2
    subst e2
    have keep : ∀ t : ℤ, t < s.last + gap → (ev ++ [(s.last + gap, size)]).filter (fun e => decide (e.1 ≤ t)) = ev.filter fun e => decide (e.1 ≤ t) := by
      intro t ht
      rw [List.filter_append]
      simp [ht]
    refine ⟨?_, ?_⟩
    · intro e he
      rw [k1]
      rcases List.mem_append.mp he with he | he
      · have := S.past e he
        omega
      · rw [List.mem_singleton] at he
        rw [he]
    · intro r hm
      rw [k4, e1] at hm
      rcases List.mem_append.mp hm with hm | hm
      · obtain ⟨g1, g2⟩ := S.recs r hm
        rw [keep _ (by omega)]
        exact ⟨by omega, g2⟩
      rcases List.mem_append.mp hm with hm | hm
      · obtain ⟨t, ht, rfl⟩ := List.mem_map.mp hm
        obtain ⟨b1, b2⟩ := hrange t ht
        simp only
        have all : ev.filter (fun e => decide (e.1 ≤ t)) = ev := by
          rw [List.filter_eq_self]
          intro e he
          have := S.past e he
          simp only [decide_eq_true_eq]
          omega
        rw [keep _ (by omega), all, H.one, H.two, store_later, store_later]
        exact ⟨by omega, rfl⟩
      · rw [List.mem_singleton] at hm
        subst hm
        simp only
        have all : (ev ++ [(s.last + gap, size)]).filter (fun e => decide (e.1 ≤ s.last + gap)) = ev ++ [(s.last + gap, size)] := by
          rw [List.filter_eq_self]
          intro e he
          rcases List.mem_append.mp he with he | he
          · have := S.past e he
            simp only [decide_eq_true_eq]
            omega
          · rw [List.mem_singleton] at he
            rw [he]
            simp
        rw [all, c1, c2]
        exact ⟨by omega, rfl⟩

theorem stores_loop {p : ShotPars} {toNs : ℝ → ℤ} {rate d2 : ℝ} {ci : ℤ} {T : ℤ} {q1 q2 : ℝ} (draws : List (ℝ × ℝ)) : ∀ {s s' : ShotState} {ev : List (ℤ × ℝ)},
    Stores p d2 T q1 q2 s ev → shotLoop p toNs rate d2 ci s draws = .ok s' → ∃ n ≤ draws.length,
      p.EndDate ≤ s'.last ∧ (n = 0 → s' = s) ∧ (n ≠ 0 → s.last < p.EndDate) ∧
      Stores p d2 T q1 q2 s' (ev ++ (drawnEvents toNs rate p.MeanEventIncrease s.last draws).take n) ∧
      (∀ e ∈ ((drawnEvents toNs rate p.MeanEventIncrease s.last draws).take n).dropLast, e.1 < p.EndDate) ∧
      ((drawnEvents toNs rate p.MeanEventIncrease s.last draws).take n).getLast?.map (·.1) = (if n = 0 then none else some s'.last) ∧
      ((∀ d ∈ draws.take n, p.RisingLimbTime ≤ toNs (-Real.log d.1 / rate)) → 0 < ci → 0 < p.RisingLimbTime → Sums p d2 T q1 q2 s ev →
        Sums p d2 T q1 q2 s' (ev ++ (drawnEvents toNs rate p.MeanEventIncrease s.last draws).take n)) := by
  induction draws with
  | nil =>
    intro s s' ev H h
    unfold shotLoop at h
    split at h
    · cases h
    · rename_i hn
      cases h
      exact ⟨0, le_rfl, by omega, fun _ => rfl, fun h => absurd rfl h, by simpa using H, by simp, by simp, fun _ _ _ S => by simpa using S⟩
  | cons d rest ih =>
    obtain ⟨u, v⟩ := d
    intro s s' ev H h
    unfold shotLoop at h
    split at h
    · rename_i hlt
      simp only at h
      split at h
      · cases h
      · rw [bind_ok] at h
        obtain ⟨s1, h1, h2⟩ := h
        obtain ⟨l1, H1, S1⟩ := stores_step H h1
        obtain ⟨n, n1, n2, m1, m2, n3, n4, n5, n6⟩ := ih H1 h2
        rw [l1] at m2 n3 n4 n5 n6
        refine ⟨n + 1, by simpa using n1, n2, fun h => absurd h (by omega), fun _ => hlt, ?_, ?_, ?_, ?_⟩
        · simpa [drawnEvents] using n3
        · rw [drawnEvents, List.take_succ_cons]
          generalize hq : (drawnEvents toNs rate p.MeanEventIncrease (s.last + toNs (-Real.log u / rate)) rest).take n = q at n4 n5
          cases q with
          | nil => simp
          | cons x q =>
            rw [List.dropLast_cons_cons]
            intro e he
            rcases List.mem_cons.mp he with rfl | he
            · refine m2 ?_
              rintro rfl
              simp at hq
            · exact n4 e he
        · rw [drawnEvents, List.take_succ_cons]
          generalize hq : (drawnEvents toNs rate p.MeanEventIncrease (s.last + toNs (-Real.log u / rate)) rest).take n = q at n4 n5
          by_cases hn : n = 0
          · subst hn
            rw [List.take_zero] at hq
            subst hq
            rw [m1 rfl, l1]
            rfl
          · rw [if_neg hn] at n5
            cases q with
            | nil => simp at n5
            | cons x q => rw [List.getLast?_cons_cons, n5, if_neg (by omega)]
        · intro hg hci hr S
          have hg0 := hg (u, v) (by simp)
          have := n6 (fun d hd => hg d (by simp [hd])) hci hr (S1 hg0 hci hr S)
          simpa [drawnEvents] using this
    · rename_i hn
      cases h
      exact ⟨0, Nat.zero_le _, by omega, fun _ => rfl, fun h => absurd rfl h, by simpa using H, by simp, by simp, fun _ _ _ S => by simpa using S⟩

/-- **C220**: the series of synth.shotNoise before resampling, for the draws of which `n` are used.  There are initial values of the two components such that with
the first `n` events drawn, all but the last before the end and the last one at or after it, the last record is what is left of the start and of all events: of
each event the fraction PropRate1 at the one rate of decay and the rest at the other.  If the events follow one another at no less than RisingLimbTime, every
record is what is left, at its time, of the start and of the events up to then. -/
theorem C220_sum {p : ShotPars} {toNs : ℝ → ℤ} {draws : List (ℝ × ℝ)} {s : ShotState} (h : shotRaw p toNs draws = .ok s) :
    ∃ rate d2 q1 q2 : ℝ, shotInit p = .ok (rate, d2, q1, q2) ∧ ∃ n ≤ draws.length, ∃ ev, ev = (drawnEvents toNs rate p.MeanEventIncrease p.StartDate draws).take n ∧
      (∀ e ∈ ev.dropLast, e.1 < p.EndDate) ∧
      (∃ t, p.EndDate ≤ t ∧ (ev = [] ∧ t = p.StartDate ∨ ev.getLast?.map (·.1) = some t) ∧
        s.ts.getLast? = some (t, store p.DecayRate1 p.PropRate1 p.StartDate q1 ev t + store d2 (1 - p.PropRate1) p.StartDate q2 ev t)) ∧
      ((∀ d ∈ draws.take n, p.RisingLimbTime ≤ toNs (-Real.log d.1 / rate)) → 0 < p.CalcTimeInt.getD (p.OutputInt / 4) → 0 < p.RisingLimbTime →
        ∀ r ∈ s.ts, r.2 = store p.DecayRate1 p.PropRate1 p.StartDate q1 (ev.filter fun e => decide (e.1 ≤ r.1)) r.1 +
          store d2 (1 - p.PropRate1) p.StartDate q2 (ev.filter fun e => decide (e.1 ≤ r.1)) r.1) := by
  unfold shotRaw at h
  rw [bind_ok] at h
  obtain ⟨⟨rate, d2, q1, q2⟩, h1, h2⟩ := h
  have e0 : daysFrom p.StartDate p.StartDate = 0 := by simp [daysFrom]
  have H0 : Stores p d2 p.StartDate q1 q2 ⟨[(p.StartDate, q1 + q2)], q1, q2, p.StartDate⟩ [] := by
    constructor <;> simp [store, e0]
  have S0 : Sums p d2 p.StartDate q1 q2 ⟨[(p.StartDate, q1 + q2)], q1, q2, p.StartDate⟩ [] := by
    constructor
    · simp
    · intro r hr
      rw [List.mem_singleton] at hr
      subst hr
      simp [store, e0]
  obtain ⟨n, n1, n2, m1, _, n3, n4, n5, n6⟩ := stores_loop draws H0 h2
  simp only [List.nil_append] at n3 n4 n5 n6
  refine ⟨rate, d2, q1, q2, h1, n, n1, _, rfl, n4, ⟨s.last, n2, ?_, ?_⟩, fun a b c r hr => ((n6 a b c S0).recs r hr).2⟩
  · by_cases hn : n = 0
    · left
      rw [m1 hn, hn]
      simp
    · right
      rw [n5, if_neg hn]
  · rw [n3.final, n3.one, n3.two]

/-- Between two events the flow falls: what is left of any stores decreases with time. -/
theorem C220_falls {k P : ℝ} (hk : 0 < k) (hP : 0 ≤ P) {T : ℤ} {q : ℝ} (hq : 0 ≤ q) {ev : List (ℤ × ℝ)} (he : ∀ e ∈ ev, 0 ≤ e.2) {t u : ℤ} (htu : t ≤ u) :
    store k P T q ev u ≤ store k P T q ev t ∧ 0 ≤ store k P T q ev t := by
  have h0 : 0 ≤ store k P T q ev t := by
    unfold store
    refine add_nonneg (by positivity) (List.sum_nonneg ?_)
    intro x hx
    obtain ⟨e, hm, rfl⟩ := List.mem_map.mp hx
    have := he e hm
    positivity
  refine ⟨?_, h0⟩
  rw [← store_later k P T q ev t u]
  refine mul_le_of_le_one_right h0 (Real.exp_le_one_iff.mpr ?_)
  have : 0 ≤ daysFrom t u := by
    unfold daysFrom
    have : (0 : ℝ) ≤ ((u - t : ℤ) : ℝ) := by exact_mod_cast sub_nonneg.mpr htu
    positivity
  nlinarith [mul_nonneg hk.le this]

/-- The flow starts at its long-term mean: each of the two stores loses in a day what events bring it, on average, in a day. -/
theorem C220_start {p : ShotPars} {rate d2 q1 q2 : ℝ} (h : shotInit p = .ok (rate, d2, q1, q2)) :
    p.DecayRate1 * q1 = p.MeanEventIncrease * p.PropRate1 * rate ∧ d2 * q2 = p.MeanEventIncrease * (1 - p.PropRate1) * rate := by
  unfold shotInit at h
  simp only [bind_ok, pyAssert_ok, decide_eq_true_eq] at h
  obtain ⟨_, h1, _, _, h⟩ := h
  have tail : ∀ d : Option ℝ, (if p.MeanTimeBetweenEvents / dayNs = 0 then (Except.error PyErr.zeroDiv : Except PyErr (ℝ × ℝ × ℝ × ℝ)) else
      match d with
      | none => Except.error PyErr.type
      | some d => if d = 0 then Except.error PyErr.zeroDiv else pure (1 / ((p.MeanTimeBetweenEvents / dayNs : ℤ) : ℝ), d,
          p.MeanEventIncrease * (p.PropRate1 / p.DecayRate1) * (1 / ((p.MeanTimeBetweenEvents / dayNs : ℤ) : ℝ)),
          p.MeanEventIncrease * ((1 - p.PropRate1) / d) * (1 / ((p.MeanTimeBetweenEvents / dayNs : ℤ) : ℝ)))) = .ok (rate, d2, q1, q2) →
      p.DecayRate1 * q1 = p.MeanEventIncrease * p.PropRate1 * rate ∧ d2 * q2 = p.MeanEventIncrease * (1 - p.PropRate1) * rate := by
    intro d h
    split at h
    · cases h
    · cases d with
      | none => cases h
      | some d =>
        simp only at h
        split at h
        · cases h
        · rename_i hd
          cases h
          have := h1.ne'
          constructor
          · field_simp
          · field_simp
  split at h
  · split at h
    · simp only [bind_ok] at h
      obtain ⟨_, h, _⟩ := h
      cases h
    · simp only [bind_ok] at h
      obtain ⟨_, _, _, _, h⟩ := h
      exact tail (some _) h
  · simp only [bind_ok] at h
    obtain ⟨_, _, h⟩ := h
    exact tail _ h

/-- An event a day for two days, each of which is followed by a recession of half a day: all conditions hold, and there are nine records. -/
example : (∃ s, shotRaw (dailyTo (2 * dayNs)) floorNs dailyDraws = .ok s ∧ s.ts.length = 9) ∧
    (∀ d ∈ dailyDraws, (dailyTo (2 * dayNs)).RisingLimbTime ≤ floorNs (-Real.log d.1 / (1 / ((dayNs / dayNs : ℤ) : ℝ)))) ∧
    0 < (dailyTo (2 * dayNs)).CalcTimeInt.getD ((dailyTo (2 * dayNs)).OutputInt / 4) ∧ 0 < (dailyTo (2 * dayNs)).RisingLimbTime ∧
    shotInit (dailyTo (2 * dayNs)) = .ok (1 / ((dayNs / dayNs : ℤ) : ℝ), 1, 100, 0) := by
  obtain ⟨x0, y0, P, x, y, P', _, _, _, _, a, b, c, h⟩ := daily_raw
  refine ⟨⟨_, h, rfl⟩, ?_, by simp only [dailyTo]; decide, by simp only [dailyTo]; decide, daily_init _⟩
  intro d hd
  have e : d.1 = Real.exp (-1) := by
    unfold dailyDraws at hd
    simp only [List.mem_cons, List.not_mem_nil, or_false] at hd
    rcases hd with rfl | rfl <;> rfl
  rw [e, daily_gap]
  simp only [dailyTo]
  decide

end Verif.Props
