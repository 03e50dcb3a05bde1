import Verif.Lemmas.Core
import Verif.Spec.Core

set_option autoImplicit false
set_option linter.unusedSectionVars false

/-! # Invariants of runs of `main` -/

namespace Verif.Model
open Verif Verif.Spec Fl

variable {K : Type} [Field K] [LinearOrder K] [IsStrictOrderedRing K] [FloorRing K]

theorem Run.trace_inv {e : Env K} {s0 s : CoreSt K} {tr : List (CoreSt K × PassOut K × CoreSt K)} {x : CoreSt K × PassOut K × CoreSt K}
    (h : Run e s0 tr s) (hx : x ∈ tr) : x.1.time ≤ e.tp.EndTime ∧ Verif.Model.pass e x.1 = .ok (x.2.1, x.2.2) ∧ ∃ tr', Run e s0 tr' x.1 := by
  induction h with
  | start => cases hx
  | pass hr hle hp ih =>
    rcases List.mem_append.mp hx with hx | hx
    · exact ih hx
    · rw [List.mem_singleton] at hx
      subst hx
      exact ⟨hle, hp, _, hr⟩

/-- The basic invariant of times. -/
structure TimeInv (e : Env K) (s : CoreSt K) : Prop where
  lo : e.tp.StartTime ≤ s.time
  hi : s.time ≤ e.tp.EndTime
  dt : 0 ≤ s.dt
  outs : ∀ r ∈ s.outs, e.tp.StartTime ≤ r.time ∧ r.time ≤ s.time
  ts : ∀ r ∈ s.ts, e.tp.StartTime ≤ r.time ∧ r.time ≤ s.time

theorem step_nonneg {e : Env K} {s s' : CoreSt K} {p : PassOut K} (hp : pass e s = .ok (p, s')) (hd : 0 ≤ s.dt) (ht : s.time ≤ e.tp.EndTime) :
    0 ≤ stepOf e s p ∧ stepOf e s p ≤ e.tp.EndTime - s.time ∧ stepOf e s p ≤ p.mor.MorDt := by
  obtain ⟨⟨fl, sl, hc⟩, _⟩ := pass_inv hp
  have h0 : 0 ≤ p.mor.MorDt := update_dt_nonneg hc.mor hd
  unfold stepOf
  split <;> omega

theorem snapshot_time (s : CoreSt K) (p : PassOut K) (t : ℤ) (bl : List (Fl K) × List (Fl K) × List (Fl K)) : (snapshot s p t bl).time = t := rfl

theorem tsRecord_time {p : PassOut K} {t dt : ℤ} {r : TsRec K} (h : tsRecord p t dt = .ok r) : r.time = t := by
  unfold tsRecord at h
  simp only [bind_ok, pure_ok] at h
  obtain ⟨_, _, _, _, _, _, _, _, rfl⟩ := h
  rfl

theorem TimeInv.step {e : Env K} {s s' : CoreSt K} {p : PassOut K} (hi : TimeInv e s) (hp : pass e s = .ok (p, s')) :
    TimeInv e s' ∧ s.time ≤ s'.time := by
  obtain ⟨h1, h2, h3⟩ := step_nonneg hp hi.dt hi.hi
  obtain ⟨_, ha⟩ := pass_inv hp
  have ht := ha.time
  have hle : s.time ≤ s'.time := by omega
  have hlo := hi.lo
  refine ⟨⟨by omega, by omega, by rw [ha.dt]; exact h1, ?_, ?_⟩, hle⟩
  · rcases ha.outs with ⟨_, e1, _⟩ | ⟨_, _, bl, e1, _⟩
    · rw [e1]; intro r hr; exact ⟨(hi.outs r hr).1, (hi.outs r hr).2.trans hle⟩
    · rw [e1]; intro r hr
      rcases List.mem_append.mp hr with hr | hr
      · exact ⟨(hi.outs r hr).1, (hi.outs r hr).2.trans hle⟩
      · rw [List.mem_singleton] at hr
        rw [hr, snapshot_time]; exact ⟨hi.lo.trans hle, le_rfl⟩
  · rcases ha.ts with ⟨_, e1, _⟩ | ⟨_, _, r0, e1, hr0⟩
    · rw [e1]; intro r hr; exact ⟨(hi.ts r hr).1, (hi.ts r hr).2.trans hle⟩
    · rw [e1]; intro r hr
      rcases List.mem_append.mp hr with hr | hr
      · exact ⟨(hi.ts r hr).1, (hi.ts r hr).2.trans hle⟩
      · rw [List.mem_singleton] at hr
        rw [hr, tsRecord_time hr0]; exact ⟨hi.lo.trans hle, le_rfl⟩

theorem TimeInv.initial {e : Env K} {ld : LoadOut K} {s0 : CoreSt K} (h : initial e ld = .ok s0) (h1 : e.tp.StartTime ≤ e.tp.EndTime)
    (h2 : 0 ≤ e.tp.MorDtMin) : TimeInv e s0 := by
  obtain ⟨t, d, _, _, _, ⟨r, e1, e2, _⟩, ⟨r', e3, e4⟩, _⟩ := initial_inv h
  refine ⟨t.ge, t.le.trans h1, by rw [d]; exact h2, ?_, ?_⟩
  · rw [e1]; intro q hq; rw [List.mem_singleton] at hq; rw [hq, e2, t]; exact ⟨le_rfl, le_rfl⟩
  · rw [e3]; intro q hq; rw [List.mem_singleton] at hq; rw [hq, e4, t]; exact ⟨le_rfl, le_rfl⟩

theorem Run.timeInv {e : Env K} {s0 s : CoreSt K} {tr : List (CoreSt K × PassOut K × CoreSt K)} (h : Run e s0 tr s) (h0 : TimeInv e s0) :
    TimeInv e s := by
  induction h with
  | start => exact h0
  | pass _ _ hp ih => exact (ih.step hp).1

/-- The invariant of a schedule of records with times `ts`, next time due `next`, interval `int`. -/
structure Sched (start int now next : ℤ) (ts : List ℤ) : Prop where
  nxt : next = start + ts.length * int
  sorted : ts.Pairwise (· ≤ ·)
  last : ∀ t ∈ ts, t ≤ now
  due : ∀ (k : ℕ) (t : ℤ), ts[k]? = some t → start + k * int ≤ t

theorem Sched.step {start int now next now' next' : ℤ} {ts ts' : List ℤ} (h : Sched start int now next ts) (hn : now ≤ now')
    (hs : (now' < next ∧ ts' = ts ∧ next' = next) ∨ (next ≤ now' ∧ next' = next + int ∧ ts' = ts ++ [now'])) : Sched start int now' next' ts' := by
  rcases hs with ⟨_, rfl, rfl⟩ | ⟨h1, h2, rfl⟩
  · exact ⟨h.nxt, h.sorted, fun t ht => (h.last t ht).trans hn, h.due⟩
  · refine ⟨?_, ?_, ?_, ?_⟩
    · rw [h2, h.nxt]; push_cast [List.length_append, List.length_singleton]; ring
    · rw [List.pairwise_append]
      refine ⟨h.sorted, by simp, ?_⟩
      intro a ha b hb
      rw [List.mem_singleton] at hb
      rw [hb]; exact (h.last a ha).trans hn
    · intro t ht
      rcases List.mem_append.mp ht with ht | ht
      · exact (h.last t ht).trans hn
      · rw [List.mem_singleton] at ht; exact ht.le
    · intro k t hk
      rw [List.getElem?_append] at hk
      split at hk
      · exact h.due k t hk
      · next hlt =>
        rw [List.getElem?_singleton] at hk
        split at hk
        · next hz =>
          cases hk
          have : k = ts.length := by omega
          rw [this, ← h.nxt]; exact h1
        · cases hk

theorem Sched.atMost {start int now next : ℤ} {ts : List ℤ} (h : Sched start int now next ts) (hi : 0 < int) : AtMostPerInterval start int ts := by
  intro t ht
  have hd : 0 ≤ (t - start) / int := Int.ediv_nonneg (by omega) hi.le
  obtain ⟨m, hm⟩ := Int.eq_ofNat_of_zero_le hd
  have hsplit : ts.filter (· ≤ t) = (ts.take (m + 1)).filter (· ≤ t) := by
    conv_lhs => rw [← List.take_append_drop (m + 1) ts, List.filter_append]
    have : (ts.drop (m + 1)).filter (· ≤ t) = [] := by
      rw [List.filter_eq_nil_iff]
      intro a ha
      obtain ⟨i, hi', hia⟩ := List.getElem_of_mem ha
      have hk : ts[m + 1 + i]? = some a := by
        rw [← List.getElem?_drop, List.getElem?_eq_getElem hi', hia]
      have := h.due _ _ hk
      have hlt : t - start < ((t - start) / int + 1) * int := Int.lt_ediv_add_one_mul_self _ hi
      rw [hm] at hlt
      have hmul : ((m : ℤ) + 1) * int ≤ ((m + 1 + i : ℕ) : ℤ) * int := by
        apply mul_le_mul_of_nonneg_right _ hi.le
        push_cast; omega
      simp only [decide_eq_true_eq, not_le]
      have hlt' : t - start < ((m : ℤ) + 1) * int := hlt
      omega
    rw [this, List.append_nil]
  rw [hsplit, hm]
  have h1 := List.length_filter_le (fun x : ℤ => decide (x ≤ t)) (ts.take (m + 1))
  have h2 := List.length_take_le (m + 1) ts
  have : ((ts.take (m + 1)).filter (fun x => decide (x ≤ t))).length ≤ m + 1 := h1.trans h2
  omega

/-- With steps no longer than the interval the next time due is ahead, and each record comes before the time due next. -/
structure Tight (start int now next : ℤ) (ts : List ℤ) : Prop extends Sched start int now next ts where
  ahead : now < next
  early : ∀ (k : ℕ) (t : ℤ), ts[k]? = some t → t < start + (k + 1) * int

theorem Tight.step {start int now next now' next' : ℤ} {ts ts' : List ℤ} (h : Tight start int now next ts) (hn : now ≤ now')
    (hl : now' - now ≤ int)
    (hs : (now' < next ∧ ts' = ts ∧ next' = next) ∨ (next ≤ now' ∧ next' = next + int ∧ ts' = ts ++ [now'])) : Tight start int now' next' ts' := by
  refine ⟨h.toSched.step hn hs, ?_, ?_⟩
  · have := h.ahead
    rcases hs with ⟨h1, _, h3⟩ | ⟨h1, h2, _⟩ <;> omega
  · rcases hs with ⟨_, rfl, _⟩ | ⟨h1, h2, rfl⟩
    · exact h.early
    · intro k t hk
      rw [List.getElem?_append] at hk
      split at hk
      · exact h.early k t hk
      · next hlt =>
        rw [List.getElem?_singleton] at hk
        split at hk
        · next hz =>
          cases hk
          have hk' : k = ts.length := by omega
          have := h.ahead
          have hnx := h.nxt
          rw [hk']
          have : start + ((ts.length : ℤ) + 1) * int = next + int := by rw [hnx]; ring
          omega
        · cases hk

theorem Tight.noneSkipped {start int now next : ℤ} {ts : List ℤ} (h : Tight start int now next ts) (hi : 0 < int) : NoneSkipped start int now ts := by
  intro k hk
  have h1 := h.ahead
  rw [h.nxt] at h1
  have hlt : (k : ℤ) * int < ts.length * int := by omega
  have hk' : k < ts.length := by
    have := lt_of_mul_lt_mul_right hlt hi.le
    omega
  have hg := List.getElem?_eq_getElem hk'
  exact ⟨_, List.getElem_mem hk', h.due _ _ hg, h.early _ _ hg⟩

theorem outs_step {e : Env K} {s s' : CoreSt K} {p : PassOut K} (ha : Advanced e s p s') :
    (s'.time < s.outTime ∧ s'.outs.map (·.time) = s.outs.map (·.time) ∧ s'.outTime = s.outTime) ∨
    (s.outTime ≤ s'.time ∧ s'.outTime = s.outTime + e.oo.OutInt ∧ s'.outs.map (·.time) = s.outs.map (·.time) ++ [s'.time]) := by
  rcases ha.outs with ⟨h1, h2, h3⟩ | ⟨h1, h2, bl, h3, _⟩
  · exact .inl ⟨h1, by rw [h2], h3⟩
  · exact .inr ⟨h1, h2, by rw [h3, List.map_append]; rfl⟩

theorem ts_step {e : Env K} {s s' : CoreSt K} {p : PassOut K} (ha : Advanced e s p s') :
    (s'.time < s.tsTime ∧ s'.ts.map (·.time) = s.ts.map (·.time) ∧ s'.tsTime = s.tsTime) ∨
    (s.tsTime ≤ s'.time ∧ s'.tsTime = s.tsTime + e.oo.TsOutInt ∧ s'.ts.map (·.time) = s.ts.map (·.time) ++ [s'.time]) := by
  rcases ha.ts with ⟨h1, h2, h3⟩ | ⟨h1, h2, r, h3, h4⟩
  · exact .inl ⟨h1, by rw [h2], h3⟩
  · exact .inr ⟨h1, h2, by rw [h3, List.map_append, List.map_singleton, tsRecord_time h4]⟩

theorem halve_lower (cond : ℤ → Bool) (hc : ∀ d, cond d = true → 0 < secs d) : ∀ (f : ℕ) (dt r : ℤ), 0 ≤ dt → halve cond f dt = .ok r →
    min dt 500000000 ≤ r := by
  intro f
  induction f with
  | zero => intro dt r _ h; cases h
  | succ f ih =>
    intro dt r h0 h
    unfold halve at h
    split at h
    · next hcd =>
      have hs := hc _ hcd
      have h9 : 1000000000 ≤ dt := by
        unfold secs at hs
        by_contra hlt
        rw [not_le] at hlt
        have : dt / 1000000000 = 0 := Int.ediv_eq_zero_of_lt h0 hlt
        rw [this] at hs
        simp at hs
      have hd : dt.tdiv 2 = dt / 2 := Int.tdiv_eq_ediv_of_nonneg h0
      have := ih _ _ (by omega) h
      omega
    · cases h; exact min_le_left _ _

theorem secs_nonneg (d : ℤ) : 0 ≤ secs d := Int.emod_nonneg _ (by norm_num)

theorem adapt_lower {rate : Fl K} {lim : K} {dtMin dtMax dt r : ℤ} (h0 : 0 ≤ dt) (h : adaptDt rate lim dtMin dtMax dt = .ok r) :
    min dt 500000000 ≤ r := by
  unfold adaptDt at h
  obtain ⟨d, h1, h2⟩ := bind_ok.mp h
  have a := halve_nonneg _ _ _ _ h0 h1
  have b := grow_nonneg _ _ _ _ a.1 h2
  have c := halve_lower _ (fun d hd => by
    rw [Bool.and_eq_true, decide_eq_true_eq] at hd
    exact (secs_nonneg dtMin).trans_lt hd.1) _ _ _ h0 h1
  omega

/-- Until the end time is reached the step stays at least the smaller of MorDtMin and half a second. -/
theorem Run.lower {e : Env K} {s0 s : CoreSt K} {tr : List (CoreSt K × PassOut K × CoreSt K)} (h : Run e s0 tr s) (h0 : TimeInv e s0) {d : ℤ}
    (hd : d ≤ s0.dt) (hd' : d ≤ 500000000) (hp0 : 0 < d) :
    (d ≤ s.dt ∧ s0.time + tr.length * d ≤ s.time) ∨ (s.time = e.tp.EndTime ∧ s0.time + (tr.length - 1) * d ≤ s.time ∧ 0 < s.dt) ∨
    (s.time = e.tp.EndTime ∧ s0.time + (tr.length - 2) * d ≤ s.time ∧ s.dt = 0) := by
  induction h with
  | start => left; exact ⟨hd, by simp⟩
  | @pass tr s s' p hr hle hp ih =>
    have hi := hr.timeInv h0
    obtain ⟨h1, h2, h3⟩ := step_nonneg hp hi.dt hi.hi
    obtain ⟨⟨fl, sl, hc⟩, ha⟩ := pass_inv hp
    have hlen : ((tr ++ [(s, p, s')]).length : ℤ) = tr.length + 1 := by simp
    rw [hlen]
    have e1 : ((tr.length : ℤ) + 1) * d = tr.length * d + d := by ring
    have e2 : ((tr.length : ℤ) + 1 - 1) * d = tr.length * d := by ring
    have e3 : ((tr.length : ℤ) - 1) * d = tr.length * d - d := by ring
    have e4 : ((tr.length : ℤ) + 1 - 2) * d = tr.length * d - d := by ring
    have e5 : ((tr.length : ℤ) - 2) * d = tr.length * d - 2 * d := by ring
    rw [e3, e5] at ih
    rw [e1, e2, e4]
    have ht := ha.time
    have hdt := ha.dt
    obtain ⟨rate, R, R', g1, _⟩ := update_dt hc.mor
    have hlow := adapt_lower (show 0 ≤ (morIn e s p.chan p.dep p.hyd p.bed p.LST p.CST p.owp).MorDt from hi.dt) g1
    change min s.dt 500000000 ≤ p.mor.MorDt at hlow
    have hstep : stepOf e s p = p.mor.MorDt ∨ stepOf e s p = e.tp.EndTime - s.time := by
      unfold stepOf; split <;> simp
    rcases ih with ⟨i1, i2⟩ | ⟨i1, i2, i3⟩ | ⟨i1, i2, i3⟩
    · rcases hstep with k | k
      · left; rw [hdt, ht, k]; omega
      · by_cases hz : stepOf e s p = 0
        · right; right; omega
        · right; left; omega
    · right; right
      have : stepOf e s p = 0 := by omega
      omega
    · exfalso
      have hw := hc.window
      unfold hydTimes at hw
      split at hw
      · cases hw
      · rw [i3] at hw
        simp only [Int.zero_ediv, Int.toNat_zero, List.range_zero] at hw
        have hf := hc.flow
        rw [← ok_inj.mp hw] at hf
        unfold interpolateAt at hf
        simp only [bind_ok, ixGet_ok] at hf
        obtain ⟨_, h, _⟩ := hf
        cases h

/-- With an empty window a pass fails. -/
theorem pass_empty {e : Env K} {s s' : CoreSt K} {p : PassOut K} (hp : pass e s = .ok (p, s')) : p.window ≠ [] := by
  obtain ⟨⟨fl, sl, hc⟩, ha⟩ := pass_inv hp
  intro hw
  have hf := hc.flow
  rw [hw] at hf
  unfold interpolateAt at hf
  simp only [bind_ok, ixGet_ok] at hf
  obtain ⟨_, h, _⟩ := hf
  cases h

end Verif.Model
