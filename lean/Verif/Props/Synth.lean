import Verif.Lemmas.Synth
import Mathlib.Tactic.FieldSimp

set_option autoImplicit false

/-! # C64-C67, C73, C74: synthetic boundary conditions -/

namespace Verif.Props
open Verif Verif.Model Fl

/-! ## C64 -/

/-- The tidal period: 12 h 25 min 12 s, in nanoseconds. -/
def periodNs : ℤ := 44712 * 10 ^ 9

/-- C64: the times of the tide are regular, from the start to no later than the end, and no further one would fit. -/
theorem C64_times {S E d : ℤ} {m r : ℝ} (hd : 0 < d) : ∃ ts, harmonicTide S E d m r = .ok ts ∧
    (∀ (i : ℕ) (t : ℤ) (v : Fl ℝ), ts[i]? = some (t, v) → t = S + i * d ∧ t ≤ E) ∧ ∀ i : ℕ, S + i * d ≤ E → i < ts.length := by
  obtain ⟨l, hl, hget⟩ := dateRange_ok (a := S) (b := E) hd
  refine ⟨_, bind_ok.mpr ⟨l, hl, rfl⟩, ?_, ?_⟩
  · intro i t v h
    rw [List.getElem?_map, Option.map_eq_some_iff] at h
    obtain ⟨t', h1, h2⟩ := h
    cases h2
    exact (hget i t).mp h1
  · intro i hi
    rw [List.length_map]
    exact (List.getElem?_eq_some_iff.mp ((hget i _).mpr ⟨rfl, hi⟩)).1

/-- The value of each record. -/
theorem tide_value {S E d : ℤ} {m r : ℝ} {ts : Series ℝ} (h : harmonicTide S E d m r = .ok ts) {t : ℤ} {v : Fl ℝ} (hv : (t, v) ∈ ts) :
    v = fin (m + r / 2 * Real.sin (2 * Real.pi * ((t - S : ℤ) : ℝ) / (periodNs : ℝ))) := by
  obtain ⟨l, _, h1⟩ := bind_ok.mp h
  have h1 := pure_ok.mp h1
  subst h1
  obtain ⟨t', _, h2⟩ := List.mem_map.mp hv
  cases h2
  congr 4
  unfold tidePeriod periodNs
  push_cast
  ring

/-- C64: starting at mean sea level. -/
theorem C64_start {S E d : ℤ} {m r : ℝ} (hd : 0 < d) (hSE : S ≤ E) : ∃ ts, harmonicTide S E d m r = .ok ts ∧ ts.head? = some (S, fin m) := by
  obtain ⟨ts, h, h1, h2⟩ := C64_times (S := S) (E := E) (m := m) (r := r) hd
  refine ⟨ts, h, ?_⟩
  have hl : 0 < ts.length := h2 0 (by simpa using hSE)
  obtain ⟨⟨t, v⟩, hg⟩ : ∃ q, ts[0]? = some q := ⟨_, List.getElem?_eq_getElem hl⟩
  have ht : t = S := by simpa using (h1 0 t v hg).1
  subst ht
  have := tide_value h (List.mem_of_getElem? hg)
  rw [List.head?_eq_getElem?, hg, this]
  simp

/-- C64: always within half the range of the mean. -/
theorem C64_bounded {S E d : ℤ} {m r : ℝ} {ts : Series ℝ} (h : harmonicTide S E d m r = .ok ts) {t : ℤ} {v : Fl ℝ} (hv : (t, v) ∈ ts) :
    ∃ y, v = fin y ∧ |y - m| ≤ |r| / 2 := by
  refine ⟨_, tide_value h hv, ?_⟩
  rw [add_sub_cancel_left, abs_mul, abs_div, abs_two]
  exact mul_le_of_le_one_right (by positivity) (Real.abs_sin_le_one _)

/-- C64: both bounds are attained a quarter and three quarters of a period after the start. -/
theorem C64_range {S E d : ℤ} {m r : ℝ} {ts : Series ℝ} (h : harmonicTide S E d m r = .ok ts) :
    (∀ v, (S + periodNs / 4, v) ∈ ts → v = fin (m + r / 2)) ∧ ∀ v, (S + 3 * (periodNs / 4), v) ∈ ts → v = fin (m - r / 2) := by
  have hp : (periodNs : ℝ) = 4 * ((periodNs / 4 : ℤ) : ℝ) := by
    have : periodNs = 4 * (periodNs / 4) := by decide
    exact_mod_cast this
  have h0 : ((periodNs / 4 : ℤ) : ℝ) ≠ 0 := by
    have : periodNs / 4 ≠ 0 := by decide
    exact_mod_cast this
  constructor
  · intro v hv
    rw [tide_value h hv, show S + periodNs / 4 - S = periodNs / 4 by ring, hp,
      show 2 * Real.pi * ((periodNs / 4 : ℤ) : ℝ) / (4 * ((periodNs / 4 : ℤ) : ℝ)) = Real.pi / 2 by field_simp; ring, Real.sin_pi_div_two, mul_one]
  · intro v hv
    rw [tide_value h hv, show S + 3 * (periodNs / 4) - S = 3 * (periodNs / 4) by ring, hp, Int.cast_mul,
      show 2 * Real.pi * (((3 : ℤ) : ℝ) * ((periodNs / 4 : ℤ) : ℝ)) / (4 * ((periodNs / 4 : ℤ) : ℝ)) = -(Real.pi / 2) + 2 * Real.pi by push_cast; field_simp; ring,
      Real.sin_add_two_pi, Real.sin_neg, Real.sin_pi_div_two]
    congr 1; ring

/-- C64: repeating every tidal period. -/
theorem C64_periodic {S E d : ℤ} {m r : ℝ} {ts : Series ℝ} (h : harmonicTide S E d m r = .ok ts) {t t' : ℤ} {v v' : Fl ℝ}
    (hv : (t, v) ∈ ts) (hv' : (t', v') ∈ ts) {k : ℤ} (hk : t' = t + k * periodNs) : v' = v := by
  rw [tide_value h hv, tide_value h hv']
  have h0 : (periodNs : ℝ) ≠ 0 := by
    have : periodNs ≠ 0 := by decide
    exact_mod_cast this
  have : 2 * Real.pi * ((t' - S : ℤ) : ℝ) / (periodNs : ℝ) = 2 * Real.pi * ((t - S : ℤ) : ℝ) / (periodNs : ℝ) + k * (2 * Real.pi) := by
    rw [hk]; push_cast; field_simp; ring
  rw [this, Real.sin_add_int_mul_two_pi]

/-- A zero interval is an error. -/
theorem C64_zero (S E : ℤ) (m r : ℝ) : harmonicTide S E 0 m r = .error .zeroDiv := by
  unfold harmonicTide dateRange; rfl

/-- A tide of range 2 m about 0.5 m, every quarter of a period: second and fourth records. -/
example : ∃ ts, harmonicTide 0 (periodNs * 2) (periodNs / 4) (1 / 2) 2 = .ok ts ∧ ts.length = 9 ∧ ts[1]? = some (periodNs / 4, fin (3 / 2 : ℝ)) ∧
    ts[3]? = some (3 * (periodNs / 4), fin (-1 / 2 : ℝ)) := by
  obtain ⟨ts, h, h1, h2⟩ := C64_times (S := 0) (E := periodNs * 2) (d := periodNs / 4) (m := 1 / 2) (r := 2) (by decide)
  have h8 : 8 < ts.length := h2 8 (by decide)
  have h9 : ¬ 9 < ts.length := by
    intro h9
    have hg := List.getElem?_eq_getElem h9
    have := (h1 9 _ _ hg)
    have hle := this.2
    rw [this.1] at hle
    exact absurd hle (by decide)
  refine ⟨ts, h, by omega, ?_, ?_⟩
  · obtain ⟨⟨t, v⟩, hg⟩ : ∃ q, ts[1]? = some q := ⟨_, List.getElem?_eq_getElem (show 1 < ts.length by omega)⟩
    have ht : t = 0 + periodNs / 4 := by rw [(h1 1 t v hg).1]; rfl
    subst ht
    rw [hg, (C64_range h).1 v (List.mem_of_getElem? hg)]
    norm_num
  · obtain ⟨⟨t, v⟩, hg⟩ : ∃ q, ts[3]? = some q := ⟨_, List.getElem?_eq_getElem (show 3 < ts.length by omega)⟩
    have ht : t = 0 + 3 * (periodNs / 4) := by rw [(h1 3 t v hg).1]; rfl
    subst ht
    rw [hg, (C64_range h).2 v (List.mem_of_getElem? hg)]
    norm_num

/-! ## C65 -/

/-- C65 refuted in general, and partial: the tide passes the coverage check exactly if the interval divides the length of the
simulation. -/
theorem C65_iff_partial {S E d stop : ℤ} {m r : ℝ} {ts : Series ℝ} (hd : 0 < d) (hSE : S ≤ E) (h : harmonicTide S E d m r = .ok ts) :
    (∃ ts', trimSeries ts S E stop = .ok ts') ↔ d ∣ E - S := by
  obtain ⟨ts2, h', h1, h2⟩ := C64_times (S := S) (E := E) (m := m) (r := r) hd
  rw [h, ok_inj] at h'
  subst h'
  have hl : 0 < ts.length := h2 0 (by simpa using hSE)
  obtain ⟨⟨t0, v0⟩, hg0⟩ : ∃ q, ts[0]? = some q := ⟨_, List.getElem?_eq_getElem hl⟩
  obtain ⟨⟨t1, v1⟩, hg1⟩ : ∃ q, ts[ts.length - 1]? = some q := ⟨_, List.getElem?_eq_getElem (by omega)⟩
  have e0 : t0 = S := by simpa using (h1 0 t0 v0 hg0).1
  obtain ⟨e1, e2⟩ := h1 _ t1 v1 hg1
  have key : (∃ ts', trimSeries ts S E stop = .ok ts') ↔ E ≤ t1 := by
    unfold trimSeries
    simp only [bind_ok, pyGet_last, ixGet_ok, pyAssert_ok, pure_ok, Bool.and_eq_true, decide_eq_true_eq]
    constructor
    · rintro ⟨ts', a, ha, b, hb, _, ⟨_, hc⟩, _⟩
      rw [List.getLast?_eq_getElem?, hg1] at hb
      cases hb
      exact hc
    · intro hc
      exact ⟨_, (t0, v0), hg0, (t1, v1), by rw [List.getLast?_eq_getElem?, hg1], (), ⟨by simp [e0], hc⟩, rfl⟩
  rw [key]
  constructor
  · intro hE
    exact ⟨(ts.length - 1 : ℕ), by rw [show E = t1 by omega, e1]; ring⟩
  · rintro ⟨k, hk⟩
    have hk0 : 0 ≤ k := by
      by_contra hneg
      have : d * k < 0 := mul_neg_of_pos_of_neg hd (by omega)
      omega
    obtain ⟨n, rfl⟩ := Int.eq_ofNat_of_zero_le hk0
    have := h2 n (by rw [mul_comm]; omega)
    have hle : (n : ℤ) * d ≤ ((ts.length - 1 : ℕ) : ℤ) * d := by
      apply mul_le_mul_of_nonneg_right _ hd.le
      exact_mod_cast (by omega : n ≤ ts.length - 1)
    rw [e1]
    rw [mul_comm] at hk
    omega

/-- C65 refuted: a simulation of 90 minutes with the default interval of 60 minutes is rejected. -/
theorem C65_refuted : ∃ ts, harmonicTide 0 (5400 * 10 ^ 9) (3600 * 10 ^ 9) 0 2 = .ok ts ∧
    ∀ stop, trimSeries ts 0 (5400 * 10 ^ 9) stop = .error .assertion := by
  obtain ⟨ts, h, hh⟩ := C64_start (S := 0) (E := 5400 * 10 ^ 9) (d := 3600 * 10 ^ 9) (m := 0) (r := 2) (by norm_num) (by norm_num)
  refine ⟨ts, h, fun stop => ?_⟩
  cases hx : trimSeries ts 0 (5400 * 10 ^ 9) stop with
  | ok a => exact absurd ((C65_iff_partial (by norm_num) (by norm_num) h).mp ⟨a, hx⟩) (by decide)
  | error e =>
    unfold trimSeries at hx
    match ts, hh with
    | a :: t, _ =>
      obtain ⟨b, hb⟩ : ∃ b, pyGet (a :: t) (-1) = .ok b := ⟨(a :: t).getLast (by simp), pyGet_last.mpr (List.getLast?_eq_getLast_of_ne_nil (by simp))⟩
      rw [hb] at hx
      change (pyAssert _ >>= _) = _ at hx
      cases hc : (decide (a.1 ≤ 0) && decide (5400 * 10 ^ 9 ≤ b.1)) with
      | true => rw [hc] at hx; cases hx
      | false => rw [hc] at hx; exact hx.symm

/-! ## C66 -/

/-- The arguments are accepted by the checks of `shotNoise`, apart from the second decay rate. -/
structure ValidShot (p : ShotPars) : Prop where
  decay1 : 0 < p.DecayRate1
  prop0 : 0 ≤ p.PropRate1
  prop1 : p.PropRate1 ≤ 1
  rising : 0 < p.RisingLimbTime
  mean : dayNs ≤ p.MeanTimeBetweenEvents
  incr : 0 ≤ p.MeanEventIncrease
  start : p.StartDate ≤ p.EndDate

/-- C66 refuted, in general: without a second decay rate the documented first-order call raises TypeError, for all other valid
arguments and all draws. -/
theorem C66_refuted_general {p : ShotPars} (hv : ValidShot p) (h1 : p.PropRate1 = 1) (h2 : p.DecayRate2 = none) (toNs : ℝ → ℤ) (origin : ℤ)
    (draws : List (ℝ × ℝ)) : shotNoise p toNs origin draws = .error .type := by
  have hd : p.MeanTimeBetweenEvents / dayNs ≠ 0 := by
    have := hv.mean
    have : 1 ≤ p.MeanTimeBetweenEvents / dayNs := (Int.le_ediv_iff_mul_le (by decide)).mpr (by omega)
    omega
  have : shotInit p = .error .type := by
    unfold shotInit
    simp [pyAssert, hv.decay1, h1, hv.rising, h2, hd]
    rfl
  unfold shotNoise shotRaw
  rw [this]
  rfl

/-- One year of hourly flows with an event every 15 days. -/
noncomputable def yearPars : ShotPars :=
  { StartDate := 0, EndDate := 365 * dayNs, OutputInt := 3600 * 10 ^ 9, MeanTimeBetweenEvents := 15 * dayNs, MeanEventIncrease := 100,
    DecayRate1 := 3 / 10, PropRate1 := 1, DecayRate2 := none, RisingLimbTime := 60 * 10 ^ 9, CalcTimeInt := none }

theorem yearPars_valid : ValidShot yearPars := by
  constructor <;> simp only [yearPars, dayNs] <;> norm_num

/-- C66 refuted: such a call. -/
theorem C66_refuted (toNs : ℝ → ℤ) (origin : ℤ) (draws : List (ℝ × ℝ)) : shotNoise yearPars toNs origin draws = .error .type :=
  C66_refuted_general yearPars_valid rfl rfl toNs origin draws

/-- C66, partial: with some second decay rate (it has no effect when `PropRate1 = 1`) a series is returned for any draws whose gaps
reach the end date.  (Missing: the default `None`.) -/
theorem C66_partial {p : ShotPars} (hv : ValidShot p) {d : ℝ} (h2 : p.DecayRate2 = some d) (hd : d ≠ 0) (hlt : p.PropRate1 < 1 → 0 < d)
    (hci : 0 < p.CalcTimeInt.getD (p.OutputInt / 4)) (toNs : ℝ → ℤ) (origin : ℤ) (draws : List (ℝ × ℝ))
    (hdr : ∀ u ∈ draws, u.1 ≠ 0 ∧ u.2 ≠ 1)
    (hsum : p.EndDate - p.StartDate ≤ (gaps toNs (1 / ((p.MeanTimeBetweenEvents / dayNs : ℤ) : ℝ)) draws).sum) :
    ∃ ts, shotNoise p toNs origin draws = .ok ts := by
  have hd0 : p.MeanTimeBetweenEvents / dayNs ≠ 0 := by
    have := hv.mean
    have : 1 ≤ p.MeanTimeBetweenEvents / dayNs := (Int.le_ediv_iff_mul_le (by decide)).mpr (by omega)
    omega
  obtain ⟨r1, r2, hi⟩ : ∃ r1 r2, shotInit p = .ok (1 / ((p.MeanTimeBetweenEvents / dayNs : ℤ) : ℝ), d, r1, r2) := by
    unfold shotInit
    by_cases h : p.PropRate1 < 1
    · simp [pyAssert, hv.decay1, hv.prop0, hv.prop1, hv.rising, h2, hd0, hd, h, hlt h, bind, Except.bind, pure, Except.pure]
    · simp [pyAssert, hv.decay1, hv.prop0, hv.prop1, hv.rising, h2, hd0, hd, h, bind, Except.bind, pure, Except.pure]
  obtain ⟨s, hs⟩ := shotLoop_ok (p := p) (toNs := toNs) (rate := 1 / ((p.MeanTimeBetweenEvents / dayNs : ℤ) : ℝ)) (d2 := d) hci draws
    ⟨[(p.StartDate, r1 + r2)], r1, r2, p.StartDate⟩ (by simp) hdr (by simp only; omega)
  exact ⟨_, bind_ok.mpr ⟨s, bind_ok.mpr ⟨_, hi, hs⟩, rfl⟩⟩

/-! ## C67 -/

/-- The state after the loop is non-negative. -/
theorem raw_nonneg {p : ShotPars} {toNs : ℝ → ℤ} {draws : List (ℝ × ℝ)} {s : ShotState} (h : shotRaw p toNs draws = .ok s)
    (hi : 0 ≤ p.MeanEventIncrease) (hm : 0 ≤ p.MeanTimeBetweenEvents) (hd : ∀ d ∈ draws, 0 ≤ d.2 ∧ d.2 < 1) : s.NonNeg := by
  unfold shotRaw at h
  obtain ⟨⟨rate, d2, r1, r2⟩, h1, h2⟩ := bind_ok.mp h
  obtain ⟨a1, a2, a3, a4, a5, a6, a7, a8, rfl, rfl, rfl⟩ := shotInit_inv h1
  have hrate : (0 : ℝ) ≤ 1 / ((p.MeanTimeBetweenEvents / dayNs : ℤ) : ℝ) := by
    have : 0 ≤ p.MeanTimeBetweenEvents / dayNs := Int.ediv_nonneg hm (by decide)
    exact one_div_nonneg.mpr (by exact_mod_cast this)
  have n1 : 0 ≤ p.MeanEventIncrease * (p.PropRate1 / p.DecayRate1) * (1 / ((p.MeanTimeBetweenEvents / dayNs : ℤ) : ℝ)) :=
    mul_nonneg (mul_nonneg hi (div_nonneg a2 a1.le)) hrate
  have n2 : 0 ≤ p.MeanEventIncrease * ((1 - p.PropRate1) / d2) * (1 / ((p.MeanTimeBetweenEvents / dayNs : ℤ) : ℝ)) := by
    rcases lt_or_eq_of_le a3 with h | h
    · exact mul_nonneg (mul_nonneg hi (div_nonneg (by linarith) (a7 h).le)) hrate
    · rw [h]; simp
  refine shotLoop_nonneg hi a2 a3 draws _ s hd h2 ⟨?_, n1, n2⟩
  intro r hr
  rw [List.mem_singleton.mp hr]
  exact add_nonneg n1 n2

/-- C67: every flow computed is non-negative, before and after the averaging over output intervals (an interval without any
value before averaging is missing). -/
theorem C67_nonneg {p : ShotPars} {toNs : ℝ → ℤ} {origin : ℤ} {draws : List (ℝ × ℝ)} {ts : Series ℝ}
    (h : shotNoise p toNs origin draws = .ok ts) (hi : 0 ≤ p.MeanEventIncrease) (hm : 0 ≤ p.MeanTimeBetweenEvents)
    (hd : ∀ d ∈ draws, 0 ≤ d.2 ∧ d.2 < 1) :
    (∃ s, shotRaw p toNs draws = .ok s ∧ (∀ r ∈ s.ts, 0 ≤ r.2) ∧ 0 ≤ s.r1 ∧ 0 ≤ s.r2) ∧
    ∀ t v, (t, v) ∈ ts → v = nan ∨ ∃ y, v = fin y ∧ 0 ≤ y := by
  obtain ⟨s, h1, h2⟩ := bind_ok.mp h
  have hn := raw_nonneg h1 hi hm hd
  refine ⟨⟨s, h1, hn.ts, hn.r1, hn.r2⟩, ?_⟩
  have h2 := pure_ok.mp h2
  subst h2
  intro t v hv
  obtain ⟨k, hk⟩ := List.mem_iff_getElem?.mp (List.mem_filter.mp hv).1
  obtain ⟨a, b, _, _, _, _, h3⟩ := resample_get hk
  rcases h3 with ⟨rfl, _⟩ | ⟨vs, _, rfl, rfl⟩
  · exact Or.inl rfl
  · refine Or.inr ⟨_, rfl, div_nonneg (List.sum_nonneg ?_) (Nat.cast_nonneg _)⟩
    intro x hx
    obtain ⟨r, hr, rfl⟩ := List.mem_map.mp hx
    exact hn.ts r (List.mem_filter.mp hr).1

/-! ## C73 -/

/-- The times of the raw series. -/
theorem raw_times {p : ShotPars} {toNs : ℝ → ℤ} {draws : List (ℝ × ℝ)} {s : ShotState} (h : shotRaw p toNs draws = .ok s)
    (hns : ∀ x, 0 ≤ x → 0 ≤ toNs x) (hm : 0 ≤ p.MeanTimeBetweenEvents) (hd : ∀ d ∈ draws, 0 ≤ d.1 ∧ d.1 < 1)
    (hci : 0 < p.CalcTimeInt.getD (p.OutputInt / 4)) {int : ℤ} (hle : p.CalcTimeInt.getD (p.OutputInt / 4) ≤ int) :
    Times p int s ∧ p.EndDate ≤ s.last := by
  unfold shotRaw at h
  obtain ⟨⟨rate, d2, r1, r2⟩, h1, h2⟩ := bind_ok.mp h
  obtain ⟨a1, a2, a3, a4, a5, a6, a7, a8, rfl, _, _⟩ := shotInit_inv h1
  refine Times.loop a4 hci hle draws _ s ?_ h2 (Times.init a4)
  intro g hg
  obtain ⟨d, hd1, rfl⟩ := List.mem_map.mp hg
  apply hns
  have hrate : (0 : ℝ) ≤ 1 / ((p.MeanTimeBetweenEvents / dayNs : ℤ) : ℝ) := by
    have : 0 ≤ p.MeanTimeBetweenEvents / dayNs := Int.ediv_nonneg hm (by decide)
    exact one_div_nonneg.mpr (by exact_mod_cast this)
  exact div_nonneg (neg_nonneg.mpr (Real.log_nonpos (hd d hd1).1 (hd d hd1).2.le)) hrate

/-- C73, partial: no value is missing if neither the rising limb nor the calculation interval is longer than the output interval.
(Missing: longer rising limbs.) -/
theorem C73_partial {p : ShotPars} {toNs : ℝ → ℤ} {origin : ℤ} {draws : List (ℝ × ℝ)} {ts : Series ℝ}
    (h : shotNoise p toNs origin draws = .ok ts) (hns : ∀ x, 0 ≤ x → 0 ≤ toNs x) (hm : 0 ≤ p.MeanTimeBetweenEvents)
    (hd : ∀ d ∈ draws, 0 ≤ d.1 ∧ d.1 < 1) (hci : 0 < p.CalcTimeInt.getD (p.OutputInt / 4))
    (hle : p.CalcTimeInt.getD (p.OutputInt / 4) ≤ p.OutputInt) (hr : p.RisingLimbTime ≤ p.OutputInt) :
    ∀ t v, (t, v) ∈ ts → v ≠ nan := by
  obtain ⟨s, h1, h2⟩ := bind_ok.mp h
  have h2 := pure_ok.mp h2
  subst h2
  obtain ⟨T, _⟩ := raw_times h1 hns hm hd hci hle
  intro t v hv
  obtain ⟨k, hk⟩ := List.mem_iff_getElem?.mp (List.mem_filter.mp hv).1
  obtain ⟨a, b, ha, hb, hkb, ht, h3⟩ := resample_get hk
  rcases h3 with ⟨_, hno⟩ | ⟨vs, _, rfl, _⟩
  · exfalso
    have hint : 0 < p.OutputInt := by omega
    have hbl : b.1 = s.last := by
      have := T.last; rw [hb] at this; simpa using this
    have ha0 : p.StartDate - p.RisingLimbTime ≤ a.1 := T.lower a.1 (List.mem_map_of_mem (List.mem_of_mem_head? (by rw [ha]; rfl)))
    rcases Nat.eq_zero_or_pos k with rfl | hk0
    · exact hno a (List.mem_of_mem_head? (by rw [ha]; rfl)) (by simp)
    · -- the start of the interval
      have e1 := Int.emod_add_mul_ediv (a.1 - origin) p.OutputInt
      have e2 := Int.emod_lt_of_pos (a.1 - origin) hint
      have e3 := Int.emod_add_mul_ediv (b.1 - origin) p.OutputInt
      have e4 := Int.emod_nonneg (b.1 - origin) (ne_of_gt hint)
      have e5 : ((a.1 - origin) / p.OutputInt + k) * p.OutputInt ≤ (b.1 - origin) / p.OutputInt * p.OutputInt :=
        mul_le_mul_of_nonneg_right (by omega) hint.le
      have e6 : ((a.1 - origin) / p.OutputInt + 1) * p.OutputInt ≤ ((a.1 - origin) / p.OutputInt + k) * p.OutputInt :=
        mul_le_mul_of_nonneg_right (by omega) hint.le
      rw [mul_comm] at e1 e3
      rw [add_mul, one_mul] at e6
      obtain ⟨τ, hτ, h5, h6⟩ := T.dense t (by rw [ht]; omega) (by rw [ht, ← hbl]; omega) hr
      obtain ⟨q, hq, rfl⟩ := List.mem_map.mp hτ
      apply hno q hq
      rw [ht] at h5 h6
      apply le_antisymm
      · apply Int.lt_add_one_iff.mp
        rw [Int.ediv_lt_iff_lt_mul hint, add_mul, one_mul]; omega
      · rw [Int.le_ediv_iff_mul_le hint]; omega
  · simp

/-- C73 refuted, in general: an output interval between the first and the last value and not after the end date, in which no value
was computed, is missing in the result. -/
theorem C73_refuted_general {p : ShotPars} {toNs : ℝ → ℤ} {origin : ℤ} {draws : List (ℝ × ℝ)} {ts : Series ℝ} {s : ShotState}
    (hraw : shotRaw p toNs draws = .ok s) (h : shotNoise p toNs origin draws = .ok ts) {a b : ℤ × ℝ} (ha : s.ts.head? = some a) (hb : s.ts.getLast? = some b)
    {k : ℕ} (hk : (k : ℤ) ≤ (b.1 - origin) / p.OutputInt - (a.1 - origin) / p.OutputInt)
    (he : origin + ((a.1 - origin) / p.OutputInt + k) * p.OutputInt ≤ p.EndDate)
    (hno : ∀ r ∈ s.ts, (r.1 - origin) / p.OutputInt ≠ (a.1 - origin) / p.OutputInt + k) :
    (origin + ((a.1 - origin) / p.OutputInt + k) * p.OutputInt, nan) ∈ ts := by
  obtain ⟨s', h1, h2⟩ := bind_ok.mp h
  rw [hraw, ok_inj] at h1
  subst h1
  have h2 := pure_ok.mp h2
  subst h2
  have hl : k < (resampleMean origin p.OutputInt s.ts).length := by rw [resample_length ha hb]; omega
  obtain ⟨⟨t, v⟩, hg⟩ : ∃ q, (resampleMean origin p.OutputInt s.ts)[k]? = some q := ⟨_, List.getElem?_eq_getElem hl⟩
  obtain ⟨a', b', ha', hb', _, ht, h3⟩ := resample_get hg
  rw [ha] at ha'
  cases ha'
  refine List.mem_filter.mpr ⟨?_, decide_eq_true he⟩
  rcases h3 with ⟨rfl, _⟩ | ⟨vs, hvs, _, rfl⟩
  · rw [← ht]; exact List.mem_of_getElem? hg
  · exfalso
    apply hvs
    rw [List.map_eq_nil_iff, List.filter_eq_nil_iff]
    intro r hr hbin
    exact hno r hr (by simpa using hbin)

/-- A flood with a rising limb of one day, resampled to 12 hours. -/
noncomputable def floodPars : ShotPars :=
  { StartDate := 0, EndDate := 129600 * 10 ^ 9, OutputInt := 43200 * 10 ^ 9, MeanTimeBetweenEvents := dayNs, MeanEventIncrease := 100,
    DecayRate1 := 3 / 10, PropRate1 := 1, DecayRate2 := some 1, RisingLimbTime := dayNs, CalcTimeInt := none }

theorem floodPars_valid : ValidShot floodPars := by
  constructor <;> simp only [floodPars, dayNs] <;> norm_num

/-- Conversion of days to nanoseconds. -/
noncomputable def floorNs (x : ℝ) : ℤ := ⌊x * (dayNs : ℝ)⌋

theorem floorNs_nonneg {x : ℝ} (h : 0 ≤ x) : 0 ≤ floorNs x :=
  Int.floor_nonneg.mpr (mul_nonneg h (by exact_mod_cast (by decide : (0 : ℤ) ≤ dayNs)))

/-- The event is two days after the start. -/
noncomputable def floodDraws : List (ℝ × ℝ) := [(Real.exp (-2), 1 / 2)]

theorem flood_gap : floorNs (-Real.log (Real.exp (-2)) / (1 / ((floodPars.MeanTimeBetweenEvents / dayNs : ℤ) : ℝ))) = 2 * dayNs := by
  have : floodPars.MeanTimeBetweenEvents / dayNs = 1 := by simp only [floodPars]; decide
  rw [this, Real.log_exp]
  unfold floorNs
  rw [show -(-2 : ℝ) / (1 / ((1 : ℤ) : ℝ)) * ((dayNs : ℤ) : ℝ) = ((2 * dayNs : ℤ) : ℝ) by push_cast; ring, Int.floor_intCast]

theorem flood_returns (origin : ℤ) : ∃ ts, shotNoise floodPars floorNs origin floodDraws = .ok ts := by
  refine C66_partial floodPars_valid rfl one_ne_zero (fun _ => one_pos) (by simp only [floodPars]; decide) floorNs origin floodDraws ?_ ?_
  · intro u hu
    rw [List.mem_singleton.mp hu]
    exact ⟨Real.exp_ne_zero _, by norm_num⟩
  · rw [show gaps floorNs _ floodDraws = [floorNs (-Real.log (Real.exp (-2)) / (1 / ((floodPars.MeanTimeBetweenEvents / dayNs : ℤ) : ℝ)))] from rfl,
      flood_gap]
    simp only [floodPars]
    decide

/-- C67 on this flood. -/
example (origin : ℤ) : ∃ ts, shotNoise floodPars floorNs origin floodDraws = .ok ts ∧ ∀ t v, (t, v) ∈ ts → v = nan ∨ ∃ y, v = fin y ∧ 0 ≤ y := by
  obtain ⟨ts, h⟩ := flood_returns origin
  refine ⟨ts, h, (C67_nonneg h (by simp [floodPars]) (by simp only [floodPars]; decide) ?_).2⟩
  intro d hd
  rw [List.mem_singleton.mp hd]
  norm_num

/-- The times of the flows computed for the flood. -/
theorem flood_raw {s : ShotState} (h : shotRaw floodPars floorNs floodDraws = .ok s) :
    s.ts.map (·.1) = ([0, 3, 6, 9, 12, 15, 18, 21, 24, 24, 48] : List ℤ).map (3600 * 10 ^ 9 * ·) := by
  unfold shotRaw at h
  obtain ⟨⟨rate, d2, r1, r2⟩, h1, h2⟩ := bind_ok.mp h
  obtain ⟨a1, a2, a3, a4, a5, a6, a7, a8, rfl, _, _⟩ := shotInit_inv h1
  simp only at h2
  unfold shotLoop floodDraws at h2
  rw [if_pos (by simp only [floodPars]; decide)] at h2
  simp only at h2
  rw [if_neg (by rintro (h3 | h3); exact Real.exp_ne_zero _ h3; norm_num at h3), flood_gap] at h2
  obtain ⟨s1, h3, h4⟩ := bind_ok.mp h2
  obtain ⟨e1, _, e3⟩ := shotStep_inv h3
  unfold shotLoop at h4
  rw [if_neg (by rw [e1]; simp only [floodPars]; decide), ok_inj] at h4
  subst h4
  rcases e3 with ⟨e3, _⟩ | ⟨_, r, hr, e4⟩
  · exact absurd e3 (by simp only [floodPars]; decide)
  · have : dateRange floodPars.StartDate (floodPars.StartDate + 2 * dayNs - floodPars.RisingLimbTime) (floodPars.CalcTimeInt.getD (floodPars.OutputInt / 4)) =
        .ok (([0, 3, 6, 9, 12, 15, 18, 21, 24] : List ℤ).map (3600 * 10 ^ 9 * ·)) := by
      simp only [floodPars]
      decide +kernel
    have hr : dateRange floodPars.StartDate (floodPars.StartDate + 2 * dayNs - floodPars.RisingLimbTime) (floodPars.CalcTimeInt.getD (floodPars.OutputInt / 4)) = .ok r := hr
    rw [this, ok_inj] at hr
    subst hr
    rw [e4]
    change ([0] : List ℤ) ++ (List.filter (fun t => decide (t ≠ 0)) (([0, 3, 6, 9, 12, 15, 18, 21, 24] : List ℤ).map (3600 * 10 ^ 9 * ·)) ++
      [0 + 2 * dayNs - dayNs, 0 + 2 * dayNs]) = _
    decide +kernel

/-- C73 refuted: no flow is computed between 24 h and the peak at 48 h, and the value for 36 h is missing. -/
theorem C73_refuted : ∃ ts, shotNoise floodPars floorNs 0 floodDraws = .ok ts ∧ (129600 * 10 ^ 9, nan) ∈ ts := by
  obtain ⟨ts, h⟩ := flood_returns 0
  obtain ⟨s, h1, _⟩ := bind_ok.mp h
  have hts := flood_raw h1
  refine ⟨ts, h, ?_⟩
  have hl : s.ts.length = 11 := by
    have := congrArg List.length hts
    simpa using this
  obtain ⟨a, ha⟩ : ∃ a, s.ts[0]? = some a := ⟨_, List.getElem?_eq_getElem (by omega)⟩
  obtain ⟨b, hb⟩ : ∃ b, s.ts[10]? = some b := ⟨_, List.getElem?_eq_getElem (by omega)⟩
  have ha1 : a.1 = 0 := by
    have := congrArg (·[0]?) hts
    simp only [List.getElem?_map, ha] at this
    simpa using this
  have hb1 : b.1 = 3600 * 10 ^ 9 * 48 := by
    have := congrArg (·[10]?) hts
    simp only [List.getElem?_map, hb] at this
    simpa using this
  have := C73_refuted_general (k := 3) h1 h (by rw [List.head?_eq_getElem?]; exact ha) (by rw [List.getLast?_eq_getElem?, hl]; exact hb)
    (by rw [ha1, hb1]; simp only [floodPars]; decide) (by rw [ha1]; simp only [floodPars]; decide) (by
      intro r hr
      have hm : r.1 ∈ s.ts.map (·.1) := List.mem_map_of_mem hr
      rw [hts] at hm
      rw [ha1]
      revert hm
      generalize r.1 = t
      simp only [floodPars]
      intro hm
      exact (by decide +kernel : ∀ t ∈ ([0, 3, 6, 9, 12, 15, 18, 21, 24, 24, 48] : List ℤ).map (3600 * 10 ^ 9 * ·), (t - 0) / (43200 * 10 ^ 9) ≠ (0 - 0) / (43200 * 10 ^ 9) + ((3 : ℕ) : ℤ)) t hm)
  rw [ha1] at this
  simpa [floodPars] using this

/-- With a rising limb of an hour nothing is missing. -/
example : ∃ ts, shotNoise { floodPars with RisingLimbTime := 3600 * 10 ^ 9 } floorNs 0 floodDraws = .ok ts ∧ ∀ t v, (t, v) ∈ ts → v ≠ nan := by
  have hv : ValidShot { floodPars with RisingLimbTime := 3600 * 10 ^ 9 } := by constructor <;> simp only [floodPars, dayNs] <;> norm_num
  have hd : ∀ d ∈ floodDraws, (0 ≤ d.1 ∧ d.1 < 1) ∧ d.1 ≠ 0 ∧ d.2 ≠ 1 := by
    intro d hd
    rw [List.mem_singleton.mp hd]
    exact ⟨⟨(Real.exp_pos _).le, by rw [Real.exp_lt_one_iff]; norm_num⟩, Real.exp_ne_zero _, by norm_num⟩
  obtain ⟨ts, h⟩ : ∃ ts, shotNoise { floodPars with RisingLimbTime := 3600 * 10 ^ 9 } floorNs 0 floodDraws = .ok ts := by
    refine C66_partial hv rfl one_ne_zero (fun _ => one_pos) (by simp only [floodPars]; decide) floorNs 0 floodDraws (fun d h => (hd d h).2) ?_
    rw [show gaps floorNs _ floodDraws = [floorNs (-Real.log (Real.exp (-2)) / (1 / ((floodPars.MeanTimeBetweenEvents / dayNs : ℤ) : ℝ)))] from rfl,
        flood_gap]
    simp only [floodPars]
    decide
  exact ⟨ts, h, C73_partial h (fun x hx => floorNs_nonneg hx) (by simp only [floodPars]; decide) (fun d h => (hd d h).1) (by simp only [floodPars]; decide)
    (by simp only [floodPars]; decide) (by simp only [floodPars]; decide)⟩

/-! ## C74 -/

/-- The resampled times increase. -/
theorem resample_sorted {origin int : ℤ} {ts : List (ℤ × ℝ)} (hi : 0 < int) :
    (resampleMean origin int ts).Pairwise (fun a b => a.1 ≤ b.1) := by
  unfold resampleMean
  cases ts with
  | nil => exact List.Pairwise.nil
  | cons a rest =>
    simp only
    rw [List.pairwise_map]
    refine List.pairwise_lt_range.imp ?_
    intro i j hij
    have : ((a.1 - origin) / int + (i : ℤ)) * int ≤ ((a.1 - origin) / int + (j : ℤ)) * int := mul_le_mul_of_nonneg_right (by omega) hi.le
    simp only
    omega

/-- C74, partial: a shot noise hydrograph passes the coverage check of `loadModel` exactly if the end date is a whole number of
output intervals after the origin of the intervals.  (Missing: other end dates.) -/
theorem C74_iff_partial {p : ShotPars} {toNs : ℝ → ℤ} {origin : ℤ} {draws : List (ℝ × ℝ)} {ts : Series ℝ}
    (h : shotNoise p toNs origin draws = .ok ts) (hns : ∀ x, 0 ≤ x → 0 ≤ toNs x) (hm : 0 ≤ p.MeanTimeBetweenEvents)
    (hd : ∀ d ∈ draws, 0 ≤ d.1 ∧ d.1 < 1) (hci : 0 < p.CalcTimeInt.getD (p.OutputInt / 4)) (hint : 0 < p.OutputInt)
    {StartTime stop : ℤ} (hs : p.StartDate ≤ StartTime) (hse : p.StartDate ≤ p.EndDate) :
    (∃ ts', trimSeries ts StartTime p.EndDate stop = .ok ts') ↔ p.OutputInt ∣ p.EndDate - origin := by
  obtain ⟨s, h1, h2⟩ := bind_ok.mp h
  have h2 := pure_ok.mp h2
  obtain ⟨T, hend⟩ := raw_times h1 hns hm hd hci (le_max_left _ p.OutputInt)
  obtain ⟨t0, v0, hhead, ht0⟩ := T.head
  obtain ⟨b, hb⟩ : ∃ b, s.ts.getLast? = some b := by
    cases hx : s.ts.getLast? with
    | none => have := T.last; rw [hx] at this; cases this
    | some b => exact ⟨b, rfl⟩
  have hbl : b.1 = s.last := by have := T.last; rw [hb] at this; simpa using this
  have hlen := resample_length (origin := origin) (int := p.OutputInt) hhead hb
  have hsort : ts.Pairwise (fun a b => a.1 ≤ b.1) := by rw [← h2]; exact (resample_sorted hint).filter _
  have hle : ∀ r ∈ ts, r.1 ≤ p.EndDate := by
    intro r hr
    rw [← h2] at hr
    simpa using (List.mem_filter.mp hr).2
  have hmem : ∀ k : ℕ, (k : ℤ) ≤ (b.1 - origin) / p.OutputInt - (t0 - origin) / p.OutputInt →
      origin + ((t0 - origin) / p.OutputInt + k) * p.OutputInt ≤ p.EndDate →
      ∃ v, (origin + ((t0 - origin) / p.OutputInt + k) * p.OutputInt, v) ∈ ts := by
    intro k hk he
    obtain ⟨⟨t, v⟩, hg⟩ : ∃ q, (resampleMean origin p.OutputInt s.ts)[k]? = some q :=
      ⟨_, List.getElem?_eq_getElem (by rw [hlen]; simp only; omega)⟩
    obtain ⟨a', b', ha', hb', _, ht, _⟩ := resample_get hg
    rw [hhead] at ha'
    cases ha'
    simp only at ht
    refine ⟨v, ?_⟩
    rw [← h2, ← ht]
    exact List.mem_filter.mpr ⟨List.mem_of_getElem? hg, by rw [ht]; exact decide_eq_true he⟩
  have hdiv : ∀ r ∈ ts, p.OutputInt ∣ r.1 - origin := by
    intro r hr
    rw [← h2] at hr
    obtain ⟨k, hk⟩ := List.mem_iff_getElem?.mp (List.mem_filter.mp hr).1
    obtain ⟨_, _, _, _, _, ht, _⟩ := resample_get hk
    exact ⟨_, by rw [ht, add_sub_cancel_left, mul_comm]⟩
  -- the interval of the end date
  have m0 : (t0 - origin) / p.OutputInt ≤ (p.EndDate - origin) / p.OutputInt := Int.ediv_le_ediv hint (by omega)
  have m1 : (p.EndDate - origin) / p.OutputInt ≤ (b.1 - origin) / p.OutputInt := Int.ediv_le_ediv hint (by omega)
  have f0 : (t0 - origin) / p.OutputInt * p.OutputInt ≤ t0 - origin := Int.ediv_mul_le _ (ne_of_gt hint)
  obtain ⟨v1, hv1⟩ := hmem 0 (by simp only [Nat.cast_zero]; omega) (by simp only [Nat.cast_zero, add_zero]; omega)
  simp only [Nat.cast_zero, add_zero] at hv1
  have hne : ts ≠ [] := List.ne_nil_of_mem hv1
  obtain ⟨a, rest, rfl⟩ := List.exists_cons_of_ne_nil hne
  obtain ⟨z, hz⟩ : ∃ z, (a :: rest).getLast? = some z := ⟨_, List.getLast?_eq_getLast_of_ne_nil (by simp)⟩
  have hfirst : a.1 ≤ StartTime := by
    have : a.1 ≤ origin + (t0 - origin) / p.OutputInt * p.OutputInt := by
      rcases List.mem_cons.mp hv1 with h5 | h5
      · rw [← h5]
      · exact (List.pairwise_cons.mp hsort).1 _ h5
    omega
  have hlastmax : ∀ r ∈ a :: rest, r.1 ≤ z.1 := by
    intro r hr
    obtain ⟨pre, hpre⟩ : ∃ pre, a :: rest = pre ++ [z] := by
      rw [List.getLast?_eq_some_iff] at hz
      exact hz
    rw [hpre] at hr hsort
    rcases List.mem_append.mp hr with h5 | h5
    · exact (List.pairwise_append.mp hsort).2.2 r h5 z (by simp)
    · rw [List.mem_singleton.mp h5]
  have key : (∃ ts', trimSeries (a :: rest) StartTime p.EndDate stop = .ok ts') ↔ p.EndDate ≤ z.1 := by
    unfold trimSeries
    simp only [bind_ok, pyGet_last, ixGet_ok, pyAssert_ok, pure_ok, Bool.and_eq_true, decide_eq_true_eq]
    constructor
    · rintro ⟨ts', a', ha', b', hb', _, ⟨_, hc⟩, _⟩
      rw [hz] at hb'
      cases hb'
      exact hc
    · intro hc
      exact ⟨_, a, rfl, z, hz, (), ⟨hfirst, hc⟩, rfl⟩
  rw [key]
  constructor
  · intro hE
    have hz1 := hle z (List.mem_of_getLast? hz)
    rw [show p.EndDate = z.1 by omega]
    exact hdiv z (List.mem_of_getLast? hz)
  · intro hdvd
    have f1 : (p.EndDate - origin) / p.OutputInt * p.OutputInt = p.EndDate - origin := Int.ediv_mul_cancel hdvd
    have f2 : (t0 - origin) / p.OutputInt + (((p.EndDate - origin) / p.OutputInt - (t0 - origin) / p.OutputInt).toNat : ℤ) = (p.EndDate - origin) / p.OutputInt := by omega
    obtain ⟨v2, hv2⟩ := hmem ((p.EndDate - origin) / p.OutputInt - (t0 - origin) / p.OutputInt).toNat (by omega) (by rw [f2]; omega)
    have := hlastmax _ hv2
    simp only [f2] at this
    omega

/-- C74 refuted: the flood with an end date 18 h after midnight is rejected. -/
theorem C74_refuted : ∃ ts, shotNoise { floodPars with EndDate := 64800 * 10 ^ 9 } floorNs 0 floodDraws = .ok ts ∧
    ∀ stop ts', trimSeries ts 0 (64800 * 10 ^ 9) stop ≠ .ok ts' := by
  have hv : ValidShot { floodPars with EndDate := 64800 * 10 ^ 9 } := by constructor <;> simp only [floodPars, dayNs] <;> norm_num
  obtain ⟨ts, h⟩ : ∃ ts, shotNoise { floodPars with EndDate := 64800 * 10 ^ 9 } floorNs 0 floodDraws = .ok ts := by
    refine C66_partial hv rfl one_ne_zero (fun _ => one_pos) (by simp only [floodPars]; decide) floorNs 0 floodDraws ?_ ?_
    · intro u hu
      rw [List.mem_singleton.mp hu]
      exact ⟨Real.exp_ne_zero _, by norm_num⟩
    · rw [show gaps floorNs _ floodDraws = [floorNs (-Real.log (Real.exp (-2)) / (1 / ((floodPars.MeanTimeBetweenEvents / dayNs : ℤ) : ℝ)))] from rfl,
        flood_gap]
      simp only [floodPars]
      decide
  refine ⟨ts, h, fun stop ts' hts => ?_⟩
  have := (C74_iff_partial h (fun x hx => floorNs_nonneg hx) (by simp only [floodPars]; decide) ?_ (by simp only [floodPars]; decide)
    (by simp only [floodPars]; decide) (StartTime := 0) (stop := stop) le_rfl (by simp only [floodPars]; decide)).mp ⟨ts', hts⟩
  · simp only [floodPars] at this
    exact absurd this (by decide)
  · intro d hd
    rw [List.mem_singleton.mp hd]
    exact ⟨(Real.exp_pos _).le, by rw [Real.exp_lt_one_iff]; norm_num⟩

end Verif.Props
