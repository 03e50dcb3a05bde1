import Verif.Spec.Hydro
import Verif.Lemmas.Hydro
import Verif.Props.Synth

set_option autoImplicit false

/-! # Properties of synthetic series: C180 (larger events), C181 (another date), C182 (a longer simulation) -/

namespace Verif.Props
open Verif Verif.Model Verif.Spec Fl

theorem one_mul_fl (a : Fl ℝ) : fin 1 * a = a := by
  cases a with
  | nan => rfl
  | fin x => rw [mul_fin, one_mul]
  | pinf => change infOfSign (1 : ℝ) = _; simp [infOfSign]
  | ninf => change infOfSign (-1 : ℝ) = _; unfold infOfSign; norm_num

/-! ## C180 -/

/-- C180: with events larger in a proportion the whole hydrograph is larger in that proportion: same times, same missing values, same
failures, for all draws.  The first value, which is the mean flow, is in proportion too. -/
theorem C180_flow (c : ℝ) (p : ShotPars) (toNs : ℝ → ℤ) (origin : ℤ) (draws : List (ℝ × ℝ)) :
    shotNoise { p with MeanEventIncrease := c * p.MeanEventIncrease } toNs origin draws = (shotNoise p toNs origin draws).map (multiplied c) := by
  have := shotNoise_mv 0 c p toNs origin draws
  simp only [mvPars, add_zero] at this
  rw [this]
  congr 1
  funext ts
  exact List.map_congr_left fun r _ => by simp only [mvFl, add_zero]

/-- C180: a tide of larger range about a mean level larger in the same proportion. -/
theorem C180_tide (c : ℝ) (S E d : ℤ) (m r : ℝ) : harmonicTide S E d (c * m) (c * r) = (harmonicTide S E d m r).map (multiplied c) := by
  unfold harmonicTide
  cases dateRange S E d with
  | error e => rfl
  | ok l =>
    change Except.ok _ = Except.ok _
    simp only [multiplied, List.map_map, Except.ok.injEq]
    congr 1
    funext t
    simp only [Function.comp, mul_fin, Prod.mk.injEq, true_and, Fl.fin.injEq]
    ring

/-- The flood of C73, ten times as large. -/
example (origin : ℤ) : ∃ ts, shotNoise floodPars floorNs origin floodDraws = .ok ts ∧
    shotNoise { floodPars with MeanEventIncrease := 10 * floodPars.MeanEventIncrease } floorNs origin floodDraws = .ok (multiplied 10 ts) := by
  obtain ⟨ts, h⟩ := flood_returns origin
  exact ⟨ts, h, by rw [C180_flow, h]; rfl⟩

/-! ## C181 -/

/-- C181: a hydrograph made for later dates is the same hydrograph, later, if the origin of the intervals moves with the dates. -/
theorem C181_flow (s : ℤ) (p : ShotPars) (toNs : ℝ → ℤ) (origin : ℤ) (draws : List (ℝ × ℝ)) :
    shotNoise { p with StartDate := p.StartDate + s, EndDate := p.EndDate + s } toNs (origin + s) draws =
      (shotNoise p toNs origin draws).map (later s) := by
  have := shotNoise_mv s 1 p toNs origin draws
  simp only [mvPars, one_mul] at this
  rw [this]
  congr 1
  funext ts
  exact List.map_congr_left fun r _ => by simp only [mvFl, one_mul_fl]

/-- C181: with intervals counted from the midnight before the start, as pandas does, for a number of days later. -/
theorem C181_days (k : ℤ) (p : ShotPars) (toNs : ℝ → ℤ) (draws : List (ℝ × ℝ)) :
    shotNoise { p with StartDate := p.StartDate + k * dayNs, EndDate := p.EndDate + k * dayNs } toNs (midnight (p.StartDate + k * dayNs)) draws =
      (shotNoise p toNs (midnight p.StartDate) draws).map (later (k * dayNs)) := by
  rw [← C181_flow]
  congr 1
  simp only [midnight, dayNs, Int.add_mul_emod_self_right]
  ring

/-- C181: and for a number of output intervals later, wherever the intervals are counted from. -/
theorem C181_intervals (k : ℤ) (p : ShotPars) (hi : p.OutputInt ≠ 0) (toNs : ℝ → ℤ) (origin : ℤ) (draws : List (ℝ × ℝ)) :
    shotNoise { p with StartDate := p.StartDate + k * p.OutputInt, EndDate := p.EndDate + k * p.OutputInt } toNs origin draws =
      (shotNoise p toNs origin draws).map (later (k * p.OutputInt)) := by
  rw [← C181_flow]
  unfold shotNoise
  congr 1
  funext q
  rw [resample_origin _ _ _ hi]

/-- C181: a tide made for later dates is the same tide, later. -/
theorem C181_tide (s S E d : ℤ) (m r : ℝ) : harmonicTide (S + s) (E + s) d m r = (harmonicTide S E d m r).map (later s) := by
  unfold harmonicTide
  rw [dateRange_mv]
  cases dateRange S E d with
  | error e => rfl
  | ok l =>
    change Except.ok _ = Except.ok _
    simp only [later, List.map_map, Except.ok.injEq]
    congr 1
    funext t
    simp only [Function.comp, add_sub_add_right_eq_sub]

/-- The flood of C73 a year later. -/
example : ∃ ts, shotNoise floodPars floorNs (midnight 0) floodDraws = .ok ts ∧
    shotNoise { floodPars with StartDate := 0 + 365 * dayNs, EndDate := 129600 * 10 ^ 9 + 365 * dayNs } floorNs (midnight (0 + 365 * dayNs)) floodDraws =
      .ok (later (365 * dayNs) ts) := by
  obtain ⟨ts, h⟩ := flood_returns (midnight 0)
  refine ⟨ts, h, ?_⟩
  have := C181_days 365 floodPars floorNs floodDraws
  rw [show midnight floodPars.StartDate = midnight 0 from rfl, h] at this
  exact this

/-! ## C182 -/

/-- C182, partial: the hydrograph for a longer simulation, with the same draws, has the same records as that for the shorter one up to a rising
limb and an output interval before the end of the shorter one; and there is a hydrograph for the shorter one.  (Missing: the last part,
see `C182_refuted`.) -/
theorem C182_partial {p : ShotPars} {E : ℤ} {toNs : ℝ → ℤ} {origin : ℤ} {draws : List (ℝ × ℝ)} {ts : Series ℝ} (hE : E ≤ p.EndDate)
    (hS : p.StartDate ≤ E) (hi : 0 < p.OutputInt) (hci : 0 < p.CalcTimeInt.getD (p.OutputInt / 4)) (hmean : dayNs ≤ p.MeanTimeBetweenEvents)
    (hu : ∀ d ∈ draws, 0 < d.1 ∧ d.1 ≤ 1) (hns : ∀ x, 0 ≤ x → 0 ≤ toNs x) (h : shotNoise p toNs origin draws = .ok ts) :
    ∃ ts', shotNoise { p with EndDate := E } toNs origin draws = .ok ts' ∧ SameUpTo (E - p.RisingLimbTime - p.OutputInt) ts ts' := by
  obtain ⟨q, h1, h2⟩ := bind_ok.mp h
  have h2 := pure_ok.mp h2
  unfold shotRaw at h1
  obtain ⟨⟨rate, d2, r1, r2⟩, h3, h4⟩ := bind_ok.mp h1
  obtain ⟨_, _, _, hr, _, _, _, _, hrate, _, _⟩ := shotInit_inv h3
  simp only at h4
  have hgap : ∀ g ∈ gaps toNs rate draws, 0 ≤ g := by
    intro g hg
    obtain ⟨d, hd, rfl⟩ := List.mem_map.mp hg
    apply hns
    have hlog : Real.log d.1 ≤ 0 := Real.log_nonpos (hu d hd).1.le (hu d hd).2
    have : (0 : ℝ) ≤ rate := by
      rw [hrate]
      have : (0 : ℤ) ≤ p.MeanTimeBetweenEvents / dayNs := Int.ediv_nonneg (le_trans (by decide) hmean) (by decide)
      have : (0 : ℝ) ≤ ((p.MeanTimeBetweenEvents / dayNs : ℤ) : ℝ) := by exact_mod_cast this
      positivity
    exact div_nonneg (by linarith) this
  obtain ⟨q1, h5, h6⟩ := shotLoop_earlier hci hr hE draws _ q hgap h4
  have hraw : shotRaw { p with EndDate := E } toNs draws = .ok q1 := by
    unfold shotRaw
    have : shotInit { p with EndDate := E } = shotInit p := rfl
    rw [this, h3]
    exact h5
  refine ⟨_, bind_ok.mpr ⟨q1, hraw, rfl⟩, ?_⟩
  have t1 := Times.loop (int := p.CalcTimeInt.getD (p.OutputInt / 4)) hr hci le_rfl draws _ q hgap h4 (Times.init hr)
  have t2 := Times.loop (p := { p with EndDate := E }) (int := p.CalcTimeInt.getD (p.OutputInt / 4)) hr hci le_rfl draws _ q1 hgap h5 (Times.init hr)
  have m0 : HeadMin ⟨[(p.StartDate, r1 + r2)], r1, r2, p.StartDate⟩ := by
    intro a ha t ht
    simp only [List.head?_cons, Option.some.injEq] at ha
    subst ha
    simp only [List.map_cons, List.map_nil, List.mem_singleton] at ht
    omega
  have m1 := HeadMin.loop hr hci draws _ q hgap h4 (Times.init hr) m0
  have m2 := HeadMin.loop (p := { p with EndDate := E }) hr hci draws _ q1 hgap h5 (Times.init hr) m0
  have hE1 := t1.2
  have hE2 : E ≤ q1.last := t2.2
  intro x v hx
  have hP := h6 (x + p.OutputInt) (by omega)
  rw [← h2, List.mem_filter, List.mem_filter, resample_mem hi m1 t1.1.last (by omega), resample_mem hi m2 t2.1.last (by omega)]
  have hex : (∃ r ∈ q.ts, r.1 < x + p.OutputInt) ↔ ∃ r ∈ q1.ts, r.1 < x + p.OutputInt := by
    constructor
    · rintro ⟨r, hr', hlt⟩
      have := hP.mem_iff.mp (List.mem_filter.mpr ⟨hr', by simpa using hlt⟩)
      exact ⟨r, (List.mem_filter.mp this).1, hlt⟩
    · rintro ⟨r, hr', hlt⟩
      have := hP.mem_iff.mpr (List.mem_filter.mpr ⟨hr', by simpa using hlt⟩)
      exact ⟨r, (List.mem_filter.mp this).1, hlt⟩
  have hfil : ((q.ts.filter (fun r => decide (x ≤ r.1 ∧ r.1 < x + p.OutputInt))).map (·.2)).Perm
      ((q1.ts.filter (fun r => decide (x ≤ r.1 ∧ r.1 < x + p.OutputInt))).map (·.2)) := by
    apply List.Perm.map
    have hsplit : ∀ l : List (ℤ × ℝ), l.filter (fun r => decide (x ≤ r.1 ∧ r.1 < x + p.OutputInt)) =
        (l.filter (fun r => decide (r.1 < x + p.OutputInt))).filter (fun r => decide (x ≤ r.1)) := by
      intro l
      rw [List.filter_filter]
      apply List.filter_congr
      intro r _
      simp [Bool.decide_and]
    rw [hsplit, hsplit]
    exact hP.filter _
  have hval : (let vs := (q.ts.filter (fun r => decide (x ≤ r.1 ∧ r.1 < x + p.OutputInt))).map (·.2)
      if vs.isEmpty then (nan : Fl ℝ) else fin (vs.sum / vs.length)) =
      (let vs := (q1.ts.filter (fun r => decide (x ≤ r.1 ∧ r.1 < x + p.OutputInt))).map (·.2)
      if vs.isEmpty then (nan : Fl ℝ) else fin (vs.sum / vs.length)) := by
    simp only
    rw [hfil.sum_eq, hfil.length_eq]
    have : ∀ l l' : List ℝ, l.Perm l' → l.isEmpty = l'.isEmpty := by
      intro l l' hp
      have := hp.length_eq
      cases l <;> cases l' <;> simp_all
    rw [this _ _ hfil]
  have d1 : decide (x ≤ p.EndDate) = true := by rw [decide_eq_true_eq]; omega
  have d2 : decide (x ≤ E) = true := by rw [decide_eq_true_eq]; omega
  rw [hex, hval]
  simp only [d1, d2]

/-- One pass of the loop after a long gap. -/
theorem shotStep_long {p : ShotPars} {d2 : ℝ} {ci : ℤ} {s : ShotState} {gap : ℤ} {size : ℝ} {r : List ℤ} (hg : p.RisingLimbTime ≤ gap)
    (hr : dateRange s.last (s.last + gap - p.RisingLimbTime) ci = .ok r) :
    let f1 := fun t : ℤ => s.r1 * Real.exp (-p.DecayRate1 * (((t - s.last : ℤ) : ℝ) / 10 ^ 9 / 86400))
    let f2 := fun t : ℤ => s.r2 * Real.exp (-d2 * (((t - s.last : ℤ) : ℝ) / 10 ^ 9 / 86400))
    let R1 := f1 (s.last + gap) + size * p.PropRate1
    let R2 := f2 (s.last + gap) + size * (1 - p.PropRate1)
    shotStep p d2 ci s gap size = .ok
      { ts := s.ts ++ ((r.filter (fun t => decide (t ≠ s.last)) ++ [s.last + gap - p.RisingLimbTime]).map (fun t => (t, f1 t + f2 t)) ++ [(s.last + gap, R1 + R2)]),
        r1 := R1, r2 := R2, last := s.last + gap } := by
  intro f1 f2 R1 R2
  have hh : shotHead p ci s gap size = .ok (s.ts, (r.filter (fun t => decide (t ≠ s.last)) ++ [s.last + gap - p.RisingLimbTime]) ++ [s.last + gap]) := by
    unfold shotHead
    rw [if_neg (by omega)]
    simp only [hr]
    rw [List.append_assoc]
    rfl
  rw [shotStep_eq, hh]
  change shotTail p d2 s gap size _ = _
  unfold shotTail
  set l := r.filter (fun t => decide (t ≠ s.last)) ++ [s.last + gap - p.RisingLimbTime]
  have g1 : ∀ f : ℤ → ℝ, pyGet ((l ++ [s.last + gap]).map f) (-1) = .ok (f (s.last + gap)) := by
    intro f
    rw [pyGet_last]
    simp
  have g2 : ∀ (f : ℤ → ℝ) (a : ℝ), ((l ++ [s.last + gap]).map f).set (((l ++ [s.last + gap]).map f).length - 1) a = l.map f ++ [a] := by
    intro f a
    rw [List.map_append, List.length_append, List.map_cons, List.map_nil, List.length_singleton, Nat.add_sub_cancel, List.set_append_right _ _ (le_refl _)]
    simp
  simp only [g1, g2]
  change Except.ok _ = Except.ok _
  congr 2
  have z1 : List.zipWith (· + ·) (l.map f1 ++ [R1]) (l.map f2 ++ [R2]) = l.map (fun t => f1 t + f2 t) ++ [R1 + R2] := by
    rw [List.zipWith_append (by simp), List.zipWith_map, List.zipWith_self]
    rfl
  have z2 : l.zip (l.map (fun t => f1 t + f2 t)) = l.map (fun t => (t, f1 t + f2 t)) := by
    rw [List.zip_map_right]
    rw [List.zip, List.zipWith_self, List.map_map]
    rfl
  rw [z1, List.zip_append (by simp), z2]
  rfl

/-- An event a day until the time `E`, resampled to days. -/
noncomputable def dailyTo (E : ℤ) : ShotPars :=
  { StartDate := 0, EndDate := E, OutputInt := dayNs, MeanTimeBetweenEvents := dayNs, MeanEventIncrease := 100,
    DecayRate1 := 1, PropRate1 := 1, DecayRate2 := some 1, RisingLimbTime := 43200 * 10 ^ 9, CalcTimeInt := none }

noncomputable def dailyDraws : List (ℝ × ℝ) := [(Real.exp (-1), 1 / 2), (Real.exp (-1), 1 / 2)]

/-- The events are a day apart. -/
theorem daily_gap : floorNs (-Real.log (Real.exp (-1)) / (1 / ((dayNs / dayNs : ℤ) : ℝ))) = dayNs := by
  have : (dayNs / dayNs : ℤ) = 1 := by decide
  rw [this, Real.log_exp]
  unfold floorNs
  rw [show -(-1 : ℝ) / (1 / ((1 : ℤ) : ℝ)) * ((dayNs : ℤ) : ℝ) = ((dayNs : ℤ) : ℝ) by push_cast; ring, Int.floor_intCast]

/-- The flow after an event with the state `r1`, at a part of a day. -/
theorem daily_step (E : ℤ) (ts : List (ℤ × ℝ)) (r1 : ℝ) (k : ℕ) (hk : k < 2) :
    ∃ x y P : ℝ, P = r1 * Real.exp (-1) + 100 * Real.log 2 ∧ (0 < r1 → x < r1 ∧ y < r1) ∧
      shotStep (dailyTo E) 1 (21600 * 10 ^ 9) ⟨ts, r1, 0, k * dayNs⟩ dayNs (-100 * Real.log (1 - 1 / 2)) =
        .ok ⟨ts ++ [(k * dayNs + 21600 * 10 ^ 9, x), (k * dayNs + 43200 * 10 ^ 9, y), (k * dayNs + 43200 * 10 ^ 9, y), ((k + 1 : ℕ) * dayNs, P)],
          P, 0, (k + 1 : ℕ) * dayNs⟩ := by
  have hr : dateRange (k * dayNs) (k * dayNs + dayNs - 43200 * 10 ^ 9) (21600 * 10 ^ 9) =
      .ok [k * dayNs, k * dayNs + 21600 * 10 ^ 9, k * dayNs + 43200 * 10 ^ 9] := by
    have : k = 0 ∨ k = 1 := by omega
    rcases this with rfl | rfl <;> decide +kernel
  have := shotStep_long (p := dailyTo E) (d2 := 1) (ci := 21600 * 10 ^ 9) (s := ⟨ts, r1, 0, k * dayNs⟩) (gap := dayNs)
    (size := -100 * Real.log (1 - 1 / 2)) (by simp only [dailyTo]; decide) hr
  simp only [dailyTo] at this
  have hlog : Real.log (1 - 1 / 2) = -Real.log 2 := by
    rw [show (1 - 1 / 2 : ℝ) = 2⁻¹ by norm_num, Real.log_inv]
  refine ⟨r1 * Real.exp (-1 * (((k * dayNs + 21600 * 10 ^ 9 - k * dayNs : ℤ) : ℝ) / 10 ^ 9 / 86400)),
    r1 * Real.exp (-1 * (((k * dayNs + 43200 * 10 ^ 9 - k * dayNs : ℤ) : ℝ) / 10 ^ 9 / 86400)), _, rfl, ?_, ?_⟩
  · intro h
    constructor <;>
    · apply mul_lt_of_lt_one_right h
      rw [Real.exp_lt_one_iff]
      rw [add_sub_cancel_left]
      norm_num
  · rw [dailyTo, this]
    have f1 : (k * dayNs + 21600 * 10 ^ 9 : ℤ) ≠ k * dayNs := by omega
    have f2 : (k * dayNs + 43200 * 10 ^ 9 : ℤ) ≠ k * dayNs := by omega
    have f3 : (k * dayNs + dayNs - 43200 * 10 ^ 9 : ℤ) = k * dayNs + 43200 * 10 ^ 9 := by unfold dayNs; omega
    have f4 : (k * dayNs + dayNs : ℤ) = (k + 1 : ℕ) * dayNs := by push_cast; ring
    have f5 : (((k + 1 : ℕ) * dayNs - k * dayNs : ℤ) : ℝ) / 10 ^ 9 / 86400 = 1 := by
      rw [show ((k + 1 : ℕ) * dayNs - k * dayNs : ℤ) = dayNs by push_cast; ring]
      unfold dayNs
      norm_num
    rw [f3, f4]
    simp only [ne_eq, f1, f2, f5, not_true_eq_false, not_false_eq_true, decide_true, decide_false, List.filter_cons, List.filter_nil,
      if_true, Bool.false_eq_true, if_false, List.cons_append, List.nil_append, List.map_cons, List.map_nil, zero_mul, add_zero, mul_one, sub_self,
      mul_zero, hlog]
    norm_num

theorem daily_init (E : ℤ) : shotInit (dailyTo E) = .ok (1 / ((dayNs / dayNs : ℤ) : ℝ), 1, 100, 0) := by
  unfold shotInit
  have hd : (dayNs / dayNs : ℤ) = 1 := by decide
  simp [dailyTo, pyAssert, hd, bind, Except.bind, pure, Except.pure]

/-- The flows computed for one day and for two days. -/
theorem daily_raw : ∃ x0 y0 P x y P' : ℝ, 0 < P ∧ x < P ∧ y < P ∧
    (∃ a b c, shotRaw (dailyTo dayNs) floorNs dailyDraws = .ok ⟨[(0, 100), (21600 * 10 ^ 9, x0), (43200 * 10 ^ 9, y0), (43200 * 10 ^ 9, y0),
      (dayNs, P)], a, b, c⟩) ∧
    (∃ a b c, shotRaw (dailyTo (2 * dayNs)) floorNs dailyDraws = .ok ⟨[(0, 100), (21600 * 10 ^ 9, x0), (43200 * 10 ^ 9, y0), (43200 * 10 ^ 9, y0),
      (dayNs, P), (dayNs + 21600 * 10 ^ 9, x), (dayNs + 43200 * 10 ^ 9, y), (dayNs + 43200 * 10 ^ 9, y), (2 * dayNs, P')], a, b, c⟩) := by
  obtain ⟨x0, y0, P, hP, _, hs⟩ : ∃ x y P : ℝ, P = 100 * Real.exp (-1) + 100 * Real.log 2 ∧ (0 < (100 : ℝ) → x < 100 ∧ y < 100) ∧
      ∀ E, shotStep (dailyTo E) 1 (21600 * 10 ^ 9) ⟨[(0, 100)], 100, 0, 0⟩ dayNs (-100 * Real.log (1 - 1 / 2)) =
        .ok ⟨[(0, 100), (21600 * 10 ^ 9, x), (43200 * 10 ^ 9, y), (43200 * 10 ^ 9, y), (dayNs, P)], P, 0, dayNs⟩ := by
    obtain ⟨x, y, P, h1, h2, h3⟩ := daily_step 0 [(0, 100)] 100 0 (by norm_num)
    refine ⟨x, y, P, h1, h2, fun E => ?_⟩
    have : shotStep (dailyTo E) = shotStep (dailyTo 0) := rfl
    rw [this]
    simpa using h3
  have hpos : 0 < P := by
    rw [hP]
    have := Real.exp_pos (-1)
    have := Real.log_pos (by norm_num : (1 : ℝ) < 2)
    linarith
  obtain ⟨x, y, P', _, hlt, hs'⟩ := daily_step (2 * dayNs) [(0, 100), (21600 * 10 ^ 9, x0), (43200 * 10 ^ 9, y0), (43200 * 10 ^ 9, y0), (dayNs, P)] P 1 (by norm_num)
  obtain ⟨hx, hy⟩ := hlt hpos
  have hci : ∀ E, (dailyTo E).CalcTimeInt.getD ((dailyTo E).OutputInt / 4) = 21600 * 10 ^ 9 := by intro E; simp only [dailyTo]; decide
  have hu : ¬(Real.exp (-1) = 0 ∨ (1 : ℝ) - 1 / 2 = 0) := by
    rintro (h | h)
    · exact Real.exp_ne_zero _ h
    · norm_num at h
  have hm : ∀ E : ℤ, (dailyTo E).MeanEventIncrease = 100 := fun _ => rfl
  refine ⟨x0, y0, P, x, y, P', hpos, hx, hy, ⟨P, 0, dayNs, ?_⟩, ⟨P', 0, 2 * dayNs, ?_⟩⟩
  · unfold shotRaw
    rw [daily_init]
    change shotLoop (dailyTo dayNs) floorNs (1 / ((dayNs / dayNs : ℤ) : ℝ)) 1 ((dailyTo 0).CalcTimeInt.getD ((dailyTo 0).OutputInt / 4))
      ⟨[(0, 100 + 0)], 100, 0, 0⟩ dailyDraws = _
    rw [hci, add_zero]
    unfold shotLoop dailyDraws
    rw [if_pos (by decide)]
    simp only
    rw [if_neg hu, daily_gap, hm, hs]
    change shotLoop _ _ _ _ _ _ _ = _
    unfold shotLoop
    rw [if_neg (by simp [dailyTo])]
  · unfold shotRaw
    rw [daily_init]
    change shotLoop (dailyTo (2 * dayNs)) floorNs (1 / ((dayNs / dayNs : ℤ) : ℝ)) 1 ((dailyTo 0).CalcTimeInt.getD ((dailyTo 0).OutputInt / 4))
      ⟨[(0, 100 + 0)], 100, 0, 0⟩ dailyDraws = _
    rw [hci, add_zero]
    unfold shotLoop dailyDraws
    rw [if_pos (by decide)]
    simp only
    rw [if_neg hu, daily_gap, hm, hs]
    change shotLoop _ _ _ _ _ _ _ = _
    unfold shotLoop
    rw [if_pos (by simp only; decide)]
    simp only
    rw [if_neg hu, daily_gap, hm]
    rw [show (⟨[(0, 100), (21600 * 10 ^ 9, x0), (43200 * 10 ^ 9, y0), (43200 * 10 ^ 9, y0), (dayNs, P)], P, 0, dayNs⟩ : ShotState) =
      ⟨[(0, 100), (21600 * 10 ^ 9, x0), (43200 * 10 ^ 9, y0), (43200 * 10 ^ 9, y0), (dayNs, P)], P, 0, (1 : ℕ) * dayNs⟩ by simp, hs']
    change shotLoop _ _ _ _ _ _ _ = _
    unfold shotLoop
    rw [if_neg (by simp [dailyTo])]
    simp

/-- C182 refuted: with the same draws, the flow of the second day is smaller in the hydrograph made for two days than in that made for
one, though both contain that day: the second one has only the peak at its beginning. -/
theorem C182_refuted : ∃ ts ts' v, shotNoise (dailyTo (2 * dayNs)) floorNs 0 dailyDraws = .ok ts ∧
    shotNoise { dailyTo (2 * dayNs) with EndDate := dayNs } floorNs 0 dailyDraws = .ok ts' ∧ (dayNs, v) ∈ ts' ∧ (dayNs, v) ∉ ts ∧ ∃ w, (dayNs, w) ∈ ts := by
  obtain ⟨x0, y0, P, x, y, P', hpos, hx, hy, ⟨a, b, c, h1⟩, ⟨a', b', c', h2⟩⟩ := daily_raw
  set L : List (ℤ × ℝ) := [(0, 100), (21600 * 10 ^ 9, x0), (43200 * 10 ^ 9, y0), (43200 * 10 ^ 9, y0),
      (dayNs, P), (dayNs + 21600 * 10 ^ 9, x), (dayNs + 43200 * 10 ^ 9, y), (dayNs + 43200 * 10 ^ 9, y), (2 * dayNs, P')] with hL
  have hf : L.filter (fun r => decide (dayNs ≤ r.1 ∧ r.1 < dayNs + dayNs)) =
      [(dayNs, P), (dayNs + 21600 * 10 ^ 9, x), (dayNs + 43200 * 10 ^ 9, y), (dayNs + 43200 * 10 ^ 9, y)] := by
    rw [hL]
    simp [List.filter_cons, dayNs]
  have key : ∀ v, (dayNs, v) ∈ resampleMean 0 dayNs L ↔ v = fin ((P + x + y + y) / 4) := by
    intro v
    have hmin : HeadMin ⟨L, a', b', c'⟩ := by
      intro z hz t ht
      simp only [hL, List.head?_cons, Option.some.injEq] at hz
      subst hz
      simp only [hL, List.map_cons, List.map_nil] at ht ⊢
      revert t
      decide
    have := resample_mem (o := 0) (int := dayNs) (by decide) hmin (l := 2 * dayNs) rfl (t := dayNs) (v := v) (by decide)
    rw [this]
    simp only [hf]
    have e : ((P + (x + (y + y))) / 4 : ℝ) = (P + x + y + y) / 4 := by ring
    have hex : ∃ r ∈ L, r.1 < dayNs + dayNs := ⟨(0, 100), by rw [hL]; exact List.mem_cons_self, by decide⟩
    simp [e, hex]
  have h0 : (dayNs, fin P) ∈ resampleMean 0 dayNs [(0, 100), (21600 * 10 ^ 9, x0), (43200 * 10 ^ 9, y0), (43200 * 10 ^ 9, y0), (dayNs, P)] := by
    simp only [resampleMean, List.mem_map, List.mem_range]
    refine ⟨1, by simp only [List.getLast?_cons_cons, List.getLast?_singleton, Option.getD_some]; decide, ?_⟩
    have : List.filter (fun r : ℤ × ℝ => decide ((r.1 - 0) / dayNs = (0 - 0) / dayNs + (1 : ℕ))) [(0, 100), (21600 * 10 ^ 9, x0), (43200 * 10 ^ 9, y0),
        (43200 * 10 ^ 9, y0), (dayNs, P)] = [(dayNs, P)] := by
      simp [List.filter_cons, dayNs]
    simp only [this]
    simp
  refine ⟨_, _, fin P, bind_ok.mpr ⟨_, h2, rfl⟩, bind_ok.mpr ⟨_, h1, rfl⟩, ?_, ?_, fin ((P + x + y + y) / 4), ?_⟩
  · rw [List.mem_filter]
    exact ⟨h0, by simp⟩
  · rw [List.mem_filter]
    rintro ⟨h3, _⟩
    have h4 := (key _).mp h3
    rw [Fl.fin.injEq] at h4
    linarith
  · rw [List.mem_filter]
    exact ⟨(key _).mpr rfl, by simp [dailyTo, dayNs]⟩

/-- Four days with four events: the hydrograph for two days has the same records up to noon of the first day (12 hours of rising limb and one day of
output interval before its end), among them the mean of the first day. -/
example : ∃ ts ts', shotNoise (dailyTo (4 * dayNs)) floorNs 0 (dailyDraws ++ dailyDraws) = .ok ts ∧
    shotNoise { dailyTo (4 * dayNs) with EndDate := 2 * dayNs } floorNs 0 (dailyDraws ++ dailyDraws) = .ok ts' ∧
    SameUpTo (43200 * 10 ^ 9) ts ts' := by
  have hmem : ∀ d ∈ dailyDraws ++ dailyDraws, d = (Real.exp (-1), 1 / 2) := by simp [dailyDraws]
  have hv : ValidShot (dailyTo (4 * dayNs)) := by constructor <;> simp only [dailyTo, dayNs] <;> norm_num
  obtain ⟨ts, h⟩ := C66_partial hv (d := 1) rfl one_ne_zero (fun _ => one_pos) (by simp only [dailyTo]; decide) floorNs 0 (dailyDraws ++ dailyDraws)
    (by intro u hu; rw [hmem u hu]; exact ⟨Real.exp_ne_zero _, by norm_num⟩)
    (by
      have : gaps floorNs (1 / (((dailyTo (4 * dayNs)).MeanTimeBetweenEvents / dayNs : ℤ) : ℝ)) (dailyDraws ++ dailyDraws) = [dayNs, dayNs, dayNs, dayNs] := by
        have := daily_gap
        simp only [gaps, dailyDraws, List.map_append, List.map_cons, List.map_nil, dailyTo, this]
        rfl
      rw [this]
      simp only [dailyTo]
      decide)
  obtain ⟨ts', h1, h2⟩ := C182_partial (E := 2 * dayNs) (by simp only [dailyTo]; decide) (by simp only [dailyTo]; decide) (by simp only [dailyTo]; decide)
    (by simp only [dailyTo]; decide) (by simp only [dailyTo]; decide)
    (by intro d hd; rw [hmem d hd]; exact ⟨Real.exp_pos _, Real.exp_le_one_iff.mpr (by norm_num)⟩) (fun x hx => floorNs_nonneg hx) h
  refine ⟨ts, ts', h, h1, ?_⟩
  have : 2 * dayNs - (dailyTo (4 * dayNs)).RisingLimbTime - (dailyTo (4 * dayNs)).OutputInt = 43200 * 10 ^ 9 := by simp only [dailyTo]; decide
  rw [← this]
  exact h2

end Verif.Props
