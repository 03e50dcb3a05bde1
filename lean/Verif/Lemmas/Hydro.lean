import Verif.Lemmas.Synth

set_option autoImplicit false

namespace Verif.Model
open Verif Fl

/-! ### Synthetic flow at another date and with larger events -/

/-- A record later by `s`, with its flow multiplied by `c`. -/
def mvRec (s : ℤ) (c : ℝ) (r : ℤ × ℝ) : ℤ × ℝ := (r.1 + s, c * r.2)

/-- The variables of the loop, later and larger. -/
def mvState (s : ℤ) (c : ℝ) (q : ShotState) : ShotState :=
  { ts := q.ts.map (mvRec s c), r1 := c * q.r1, r2 := c * q.r2, last := q.last + s }

/-- The arguments, later and larger. -/
def mvPars (s : ℤ) (c : ℝ) (p : ShotPars) : ShotPars :=
  { p with StartDate := p.StartDate + s, EndDate := p.EndDate + s, MeanEventIncrease := c * p.MeanEventIncrease }

theorem interpR_mv (s : ℤ) (c : ℝ) : ∀ (l : List (ℤ × ℝ)) (x0 : ℤ) (f0 : ℝ) (x : ℤ),
    interpR (x0 + s) (c * f0) (l.map (mvRec s c)) (x + s) = c * interpR x0 f0 l x := by
  intro l
  induction l with
  | nil => intro x0 f0 x; rfl
  | cons a t ih =>
    obtain ⟨x1, f1⟩ := a
    intro x0 f0 x
    simp only [List.map_cons, mvRec, interpR, add_lt_add_iff_right, add_le_add_iff_right]
    split
    · split
      · rfl
      · rw [add_sub_add_right_eq_sub, add_sub_add_right_eq_sub]; ring
    · exact ih x1 f1 x

theorem interpLast_mv (s : ℤ) (c : ℝ) (l : List (ℤ × ℝ)) (x : ℤ) :
    interpLast (l.map (mvRec s c)) (x + s) = (interpLast l x).map (c * ·) := by
  unfold interpLast
  have : lastTwo (l.map (mvRec s c)) = (lastTwo l).map (mvRec s c) := by
    unfold lastTwo; rw [List.length_map, List.map_drop]
  rw [this]
  cases lastTwo l with
  | nil => rfl
  | cons a t =>
    change Except.ok (interpR (a.1 + s) (c * a.2) (t.map (mvRec s c)) (x + s)) = _
    rw [interpR_mv]; rfl

theorem dateRange_mv (s a b d : ℤ) : dateRange (a + s) (b + s) d = (dateRange a b d).map (List.map (· + s)) := by
  unfold dateRange
  split
  · rfl
  · rw [add_sub_add_right_eq_sub]
    split
    · rw [if_pos (by omega)]; rfl
    · rw [if_neg (by omega)]
      change _ = Except.ok _
      rw [List.map_map]
      congr 2
      funext i
      simp only [Function.comp]
      ring

theorem pyGet_mapLast {α β : Type} (f : α → β) (l : List α) : pyGet (l.map f) (-1) = (pyGet l (-1)).map f := by
  unfold pyGet ixGet
  simp only [List.length_map, List.getElem?_map]
  split
  · exact absurd ‹_› (by decide)
  · split
    · cases l[((l.length : ℤ) + -1).toNat]? <;> rfl
    · rfl

theorem sort_mv (s : ℤ) (c : ℝ) (l : List (ℤ × ℝ)) :
    (l.map (mvRec s c)).insertionSort (fun a b => a.1 ≤ b.1) = (l.insertionSort (fun a b => a.1 ≤ b.1)).map (mvRec s c) := by
  rw [List.map_insertionSort (r := fun a b : ℤ × ℝ => a.1 ≤ b.1) (s := fun a b : ℤ × ℝ => a.1 ≤ b.1)]
  intro a _ b _
  simp [mvRec]

/-- The last part of a pass of the loop: the flow after the last event (synth.py 145-153). -/
noncomputable def shotTail (p : ShotPars) (d2 : ℝ) (s : ShotState) (gap : ℤ) (size : ℝ) (x : List (ℤ × ℝ) × List ℤ) : Except PyErr ShotState := do
  let days := fun t : ℤ => ((t - s.last : ℤ) : ℝ) / 10 ^ 9 / 86400
  let v1 := x.2.map (fun t => s.r1 * Real.exp (-p.DecayRate1 * days t))
  let v2 := x.2.map (fun t => s.r2 * Real.exp (-d2 * days t))
  let e1 ← pyGet v1 (-1)
  let e2 ← pyGet v2 (-1)
  let r1 := e1 + size * p.PropRate1
  let r2 := e2 + size * (1 - p.PropRate1)
  let tot := List.zipWith (· + ·) (v1.set (v1.length - 1) r1) (v2.set (v2.length - 1) r2)
  return { ts := x.1 ++ x.2.zip tot, r1 := r1, r2 := r2, last := s.last + gap }

/-- The first part: the times at which the flow is calculated (synth.py 117-143). -/
noncomputable def shotHead (p : ShotPars) (calcInt : ℤ) (s : ShotState) (gap : ℤ) (size : ℝ) : Except PyErr (List (ℤ × ℝ) × List ℤ) := do
  if gap < p.RisingLimbTime then
    let t := s.last + gap - p.RisingLimbTime
    let v ← interpLast s.ts t
    let ts := (s.ts ++ [(t, v)]).insertionSort (fun a b => a.1 ≤ b.1)
    let e ← pyGet ts (-1)
    let e' := (e.1, e.2 + interpR t 0 [(s.last + gap, size)] e.1)
    return (ts.set (ts.length - 1) e', [s.last + gap])
  else
    let stop := s.last + gap - p.RisingLimbTime
    let r ← dateRange s.last stop calcInt
    return (s.ts, r.filter (fun t => decide (t ≠ s.last)) ++ [stop, s.last + gap])

theorem shotStep_eq (p : ShotPars) (d2 : ℝ) (ci : ℤ) (s : ShotState) (gap : ℤ) (size : ℝ) :
    shotStep p d2 ci s gap size = (shotHead p ci s gap size >>= shotTail p d2 s gap size) := by
  unfold shotStep shotHead shotTail
  rfl

/-- A pair of a series and of times, later and larger. -/
def mvPair (s : ℤ) (c : ℝ) (x : List (ℤ × ℝ) × List ℤ) : List (ℤ × ℝ) × List ℤ := (x.1.map (mvRec s c), x.2.map (· + s))

theorem shotHead_mv (s : ℤ) (c : ℝ) (p : ShotPars) (ci : ℤ) (q : ShotState) (gap : ℤ) (size : ℝ) :
    shotHead (mvPars s c p) ci (mvState s c q) gap (c * size) = (shotHead p ci q gap size).map (mvPair s c) := by
  unfold shotHead
  have e2 : (mvState s c q).last + gap = q.last + gap + s := by simp only [mvState]; ring
  have e3 : (mvPars s c p).RisingLimbTime = p.RisingLimbTime := rfl
  have e4 : q.last + gap + s - p.RisingLimbTime = q.last + gap - p.RisingLimbTime + s := by ring
  simp only [e2, e3, e4]
  split
  · have : (mvState s c q).ts = q.ts.map (mvRec s c) := rfl
    rw [this, interpLast_mv]
    cases interpLast q.ts (q.last + gap - p.RisingLimbTime) with
    | error e => rfl
    | ok v =>
      simp only [Except.map, bind, Except.bind]
      have hl : q.ts.map (mvRec s c) ++ [(q.last + gap - p.RisingLimbTime + s, c * v)] = (q.ts ++ [(q.last + gap - p.RisingLimbTime, v)]).map (mvRec s c) := by
        rw [List.map_append]; rfl
      rw [hl, sort_mv, pyGet_mapLast]
      set l0 := (q.ts ++ [(q.last + gap - p.RisingLimbTime, v)]).insertionSort (fun a b => a.1 ≤ b.1)
      cases pyGet l0 (-1) with
      | error e => rfl
      | ok e =>
        have := interpR_mv s c [(q.last + gap, size)] (q.last + gap - p.RisingLimbTime) 0 e.1
        rw [mul_zero] at this
        simp only [Except.map, pure, Except.pure, mvPair, List.map_set, List.length_map, List.map_cons, List.map_nil, mvRec] at this ⊢
        rw [this, ← mul_add]
  · have : (mvState s c q).last = q.last + s := rfl
    rw [this, dateRange_mv]
    cases dateRange q.last (q.last + gap - p.RisingLimbTime) ci with
    | error e => rfl
    | ok r =>
      simp only [Except.map, bind, Except.bind, pure, Except.pure, mvPair, List.map_append, List.map_cons, List.map_nil, List.filter_map]
      congr 4
      apply List.filter_congr
      intro t _
      simp [Function.comp]

theorem shotTail_mv (s : ℤ) (c : ℝ) (p : ShotPars) (d2 : ℝ) (q : ShotState) (gap : ℤ) (size : ℝ) (x : List (ℤ × ℝ) × List ℤ) :
    shotTail (mvPars s c p) d2 (mvState s c q) gap (c * size) (mvPair s c x) = (shotTail p d2 q gap size x).map (mvState s c) := by
  unfold shotTail
  have h1 : ∀ (k r : ℝ), (mvPair s c x).2.map (fun t : ℤ => c * r * Real.exp (-k * (((t - (mvState s c q).last : ℤ) : ℝ) / 10 ^ 9 / 86400))) =
      (x.2.map (fun t : ℤ => r * Real.exp (-k * (((t - q.last : ℤ) : ℝ) / 10 ^ 9 / 86400)))).map (c * ·) := by
    intro k r
    simp only [mvPair, List.map_map, mvState]
    congr 1
    funext t
    simp only [Function.comp, add_sub_add_right_eq_sub]
    ring
  have hr1 : (mvState s c q).r1 = c * q.r1 := rfl
  have hr2 : (mvState s c q).r2 = c * q.r2 := rfl
  have hd1 : (mvPars s c p).DecayRate1 = p.DecayRate1 := rfl
  have hp1 : (mvPars s c p).PropRate1 = p.PropRate1 := rfl
  simp only [hr1, hr2, hd1, hp1, h1]
  rw [pyGet_mapLast]
  set w1 := x.2.map (fun t : ℤ => q.r1 * Real.exp (-p.DecayRate1 * (((t - q.last : ℤ) : ℝ) / 10 ^ 9 / 86400)))
  set w2 := x.2.map (fun t : ℤ => q.r2 * Real.exp (-d2 * (((t - q.last : ℤ) : ℝ) / 10 ^ 9 / 86400)))
  clear_value w1 w2
  cases pyGet w1 (-1) with
  | error e => rfl
  | ok a =>
    simp only [Except.map, bind, Except.bind]
    rw [pyGet_mapLast]
    cases pyGet w2 (-1) with
    | error e => rfl
    | ok b =>
      simp only [Except.map, pure, Except.pure, mvState, Except.ok.injEq]
      have a1 : c * a + c * size * p.PropRate1 = c * (a + size * p.PropRate1) := by ring
      have a2 : c * b + c * size * (1 - p.PropRate1) = c * (b + size * (1 - p.PropRate1)) := by ring
      rw [a1, a2, List.length_map, List.length_map, ← List.map_set, ← List.map_set, List.zipWith_map]
      have a3 : List.zipWith (fun u v => c * u + c * v) (w1.set (w1.length - 1) (a + size * p.PropRate1)) (w2.set (w2.length - 1) (b + size * (1 - p.PropRate1))) =
          (List.zipWith (· + ·) (w1.set (w1.length - 1) (a + size * p.PropRate1)) (w2.set (w2.length - 1) (b + size * (1 - p.PropRate1)))).map (c * ·) := by
        rw [List.map_zipWith]
        simp only [mul_add]
      rw [a3]
      simp only [mvPair, List.map_append, ShotState.mk.injEq, true_and]
      refine ⟨?_, by ring⟩
      rw [List.zip_map]
      rfl

theorem shotStep_mv (s : ℤ) (c : ℝ) (p : ShotPars) (d2 : ℝ) (ci : ℤ) (q : ShotState) (gap : ℤ) (size : ℝ) :
    shotStep (mvPars s c p) d2 ci (mvState s c q) gap (c * size) = (shotStep p d2 ci q gap size).map (mvState s c) := by
  rw [shotStep_eq, shotStep_eq, shotHead_mv]
  cases shotHead p ci q gap size with
  | error e => rfl
  | ok x => exact shotTail_mv s c p d2 q gap size x

theorem shotLoop_mv (s : ℤ) (c : ℝ) (p : ShotPars) (toNs : ℝ → ℤ) (rate d2 : ℝ) (ci : ℤ) : ∀ (draws : List (ℝ × ℝ)) (q : ShotState),
    shotLoop (mvPars s c p) toNs rate d2 ci (mvState s c q) draws = (shotLoop p toNs rate d2 ci q draws).map (mvState s c) := by
  intro draws
  induction draws with
  | nil =>
    intro q
    unfold shotLoop
    have : (mvState s c q).last < (mvPars s c p).EndDate ↔ q.last < p.EndDate := by simp [mvState, mvPars]
    by_cases h : q.last < p.EndDate
    · rw [if_pos (this.mpr h), if_pos h]; rfl
    · rw [if_neg (fun h' => h (this.mp h')), if_neg h]; rfl
  | cons d t ih =>
    obtain ⟨u, v⟩ := d
    intro q
    unfold shotLoop
    have : (mvState s c q).last < (mvPars s c p).EndDate ↔ q.last < p.EndDate := by simp [mvState, mvPars]
    by_cases h : q.last < p.EndDate
    · rw [if_pos (this.mpr h), if_pos h]
      dsimp only
      split
      · rfl
      · have e : -(mvPars s c p).MeanEventIncrease * Real.log (1 - v) = c * (-p.MeanEventIncrease * Real.log (1 - v)) := by
          simp only [mvPars]; ring
        rw [e, shotStep_mv]
        cases shotStep p d2 ci q (toNs (-Real.log u / rate)) (-p.MeanEventIncrease * Real.log (1 - v)) with
        | error e => rfl
        | ok q' => exact ih q'
    · rw [if_neg (fun h' => h (this.mp h')), if_neg h]; rfl

theorem shotInit_mv (s : ℤ) (c : ℝ) (p : ShotPars) :
    shotInit (mvPars s c p) = (shotInit p).map (fun x => (x.1, x.2.1, c * x.2.2.1, c * x.2.2.2)) := by
  unfold shotInit
  simp only [mvPars]
  by_cases h1 : 0 < p.DecayRate1 <;> by_cases h2 : 0 ≤ p.PropRate1 <;> by_cases h3 : p.PropRate1 ≤ 1 <;> by_cases h4 : 0 < p.RisingLimbTime <;>
    by_cases h5 : p.PropRate1 < 1 <;> by_cases h6 : p.MeanTimeBetweenEvents / dayNs = 0 <;> cases h7 : p.DecayRate2 with
  | none => simp [pyAssert, h1, h2, h3, h4, h5, h6, bind, Except.bind, pure, Except.pure, Except.map]
  | some d =>
    by_cases h8 : 0 < d <;> by_cases h9 : d = 0 <;>
      simp [pyAssert, h1, h2, h3, h4, h5, h6, h8, h9, bind, Except.bind, pure, Except.pure, Except.map, mul_assoc]

theorem shotRaw_mv (s : ℤ) (c : ℝ) (p : ShotPars) (toNs : ℝ → ℤ) (draws : List (ℝ × ℝ)) :
    shotRaw (mvPars s c p) toNs draws = (shotRaw p toNs draws).map (mvState s c) := by
  unfold shotRaw
  rw [shotInit_mv]
  cases shotInit p with
  | error e => rfl
  | ok x =>
    obtain ⟨rate, d2, r1, r2⟩ := x
    change shotLoop _ _ _ _ _ _ _ = Except.map _ (shotLoop _ _ _ _ _ _ _)
    rw [← shotLoop_mv]
    congr 1
    simp only [mvState, mvPars, List.map_cons, List.map_nil, mvRec, mul_add]

/-- A resampled record, later and larger. -/
noncomputable def mvFl (s : ℤ) (c : ℝ) (r : ℤ × Fl ℝ) : ℤ × Fl ℝ := (r.1 + s, fin c * r.2)

theorem resample_mv (s : ℤ) (c : ℝ) (o int : ℤ) (ts : List (ℤ × ℝ)) :
    resampleMean (o + s) int (ts.map (mvRec s c)) = (resampleMean o int ts).map (mvFl s c) := by
  cases ts with
  | nil => rfl
  | cons a rest =>
    have hl : ((rest.map (mvRec s c)).getLast?.getD (mvRec s c a)).1 = (rest.getLast?.getD a).1 + s := by
      rw [List.getLast?_map]
      cases rest.getLast? <;> rfl
    have hf : ∀ k : ℤ, ((mvRec s c a :: rest.map (mvRec s c)).filter (fun r => decide ((r.1 - (o + s)) / int = k))).map (·.2) =
        (((a :: rest).filter (fun r => decide ((r.1 - o) / int = k))).map (·.2)).map (c * ·) := by
      intro k
      rw [show mvRec s c a :: rest.map (mvRec s c) = (a :: rest).map (mvRec s c) from rfl, List.filter_map, List.map_map, List.map_map]
      have : ((fun r : ℤ × ℝ => decide ((r.1 - (o + s)) / int = k)) ∘ mvRec s c) = (fun r : ℤ × ℝ => decide ((r.1 - o) / int = k)) := by
        funext r
        simp only [Function.comp, mvRec, add_sub_add_right_eq_sub]
      rw [this]
      rfl
    have ha : (mvRec s c a).1 - (o + s) = a.1 - o := by simp only [mvRec]; ring
    simp only [resampleMean, List.map_cons, List.map_map]
    simp only [hl, ha, hf, add_sub_add_right_eq_sub]
    congr 1
    funext k
    simp only [Function.comp, mvFl, Prod.mk.injEq]
    refine ⟨by ring, ?_⟩
    rw [List.isEmpty_map]
    split
    · rfl
    · rw [List.sum_map_mul_left, List.length_map, mul_div_assoc]
      simp only [List.map_id']
      rfl

theorem shotNoise_mv (s : ℤ) (c : ℝ) (p : ShotPars) (toNs : ℝ → ℤ) (o : ℤ) (draws : List (ℝ × ℝ)) :
    shotNoise (mvPars s c p) toNs (o + s) draws = (shotNoise p toNs o draws).map (List.map (mvFl s c)) := by
  unfold shotNoise
  rw [shotRaw_mv]
  cases shotRaw p toNs draws with
  | error e => rfl
  | ok q =>
    change Except.ok _ = Except.ok _
    simp only [mvState, mvPars]
    rw [resample_mv, List.filter_map]
    congr 2
    apply List.filter_congr
    intro r _
    simp [mvFl]

/-- The bins are the same from another origin a whole number of them away. -/
theorem resample_origin (o int k : ℤ) (hi : int ≠ 0) (ts : List (ℤ × ℝ)) : resampleMean (o + k * int) int ts = resampleMean o int ts := by
  cases ts with
  | nil => rfl
  | cons a rest =>
    have hb : ∀ t : ℤ, (t - (o + k * int)) / int = (t - o) / int - k := by
      intro t
      rw [show t - (o + k * int) = t - o + (-k) * int by ring, Int.add_mul_ediv_right _ _ hi]; ring
    simp only [resampleMean, hb]
    congr 1
    · funext j
      have : ∀ x : ℤ, x - k = (a.1 - o) / int - k + (j : ℤ) ↔ x = (a.1 - o) / int + j := by intro x; omega
      simp only [this]
      simp only [Prod.mk.injEq, and_true]
      ring
    · congr 2; ring

/-! ### A longer hydrograph -/

/-- A pass changes nothing before the shortest rising limb. -/
theorem shotStep_before {p : ShotPars} {d2 : ℝ} {ci b : ℤ} {q q' : ShotState} {gap : ℤ} {size : ℝ} (h : shotStep p d2 ci q gap size = .ok q')
    (hci : 0 < ci) (hg : 0 ≤ gap) (hr : 0 < p.RisingLimbTime) (hb : b ≤ q.last - p.RisingLimbTime) :
    (q'.ts.filter (fun r => decide (r.1 < b))).Perm (q.ts.filter (fun r => decide (r.1 < b))) := by
  rw [shotStep_eq] at h
  obtain ⟨⟨ts, times⟩, h1, h2⟩ := bind_ok.mp h
  have hts : ∃ tot, q'.ts = ts ++ times.zip tot := by
    unfold shotTail at h2
    simp only [bind_ok, pyGet_last, pure_ok] at h2
    obtain ⟨e1, _, e2, _, rfl⟩ := h2
    exact ⟨_, rfl⟩
  obtain ⟨tot, hts⟩ := hts
  have hz : (∀ t ∈ times, b ≤ t) → (times.zip tot).filter (fun r => decide (r.1 < b)) = [] := by
    intro ht
    rw [List.filter_eq_nil_iff]
    intro r hr' hlt
    have := ht r.1 (List.of_mem_zip hr').1
    simp only [decide_eq_true_eq] at hlt
    omega
  rw [hts, List.filter_append]
  unfold shotHead at h1
  split at h1
  · simp only [bind_ok, pyGet_last, pure_ok, Prod.mk.injEq] at h1
    obtain ⟨v, hv, e, he, rfl, rfl⟩ := h1
    rw [hz (by intro t ht; simp only [List.mem_singleton] at ht; omega), List.append_nil]
    have hs := List.pairwise_insertionSort (r := fun a b : ℤ × ℝ => a.1 ≤ b.1) (q.ts ++ [(q.last + gap - p.RisingLimbTime, v)])
    have hp := List.perm_insertionSort (fun a b : ℤ × ℝ => a.1 ≤ b.1) (q.ts ++ [(q.last + gap - p.RisingLimbTime, v)])
    set l0 := (q.ts ++ [(q.last + gap - p.RisingLimbTime, v)]).insertionSort (fun a b => a.1 ≤ b.1)
    obtain ⟨l1, rfl'⟩ : ∃ l1, l0 = l1 ++ [e] := ⟨l0.dropLast, by
      have hne : l0 ≠ [] := by rintro h0; rw [h0] at he; cases he
      rw [List.getLast?_eq_getLast_of_ne_nil hne, Option.some.injEq] at he
      rw [← he, List.dropLast_append_getLast]⟩
    have hbe : b ≤ e.1 := by
      have hin : (q.last + gap - p.RisingLimbTime, v) ∈ l1 ++ [e] := by rw [← rfl', hp.mem_iff]; simp
      rw [rfl', List.pairwise_append] at hs
      rcases List.mem_append.mp hin with h3 | h3
      · have := hs.2.2 _ h3 e (by simp)
        simp only at this
        omega
      · rw [← List.mem_singleton.mp h3]
        simp only
        omega
    have hset : ∀ x, l0.set (l0.length - 1) x = l1 ++ [x] := by
      intro x
      rw [rfl', List.length_append, List.length_singleton, Nat.add_sub_cancel, List.set_append_right _ _ (le_refl _)]
      simp
    rw [hset]
    have hf1 : (l1 ++ [(e.1, e.2 + interpR (q.last + gap - p.RisingLimbTime) 0 [(q.last + gap, size)] e.1)]).filter (fun r => decide (r.1 < b)) =
        l0.filter (fun r => decide (r.1 < b)) := by
      rw [rfl', List.filter_append, List.filter_append]
      congr 1
      rw [List.filter_cons, List.filter_cons, if_neg (by simp only [decide_eq_true_eq]; omega), if_neg (by simp only [decide_eq_true_eq]; omega)]
    rw [hf1]
    refine (hp.filter _).trans ?_
    rw [List.filter_append, List.filter_cons, if_neg (by simp only [decide_eq_true_eq]; omega), List.filter_nil, List.append_nil]
  · simp only [bind_ok, pure_ok, Prod.mk.injEq] at h1
    obtain ⟨r, hr', rfl, rfl⟩ := h1
    rw [hz, List.append_nil]
    intro t ht
    obtain ⟨l, hl, hget⟩ := dateRange_ok (a := q.last) (b := q.last + gap - p.RisingLimbTime) hci
    rw [hr', ok_inj] at hl
    subst hl
    rcases List.mem_append.mp ht with h3 | h3
    · obtain ⟨i, hi⟩ := List.mem_iff_getElem?.mp (List.mem_filter.mp h3).1
      have := ((hget i t).mp hi).1
      have : 0 ≤ (i : ℤ) * ci := by positivity
      omega
    · simp only [List.mem_cons, List.not_mem_nil, or_false] at h3
      omega

theorem shotLoop_before {p : ShotPars} {toNs : ℝ → ℤ} {rate d2 : ℝ} {ci b : ℤ} (hci : 0 < ci) (hr : 0 < p.RisingLimbTime) :
    ∀ (draws : List (ℝ × ℝ)) (q q' : ShotState), (∀ g ∈ gaps toNs rate draws, 0 ≤ g) → shotLoop p toNs rate d2 ci q draws = .ok q' →
    b ≤ q.last - p.RisingLimbTime → (q'.ts.filter (fun r => decide (r.1 < b))).Perm (q.ts.filter (fun r => decide (r.1 < b))) := by
  intro draws
  induction draws with
  | nil =>
    intro q q' _ h _
    unfold shotLoop at h
    split at h
    · cases h
    · rw [← ok_inj.mp h]
  | cons d rest ih =>
    obtain ⟨u, v⟩ := d
    intro q q' hd h hb
    unfold shotLoop at h
    split at h
    · simp only at h
      split at h
      · cases h
      · obtain ⟨s1, h1, h2⟩ := bind_ok.mp h
        have hg := hd (toNs (-Real.log u / rate)) (by simp [gaps])
        refine (ih s1 q' (fun g hg => hd g (by simp only [gaps, List.map_cons, List.mem_cons] at hg ⊢; exact Or.inr hg)) h2 ?_).trans
          (shotStep_before h1 hci hg hr hb)
        rw [(shotStep_inv h1).1]
        omega
    · rw [← ok_inj.mp h]

/-- The loop for an earlier end: what it has found does not change before the last rising limb. -/
theorem shotLoop_earlier {p : ShotPars} {E : ℤ} {toNs : ℝ → ℤ} {rate d2 : ℝ} {ci : ℤ} (hci : 0 < ci) (hr : 0 < p.RisingLimbTime) (hE : E ≤ p.EndDate) :
    ∀ (draws : List (ℝ × ℝ)) (q q' : ShotState), (∀ g ∈ gaps toNs rate draws, 0 ≤ g) → shotLoop p toNs rate d2 ci q draws = .ok q' →
    ∃ q1, shotLoop { p with EndDate := E } toNs rate d2 ci q draws = .ok q1 ∧
      ∀ b ≤ E - p.RisingLimbTime, (q'.ts.filter (fun r => decide (r.1 < b))).Perm (q1.ts.filter (fun r => decide (r.1 < b))) := by
  intro draws
  induction draws with
  | nil =>
    intro q q' hd h
    have hc := h
    unfold shotLoop at h ⊢
    split at h
    · cases h
    · rename_i hlt
      have := ok_inj.mp h
      subst this
      rw [if_neg (by simp only; omega)]
      exact ⟨q, rfl, fun b hb => List.Perm.refl _⟩
  | cons d rest ih =>
    obtain ⟨u, v⟩ := d
    intro q q' hd h
    by_cases hq : q.last < E
    · unfold shotLoop at h ⊢
      rw [if_pos (by omega)] at h
      rw [if_pos (by simp only; omega)]
      simp only at h ⊢
      split at h
      · cases h
      · rename_i hne
        rw [if_neg hne]
        obtain ⟨s1, h1, h2⟩ := bind_ok.mp h
        obtain ⟨q1, h3, h4⟩ := ih s1 q' (fun g hg => hd g (by simp only [gaps, List.map_cons, List.mem_cons] at hg ⊢; exact Or.inr hg)) h2
        refine ⟨q1, bind_ok.mpr ⟨s1, ?_, h3⟩, h4⟩
        rw [← h1]
        rfl
    · refine ⟨q, ?_, fun b hb => shotLoop_before hci hr _ q q' hd h (by omega)⟩
      unfold shotLoop
      rw [if_neg (by simp only; omega)]

/-- No record is before the first. -/
def HeadMin (q : ShotState) : Prop := ∀ a, q.ts.head? = some a → ∀ t ∈ q.ts.map (·.1), a.1 ≤ t

theorem HeadMin.step {p : ShotPars} {d2 : ℝ} {ci int : ℤ} {q q' : ShotState} {gap : ℤ} {size : ℝ} (hq : HeadMin q) (ht : Times p int q)
    (h : shotStep p d2 ci q gap size = .ok q') (hg : 0 ≤ gap) (hci : 0 < ci) : HeadMin q' := by
  obtain ⟨h1, h2, h3⟩ := shotStep_inv h
  intro a ha t hmem
  cases hts : q'.ts with
  | nil => rw [hts] at ha; cases ha
  | cons a' rest =>
    rw [hts] at ha
    cases ha
    rcases h3 with ⟨hlt, l, hl1, hl2, hl3⟩ | ⟨hge, r, hr1, hr2⟩
    · rw [hl3] at hmem
      rw [hts] at hl3
      have hin : p.StartDate ∈ l := hl2.mem_iff.mpr (List.mem_append_left _ ht.mem)
      cases l with
      | nil => cases hin
      | cons b l' =>
        simp only [List.map_cons, List.cons_append, List.cons.injEq] at hl3
        have hb : ∀ x ∈ b :: l', b ≤ x := by
          intro x hx
          rcases List.mem_cons.mp hx with h5 | h5
          · omega
          · exact (List.pairwise_cons.mp hl1).1 _ h5
        rw [hl3.1]
        rcases List.mem_append.mp hmem with h6 | h6
        · exact hb _ h6
        · rw [List.mem_singleton.mp h6]
          have := hb _ hin
          have := ht.start
          omega
    · rw [hr2] at hmem
      rw [hts] at hr2
      cases hqt : q.ts with
      | nil => have := ht.last; rw [hqt] at this; cases this
      | cons b l' =>
        have hb : ∀ x ∈ q.ts.map (·.1), b.1 ≤ x := hq b (by rw [hqt]; rfl)
        have hbl : b.1 ≤ q.last := ht.upper _ (by rw [hqt]; simp)
        rw [hqt] at hr2
        simp only [List.map_cons, List.cons_append, List.cons.injEq] at hr2
        rw [hr2.1]
        rcases List.mem_append.mp hmem with h6 | h6
        · exact hb _ h6
        · rcases List.mem_append.mp h6 with h7 | h7
          · obtain ⟨l, hl, hget⟩ := dateRange_ok (a := q.last) (b := q.last + gap - p.RisingLimbTime) hci
            rw [hr1, ok_inj] at hl
            subst hl
            obtain ⟨i, hi⟩ := List.mem_iff_getElem?.mp (List.mem_filter.mp h7).1
            have := ((hget i t).mp hi).1
            have : 0 ≤ (i : ℤ) * ci := by positivity
            omega
          · simp only [List.mem_cons, List.not_mem_nil, or_false] at h7
            omega

theorem HeadMin.loop {p : ShotPars} {toNs : ℝ → ℤ} {rate d2 : ℝ} {ci : ℤ} (hr : 0 < p.RisingLimbTime) (hci : 0 < ci) :
    ∀ (draws : List (ℝ × ℝ)) (s s' : ShotState), (∀ g ∈ gaps toNs rate draws, 0 ≤ g) →
    shotLoop p toNs rate d2 ci s draws = .ok s' → Times p ci s → HeadMin s → HeadMin s' := by
  intro draws
  induction draws with
  | nil =>
    intro s s' _ h _ hs
    unfold shotLoop at h
    split at h
    · cases h
    · rw [← ok_inj.mp h]; exact hs
  | cons d rest ih =>
    obtain ⟨u, v⟩ := d
    intro s s' hd h ht hs
    unfold shotLoop at h
    split at h
    · simp only at h
      split at h
      · cases h
      · obtain ⟨s1, h1, h2⟩ := bind_ok.mp h
        have hg := hd (toNs (-Real.log u / rate)) (by simp [gaps])
        exact ih s1 s' (fun g hg => hd g (by simp only [gaps, List.map_cons, List.mem_cons] at hg ⊢; exact Or.inr hg)) h2
          (ht.step h1 hg hr hci le_rfl) (hs.step ht h1 hg hci)
    · rw [← ok_inj.mp h]; exact hs

/-- A record of the resampled series: its bin is not before that of the first record, and its value is the mean of the bin. -/
theorem resample_mem {o int : ℤ} (hi : 0 < int) {q : ShotState} (hm : HeadMin q) {l : ℤ} (hl : q.ts.getLast?.map (·.1) = some l)
    {t : ℤ} {v : Fl ℝ} (htl : t + int ≤ l) :
    (t, v) ∈ resampleMean o int q.ts ↔ int ∣ t - o ∧ (∃ r ∈ q.ts, r.1 < t + int) ∧
      v = (let vs := (q.ts.filter (fun r => decide (t ≤ r.1 ∧ r.1 < t + int))).map (·.2)
           if vs.isEmpty then nan else fin (vs.sum / vs.length)) := by
  cases hts : q.ts with
  | nil => rw [hts] at hl; cases hl
  | cons a rest =>
    have hlast : (rest.getLast?.getD a).1 = l := by
      rw [hts] at hl
      cases rest with
      | nil => simpa using hl
      | cons c k =>
        rw [List.getLast?_cons_cons] at hl
        cases hk : (c :: k).getLast? with
        | none => rw [hk] at hl; cases hl
        | some z => rw [hk] at hl; simpa using hl
    have hbin : ∀ (x k : ℤ), (x - o) / int = k ↔ o + k * int ≤ x ∧ x < o + k * int + int := by
      intro x k
      have h1 := Int.emod_add_mul_ediv (x - o) int
      have h2 := Int.emod_nonneg (x - o) (ne_of_gt hi)
      have h3 := Int.emod_lt_of_pos (x - o) hi
      constructor
      · rintro rfl
        constructor <;> nlinarith
      · rintro ⟨h4, h5⟩
        apply le_antisymm
        · by_contra hc
          have : k + 1 ≤ (x - o) / int := by omega
          nlinarith
        · by_contra hc
          have : (x - o) / int + 1 ≤ k := by omega
          nlinarith
    have hmin : ∀ r ∈ a :: rest, a.1 ≤ r.1 := by
      intro r hr
      exact hm a (by rw [hts]; rfl) r.1 (by rw [hts]; exact List.mem_map_of_mem hr)
    have hfil : ∀ k : ℤ, (a :: rest).filter (fun r => decide ((r.1 - o) / int = k)) =
        (a :: rest).filter (fun r => decide (o + k * int ≤ r.1 ∧ r.1 < o + k * int + int)) := by
      intro k
      apply List.filter_congr
      intro r _
      rw [decide_eq_decide]
      exact hbin r.1 k
    simp only [resampleMean, List.mem_map, List.mem_range, Prod.mk.injEq, hlast]
    constructor
    · rintro ⟨k, hk, rfl, rfl⟩
      refine ⟨⟨(a.1 - o) / int + k, by ring⟩, ⟨a, by simp, ?_⟩, ?_⟩
      · have := ((hbin a.1 _).mp rfl).2
        have : 0 ≤ (k : ℤ) * int := by positivity
        nlinarith
      · rw [hfil]
    · rintro ⟨⟨k, hk⟩, ⟨r, hr, hrt⟩, rfl⟩
      have hto : t = o + k * int := by linarith
      subst hto
      have ha := hmin r hr
      have h1 : (a.1 - o) / int ≤ k := by
        by_contra hc
        have h2 := ((hbin a.1 _).mp rfl).1
        have : k + 1 ≤ (a.1 - o) / int := by omega
        nlinarith
      have h3 : k ≤ (l - o) / int := by
        rw [Int.le_ediv_iff_mul_le hi]
        linarith
      refine ⟨(k - (a.1 - o) / int).toNat, by omega, ?_, ?_⟩
      · rw [Int.toNat_of_nonneg (by omega)]; ring
      · rw [Int.toNat_of_nonneg (by omega), add_sub_cancel, hfil]

end Verif.Model
