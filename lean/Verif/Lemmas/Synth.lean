import Verif.Model.Synth
import Verif.Lemmas.Py
import Mathlib.Tactic.Linarith
import Mathlib.Tactic.Positivity

set_option autoImplicit false

namespace Verif.Model
open Verif Fl

/-- The times of a `date_range` with positive interval. -/
theorem dateRange_ok {a b d : ℤ} (hd : 0 < d) : ∃ l, dateRange a b d = .ok l ∧
    (∀ (i : ℕ) (t : ℤ), l[i]? = some t ↔ t = a + i * d ∧ t ≤ b) := by
  unfold dateRange
  rw [if_neg (ne_of_gt hd)]
  by_cases h : b < a
  · rw [if_pos h]
    refine ⟨_, rfl, fun i t => ?_⟩
    have : 0 ≤ (i : ℤ) * d := by positivity
    simp only [List.getElem?_nil, reduceCtorEq, false_iff, not_and]
    intro ht; omega
  · rw [if_neg h]
    refine ⟨_, rfl, fun i t => ?_⟩
    rw [List.getElem?_map]
    have hq : 0 ≤ (b - a) / d := Int.ediv_nonneg (by omega) hd.le
    have key : i < ((b - a) / d + 1).toNat ↔ a + (i : ℤ) * d ≤ b := by
      have : (i : ℤ) ≤ (b - a) / d ↔ (i : ℤ) * d ≤ b - a := Int.le_ediv_iff_mul_le hd
      omega
    by_cases hi : i < ((b - a) / d + 1).toNat
    · rw [List.getElem?_range hi]
      simp only [Option.map_some, Option.some.injEq]
      constructor
      · rintro rfl; exact ⟨rfl, key.mp hi⟩
      · rintro ⟨h1, _⟩; exact h1.symm
    · rw [List.getElem?_eq_none (by simpa using hi)]
      simp only [Option.map_none, reduceCtorEq, false_iff, not_and]
      rintro rfl
      exact fun hle => hi (key.mpr hle)

/-- Linear interpolation between non-negative values is not negative. -/
theorem interpR_nonneg : ∀ (l : List (ℤ × ℝ)) (x0 : ℤ) (f0 : ℝ) (x : ℤ), 0 ≤ f0 → (∀ r ∈ l, 0 ≤ r.2) → 0 ≤ interpR x0 f0 l x := by
  intro l
  induction l with
  | nil => intro x0 f0 x h _; exact h
  | cons r l ih =>
    obtain ⟨x1, f1⟩ := r
    intro x0 f0 x h hl
    have h1 : 0 ≤ f1 := hl (x1, f1) (by simp)
    unfold interpR
    by_cases hx : x < x1
    · rw [if_pos hx]
      by_cases hx0 : x ≤ x0
      · rw [if_pos hx0]; exact h
      · rw [if_neg hx0]
        have ha : (0 : ℝ) < ((x1 - x0 : ℤ) : ℝ) := by exact_mod_cast (by omega : 0 < x1 - x0)
        have hb : (0 : ℝ) ≤ ((x - x0 : ℤ) : ℝ) := by exact_mod_cast (by omega : 0 ≤ x - x0)
        have hc : ((x - x0 : ℤ) : ℝ) ≤ ((x1 - x0 : ℤ) : ℝ) := by exact_mod_cast (by omega : x - x0 ≤ x1 - x0)
        generalize ((x1 - x0 : ℤ) : ℝ) = A at *
        generalize ((x - x0 : ℤ) : ℝ) = B at *
        have : (f1 - f0) / A * B + f0 = (f1 * B + f0 * (A - B)) / A := by field_simp; ring
        rw [this]
        exact div_nonneg (add_nonneg (mul_nonneg h1 hb) (mul_nonneg h (by linarith))) ha.le
    · rw [if_neg hx]
      exact ih x1 f1 x h1 (fun r hr => hl r (by simp [hr]))

/-- All values of the state are non-negative. -/
structure ShotState.NonNeg (s : ShotState) : Prop where
  ts : ∀ r ∈ s.ts, 0 ≤ r.2
  r1 : 0 ≤ s.r1
  r2 : 0 ≤ s.r2

theorem getLast?_map_nonneg {l : List ℤ} {f : ℤ → ℝ} {e : ℝ} (h : (l.map f).getLast? = some e) (hf : ∀ t, 0 ≤ f t) : 0 ≤ e := by
  have := List.mem_of_getLast? h
  obtain ⟨t, _, rfl⟩ := List.mem_map.mp this
  exact hf t

theorem mem_set_or {α : Type} {l : List α} {i : ℕ} {a b : α} (h : b ∈ l.set i a) : b = a ∨ b ∈ l := by
  rcases List.mem_or_eq_of_mem_set h with h | h
  · exact Or.inr h
  · exact Or.inl h

theorem shotStep_nonneg {p : ShotPars} {d2 : ℝ} {ci : ℤ} {s s' : ShotState} {gap : ℤ} {size : ℝ} (h : shotStep p d2 ci s gap size = .ok s')
    (hs : s.NonNeg) (hz : 0 ≤ size) (hp : 0 ≤ p.PropRate1) (hp1 : p.PropRate1 ≤ 1) : s'.NonNeg := by
  unfold shotStep at h
  simp only [bind_ok, pyGet_last, pure_ok] at h
  obtain ⟨⟨ts, times⟩, h1, e1, h2, e2, h3, rfl⟩ := h
  have hts : ∀ r ∈ ts, 0 ≤ r.2 := by
    split at h1
    · simp only [bind_ok, pyGet_last, pure_ok, Prod.mk.injEq] at h1
      obtain ⟨v, hv, e, he, rfl, _⟩ := h1
      have hv0 : 0 ≤ v := by
        unfold interpLast lastTwo at hv
        split at hv
        · cases hv
        · rename_i x0 f0 rest hl
          have hv := ok_inj.mp hv
          subst hv
          have hm : ∀ r ∈ (x0, f0) :: rest, 0 ≤ r.2 := by
            rw [← hl]; exact fun r hr => hs.ts r (List.mem_of_mem_drop hr)
          exact interpR_nonneg _ _ _ _ (hm (x0, f0) (by simp)) (fun r hr => hm r (by simp [hr]))
      have hsort : ∀ r ∈ (s.ts ++ [(s.last + gap - p.RisingLimbTime, v)]).insertionSort (fun a b => a.1 ≤ b.1), 0 ≤ r.2 := by
        intro r hr
        have := (List.perm_insertionSort _ _).mem_iff.mp hr
        rcases List.mem_append.mp this with h4 | h4
        · exact hs.ts r h4
        · rw [List.mem_singleton.mp h4]; exact hv0
      intro r hr
      rcases mem_set_or hr with rfl | hr
      · refine add_nonneg (hsort e (List.mem_of_getLast? he)) (interpR_nonneg _ _ _ _ le_rfl ?_)
        intro r hr; rw [List.mem_singleton.mp hr]; exact hz
      · exact hsort r hr
    · simp only [bind_ok, pure_ok, Prod.mk.injEq] at h1
      obtain ⟨_, _, rfl, _⟩ := h1
      exact hs.ts
  have n1 : 0 ≤ e1 := getLast?_map_nonneg h2 (fun t => mul_nonneg hs.r1 (Real.exp_pos _).le)
  have n2 : 0 ≤ e2 := getLast?_map_nonneg h3 (fun t => mul_nonneg hs.r2 (Real.exp_pos _).le)
  have n3 : 0 ≤ e1 + size * p.PropRate1 := add_nonneg n1 (mul_nonneg hz hp)
  have n4 : 0 ≤ e2 + size * (1 - p.PropRate1) := add_nonneg n2 (mul_nonneg hz (by linarith))
  refine ⟨?_, n3, n4⟩
  intro r hr
  rcases List.mem_append.mp hr with hr | hr
  · exact hts r hr
  · have hm := (List.of_mem_zip hr).2
    rw [← List.map_uncurry_zip_eq_zipWith] at hm
    obtain ⟨⟨a, b⟩, hab, h4⟩ := List.mem_map.mp hm
    rw [← h4]
    have ha := (List.of_mem_zip hab).1
    have hb := (List.of_mem_zip hab).2
    refine add_nonneg ?_ ?_
    · rcases mem_set_or ha with h5 | h5
      · rw [h5]; exact n3
      · obtain ⟨t, _, rfl⟩ := List.mem_map.mp h5
        exact mul_nonneg hs.r1 (Real.exp_pos _).le
    · rcases mem_set_or hb with h5 | h5
      · rw [h5]; exact n4
      · obtain ⟨t, _, rfl⟩ := List.mem_map.mp h5
        exact mul_nonneg hs.r2 (Real.exp_pos _).le

theorem shotLoop_nonneg {p : ShotPars} {toNs : ℝ → ℤ} {rate d2 : ℝ} {ci : ℤ} (hm : 0 ≤ p.MeanEventIncrease) (hp : 0 ≤ p.PropRate1)
    (hp1 : p.PropRate1 ≤ 1) : ∀ (draws : List (ℝ × ℝ)) (s s' : ShotState), (∀ d ∈ draws, 0 ≤ d.2 ∧ d.2 < 1) →
    shotLoop p toNs rate d2 ci s draws = .ok s' → s.NonNeg → s'.NonNeg := by
  intro draws
  induction draws with
  | nil =>
    intro s s' _ h hs
    unfold shotLoop at h
    split at h
    · cases h
    · rw [← ok_inj.mp h]; exact hs
  | cons d rest ih =>
    obtain ⟨u, v⟩ := d
    intro s s' hd h hs
    unfold shotLoop at h
    split at h
    · simp only at h
      split at h
      · cases h
      · obtain ⟨s1, h1, h2⟩ := bind_ok.mp h
        refine ih s1 s' (fun d hd' => hd d (by simp [hd'])) h2 (shotStep_nonneg h1 hs ?_ hp hp1)
        have hv := hd (u, v) (by simp)
        have : Real.log (1 - v) ≤ 0 := Real.log_nonpos (by linarith [hv.2]) (by linarith [hv.1])
        rw [neg_mul]
        exact neg_nonneg.mpr (mul_nonpos_of_nonneg_of_nonpos hm this)
    · rw [← ok_inj.mp h]; exact hs

/-- What the checks of the arguments leave. -/
theorem shotInit_inv {p : ShotPars} {rate d2 r1 r2 : ℝ} (h : shotInit p = .ok (rate, d2, r1, r2)) :
    0 < p.DecayRate1 ∧ 0 ≤ p.PropRate1 ∧ p.PropRate1 ≤ 1 ∧ 0 < p.RisingLimbTime ∧ p.DecayRate2 = some d2 ∧ d2 ≠ 0 ∧
      (p.PropRate1 < 1 → 0 < d2) ∧ p.MeanTimeBetweenEvents / dayNs ≠ 0 ∧ rate = 1 / ((p.MeanTimeBetweenEvents / dayNs : ℤ) : ℝ) ∧
      r1 = p.MeanEventIncrease * (p.PropRate1 / p.DecayRate1) * rate ∧ r2 = p.MeanEventIncrease * ((1 - p.PropRate1) / d2) * rate := by
  unfold shotInit at h
  obtain ⟨_, h1, h⟩ := bind_ok.mp h
  obtain ⟨_, h2, h⟩ := bind_ok.mp h
  rw [pyAssert_ok, decide_eq_true_eq] at h1
  rw [pyAssert_ok, Bool.and_eq_true, decide_eq_true_eq, decide_eq_true_eq] at h2
  cases hd : p.DecayRate2 with
  | none =>
    rw [hd] at h
    exfalso
    by_cases hlt : p.PropRate1 < 1
    · rw [if_pos hlt] at h; cases h
    · rw [if_neg hlt] at h
      obtain ⟨_, h3, h⟩ := bind_ok.mp h
      by_cases hz : p.MeanTimeBetweenEvents / dayNs = 0 <;> simp [hz] at h
  | some d =>
    rw [hd] at h
    have key : (p.PropRate1 < 1 → 0 < d) ∧ ((pyAssert (decide (0 < p.RisingLimbTime)) >>= fun _ =>
        (if p.MeanTimeBetweenEvents / dayNs = 0 then .error .zeroDiv
        else if d = 0 then .error .zeroDiv
          else pure (1 / ((p.MeanTimeBetweenEvents / dayNs : ℤ) : ℝ), d,
            p.MeanEventIncrease * (p.PropRate1 / p.DecayRate1) * (1 / ((p.MeanTimeBetweenEvents / dayNs : ℤ) : ℝ)),
            p.MeanEventIncrease * ((1 - p.PropRate1) / d) * (1 / ((p.MeanTimeBetweenEvents / dayNs : ℤ) : ℝ))) : Except PyErr _)) = .ok (rate, d2, r1, r2)) := by
      by_cases hlt : p.PropRate1 < 1
      · rw [if_pos hlt] at h
        obtain ⟨_, h3, h⟩ := bind_ok.mp h
        rw [pyAssert_ok, decide_eq_true_eq] at h3
        exact ⟨fun _ => h3, h⟩
      · rw [if_neg hlt] at h
        exact ⟨fun h' => absurd h' hlt, h⟩
    obtain ⟨h4, h5⟩ := key
    obtain ⟨_, h6, h7⟩ := bind_ok.mp h5
    rw [pyAssert_ok, decide_eq_true_eq] at h6
    split at h7
    · cases h7
    · rename_i hne
      split at h7
      · cases h7
      · rename_i hne2
        have h7 := pure_ok.mp h7
        simp only [Prod.mk.injEq] at h7
        obtain ⟨rfl, rfl, rfl, rfl⟩ := h7
        exact ⟨h1, h2.1, h2.2, h6, rfl, hne2, h4, hne, rfl, rfl, rfl⟩

/-! ### Times of the series -/

/-- The record times of one pass: the old ones, a time on the rising limb if the gap is short, and new ones after the last event. -/
theorem shotStep_inv {p : ShotPars} {d2 : ℝ} {ci : ℤ} {s s' : ShotState} {gap : ℤ} {size : ℝ} (h : shotStep p d2 ci s gap size = .ok s') :
    s'.last = s.last + gap ∧ (s'.ts.getLast?.map (·.1)) = some (s.last + gap) ∧
    ((gap < p.RisingLimbTime ∧ ∃ l : List ℤ, l.Pairwise (· ≤ ·) ∧ l.Perm (s.ts.map (·.1) ++ [s.last + gap - p.RisingLimbTime]) ∧
        s'.ts.map (·.1) = l ++ [s.last + gap]) ∨
     (p.RisingLimbTime ≤ gap ∧ ∃ r, dateRange s.last (s.last + gap - p.RisingLimbTime) ci = .ok r ∧
        s'.ts.map (·.1) = s.ts.map (·.1) ++ (r.filter (fun t => decide (t ≠ s.last)) ++ [s.last + gap - p.RisingLimbTime, s.last + gap]))) := by
  unfold shotStep at h
  simp only [bind_ok, pyGet_last, pure_ok] at h
  obtain ⟨⟨ts, times⟩, h1, e1, h2, e2, h3, rfl⟩ := h
  have hz : ∀ (a b : ℝ), (times.zip (List.zipWith (· + ·)
      ((times.map (fun t => s.r1 * Real.exp (-p.DecayRate1 * (((t - s.last : ℤ) : ℝ) / 10 ^ 9 / 86400)))).set
        ((times.map (fun t => s.r1 * Real.exp (-p.DecayRate1 * (((t - s.last : ℤ) : ℝ) / 10 ^ 9 / 86400)))).length - 1) a)
      ((times.map (fun t => s.r2 * Real.exp (-d2 * (((t - s.last : ℤ) : ℝ) / 10 ^ 9 / 86400)))).set
        ((times.map (fun t => s.r2 * Real.exp (-d2 * (((t - s.last : ℤ) : ℝ) / 10 ^ 9 / 86400)))).length - 1) b))).map Prod.fst = times := by
    intro a b
    rw [List.map_fst_zip]
    simp
  split at h1
  · rename_i hgap
    simp only [bind_ok, pyGet_last, pure_ok, Prod.mk.injEq] at h1
    obtain ⟨v, hv, e, he, rfl, rfl⟩ := h1
    set l0 := (s.ts ++ [(s.last + gap - p.RisingLimbTime, v)]).insertionSort (fun a b => a.1 ≤ b.1) with hl0
    have hmap : (l0.set (l0.length - 1) (e.1, e.2 + interpR (s.last + gap - p.RisingLimbTime) 0 [(s.last + gap, size)] e.1)).map (·.1) = l0.map (·.1) := by
      rw [List.map_set]
      apply List.ext_getElem?
      intro i
      rw [List.getElem?_set]
      split
      · rename_i hi
        subst hi
        rw [List.getLast?_eq_getElem?] at he
        rw [List.getElem?_map, he]
        have := (List.getElem?_eq_some_iff.mp he).1
        simp [this]
      · rfl
    refine ⟨rfl, ?_, Or.inl ⟨hgap, l0.map (·.1), ?_, ?_, ?_⟩⟩
    · rw [← List.getLast?_map, List.map_append, hz, List.getLast?_append]; rfl
    · rw [List.pairwise_map]
      exact List.pairwise_insertionSort (r := fun a b : ℤ × ℝ => a.1 ≤ b.1) _
    · have := (List.perm_insertionSort (fun a b : ℤ × ℝ => a.1 ≤ b.1) (s.ts ++ [(s.last + gap - p.RisingLimbTime, v)])).map (·.1)
      rw [List.map_append] at this
      exact this
    · rw [List.map_append, hz, hmap]
  · rename_i hgap
    simp only [bind_ok, pure_ok, Prod.mk.injEq] at h1
    obtain ⟨r, hr, rfl, rfl⟩ := h1
    refine ⟨rfl, ?_, Or.inr ⟨by omega, r, hr, ?_⟩⟩
    · rw [← List.getLast?_map, List.map_append, hz, List.getLast?_append]; simp
    · rw [List.map_append, hz]

/-- A pass succeeds for a non-empty series and a positive calculation interval. -/
theorem shotStep_ok {p : ShotPars} {d2 : ℝ} {ci : ℤ} {s : ShotState} {gap : ℤ} {size : ℝ} (hci : 0 < ci) (hs : s.ts ≠ []) :
    ∃ s', shotStep p d2 ci s gap size = .ok s' := by
  have hlast : ∀ {l : List ℤ} {f : ℤ → ℝ}, l ≠ [] → ∃ e, pyGet (l.map f) (-1) = .ok e := by
    intro l f hl
    exact ⟨_, pyGet_last.mpr (List.getLast?_eq_getLast_of_ne_nil (by simpa using hl))⟩
  unfold shotStep
  by_cases hg : gap < p.RisingLimbTime
  · obtain ⟨v, hv⟩ : ∃ v, interpLast s.ts (s.last + gap - p.RisingLimbTime) = .ok v := by
      unfold interpLast
      have : lastTwo s.ts ≠ [] := by
        unfold lastTwo
        rw [ne_eq, List.drop_eq_nil_iff]
        have := List.length_pos_of_ne_nil hs
        omega
      split
      · rename_i h; exact absurd h this
      · exact ⟨_, rfl⟩
    have hne : (s.ts ++ [(s.last + gap - p.RisingLimbTime, v)]).insertionSort (fun a b => a.1 ≤ b.1) ≠ [] := by
      intro h
      have := (List.perm_insertionSort (fun a b : ℤ × ℝ => a.1 ≤ b.1) (s.ts ++ [(s.last + gap - p.RisingLimbTime, v)])).length_eq
      rw [h] at this
      simp at this
    obtain ⟨e1, h1⟩ := hlast (l := [s.last + gap]) (f := fun t => s.r1 * Real.exp (-p.DecayRate1 * (((t - s.last : ℤ) : ℝ) / 10 ^ 9 / 86400))) (by simp)
    obtain ⟨e2, h2⟩ := hlast (l := [s.last + gap]) (f := fun t => s.r2 * Real.exp (-d2 * (((t - s.last : ℤ) : ℝ) / 10 ^ 9 / 86400))) (by simp)
    rw [if_pos hg]
    exact ⟨_, bind_ok.mpr ⟨_, bind_ok.mpr ⟨v, hv, bind_ok.mpr ⟨_, pyGet_last.mpr (List.getLast?_eq_getLast_of_ne_nil hne), rfl⟩⟩,
      bind_ok.mpr ⟨e1, h1, bind_ok.mpr ⟨e2, h2, rfl⟩⟩⟩⟩
  · obtain ⟨r, hr, _⟩ := dateRange_ok (a := s.last) (b := s.last + gap - p.RisingLimbTime) hci
    have hne : r.filter (fun t => decide (t ≠ s.last)) ++ [s.last + gap - p.RisingLimbTime, s.last + gap] ≠ [] := by simp
    obtain ⟨e1, h1⟩ := hlast (f := fun t => s.r1 * Real.exp (-p.DecayRate1 * (((t - s.last : ℤ) : ℝ) / 10 ^ 9 / 86400))) hne
    obtain ⟨e2, h2⟩ := hlast (f := fun t => s.r2 * Real.exp (-d2 * (((t - s.last : ℤ) : ℝ) / 10 ^ 9 / 86400))) hne
    rw [if_neg hg]
    exact ⟨_, bind_ok.mpr ⟨_, bind_ok.mpr ⟨r, hr, rfl⟩, bind_ok.mpr ⟨e1, h1, bind_ok.mpr ⟨e2, h2, rfl⟩⟩⟩⟩

/-- The gaps before the events. -/
noncomputable def gaps (toNs : ℝ → ℤ) (rate : ℝ) (draws : List (ℝ × ℝ)) : List ℤ := draws.map (fun d => toNs (-Real.log d.1 / rate))

/-- The loop ends if the gaps add up to the length of the series. -/
theorem shotLoop_ok {p : ShotPars} {toNs : ℝ → ℤ} {rate d2 : ℝ} {ci : ℤ} (hci : 0 < ci) :
    ∀ (draws : List (ℝ × ℝ)) (s : ShotState), s.ts ≠ [] → (∀ d ∈ draws, d.1 ≠ 0 ∧ d.2 ≠ 1) →
    p.EndDate ≤ s.last + (gaps toNs rate draws).sum → ∃ s', shotLoop p toNs rate d2 ci s draws = .ok s' := by
  intro draws
  induction draws with
  | nil =>
    intro s _ _ h
    unfold shotLoop
    simp only [gaps, List.map_nil, List.sum_nil, add_zero] at h
    rw [if_neg (by omega)]
    exact ⟨_, rfl⟩
  | cons d rest ih =>
    obtain ⟨u, v⟩ := d
    intro s hs hd h
    unfold shotLoop
    split
    · have h0 := hd (u, v) (by simp)
      simp only
      rw [if_neg (by rintro (h1 | h1); exact h0.1 h1; exact h0.2 (by simp only; linarith))]
      obtain ⟨s', h1⟩ := shotStep_ok (p := p) (d2 := d2) (gap := toNs (-Real.log u / rate)) (size := -p.MeanEventIncrease * Real.log (1 - v)) hci hs
      obtain ⟨i1, i2, _⟩ := shotStep_inv h1
      have hne : s'.ts ≠ [] := by rintro h2; rw [h2] at i2; cases i2
      obtain ⟨s2, h2⟩ := ih s' hne (fun d hd' => hd d (by simp [hd'])) (by
        rw [i1]
        simp only [gaps, List.map_cons, List.sum_cons] at h ⊢
        omega)
      exact ⟨s2, bind_ok.mpr ⟨s', h1, h2⟩⟩
    · exact ⟨_, rfl⟩

/-- What is known about the record times. -/
structure Times (p : ShotPars) (int : ℤ) (s : ShotState) : Prop where
  start : p.StartDate ≤ s.last
  head : ∃ t v, s.ts.head? = some (t, v) ∧ t ≤ p.StartDate
  mem : p.StartDate ∈ s.ts.map (·.1)
  last : s.ts.getLast?.map (·.1) = some s.last
  lower : ∀ t ∈ s.ts.map (·.1), p.StartDate - p.RisingLimbTime ≤ t
  upper : ∀ t ∈ s.ts.map (·.1), t ≤ s.last
  dense : ∀ x, p.StartDate - int < x → x ≤ s.last → p.RisingLimbTime ≤ int → ∃ t ∈ s.ts.map (·.1), x ≤ t ∧ t < x + int

theorem Times.step {p : ShotPars} {d2 : ℝ} {ci int : ℤ} {s s' : ShotState} {gap : ℤ} {size : ℝ} (hs : Times p int s)
    (h : shotStep p d2 ci s gap size = .ok s') (hg : 0 ≤ gap) (hr : 0 < p.RisingLimbTime) (hci : 0 < ci) (hle : ci ≤ int) : Times p int s' := by
  obtain ⟨h1, h2, h3⟩ := shotStep_inv h
  have hst := hs.start
  rcases h3 with ⟨hlt, l, hl1, hl2, hl3⟩ | ⟨hge, r, hr1, hr2⟩
  · have hm : ∀ t, t ∈ s'.ts.map (·.1) ↔ t ∈ s.ts.map (·.1) ∨ t = s.last + gap - p.RisingLimbTime ∨ t = s.last + gap := by
      intro t
      rw [hl3, List.mem_append, hl2.mem_iff, List.mem_append, List.mem_singleton, List.mem_singleton, or_assoc]
    refine ⟨by omega, ?_, (hm _).mpr (Or.inl hs.mem), by rw [h2, h1], ?_, ?_, ?_⟩
    · cases hts : s'.ts with
      | nil => rw [hts] at h2; cases h2
      | cons a rest =>
        refine ⟨a.1, a.2, rfl, ?_⟩
        have hin : p.StartDate ∈ l := hl2.mem_iff.mpr (List.mem_append_left _ hs.mem)
        cases l with
        | nil => cases hin
        | cons b l' =>
          rw [hts] at hl3
          simp only [List.map_cons, List.cons_append, List.cons.injEq] at hl3
          rw [hl3.1]
          rcases List.mem_cons.mp hin with h5 | h5
          · omega
          · exact (List.pairwise_cons.mp hl1).1 _ h5
    · intro t ht
      rcases (hm t).mp ht with h4 | h4 | h4
      · exact hs.lower t h4
      · omega
      · omega
    · intro t ht
      rcases (hm t).mp ht with h4 | h4 | h4
      · have := hs.upper t h4; omega
      · omega
      · omega
    · intro x hx1 hx2 hx3
      by_cases hx : x ≤ s.last
      · obtain ⟨t, ht, h5⟩ := hs.dense x hx1 hx hx3
        exact ⟨t, (hm t).mpr (Or.inl ht), h5⟩
      · exact ⟨s.last + gap, (hm _).mpr (Or.inr (Or.inr rfl)), by omega, by omega⟩
  · obtain ⟨r', hr', hget⟩ := dateRange_ok (a := s.last) (b := s.last + gap - p.RisingLimbTime) hci
    rw [hr1, ok_inj] at hr'
    subst hr'
    have hmr : ∀ t, t ∈ r ↔ ∃ i : ℕ, t = s.last + i * ci ∧ t ≤ s.last + gap - p.RisingLimbTime := by
      intro t
      rw [List.mem_iff_getElem?]
      exact ⟨fun ⟨i, hi⟩ => ⟨i, (hget i t).mp hi⟩, fun ⟨i, hi⟩ => ⟨i, (hget i t).mpr hi⟩⟩
    have hm : ∀ t, t ∈ s'.ts.map (·.1) ↔ t ∈ s.ts.map (·.1) ∨ (t ∈ r ∧ t ≠ s.last) ∨ t = s.last + gap - p.RisingLimbTime ∨ t = s.last + gap := by
      intro t
      rw [hr2]
      simp [List.mem_append, List.mem_filter]
    have hrt : ∀ t ∈ r, s.last ≤ t := by
      intro t ht
      obtain ⟨i, hi, _⟩ := (hmr t).mp ht
      have : 0 ≤ (i : ℤ) * ci := by positivity
      omega
    refine ⟨by omega, ?_, (hm _).mpr (Or.inl hs.mem), by rw [h2, h1], ?_, ?_, ?_⟩
    · obtain ⟨t, v, h4, h5⟩ := hs.head
      cases hts : s.ts with
      | nil => rw [hts] at h4; cases h4
      | cons a rest =>
        rw [hts] at h4 hr2
        cases h4
        cases hts' : s'.ts with
        | nil => rw [hts'] at h2; cases h2
        | cons b rest' =>
          rw [hts'] at hr2
          simp only [List.map_cons, List.cons_append, List.cons.injEq] at hr2
          exact ⟨b.1, b.2, rfl, by rw [hr2.1]; exact h5⟩
    · intro t ht
      rcases (hm t).mp ht with h4 | ⟨h4, _⟩ | h4 | h4
      · exact hs.lower t h4
      · have := hrt t h4; omega
      · omega
      · omega
    · intro t ht
      rcases (hm t).mp ht with h4 | ⟨h4, _⟩ | h4 | h4
      · have := hs.upper t h4; omega
      · obtain ⟨_, _, h6⟩ := (hmr t).mp h4; omega
      · omega
      · omega
    · intro x hx1 hx2 hx3
      by_cases hx : x ≤ s.last
      · obtain ⟨t, ht, h5⟩ := hs.dense x hx1 hx hx3
        exact ⟨t, (hm t).mpr (Or.inl ht), h5⟩
      · by_cases hx' : x ≤ s.last + gap - p.RisingLimbTime
        · -- the first multiple not before x, or the start of the rising limb
          have hq : ∃ i : ℕ, x ≤ s.last + i * ci ∧ s.last + i * ci < x + ci := by
            refine ⟨((x - s.last + ci - 1) / ci).toNat, ?_⟩
            have h7 : 0 ≤ (x - s.last + ci - 1) / ci := Int.ediv_nonneg (by omega) hci.le
            rw [Int.toNat_of_nonneg h7]
            have h8 := Int.emod_add_mul_ediv (x - s.last + ci - 1) ci
            have h9 := Int.emod_nonneg (x - s.last + ci - 1) (ne_of_gt hci)
            have h10 := Int.emod_lt_of_pos (x - s.last + ci - 1) hci
            rw [mul_comm] at h8
            constructor <;> omega
          obtain ⟨i, hi1, hi2⟩ := hq
          by_cases hi3 : s.last + i * ci ≤ s.last + gap - p.RisingLimbTime
          · exact ⟨_, (hm _).mpr (Or.inr (Or.inl ⟨(hmr _).mpr ⟨i, rfl, hi3⟩, by omega⟩)), hi1, by omega⟩
          · exact ⟨s.last + gap - p.RisingLimbTime, (hm _).mpr (Or.inr (Or.inr (Or.inl rfl))), hx', by omega⟩
        · exact ⟨s.last + gap, (hm _).mpr (Or.inr (Or.inr (Or.inr rfl))), by omega, by omega⟩

theorem Times.init {p : ShotPars} {int : ℤ} {a r1 r2 : ℝ} (hr : 0 < p.RisingLimbTime) :
    Times p int ⟨[(p.StartDate, a)], r1, r2, p.StartDate⟩ := by
  refine ⟨le_rfl, ⟨_, _, rfl, le_rfl⟩, by simp, rfl, ?_, ?_, ?_⟩
  · intro t ht; simp at ht; omega
  · intro t ht; simp at ht; simp [ht]
  · intro x h1 h2 h3
    exact ⟨p.StartDate, by simp, h2, by omega⟩

theorem Times.loop {p : ShotPars} {toNs : ℝ → ℤ} {rate d2 : ℝ} {ci int : ℤ} (hr : 0 < p.RisingLimbTime) (hci : 0 < ci) (hle : ci ≤ int) :
    ∀ (draws : List (ℝ × ℝ)) (s s' : ShotState), (∀ g ∈ gaps toNs rate draws, 0 ≤ g) →
    shotLoop p toNs rate d2 ci s draws = .ok s' → Times p int s → Times p int s' ∧ p.EndDate ≤ s'.last := by
  intro draws
  induction draws with
  | nil =>
    intro s s' _ h hs
    unfold shotLoop at h
    split at h
    · cases h
    · rw [← ok_inj.mp h]; exact ⟨hs, by omega⟩
  | cons d rest ih =>
    obtain ⟨u, v⟩ := d
    intro s s' hd h hs
    unfold shotLoop at h
    split at h
    · simp only at h
      split at h
      · cases h
      · obtain ⟨s1, h1, h2⟩ := bind_ok.mp h
        exact ih s1 s' (fun g hg => hd g (by simp only [gaps, List.map_cons, List.mem_cons] at hg ⊢; exact Or.inr hg)) h2
          (hs.step h1 (hd _ (by simp [gaps])) hr hci hle)
    · rw [← ok_inj.mp h]; exact ⟨hs, by omega⟩

/-- Records of the resampled series. -/
theorem resample_get {origin int : ℤ} {ts : List (ℤ × ℝ)} {k : ℕ} {t : ℤ} {v : Fl ℝ} (h : (resampleMean origin int ts)[k]? = some (t, v)) :
    ∃ a b, ts.head? = some a ∧ ts.getLast? = some b ∧ (k : ℤ) ≤ (b.1 - origin) / int - (a.1 - origin) / int ∧
      t = origin + ((a.1 - origin) / int + k) * int ∧
      ((v = nan ∧ ∀ r ∈ ts, (r.1 - origin) / int ≠ (a.1 - origin) / int + k) ∨
       ∃ vs : List ℝ, vs ≠ [] ∧ v = fin (vs.sum / vs.length) ∧
         vs = (ts.filter (fun r => decide ((r.1 - origin) / int = (a.1 - origin) / int + k))).map (·.2)) := by
  cases ts with
  | nil => simp [resampleMean] at h
  | cons a rest =>
    have hb : (a :: rest).getLast? = some (rest.getLast?.getD a) := by
      cases rest with
      | nil => rfl
      | cons c l => rw [List.getLast?_cons_cons, List.getLast?_eq_getLast_of_ne_nil (by simp : c :: l ≠ [])]; rfl
    refine ⟨a, rest.getLast?.getD a, rfl, hb, ?_⟩
    simp only [resampleMean, List.getElem?_map, Option.map_eq_some_iff, List.getElem?_eq_some_iff, List.length_range, List.getElem_range] at h
    obtain ⟨_, ⟨hk, rfl⟩, hv⟩ := h
    simp only [Prod.mk.injEq] at hv
    obtain ⟨rfl, hv⟩ := hv
    refine ⟨by omega, rfl, ?_⟩
    split at hv
    · rename_i he
      refine Or.inl ⟨hv.symm, ?_⟩
      intro r hr hbin
      rw [List.isEmpty_iff, List.map_eq_nil_iff, List.filter_eq_nil_iff] at he
      exact he r hr (decide_eq_true hbin)
    · rename_i he
      exact Or.inr ⟨_, by rwa [List.isEmpty_iff] at he, hv.symm, rfl⟩

theorem resample_length {origin int : ℤ} {ts : List (ℤ × ℝ)} {a b : ℤ × ℝ} (ha : ts.head? = some a) (hb : ts.getLast? = some b) :
    (resampleMean origin int ts).length = ((b.1 - origin) / int - (a.1 - origin) / int + 1).toNat := by
  cases ts with
  | nil => cases ha
  | cons c rest =>
    cases ha
    have : rest.getLast?.getD a = b := by
      cases rest with
      | nil => simpa using hb
      | cons c l =>
        rw [List.getLast?_cons_cons] at hb
        rw [hb]; rfl
    simp [resampleMean, this]

end Verif.Model
