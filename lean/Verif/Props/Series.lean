import Verif.Lemmas.Trim

set_option autoImplicit false
set_option linter.unusedSectionVars false

/-! # Properties of the time series functions (C52, C53, C59) -/

namespace Verif.Props
open Verif Fl Model Spec

variable {K : Type} [Field K] [LinearOrder K] [IsStrictOrderedRing K]

/-- **C52** (values): on a series of finite values with increasing times, a non-empty non-decreasing request
inside the series is answered, and each answer is the record at a recorded time and otherwise on the straight
line through the two neighbouring records. -/
theorem C52_linear {ts : List (ℤ × K)} (hs : Increasing ts) {req : List ℤ} (hne : req ≠ []) (hr : req.Pairwise (· ≤ ·))
    (hin : ∀ t ∈ req, Inside ts t) :
    ∃ vs : List K, interpolateAt (finSeries ts) req = .ok (vs.map fin) ∧ List.Forall₂ (LinearAt ts) req vs :=
  interpolate_linear hs hne hr hin

/-- The specification determines the value. -/
theorem linearAt_unique {ts : List (ℤ × K)} (hs : Increasing ts) {t : ℤ} {v w : K} (hv : LinearAt ts t v) (hw : LinearAt ts t w) : v = w := by
  have mix : ∀ {v : K}, (t, v) ∈ ts → ∀ (i : ℕ) (t1 t2 : ℤ) (v1 v2 : K), ts[i]? = some (t1, v1) → ts[i + 1]? = some (t2, v2) → t1 < t → t < t2 → False := by
    intro v hm i t1 t2 v1 v2 h1 h2 l1 l2
    obtain ⟨k, hk⟩ := List.mem_iff_getElem?.mp hm
    rcases Nat.lt_or_ge i k with h | h
    · rcases Nat.lt_or_ge k (i + 1) with h' | h'
      · omega
      · rcases Nat.eq_or_lt_of_le h' with h'' | h''
        · subst h''; rw [hk] at h2; cases h2; omega
        · have := incr_get hs h2 hk h''; dsimp only at this; omega
    · rcases Nat.eq_or_lt_of_le h with h'' | h''
      · subst h''; rw [hk] at h1; cases h1; omega
      · have := incr_get hs hk h1 h''; dsimp only at this; omega
  rcases hv with hv | ⟨i, t1, t2, v1, v2, h1, h2, l1, l2, e⟩
  · rcases hw with hw | ⟨j, s1, s2, w1, w2, g1, g2, m1, m2, e'⟩
    · obtain ⟨k, hk⟩ := List.mem_iff_getElem?.mp hv
      obtain ⟨k', hk'⟩ := List.mem_iff_getElem?.mp hw
      rcases Nat.lt_trichotomy k k' with h | h | h
      · have := incr_get hs hk hk' h; dsimp only at this; omega
      · subst h; rw [hk] at hk'; cases hk'; rfl
      · have := incr_get hs hk' hk h; dsimp only at this; omega
    · exact (mix hv j s1 s2 w1 w2 g1 g2 m1 m2).elim
  · rcases hw with hw | ⟨j, s1, s2, w1, w2, g1, g2, m1, m2, e'⟩
    · exact (mix hw i t1 t2 v1 v2 h1 h2 l1 l2).elim
    · have hij : i = j := by
        rcases Nat.lt_trichotomy i j with h | h | h
        · exfalso
          rcases Nat.eq_or_lt_of_le (Nat.succ_le_of_lt h) with h' | h'
          · subst h'; rw [Nat.succ_eq_add_one, h2] at g1; cases g1; omega
          · have := incr_get hs h2 g1 h'; dsimp only at this; omega
        · exact h
        · exfalso
          rcases Nat.eq_or_lt_of_le (Nat.succ_le_of_lt h) with h' | h'
          · subst h'; rw [Nat.succ_eq_add_one, g2] at h1; cases h1; omega
          · have := incr_get hs g2 h1 h'; dsimp only at this; omega
      subst hij
      rw [h1] at g1; rw [h2] at g2
      cases g1; cases g2
      have hd : ((t2 : K) - t1) ≠ 0 := by
        have : (t1 : K) < t2 := by exact_mod_cast l1.trans l2
        intro h; linarith
      have : (v - v1) * ((t2 : K) - t1) = (w - v1) * ((t2 : K) - t1) := e.trans e'.symm
      have := mul_right_cancel₀ hd this
      linarith

/-- **C52** (independence): the value returned for a time does not depend on the other times requested. -/
theorem C52_independent {ts : List (ℤ × K)} (hs : Increasing ts) {req req' : List ℤ} (hne : req ≠ []) (hr : req.Pairwise (· ≤ ·))
    (hin : ∀ t ∈ req, Inside ts t) (hne' : req' ≠ []) (hr' : req'.Pairwise (· ≤ ·)) (hin' : ∀ t ∈ req', Inside ts t)
    {out out' : List (Fl K)} (h : interpolateAt (finSeries ts) req = .ok out) (h' : interpolateAt (finSeries ts) req' = .ok out')
    {i j : ℕ} {t : ℤ} (hi : req[i]? = some t) (hj : req'[j]? = some t) : out[i]? = out'[j]? ∧ out[i]?.isSome := by
  obtain ⟨vs, hv, hF⟩ := C52_linear hs hne hr hin
  obtain ⟨ws, hw, hG⟩ := C52_linear hs hne' hr' hin'
  rw [hv] at h; rw [hw] at h'
  cases h; cases h'
  have get : ∀ {req : List ℤ} {vs : List K} {i : ℕ}, List.Forall₂ (LinearAt ts) req vs → req[i]? = some t → ∃ v, vs[i]? = some v ∧ LinearAt ts t v := by
    intro req vs i hF hi
    obtain ⟨hlt, rfl⟩ := List.getElem?_eq_some_iff.mp hi
    have hlt' : i < vs.length := hF.length_eq ▸ hlt
    exact ⟨vs[i], List.getElem?_eq_getElem hlt', hF.get hlt hlt'⟩
  obtain ⟨v, hv', lv⟩ := get hF hi
  obtain ⟨w, hw', lw⟩ := get hG hj
  rw [List.getElem?_map, List.getElem?_map, hv', hw', linearAt_unique hs lv lw]
  exact ⟨rfl, rfl⟩

/-- **C52** (bounds): a value satisfying the specification is a recorded value or lies between the two
neighbouring records, and therefore between any bounds on all records. -/
theorem C52_between {ts : List (ℤ × K)} {t : ℤ} {v : K} (h : LinearAt ts t v) :
    (t, v) ∈ ts ∨ ∃ (i : ℕ) (a b : ℤ × K), ts[i]? = some a ∧ ts[i + 1]? = some b ∧ a.1 < t ∧ t < b.1 ∧ min a.2 b.2 ≤ v ∧ v ≤ max a.2 b.2 := by
  rcases h with h | ⟨i, t1, t2, v1, v2, h1, h2, l1, l2, e⟩
  · exact .inl h
  · refine .inr ⟨i, _, _, h1, h2, l1, l2, ?_⟩
    have l1' : (t1 : K) < t := by exact_mod_cast l1
    have l2' : (t : K) < t2 := by exact_mod_cast l2
    have hd : 0 < (t2 : K) - t1 := by linarith
    rcases le_total v1 v2 with h12 | h12
    · simp only [min_eq_left h12, max_eq_right h12]
      constructor
      · by_contra hc
        have : (v - v1) * ((t2 : K) - t1) < 0 := mul_neg_of_neg_of_pos (by linarith [not_le.mp hc]) hd
        have : 0 ≤ (v2 - v1) * ((t : K) - t1) := mul_nonneg (by linarith) (by linarith)
        linarith
      · by_contra hc
        have h3 : (v2 - v1) * ((t : K) - t1) ≤ (v2 - v1) * ((t2 : K) - t1) := mul_le_mul_of_nonneg_left (by linarith) (by linarith)
        have h4 : (v2 - v1) * ((t2 : K) - t1) < (v - v1) * ((t2 : K) - t1) := mul_lt_mul_of_pos_right (by linarith [not_le.mp hc]) hd
        linarith
    · simp only [min_eq_right h12, max_eq_left h12]
      constructor
      · by_contra hc
        have h3 : (v2 - v1) * ((t2 : K) - t1) ≤ (v2 - v1) * ((t : K) - t1) := mul_le_mul_of_nonpos_left (by linarith) (by linarith)
        have h4 : (v - v1) * ((t2 : K) - t1) < (v2 - v1) * ((t2 : K) - t1) := mul_lt_mul_of_pos_right (by linarith [not_le.mp hc]) hd
        linarith
      · by_contra hc
        have : 0 < (v - v1) * ((t2 : K) - t1) := mul_pos (by linarith [not_le.mp hc]) hd
        have : (v2 - v1) * ((t : K) - t1) ≤ 0 := mul_nonpos_of_nonpos_of_nonneg (by linarith) (by linarith)
        linarith

/-- A three-record series, asked at a recorded and at two other times. -/
example : Increasing [((0 : ℤ), (1 : ℚ)), (10, 3), (30, -1)] ∧ (∀ t ∈ [(5 : ℤ), 10, 25], Inside [((0 : ℤ), (1 : ℚ)), (10, 3), (30, -1)] t) ∧
    okAnd (interpolateAt (finSeries [((0 : ℤ), (1 : ℚ)), (10, 3), (30, -1)]) [5, 10, 25]) (fun o => o == [fin 2, fin 3, fin 0]) = true := by
  refine ⟨by simp [Increasing], ?_, by decide +kernel⟩
  intro t ht
  simp only [List.mem_cons, List.not_mem_nil, or_false] at ht
  rcases ht with rfl | rfl | rfl <;> exact ⟨⟨(0, 1), by simp, by norm_num⟩, (30, -1), by simp, by norm_num⟩

/-- **C53**: for any series (whatever its values and times), an empty request, a request with a time before
every record and a request with a time after every record raise IndexError. -/
theorem C53_outside (ts : Series K) {req : List ℤ} (hr : req.Pairwise (· ≤ ·))
    (h : req = [] ∨ (∃ t ∈ req, ∀ a ∈ ts, t < a.1) ∨ (∃ t ∈ req, ∀ a ∈ ts, a.1 < t)) : interpolateAt ts req = .error .index := by
  cases hreq : req with
  | nil => rfl
  | cons r0 rt =>
    rw [hreq] at h hr
    have hne : r0 :: rt ≠ [] := by simp
    obtain ⟨rN, hlast⟩ : ∃ rN, (r0 :: rt).getLast? = some rN := ⟨_, List.getLast?_eq_some_getLast hne⟩
    have hle0 : ∀ t ∈ r0 :: rt, r0 ≤ t := by
      intro t ht
      rcases List.mem_cons.mp ht with rfl | h
      · exact le_rfl
      · exact (List.pairwise_cons.mp hr).1 t h
    have hleN : ∀ t ∈ r0 :: rt, t ≤ rN := by
      intro t ht
      obtain ⟨pre, hpre⟩ := List.getLast?_eq_some_iff.mp hlast
      rw [hpre] at ht hr
      rcases List.mem_append.mp ht with h | h
      · exact (List.pairwise_append.mp hr).2.2 t h rN (by simp)
      · rw [List.mem_singleton] at h; exact h.le
    have hlastErr : ∀ {p : ℤ × Fl K → Bool}, (∀ a ∈ ts, p a = false) → lastIx p ts = .error .index := by
      intro p hp
      have : whereIx p ts = [] := by
        rw [List.eq_nil_iff_forall_not_mem]
        intro i hi
        obtain ⟨a, ha, hpa⟩ := mem_whereIx.mp hi
        rw [hp a (List.mem_of_getElem? ha)] at hpa; cases hpa
      unfold lastIx; rw [this]; rfl
    have hfirstErr : ∀ {p : ℤ × Fl K → Bool}, (∀ a ∈ ts, p a = false) → firstIx p ts = .error .index := by
      intro p hp
      have : whereIx p ts = [] := by
        rw [List.eq_nil_iff_forall_not_mem]
        intro i hi
        obtain ⟨a, ha, hpa⟩ := mem_whereIx.mp hi
        rw [hp a (List.mem_of_getElem? ha)] at hpa; cases hpa
      unfold firstIx; rw [this]
    have h0 : ixGet (r0 :: rt) 0 = .ok r0 := rfl
    have hN : pyGet (r0 :: rt) (-1) = .ok rN := pyGet_last.mpr hlast
    unfold interpolateAt
    rw [h0, hN]
    rcases h with h | ⟨t, ht, hb⟩ | ⟨t, ht, ha⟩
    · exact absurd h hne
    · have := hlastErr (p := fun r : ℤ × Fl K => decide (r.1 ≤ r0)) (by
        intro a ha; have := hb a ha; have := hle0 t ht; simp only [decide_eq_false_iff_not]; omega)
      simp only [this, bind, Except.bind]
    · have := hfirstErr (p := fun r : ℤ × Fl K => decide (rN ≤ r.1)) (by
        intro a h; have := ha a h; have := hleN t ht; simp only [decide_eq_false_iff_not]; omega)
      simp only [this, bind, Except.bind]
      cases hl : lastIx (fun r : ℤ × Fl K => decide (r.1 ≤ r0)) ts with
      | ok i => rfl
      | error e =>
        unfold lastIx at hl
        split at hl
        · cases hl; rfl
        · cases hl

/-- One request just before, one just after, a two-record series. -/
example : interpolateAt (finSeries [((0 : ℤ), (1 : ℚ)), (10, 3)]) [-1, 5] = .error .index ∧
    interpolateAt (finSeries [((0 : ℤ), (1 : ℚ)), (10, 3)]) [5, 11] = .error .index ∧
    interpolateAt (finSeries [((0 : ℤ), (1 : ℚ)), (10, 3)]) [] = .error .index :=
  ⟨by decide +kernel, by decide +kernel, rfl⟩

/-- **C59** (partial: at least two records, times increasing): trimming does not change what interpolation returns,
nor the error it raises, for any request between StartTime and `stop` (EndTime + MorDtMax).  The values need not be
finite. -/
theorem C59_partial {ts ts' : Series K} {S E stop : ℤ} (hs : ts.Pairwise (fun x y => x.1 < y.1)) (hlen : 2 ≤ ts.length)
    (h : trimSeries ts S E stop = .ok ts') {req : List ℤ} (hne : req ≠ []) (hr : req.Pairwise (· ≤ ·)) (hin : ∀ t ∈ req, S ≤ t ∧ t ≤ stop) :
    interpolateAt ts' req = interpolateAt ts req :=
  trim_interpolate hs hlen h hne hr hin

/-- Records on both sides of the simulation: the record at -60 and those after 100 are dropped. -/
example : trimSeries (finSeries [((-60 : ℤ), (1 : ℚ)), (-10, 3), (30, -1), (100, 4), (130, 5), (170, 6)]) 0 80 100 =
      .ok (finSeries [((-10 : ℤ), (3 : ℚ)), (30, -1), (100, 4)]) ∧
    interpolateAt (finSeries [((-10 : ℤ), (3 : ℚ)), (30, -1), (100, 4)]) [0, 30, 100] = .ok [fin 2, fin (-1), fin 4] := by
  constructor <;> decide +kernel

/-- **C59** is false for a series of a single record, which the coverage check accepts when StartTime = EndTime: the
record is trimmed away and interpolation, which succeeded before, fails. -/
theorem C59_refuted : ∃ ts ts' : Series ℚ, ts.Pairwise (fun x y => x.1 < y.1) ∧ trimSeries ts 0 0 100 = .ok ts' ∧
    interpolateAt ts [0] = .ok [fin 5] ∧ interpolateAt ts' [0] = .error .index :=
  ⟨[(0, fin 5)], [], by simp, by decide +kernel, by decide +kernel, by decide +kernel⟩

/-- In general: every series of one record is trimmed to nothing, whatever the times. -/
theorem C59_refuted_general (r : ℤ × Fl K) (S E stop : ℤ) (ts' : Series K) (h : trimSeries [r] S E stop = .ok ts') : ts' = [] := by
  unfold trimSeries at h
  simp only [bind_ok, pyAssert_ok, pure_ok] at h
  obtain ⟨_, _, _, _, _, _, h⟩ := h
  rw [← h]
  simp [keepTimes]

end Verif.Props
