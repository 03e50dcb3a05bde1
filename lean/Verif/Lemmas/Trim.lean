import Verif.Lemmas.Series

set_option autoImplicit false
set_option linter.unusedSectionVars false

namespace Verif.Model
open Verif Fl Spec

variable {K : Type} [Field K] [LinearOrder K] [IsStrictOrderedRing K]

/-- Keeping the records whose predecessor is before `stop` keeps a leading part of an increasing series. -/
theorem keep_prefix (stop : ℤ) (rest : Series K) : ∀ (a : ℤ × Fl K), (a :: rest).Pairwise (fun x y => x.1 < y.1) →
    ∃ m, ((((a :: rest).map (·.1)).dropLast.map (fun t => decide (t < stop))).zip rest).filterMap (fun (k, r) => if k then some r else none) = rest.take m ∧
      ∀ (i : ℕ) b, (a :: rest)[i]? = some b → i < rest.length → (i < m ↔ b.1 < stop) := by
  induction rest with
  | nil => intro a _; exact ⟨0, rfl, fun i b _ hi => absurd hi (by simp)⟩
  | cons c rest ih =>
    intro a hs
    obtain ⟨m, hm, hi⟩ := ih c (List.pairwise_cons.mp hs).2
    have hdrop : ((a :: c :: rest).map (·.1)).dropLast = a.1 :: ((c :: rest).map (·.1)).dropLast := rfl
    rw [hdrop, List.map_cons, List.zip_cons_cons, List.filterMap_cons]
    by_cases ha : a.1 < stop
    · refine ⟨m + 1, ?_, ?_⟩
      · simp only [ha, decide_true, if_true, List.take_succ_cons]
        rw [← hm]
      · intro i b hb hlt
        cases i with
        | zero => simp only [List.getElem?_cons_zero, Option.some.injEq] at hb; subst hb; simp [ha]
        | succ i =>
          have := hi i b (by simpa using hb) (by simpa using hlt)
          omega
    · refine ⟨0, ?_, ?_⟩
      · have hnone : ∀ x ∈ (((c :: rest).map (·.1)).dropLast.map (fun t => decide (t < stop))).zip rest, x.1 = false := by
          rintro ⟨k, r⟩ hx
          have := (List.of_mem_zip hx).1
          obtain ⟨t, ht, rfl⟩ := List.mem_map.mp this
          have ht' := List.dropLast_subset _ ht
          obtain ⟨r', hr', rfl⟩ := List.mem_map.mp ht'
          have := (List.pairwise_cons.mp hs).1 r' hr'
          simp only [decide_eq_false_iff_not]
          omega
        simp only [ha, decide_false, Bool.false_eq_true, if_false, List.take_zero]
        rw [List.filterMap_eq_nil_iff]
        rintro ⟨k, r⟩ hx
        have := hnone _ hx
        dsimp only at this
        subst this
        rfl
      · intro i b hb hlt
        have hab : a.1 ≤ b.1 := by
          cases i with
          | zero => simp only [List.getElem?_cons_zero, Option.some.injEq] at hb; subst hb; exact le_rfl
          | succ i => exact ((List.pairwise_cons.mp hs).1 b (List.mem_of_getElem? (by simpa using hb))).le
        omega

/-- The trimmed series is a slice of the given one: it drops at most the first record, and only if the second is
not after the start; it keeps a record (other than the first) iff its predecessor is before `stop`. -/
theorem trim_slice {ts ts' : Series K} {S E stop : ℤ} (hs : ts.Pairwise (fun x y => x.1 < y.1)) (h : trimSeries ts S E stop = .ok ts') :
    ∃ a m d, ts.head? = some a ∧ a.1 ≤ S ∧ ts' = (ts.take (m + 1)).drop d ∧ d ≤ 1 ∧
      (d = 1 → 2 ≤ ts.length → ∃ b, ts[1]? = some b ∧ b.1 ≤ S) ∧
      (∀ (i : ℕ) b, ts[i]? = some b → i + 1 < ts.length → (i < m ↔ b.1 < stop)) := by
  unfold trimSeries at h
  simp only [bind_ok, pyAssert_ok, ixGet_ok, pure_ok, Bool.and_eq_true, decide_eq_true_eq] at h
  obtain ⟨a, ha, b, _, _, ⟨haS, _⟩, h⟩ := h
  cases ts with
  | nil => cases ha
  | cons a' rest =>
    simp only [List.getElem?_cons_zero, Option.some.injEq] at ha
    subst ha
    obtain ⟨m, hm, hi⟩ := keep_prefix stop rest a' hs
    have hidx : ∀ (i : ℕ) b, (a' :: rest)[i]? = some b → i + 1 < (a' :: rest).length → (i < m ↔ b.1 < stop) := by
      intro i b hb hlt
      exact hi i b hb (by simpa using hlt)
    have hkeep : ∀ k0 : Bool, ((k0 :: (((a' :: rest).map (·.1)).dropLast.map (fun t => decide (t < stop)))).zip (a' :: rest)).filterMap
        (fun (k, r) => if k then some r else none) = (if k0 then [a'] else []) ++ rest.take m := by
      intro k0
      rw [List.zip_cons_cons, List.filterMap_cons, hm]
      cases k0 <;> rfl
    cases rest with
    | nil =>
      refine ⟨a', m, 1, rfl, haS, ?_, le_rfl, ?_, hidx⟩
      · rw [← h]; simp [keepTimes]
      · intro _ hl; simp at hl
    | cons c rest =>
      have hkt : keepTimes ((a' :: c :: rest).map (·.1)) S stop =
          decide (S < c.1) :: (((a' :: c :: rest).map (·.1)).dropLast.map (fun t => decide (t < stop))) := rfl
      rw [hkt, hkeep] at h
      by_cases hc : S < c.1
      · refine ⟨a', m, 0, rfl, haS, ?_, by omega, by omega, hidx⟩
        rw [← h]; simp [hc]
      · refine ⟨a', m, 1, rfl, haS, ?_, le_rfl, ?_, hidx⟩
        · rw [← h]; simp [hc]
        · intro _ _; exact ⟨c, rfl, by omega⟩

theorem incrS_get {ts : Series K} (h : ts.Pairwise (fun x y => x.1 < y.1)) {i j : ℕ} {a b : ℤ × Fl K} (ha : ts[i]? = some a) (hb : ts[j]? = some b) (hij : i < j) :
    a.1 < b.1 := by
  obtain ⟨hi, rfl⟩ := List.getElem?_eq_some_iff.mp ha
  obtain ⟨hj, rfl⟩ := List.getElem?_eq_some_iff.mp hb
  exact List.pairwise_iff_getElem.mp h i j hi hj hij

/-- Interpolation only sees the slice between the records around the request. -/
theorem trim_interpolate {ts ts' : Series K} {S E stop : ℤ} (hs : ts.Pairwise (fun x y => x.1 < y.1)) (hlen : 2 ≤ ts.length)
    (h : trimSeries ts S E stop = .ok ts') {req : List ℤ} (hne : req ≠ []) (hr : req.Pairwise (· ≤ ·)) (hin : ∀ t ∈ req, S ≤ t ∧ t ≤ stop) :
    interpolateAt ts' req = interpolateAt ts req := by
  obtain ⟨a, m, d, hhead, haS, hts', hd1, hd, hm⟩ := trim_slice hs h
  obtain ⟨r0, rt, rfl⟩ := List.exists_cons_of_ne_nil hne
  obtain ⟨rN, hlast⟩ : ∃ rN, (r0 :: rt).getLast? = some rN := ⟨_, List.getLast?_eq_some_getLast hne⟩
  have hr0 := hin r0 (by simp)
  have hrN := hin rN (List.mem_of_getLast? hlast)
  have hget : ∀ i : ℕ, ts'[i]? = if i + d < m + 1 then ts[i + d]? else none := by
    intro i
    rw [hts', List.getElem?_drop, List.getElem?_take, Nat.add_comm d i]
  have ha0 : ts[0]? = some a := by rw [← List.head?_eq_getElem?]; exact hhead
  -- a record after the first is kept iff its predecessor is before `stop`
  have hkept : ∀ (i : ℕ) b, ts[i]? = some b → (∀ j c, j < i → ts[j]? = some c → c.1 < stop) → i < m + 1 := by
    intro i b hb hp
    cases i with
    | zero => omega
    | succ i =>
      have hlt : i + 1 < ts.length := (List.getElem?_eq_some_iff.mp hb).1
      have := (hm i ts[i] (List.getElem?_eq_getElem (by omega)) hlt).mpr (hp i _ (by omega) (List.getElem?_eq_getElem (by omega)))
      omega
  obtain ⟨f, hf⟩ := lastIx_exists (p := fun r : ℤ × Fl K => decide (r.1 ≤ r0)) (l := ts) ⟨a, List.mem_of_getElem? ha0, by simp; omega⟩
  obtain ⟨⟨fa, hfa, hfle⟩, hfmax⟩ := lastIx_ok.mp hf
  simp only [decide_eq_true_eq] at hfle
  have hdf : d ≤ f := by
    rcases Nat.eq_or_lt_of_le hd1 with h1 | h1
    · obtain ⟨b, hb, hbS⟩ := hd h1 hlen
      by_contra hlt
      have := hfmax 1 (by omega) b hb
      simp only [decide_eq_false_iff_not] at this
      omega
    · omega
  have hfm : f < m + 1 := hkept f fa hfa (by intro j c hj hc; have := incrS_get hs hc hfa hj; omega)
  have hf' : lastIx (fun r : ℤ × Fl K => decide (r.1 ≤ r0)) ts' = .ok (f - d) := by
    rw [lastIx_ok]
    refine ⟨⟨fa, ?_, by simpa using hfle⟩, ?_⟩
    · rw [hget, if_pos (by omega), show f - d + d = f by omega]; exact hfa
    · intro j hj b hb
      rw [hget] at hb
      split at hb
      · exact hfmax (j + d) (by omega) b hb
      · cases hb
  have h0 : ixGet (r0 :: rt) 0 = .ok r0 := rfl
  have hN : pyGet (r0 :: rt) (-1) = .ok rN := pyGet_last.mpr hlast
  unfold interpolateAt
  rw [h0, hN]
  simp only [hf, hf', bind, Except.bind]
  cases hg : firstIx (fun r : ℤ × Fl K => decide (rN ≤ r.1)) ts with
  | error e =>
    obtain ⟨rfl, hall⟩ := firstIx_err hg
    have : firstIx (fun r : ℤ × Fl K => decide (rN ≤ r.1)) ts' = .error .index := by
      cases hg' : firstIx (fun r : ℤ × Fl K => decide (rN ≤ r.1)) ts' with
      | error e => rw [(firstIx_err hg').1]
      | ok g =>
        obtain ⟨⟨b, hb, hp⟩, _⟩ := firstIx_ok.mp hg'
        rw [hget] at hb
        split at hb
        · rw [hall b (List.mem_of_getElem? hb)] at hp; cases hp
        · cases hb
    rw [this]
  | ok g =>
    obtain ⟨⟨ga, hga, hgle⟩, hgmin⟩ := firstIx_ok.mp hg
    simp only [decide_eq_true_eq] at hgle
    have hgm : g < m + 1 := hkept g ga hga (by
      intro j c hj hc
      have := hgmin j hj c hc
      simp only [decide_eq_false_iff_not] at this
      omega)
    have hdg : d ≤ g := by
      rcases Nat.eq_or_lt_of_le hd1 with h1 | h1
      · obtain ⟨b, hb, hbS⟩ := hd h1 hlen
        have hab := incrS_get hs ha0 hb (by omega)
        by_contra hlt
        have hg0 : g = 0 := by omega
        subst hg0
        rw [ha0] at hga; cases hga
        omega
      · omega
    have hg' : firstIx (fun r : ℤ × Fl K => decide (rN ≤ r.1)) ts' = .ok (g - d) := by
      rw [firstIx_ok]
      refine ⟨⟨ga, ?_, by simpa using hgle⟩, ?_⟩
      · rw [hget, if_pos (by omega), show g - d + d = g by omega]; exact hga
      · intro j hj b hb
        rw [hget] at hb
        split at hb
        · exact hgmin (j + d) (by omega) b hb
        · cases hb
    have hsl : (ts'.take (g - d + 1)).drop (f - d) = (ts.take (g + 1)).drop f := by
      apply List.ext_getElem?
      intro i
      rw [List.getElem?_drop, List.getElem?_drop, List.getElem?_take, List.getElem?_take, hget]
      have e1 : f - d + i + d = f + i := by omega
      rw [e1]
      by_cases h1 : f + i < g + 1
      · rw [if_pos (by omega), if_pos (by omega), if_pos h1]
      · rw [if_neg (by omega), if_neg h1]
    rw [hg']
    simp only [hsl]

end Verif.Model
