import Verif.Props.Series
import Verif.Spec.DataGaps

set_option autoImplicit false
set_option linter.unusedSectionVars false

/-! # C221: missing records -/

namespace Verif.Props
open Verif Verif.Model Verif.Spec Fl

variable {K : Type} [Field K] [LinearOrder K] [IsStrictOrderedRing K]

/-- A series with missing values, as pandas holds it. -/
def gapSeries (ts : List (ℤ × Option K)) : Series K := ts.map fun r => (r.1, r.2.elim nan fin)

theorem gapSeries_keys (ts : List (ℤ × Option K)) : (gapSeries ts).map (·.1) = ts.map (·.1) := by
  simp [gapSeries, List.map_map, Function.comp_def]

theorem gap_valid (ts : List (ℤ × Option K)) : (gapSeries ts).filter (fun r => !r.2.isnan) = finSeries (knownRecords ts) := by
  induction ts with
  | nil => rfl
  | cons a ts ih =>
    obtain ⟨t, o⟩ := a
    cases o with
    | none => simpa [gapSeries, knownRecords, finSeries, isnan] using ih
    | some v => simpa [gapSeries, knownRecords, finSeries, isnan] using ih

theorem mem_knownRecords {ts : List (ℤ × Option K)} {t : ℤ} {v : K} : (t, v) ∈ knownRecords ts ↔ (t, some v) ∈ ts := by
  unfold knownRecords
  rw [List.mem_filterMap]
  constructor
  · rintro ⟨⟨t', o⟩, hm, h⟩
    cases o with
    | none => cases h
    | some w => cases h; exact hm
  · intro h
    exact ⟨_, h, rfl⟩

theorem knownRecords_increasing {ts : List (ℤ × Option K)} (h : ts.Pairwise fun a b => a.1 < b.1) : Increasing (knownRecords ts) := by
  unfold Increasing knownRecords
  rw [List.pairwise_filterMap]
  refine h.imp ?_
  rintro ⟨t, o⟩ ⟨u, w⟩ hlt a ha b hb
  cases o with
  | none => cases ha
  | some x =>
    cases w with
    | none => cases hb
    | some y => cases ha; cases hb; exact hlt

/-- The rows built for a request. -/
theorem request_gaps (sel : List (ℤ × Option K)) (hs : sel.Pairwise fun a b => a.1 < b.1) (req : List ℤ) :
    ∃ rows, requestRows (gapSeries sel) req = .ok rows ∧ ∀ t ∈ req,
      (∀ v, (t, some v) ∈ sel → (interpTime rows).lookup t = some (fin v)) ∧
      (t ∉ (knownRecords sel).map (·.1) → (interpTime rows).lookup t = some (fillAt (finSeries (knownRecords sel)) t)) := by
  have hnd : ((gapSeries sel).map (·.1)).Nodup := by
    rw [gapSeries_keys]
    exact (List.pairwise_map.mpr (hs.imp (fun h => h.ne)))
  unfold requestRows
  rw [if_pos hnd]
  refine ⟨_, rfl, ?_⟩
  set news : List ℤ := (req.filter (fun t => decide (t ∉ (gapSeries sel).map Prod.fst))).dedup with hnews
  set rows := (gapSeries sel ++ news.map (fun t => (t, (nan : Fl K)))).insertionSort (fun (a b : ℤ × Fl K) => a.1 ≤ b.1) with hrows
  have hperm : rows.Perm (gapSeries sel ++ news.map (fun t => (t, (nan : Fl K)))) := List.perm_insertionSort _ _
  have hsort : rows.Pairwise (fun a b => a.1 ≤ b.1) := by
    haveI : Std.Total (fun (a b : ℤ × Fl K) => a.1 ≤ b.1) := ⟨fun a b => le_total a.1 b.1⟩
    haveI : IsTrans (ℤ × Fl K) (fun a b => a.1 ≤ b.1) := ⟨fun a b c h1 h2 => le_trans h1 h2⟩
    exact List.pairwise_insertionSort _ _
  have hnewmem : ∀ t, t ∈ news ↔ t ∈ req ∧ t ∉ (gapSeries sel).map Prod.fst := by
    intro t; rw [hnews, List.mem_dedup, List.mem_filter]; simp only [decide_eq_true_eq]
  have hkeys : (rows.map (·.1)).Nodup := by
    rw [(hperm.map _).nodup_iff, List.map_append, List.nodup_append]
    refine ⟨hnd, ?_, ?_⟩
    · rw [List.map_map]
      have : (fun t : ℤ => t) = ((fun (x : ℤ × Fl K) => x.1) ∘ fun t => (t, (nan : Fl K))) := rfl
      rw [← this, List.map_id']
      exact List.nodup_dedup _
    · intro a ha b hb
      rintro rfl
      rw [List.map_map] at hb
      obtain ⟨x, hx, rfl⟩ := List.mem_map.mp hb
      exact ((hnewmem _).mp hx).2 ha
  have hkinc := knownRecords_increasing hs
  have hknd : ((finSeries (knownRecords sel)).map (·.1)).Nodup := by
    rw [finSeries_keys]
    exact (List.pairwise_map.mpr (hkinc.imp (fun h => h.ne)))
  have hvalid : rows.filter (fun r => !r.2.isnan) = finSeries (knownRecords sel) := by
    have hp : (rows.filter (fun r => !r.2.isnan)).Perm (finSeries (knownRecords sel)) := by
      refine (hperm.filter _).trans ?_
      rw [List.filter_append, gap_valid]
      have h2 : (news.map (fun t => (t, (nan : Fl K)))).filter (fun r => !r.2.isnan) = [] := by
        rw [List.filter_eq_nil_iff]
        intro a ha
        obtain ⟨r, _, rfl⟩ := List.mem_map.mp ha
        simp [isnan]
      rw [h2, List.append_nil]
    refine hp.eq_of_pairwise (le := fun a b => a.1 ≤ b.1) ?_ (hsort.filter _) ?_
    · intro a b ha hb h1 h2
      exact List.inj_on_of_nodup_map hknd (hp.subset ha) hb (le_antisymm h1 h2)
    · have : (finSeries (knownRecords sel)).Pairwise (fun a b => a.1 < b.1) := List.pairwise_map.mpr hkinc
      exact this.imp (fun h => h.le)
  have hok : (interpTime rows).map (·.1) = rows.map (·.1) := by
    unfold interpTime
    dsimp only
    rw [List.map_map]
    apply List.map_congr_left
    intro a _
    simp only [Function.comp_apply]
    split <;> rfl
  intro t ht
  constructor
  · intro v hv
    apply lookup_of_mem (by rw [hok]; exact hkeys)
    unfold interpTime
    dsimp only
    refine List.mem_map.mpr ⟨(t, fin v), hperm.symm.subset (List.mem_append_left _ (List.mem_map.mpr ⟨_, hv, rfl⟩)), rfl⟩
  · intro hn
    apply lookup_of_mem (by rw [hok]; exact hkeys)
    unfold interpTime
    dsimp only
    rw [hvalid]
    refine List.mem_map.mpr ⟨(t, nan), hperm.symm.subset ?_, rfl⟩
    by_cases hk : t ∈ (gapSeries sel).map Prod.fst
    · apply List.mem_append_left
      rw [gapSeries_keys] at hk
      obtain ⟨⟨t', o⟩, hm, rfl⟩ := List.mem_map.mp hk
      cases o with
      | none => exact List.mem_map.mpr ⟨_, hm, rfl⟩
      | some v => exact absurd (List.mem_map.mpr ⟨(_, v), mem_knownRecords.mpr hm, rfl⟩) hn
    · exact List.mem_append_right _ (List.mem_map.mpr ⟨t, (hnewmem t).mpr ⟨ht, hk⟩, rfl⟩)

theorem linearAt_infix (a b : List (ℤ × K)) {l : List (ℤ × K)} {t : ℤ} {v : K} (h : LinearAt l t v) : LinearAt (a ++ (l ++ b)) t v := by
  have h1 : LinearAt (l ++ b) t v := by
    rcases h with h | ⟨i, t1, t2, v1, v2, h1, h2, h3⟩
    · exact .inl (List.mem_append_left _ h)
    · have l1 := (List.getElem?_eq_some_iff.mp h1).1
      have l2 := (List.getElem?_eq_some_iff.mp h2).1
      exact .inr ⟨i, t1, t2, v1, v2, by rw [List.getElem?_append_left l1]; exact h1, by rw [List.getElem?_append_left l2]; exact h2, h3⟩
  induction a with
  | nil => exact h1
  | cons x a ih => exact linearAt_cons ih

/-- **C221** (partial: the last record at or before the requested times and the first one at or after them have values).  Records without a value are bridged: at
each of the requested times the result is on the straight line between the nearest records that have one.  (Missing: requested times next to a missing record,
for which the claim is false.) -/
theorem C221_partial {ts : List (ℤ × Option K)} (hs : ts.Pairwise fun a b => a.1 < b.1) {req : List ℤ} (hr : req.Pairwise (· ≤ ·)) {r0 rN : ℤ}
    (hfirst : req.head? = some r0) (hlast : req.getLast? = some rN) (h0 : KnownBefore ts r0) (h1 : KnownAfter ts rN) :
    ∃ vs : List K, interpolateAt (gapSeries ts) req = .ok (vs.map fin) ∧ List.Forall₂ (LinearAt (knownRecords ts)) req vs := by
  obtain ⟨rt, rfl⟩ : ∃ rt, req = r0 :: rt := by
    cases req with
    | nil => cases hfirst
    | cons a l => cases hfirst; exact ⟨l, rfl⟩
  have hNmem : rN ∈ r0 :: rt := List.mem_of_getLast? hlast
  have hle0 : ∀ t ∈ r0 :: rt, r0 ≤ t := by
    intro t ht
    rcases List.mem_cons.mp ht with rfl | h
    · exact le_rfl
    · exact (List.pairwise_cons.mp hr).1 t h
  have hleN : ∀ t ∈ r0 :: rt, t ≤ rN := by
    intro t ht
    obtain ⟨pre, hpre⟩ := List.getLast?_eq_some_iff.mp hlast
    rw [hpre] at ht hr
    rcases List.mem_append.mp ht with h | h
    · exact (List.pairwise_append.mp hr).2.2 t h rN (by simp)
    · rw [List.mem_singleton] at h; exact h.le
  obtain ⟨⟨ta, oa⟩, ham, hal, has, hamax⟩ := h0
  obtain ⟨⟨tb, ob⟩, hbm, hbl, hbs, hbmin⟩ := h1
  simp only at hal has hamax hbl hbs hbmin
  obtain ⟨va, rfl⟩ := Option.isSome_iff_exists.mp has
  obtain ⟨vb, rfl⟩ := Option.isSome_iff_exists.mp hbs
  have inj : ∀ {i j : ℕ} {x y : ℤ × Option K}, ts[i]? = some x → ts[j]? = some y → i < j → x.1 < y.1 := by
    intro i j x y hx hy hij
    obtain ⟨hi, rfl⟩ := List.getElem?_eq_some_iff.mp hx
    obtain ⟨hj, rfl⟩ := List.getElem?_eq_some_iff.mp hy
    exact List.pairwise_iff_getElem.mp hs i j hi hj hij
  have same : ∀ {x y : ℤ × Option K}, x ∈ ts → y ∈ ts → x.1 = y.1 → x = y := by
    intro x y hx hy hxy
    obtain ⟨i, hi⟩ := List.mem_iff_getElem?.mp hx
    obtain ⟨j, hj⟩ := List.mem_iff_getElem?.mp hy
    rcases lt_trichotomy i j with h | h | h
    · have := inj hi hj h; omega
    · subst h; rw [hi] at hj; exact Option.some.inj hj
    · have := inj hj hi h; omega
  obtain ⟨f, hf⟩ := lastIx_exists (p := fun r : ℤ × Fl K => decide (r.1 ≤ r0)) (l := gapSeries ts)
    ⟨_, List.mem_map.mpr ⟨_, ham, rfl⟩, by simpa using hal⟩
  obtain ⟨g, hg⟩ := firstIx_exists (p := fun r : ℤ × Fl K => decide (rN ≤ r.1)) (l := gapSeries ts)
    ⟨_, List.mem_map.mpr ⟨_, hbm, rfl⟩, by simpa using hbl⟩
  have hf' := lastIx_ok.mp hf
  have hg' := firstIx_ok.mp hg
  obtain ⟨⟨fa, hfa, hfle⟩, hfmax⟩ := hf'
  obtain ⟨⟨ga, hga, hgle⟩, hgmin⟩ := hg'
  simp only [decide_eq_true_eq] at hfle hgle
  unfold gapSeries at hfa hga
  rw [List.getElem?_map, Option.map_eq_some_iff] at hfa hga
  obtain ⟨fr, hfr, rfl⟩ := hfa
  obtain ⟨gr, hgr, rfl⟩ := hga
  dsimp only at hfle hgle
  -- they are the records with values
  have efr : fr = (ta, some va) := by
    refine same (List.mem_of_getElem? hfr) ham (le_antisymm (hamax _ (List.mem_of_getElem? hfr) hfle) ?_)
    obtain ⟨j, hj⟩ := List.mem_iff_getElem?.mp ham
    by_contra hlt
    simp only [not_le] at hlt
    have hjf : f < j := by
      by_contra hle
      rcases Nat.lt_or_eq_of_le (not_lt.mp hle) with h | h
      · have := inj hj hfr h; simp only at this; omega
      · subst h; rw [hfr] at hj; cases hj; omega
    have := hfmax j hjf (ta, fin va) (by unfold gapSeries; rw [List.getElem?_map, hj]; rfl)
    simp only [decide_eq_false_iff_not, not_le] at this
    omega
  have egr : gr = (tb, some vb) := by
    refine same (List.mem_of_getElem? hgr) hbm (le_antisymm ?_ (hbmin _ (List.mem_of_getElem? hgr) hgle))
    obtain ⟨j, hj⟩ := List.mem_iff_getElem?.mp hbm
    by_contra hlt
    simp only [not_le] at hlt
    have hjg : j < g := by
      by_contra hle
      rcases Nat.lt_or_eq_of_le (not_lt.mp hle) with h | h
      · have := inj hgr hj h; simp only at this; omega
      · subst h; rw [hgr] at hj; cases hj; omega
    have := hgmin j hjg (tb, fin vb) (by unfold gapSeries; rw [List.getElem?_map, hj]; rfl)
    simp only [decide_eq_false_iff_not, not_le] at this
    omega
  subst efr egr
  have hfg : f ≤ g := by
    by_contra hlt
    have := inj hgr hfr (by omega)
    have := hle0 rN hNmem
    simp only at *
    omega
  set sel := (ts.take (g + 1)).drop f with hsel
  have hselS : (((gapSeries ts).take (g + 1)).drop f) = gapSeries sel := by
    rw [hsel]; unfold gapSeries; rw [List.map_drop, List.map_take]
  have hsinc : sel.Pairwise fun a b => a.1 < b.1 := by
    rw [hsel]; exact (hs.sublist (List.take_sublist _ _)).sublist (List.drop_sublist _ _)
  have hhead : sel.head? = some (ta, some va) := by
    rw [hsel, List.head?_drop, List.getElem?_take, if_pos (by omega)]; exact hfr
  have hkhead : (knownRecords sel).head? = some (ta, va) := by
    cases hq : sel with
    | nil => rw [hq] at hhead; cases hhead
    | cons x q => rw [hq] at hhead; cases hhead; rfl
  have hgm : (tb, some vb) ∈ sel := by
    apply List.mem_of_getElem? (i := g - f)
    rw [hsel, List.getElem?_drop, List.getElem?_take, if_pos (by omega)]
    rw [show f + (g - f) = g by omega]; exact hgr
  have hsplit : ts = ts.take f ++ (sel ++ ts.drop (g + 1)) := by
    have e1 : (ts.take (g + 1)).take f = ts.take f := by rw [List.take_take, min_eq_left (by omega)]
    rw [← List.append_assoc, hsel, ← e1, List.take_append_drop, List.take_append_drop]
  have up : ∀ {t : ℤ} {v : K}, LinearAt (knownRecords sel) t v → LinearAt (knownRecords ts) t v := by
    intro t v h
    have : knownRecords ts = knownRecords (ts.take f) ++ (knownRecords sel ++ knownRecords (ts.drop (g + 1))) := by
      conv_lhs => rw [hsplit]
      unfold knownRecords
      rw [List.filterMap_append, List.filterMap_append]
    rw [this]
    exact linearAt_infix _ _ h
  obtain ⟨rows, hrows, hlook⟩ := request_gaps sel hsinc (r0 :: rt)
  have key : ∀ t ∈ r0 :: rt, ∃ b, (match (interpTime rows).lookup t with | some v => .ok v | none => .error .other : Except PyErr (Fl K)) = .ok b ∧
      ∃ v, b = fin v ∧ LinearAt (knownRecords ts) t v := by
    intro t ht
    obtain ⟨hl1, hl2⟩ := hlook t ht
    by_cases hk : t ∈ (knownRecords sel).map (·.1)
    · obtain ⟨r, hr, rfl⟩ := List.mem_map.mp hk
      rw [hl1 r.2 (mem_knownRecords.mp hr)]
      exact ⟨_, rfl, r.2, rfl, up (.inl hr)⟩
    · obtain ⟨v, hv, hlin⟩ := fillAt_linear (knownRecords_increasing hsinc) ⟨_, hkhead, hal.trans (hle0 t ht)⟩ ⟨_, mem_knownRecords.mpr hgm, (hleN t ht).trans hbl⟩ hk
      rw [hl2 hk]
      exact ⟨_, rfl, v, hv, up hlin⟩
  obtain ⟨out, hout, hF⟩ := mapM_ok key
  obtain ⟨vs, hvs, hFv⟩ : ∃ vs : List K, out = vs.map fin ∧ List.Forall₂ (LinearAt (knownRecords ts)) (r0 :: rt) vs := forall₂_fin hF
  refine ⟨vs, ?_, hFv⟩
  unfold interpolateAt
  refine bind_ok.mpr ⟨r0, rfl, bind_ok.mpr ⟨f, hf, bind_ok.mpr ⟨rN, pyGet_last.mpr hlast, bind_ok.mpr ⟨g, hg, bind_ok.mpr ⟨rows, ?_, ?_⟩⟩⟩⟩⟩
  · rw [hselS]; exact hrows
  · rw [← hvs]; exact hout

/-- A series in which the second of three records is missing. -/
def gapTab : List (ℤ × Option ℚ) := [(0, some 1), (10, none), (20, some 5)]

/-- C221 refuted: just before the missing record the value stays that of the record before, just after it there is none, although records with values are on either
side, at 0 and 20. -/
theorem C221_refuted : LinearAt (knownRecords gapTab) 5 2 ∧ interpolateAt (gapSeries gapTab) [5] = .ok [fin 1] ∧
    LinearAt (knownRecords gapTab) 15 4 ∧ interpolateAt (gapSeries gapTab) [15] = .ok [nan] := by
  refine ⟨.inr ⟨0, 0, 20, 1, 5, rfl, rfl, by decide, by decide, by norm_num⟩, by decide +kernel,
    .inr ⟨0, 0, 20, 1, 5, rfl, rfl, by decide, by decide, by norm_num⟩, by decide +kernel⟩

/-- C221 fails after every gap: if the last record at or before a time has no value, there is none at that time either, however many records before and after it have
one. -/
theorem C221_refuted_after_gap {ts : List (ℤ × Option K)} (hs : ts.Pairwise fun a b => a.1 < b.1) {t ta : ℤ} (ha : (ta, none) ∈ ts) (hle : ta ≤ t)
    (hmax : ∀ c ∈ ts, c.1 ≤ t → c.1 ≤ ta) (hb : ∃ b ∈ ts, t ≤ b.1) : interpolateAt (gapSeries ts) [t] = .ok [nan] := by
  obtain ⟨b, hbm, hbl⟩ := hb
  obtain ⟨f, hf⟩ := lastIx_exists (p := fun r : ℤ × Fl K => decide (r.1 ≤ t)) (l := gapSeries ts)
    ⟨_, List.mem_map.mpr ⟨_, ha, rfl⟩, by simpa using hle⟩
  obtain ⟨g, hg⟩ := firstIx_exists (p := fun r : ℤ × Fl K => decide (t ≤ r.1)) (l := gapSeries ts)
    ⟨_, List.mem_map.mpr ⟨_, hbm, rfl⟩, by simpa using hbl⟩
  have inj : ∀ {i j : ℕ} {x y : ℤ × Option K}, ts[i]? = some x → ts[j]? = some y → i < j → x.1 < y.1 := by
    intro i j x y hx hy hij
    obtain ⟨hi, rfl⟩ := List.getElem?_eq_some_iff.mp hx
    obtain ⟨hj, rfl⟩ := List.getElem?_eq_some_iff.mp hy
    exact List.pairwise_iff_getElem.mp hs i j hi hj hij
  obtain ⟨⟨fa, hfa, hfle⟩, hfmax⟩ := lastIx_ok.mp hf
  simp only [decide_eq_true_eq] at hfle
  unfold gapSeries at hfa
  rw [List.getElem?_map, Option.map_eq_some_iff] at hfa
  obtain ⟨fr, hfr, rfl⟩ := hfa
  dsimp only at hfle
  obtain ⟨j, hj⟩ := List.mem_iff_getElem?.mp ha
  have hfrmax := hmax fr (List.mem_of_getElem? hfr) hfle
  have hjf : j = f := by
    rcases lt_trichotomy j f with h | h | h
    · have := inj hj hfr h; simp only at this; omega
    · exact h
    · have := hfmax j h (ta, nan) (by unfold gapSeries; rw [List.getElem?_map, hj]; rfl)
      simp only [decide_eq_false_iff_not, not_le] at this
      omega
  subst hjf
  set sel := (ts.take (g + 1)).drop j with hsel
  have hselS : (((gapSeries ts).take (g + 1)).drop j) = gapSeries sel := by
    rw [hsel]; unfold gapSeries; rw [List.map_drop, List.map_take]
  have hsinc : sel.Pairwise fun a b => a.1 < b.1 := by
    rw [hsel]; exact (hs.sublist (List.take_sublist _ _)).sublist (List.drop_sublist _ _)
  -- the selected records with values are all after `t`
  have hafter : ∀ r ∈ knownRecords sel, t < r.1 := by
    rintro ⟨u, v⟩ hr
    obtain ⟨i, hi⟩ := List.mem_iff_getElem?.mp (mem_knownRecords.mp hr)
    rw [hsel, List.getElem?_drop, List.getElem?_take] at hi
    split at hi
    · rcases Nat.eq_zero_or_pos i with h0 | h0
      · subst h0; rw [Nat.add_zero, hj] at hi; cases hi
      · by_contra hle'
        have h1 := inj hj hi (by omega)
        have h2 := hmax _ (List.mem_of_getElem? hi) (not_lt.mp hle')
        simp only at h1 h2
        omega
    · cases hi
  have hn : t ∉ (knownRecords sel).map (·.1) := by
    intro h
    obtain ⟨r, hr, e⟩ := List.mem_map.mp h
    have := hafter r hr
    omega
  have hfill : fillAt (finSeries (knownRecords sel)) t = nan := by
    cases hq : knownRecords sel with
    | nil => rfl
    | cons r q =>
      have := hafter r (by rw [hq]; exact List.mem_cons_self)
      simp [finSeries, fillAt, this]
  obtain ⟨rows, hrows, hlook⟩ := request_gaps sel hsinc [t]
  have hl := (hlook t (by simp)).2 hn
  rw [hfill] at hl
  unfold interpolateAt
  refine bind_ok.mpr ⟨t, rfl, bind_ok.mpr ⟨j, hf, bind_ok.mpr ⟨t, rfl, bind_ok.mpr ⟨g, hg, bind_ok.mpr ⟨rows, ?_, ?_⟩⟩⟩⟩⟩
  · rw [hselS]; exact hrows
  · simp only [List.mapM_cons, List.mapM_nil, hl]; rfl

/-- Requested alone, a time after the gap: the hypotheses of `C221_refuted_after_gap`. -/
example : (10, none) ∈ gapTab ∧ (∀ c ∈ gapTab, c.1 ≤ 15 → c.1 ≤ 10) ∧ (∃ b ∈ gapTab, (15 : ℤ) ≤ b.1) := by
  refine ⟨by simp [gapTab], by decide, ⟨(20, some 5), by simp [gapTab], by norm_num⟩⟩

/-- Requested together with times next to the other records, the gap is bridged. -/
example : gapTab.Pairwise (fun a b => a.1 < b.1) ∧ KnownBefore gapTab 0 ∧ KnownAfter gapTab 20 ∧
    interpolateAt (gapSeries gapTab) [0, 5, 10, 15, 20] = .ok [fin 1, fin 2, fin 3, fin 4, fin 5] := by
  refine ⟨by decide, ⟨(0, some 1), by simp [gapTab], by simp, by simp, ?_⟩, ⟨(20, some 5), by simp [gapTab], by simp, by simp, ?_⟩, by decide +kernel⟩
  · intro c _ hc; exact hc
  · intro c _ hc; exact hc

end Verif.Props
