import Verif.Model.Series
import Verif.Spec.Series
import Verif.Lemmas.Py
import Mathlib.Data.List.Sort
import Mathlib.Tactic.FieldSimp
import Mathlib.Tactic.Linarith
import Mathlib.Tactic.LinearCombination

set_option autoImplicit false
set_option linter.unusedSectionVars false

namespace Verif.Model
open Verif Fl Spec

variable {K : Type} [Field K] [LinearOrder K] [IsStrictOrderedRing K]

/-- A series of finite values. -/
def finSeries (ts : List (ℤ × K)) : Series K := ts.map (fun r => (r.1, fin r.2))

theorem finSeries_keys (ts : List (ℤ × K)) : (finSeries ts).map (·.1) = ts.map (·.1) := by
  simp [finSeries, List.map_map, Function.comp_def]

theorem lookup_of_mem {l : Series K} (h : (l.map (·.1)).Nodup) {t : ℤ} {v : Fl K} (hm : (t, v) ∈ l) : l.lookup t = some v := by
  induction l with
  | nil => cases hm
  | cons a l ih =>
    obtain ⟨ta, va⟩ := a
    rw [List.map_cons, List.nodup_cons] at h
    rcases List.mem_cons.mp hm with he | hm'
    · cases he; simp
    · have : t ≠ ta := by
        rintro rfl
        exact h.1 (List.mem_map.mpr ⟨_, hm', rfl⟩)
      rw [List.lookup_cons]
      have hb : (t == ta) = false := by simpa using this
      rw [hb]
      exact ih h.2 hm'

/-- The rows built for a request contain the selected records and the requested times, and filling the
gaps uses the selected records only. -/
theorem request_rows (sel : List (ℤ × K)) (hs : Increasing sel) (req : List ℤ) :
    ∃ rows, requestRows (finSeries sel) req = .ok rows ∧ ∀ t ∈ req,
      (∀ v, (t, v) ∈ sel → (interpTime rows).lookup t = some (fin v)) ∧
      (t ∉ sel.map (·.1) → (interpTime rows).lookup t = some (fillAt (finSeries sel) t)) := by
  have hnd : ((finSeries sel).map (·.1)).Nodup := by
    rw [finSeries_keys]
    exact (List.pairwise_map.mpr (hs.imp (fun h => h.ne)))
  unfold requestRows
  rw [if_pos hnd]
  refine ⟨_, rfl, ?_⟩
  set news : List ℤ := (req.filter (fun t => decide (t ∉ (finSeries sel).map Prod.fst))).dedup with hnews
  set rows := (finSeries sel ++ news.map (fun t => (t, (nan : Fl K)))).insertionSort (fun (a b : ℤ × Fl K) => a.1 ≤ b.1) with hrows
  have hperm : rows.Perm (finSeries sel ++ news.map (fun t => (t, (nan : Fl K)))) := List.perm_insertionSort _ _
  have hsort : rows.Pairwise (fun a b => a.1 ≤ b.1) := by
    haveI : Std.Total (fun (a b : ℤ × Fl K) => a.1 ≤ b.1) := ⟨fun a b => le_total a.1 b.1⟩
    haveI : IsTrans (ℤ × Fl K) (fun a b => a.1 ≤ b.1) := ⟨fun a b c h1 h2 => le_trans h1 h2⟩
    exact List.pairwise_insertionSort _ _
  have hnewmem : ∀ t, t ∈ news ↔ t ∈ req ∧ t ∉ (finSeries sel).map Prod.fst := by
    intro t; rw [hnews, List.mem_dedup, List.mem_filter]; simp only [decide_eq_true_eq]
  have hkeys : (rows.map (·.1)).Nodup := by
    rw [(hperm.map _).nodup_iff, List.map_append, List.nodup_append]
    refine ⟨hnd, ?_, ?_⟩
    · rw [List.map_map]
      have : (fun t : ℤ => t) = ((fun (x : ℤ × Fl K) => x.1) ∘ fun t => (t, (nan : Fl K))) := rfl
      rw [← this, List.map_id']
      exact List.nodup_dedup _
    · intro a ha b hb
      rintro rfl
      rw [List.map_map] at hb
      obtain ⟨x, hx, rfl⟩ := List.mem_map.mp hb
      exact ((hnewmem _).mp hx).2 ha
  have hvalid : rows.filter (fun r => !r.2.isnan) = finSeries sel := by
    have hp : (rows.filter (fun r => !r.2.isnan)).Perm (finSeries sel) := by
      refine (hperm.filter _).trans ?_
      rw [List.filter_append]
      have h1 : (finSeries sel).filter (fun r => !r.2.isnan) = finSeries sel := by
        rw [List.filter_eq_self]
        intro a ha
        obtain ⟨r, _, rfl⟩ := List.mem_map.mp ha
        rfl
      have h2 : (news.map (fun t => (t, (nan : Fl K)))).filter (fun r => !r.2.isnan) = [] := by
        rw [List.filter_eq_nil_iff]
        intro a ha
        obtain ⟨r, _, rfl⟩ := List.mem_map.mp ha
        simp [isnan]
      rw [h1, h2, List.append_nil]
    refine hp.eq_of_pairwise (le := fun a b => a.1 ≤ b.1) ?_ (hsort.filter _) ?_
    · intro a b ha hb h1 h2
      have hb' := hb
      have ha' := hp.subset ha
      have h12 : a.1 = b.1 := le_antisymm h1 h2
      exact List.inj_on_of_nodup_map hnd ha' hb' h12
    · have : (finSeries sel).Pairwise (fun a b => a.1 < b.1) := List.pairwise_map.mpr hs
      exact this.imp (fun h => h.le)
  have hok : (interpTime rows).map (·.1) = rows.map (·.1) := by
    unfold interpTime
    dsimp only
    rw [List.map_map]
    apply List.map_congr_left
    intro a _
    simp only [Function.comp_apply]
    split <;> rfl
  intro t ht
  constructor
  · intro v hv
    apply lookup_of_mem (by rw [hok]; exact hkeys)
    unfold interpTime
    dsimp only
    refine List.mem_map.mpr ⟨(t, fin v), hperm.symm.subset (List.mem_append_left _ (List.mem_map.mpr ⟨_, hv, rfl⟩)), rfl⟩
  · intro hn
    apply lookup_of_mem (by rw [hok]; exact hkeys)
    unfold interpTime
    dsimp only
    rw [hvalid]
    refine List.mem_map.mpr ⟨(t, nan), hperm.symm.subset (List.mem_append_right _ (List.mem_map.mpr ⟨t, ?_, rfl⟩)), rfl⟩
    rw [hnewmem]
    exact ⟨ht, by rw [finSeries_keys]; exact hn⟩

theorem linearAt_cons {a : ℤ × K} {l : List (ℤ × K)} {t : ℤ} {v : K} (h : LinearAt l t v) : LinearAt (a :: l) t v := by
  rcases h with h | ⟨i, t1, t2, v1, v2, h1, h2, h3⟩
  · exact .inl (List.mem_cons_of_mem _ h)
  · exact .inr ⟨i + 1, t1, t2, v1, v2, by simpa using h1, by simpa using h2, h3⟩

theorem linearAt_slice {l : List (ℤ × K)} {t : ℤ} {v : K} {m n : ℕ} (h : LinearAt ((l.take m).drop n) t v) : LinearAt l t v := by
  rcases h with h | ⟨i, t1, t2, v1, v2, h1, h2, h3⟩
  · exact .inl (List.mem_of_mem_take (List.mem_of_mem_drop h))
  · rw [List.getElem?_drop] at h1 h2
    rw [List.getElem?_take] at h1 h2
    split at h1
    · split at h2
      · exact .inr ⟨n + i, t1, t2, v1, v2, h1, h2, h3⟩
      · cases h2
    · cases h1

theorem scan_linear (rest : List (ℤ × K)) : ∀ (t0 : ℤ) (v0 : K) (t : ℤ), Increasing ((t0, v0) :: rest) → t0 < t →
    (∃ b ∈ (t0, v0) :: rest, t ≤ b.1) → t ∉ rest.map (·.1) →
    ∃ v, interpScan (t0 : K) (fin v0) ((finSeries rest).map (fun r => ((r.1 : K), r.2))) (t : K) = fin v ∧ LinearAt ((t0, v0) :: rest) t v := by
  induction rest with
  | nil =>
    intro t0 v0 t _ h0 hb
    obtain ⟨b, hb, h⟩ := hb
    rw [List.mem_singleton] at hb
    subst hb
    dsimp only at h
    omega
  | cons a rest ih =>
    intro t0 v0 t hs h0 hb hn
    obtain ⟨t1, v1⟩ := a
    have h01 : t0 < t1 := (List.pairwise_cons.mp hs).1 (t1, v1) (by simp)
    simp only [finSeries, List.map_cons] at hn ⊢
    unfold interpScan
    by_cases h1 : t < t1
    · rw [if_pos (by exact_mod_cast h1), if_neg (by exact_mod_cast h0.not_ge)]
      have hd : ((t1 : K) - t0) ≠ 0 := by
        have : (t0 : K) < t1 := by exact_mod_cast h01
        intro h; linarith
      refine ⟨(v1 - v0) / ((t1 : K) - t0) * ((t : K) - t0) + v0, ?_, ?_⟩
      · rw [sub_fin, div_fin _ _ hd, mul_fin, add_fin]
      · refine .inr ⟨0, t0, t1, v0, v1, rfl, rfl, h0, h1, ?_⟩
        field_simp
        ring
    · rw [if_neg (by exact_mod_cast h1)]
      have hne : t ≠ t1 := by rintro rfl; exact hn (by simp)
      obtain ⟨v, hv, hl⟩ := ih t1 v1 t (List.pairwise_cons.mp hs).2 (by omega) (by
        obtain ⟨b, hb, h⟩ := hb
        rcases List.mem_cons.mp hb with rfl | hb
        · exact absurd h (by dsimp only; omega)
        · exact ⟨b, hb, h⟩) (by
        intro h; exact hn (List.mem_cons_of_mem _ h))
      refine ⟨v, ?_, linearAt_cons hl⟩
      exact hv

theorem fillAt_linear {sel : List (ℤ × K)} (hs : Increasing sel) {t : ℤ} (h0 : ∃ a, sel.head? = some a ∧ a.1 ≤ t) (h1 : ∃ b ∈ sel, t ≤ b.1)
    (hn : t ∉ sel.map (·.1)) : ∃ v, fillAt (finSeries sel) t = fin v ∧ LinearAt sel t v := by
  cases sel with
  | nil => obtain ⟨b, hb, _⟩ := h1; cases hb
  | cons a rest =>
    obtain ⟨t0, v0⟩ := a
    obtain ⟨a, ha, hle⟩ := h0
    rw [List.head?_cons, Option.some.injEq] at ha
    subst ha
    dsimp only at hle
    rw [List.map_cons, List.mem_cons, not_or] at hn
    obtain ⟨v, hv, hl⟩ := scan_linear rest t0 v0 t hs (by have := hn.1; omega) h1 hn.2
    refine ⟨v, ?_, hl⟩
    show (if t < t0 then nan else _) = _
    rw [if_neg (by omega)]
    exact hv

theorem mapM_ok {α β : Type} {f : α → Except PyErr β} {R : α → β → Prop} {l : List α} (h : ∀ a ∈ l, ∃ b, f a = .ok b ∧ R a b) :
    ∃ r, l.mapM f = .ok r ∧ List.Forall₂ R l r := by
  induction l with
  | nil => exact ⟨[], rfl, .nil⟩
  | cons a l ih =>
    obtain ⟨b, hb, hR⟩ := h a (by simp)
    obtain ⟨r, hr, hf⟩ := ih (fun x hx => h x (List.mem_cons_of_mem _ hx))
    refine ⟨b :: r, ?_, .cons hR hf⟩
    rw [List.mapM_cons]
    exact bind_ok.mpr ⟨b, hb, bind_ok.mpr ⟨r, hr, rfl⟩⟩

theorem forall₂_fin {α : Type} {P : α → K → Prop} {l : List α} {out : List (Fl K)}
    (h : List.Forall₂ (fun t b => ∃ v, b = fin v ∧ P t v) l out) : ∃ vs : List K, out = vs.map fin ∧ List.Forall₂ P l vs := by
  induction h with
  | nil => exact ⟨[], rfl, .nil⟩
  | cons h _ ih =>
    obtain ⟨vs, rfl, hv⟩ := ih
    obtain ⟨v, rfl, hl⟩ := h
    exact ⟨v :: vs, rfl, .cons hl hv⟩

theorem mem_finSeries {ts : List (ℤ × K)} {r : ℤ × Fl K} : r ∈ finSeries ts ↔ ∃ v, (r.1, v) ∈ ts ∧ r.2 = fin v := by
  unfold finSeries
  rw [List.mem_map]
  constructor
  · rintro ⟨x, hx, rfl⟩; exact ⟨x.2, hx, rfl⟩
  · rintro ⟨v, hv, h⟩; exact ⟨(r.1, v), hv, by rw [← h]⟩

theorem lastIx_exists {α : Type} {p : α → Bool} {l : List α} (h : ∃ a ∈ l, p a = true) : ∃ i, lastIx p l = .ok i := by
  obtain ⟨a, ha, hp⟩ := h
  obtain ⟨i, hi⟩ := List.mem_iff_getElem?.mp ha
  have : i ∈ whereIx p l := mem_whereIx.mpr ⟨a, hi, hp⟩
  unfold lastIx
  cases hw : (whereIx p l).getLast? with
  | none => rw [List.getLast?_eq_none_iff] at hw; rw [hw] at this; cases this
  | some k => exact ⟨k, rfl⟩

theorem firstIx_exists {α : Type} {p : α → Bool} {l : List α} (h : ∃ a ∈ l, p a = true) : ∃ i, firstIx p l = .ok i := by
  obtain ⟨a, ha, hp⟩ := h
  cases hf : firstIx p l with
  | ok i => exact ⟨i, rfl⟩
  | error e =>
    have := (firstIx_err hf).2 a ha
    rw [hp] at this; cases this

theorem incr_get {ts : List (ℤ × K)} (h : Increasing ts) {i j : ℕ} {a b : ℤ × K} (ha : ts[i]? = some a) (hb : ts[j]? = some b) (hij : i < j) :
    a.1 < b.1 := by
  obtain ⟨hi, rfl⟩ := List.getElem?_eq_some_iff.mp ha
  obtain ⟨hj, rfl⟩ := List.getElem?_eq_some_iff.mp hb
  exact List.pairwise_iff_getElem.mp h i j hi hj hij

/-- `interpolate_at` on an increasing series of finite values, for a non-empty non-decreasing request
inside the series. -/
theorem interpolate_linear {ts : List (ℤ × K)} (hs : Increasing ts) {req : List ℤ} (hne : req ≠ []) (hr : req.Pairwise (· ≤ ·))
    (hin : ∀ t ∈ req, Inside ts t) :
    ∃ vs : List K, interpolateAt (finSeries ts) req = .ok (vs.map fin) ∧ List.Forall₂ (LinearAt ts) req vs := by
  obtain ⟨r0, rt, rfl⟩ := List.exists_cons_of_ne_nil hne
  obtain ⟨rN, hlast⟩ : ∃ rN, (r0 :: rt).getLast? = some rN := ⟨_, List.getLast?_eq_some_getLast hne⟩
  have hNmem : rN ∈ r0 :: rt := List.mem_of_getLast? hlast
  have hle0 : ∀ t ∈ r0 :: rt, r0 ≤ t := by
    intro t ht
    rcases List.mem_cons.mp ht with rfl | h
    · exact le_rfl
    · exact (List.pairwise_cons.mp hr).1 t h
  have hleN : ∀ t ∈ r0 :: rt, t ≤ rN := by
    intro t ht
    obtain ⟨pre, hpre⟩ := List.getLast?_eq_some_iff.mp hlast
    rw [hpre] at ht hr
    rcases List.mem_append.mp ht with h | h
    · exact (List.pairwise_append.mp hr).2.2 t h rN (by simp)
    · rw [List.mem_singleton] at h; exact h.le
  -- positions of the first and last selected record
  obtain ⟨f, hf⟩ := lastIx_exists (p := fun r : ℤ × Fl K => decide (r.1 ≤ r0)) (l := finSeries ts) (by
    obtain ⟨⟨a, ha, h⟩, _⟩ := hin r0 (by simp)
    exact ⟨(a.1, fin a.2), mem_finSeries.mpr ⟨a.2, ha, rfl⟩, by simpa using h⟩)
  obtain ⟨g, hg⟩ := firstIx_exists (p := fun r : ℤ × Fl K => decide (rN ≤ r.1)) (l := finSeries ts) (by
    obtain ⟨_, b, hb, h⟩ := hin rN hNmem
    exact ⟨(b.1, fin b.2), mem_finSeries.mpr ⟨b.2, hb, rfl⟩, by simpa using h⟩)
  have hf' := lastIx_ok.mp hf
  have hg' := firstIx_ok.mp hg
  obtain ⟨⟨fa, hfa, hfle⟩, _⟩ := hf'
  obtain ⟨⟨ga, hga, hgle⟩, hgmin⟩ := hg'
  simp only [decide_eq_true_eq] at hfle hgle
  unfold finSeries at hfa hga
  rw [List.getElem?_map, Option.map_eq_some_iff] at hfa hga
  obtain ⟨fr, hfr, rfl⟩ := hfa
  obtain ⟨gr, hgr, rfl⟩ := hga
  dsimp only at hfle hgle
  have hfg : f ≤ g := by
    by_contra hlt
    have := incr_get hs hgr hfr (by omega)
    have := hle0 rN hNmem
    omega
  set sel := (ts.take (g + 1)).drop f with hsel
  have hselS : (((finSeries ts).take (g + 1)).drop f) = finSeries sel := by
    rw [hsel]; unfold finSeries; rw [List.map_drop, List.map_take]
  have hsinc : Increasing sel := by
    rw [hsel]; exact (hs.sublist (List.take_sublist _ _)).sublist (List.drop_sublist _ _)
  have hhead : sel.head? = some fr := by
    rw [hsel, List.head?_drop, List.getElem?_take, if_pos (by omega)]; exact hfr
  have hgm : gr ∈ sel := by
    apply List.mem_of_getElem? (i := g - f)
    rw [hsel, List.getElem?_drop, List.getElem?_take, if_pos (by omega)]
    rw [show f + (g - f) = g by omega]; exact hgr
  obtain ⟨rows, hrows, hlook⟩ := request_rows sel hsinc (r0 :: rt)
  have key : ∀ t ∈ r0 :: rt, ∃ b, (match (interpTime rows).lookup t with | some v => .ok v | none => .error .other : Except PyErr (Fl K)) = .ok b ∧
      ∃ v, b = fin v ∧ LinearAt ts t v := by
    intro t ht
    obtain ⟨hl1, hl2⟩ := hlook t ht
    by_cases hk : t ∈ sel.map (·.1)
    · obtain ⟨r, hr, rfl⟩ := List.mem_map.mp hk
      rw [hl1 r.2 hr]
      refine ⟨_, rfl, r.2, rfl, ?_⟩
      rw [hsel] at hr
      exact linearAt_slice (m := g + 1) (n := f) (.inl hr)
    · obtain ⟨v, hv, hlin⟩ := fillAt_linear hsinc ⟨fr, hhead, hfle.trans (hle0 t ht)⟩ ⟨gr, hgm, (hleN t ht).trans hgle⟩ hk
      rw [hl2 hk]
      refine ⟨_, rfl, v, hv, ?_⟩
      rw [hsel] at hlin
      exact linearAt_slice hlin
  obtain ⟨out, hout, hF⟩ := mapM_ok key
  obtain ⟨vs, hvs, hFv⟩ : ∃ vs : List K, out = vs.map fin ∧ List.Forall₂ (LinearAt ts) (r0 :: rt) vs := by
    exact forall₂_fin hF
  refine ⟨vs, ?_, hFv⟩
  unfold interpolateAt
  refine bind_ok.mpr ⟨r0, rfl, bind_ok.mpr ⟨f, hf, bind_ok.mpr ⟨rN, pyGet_last.mpr hlast, bind_ok.mpr ⟨g, hg, bind_ok.mpr ⟨rows, ?_, ?_⟩⟩⟩⟩⟩
  · rw [hselS]; exact hrows
  · rw [← hvs]; exact hout

end Verif.Model
