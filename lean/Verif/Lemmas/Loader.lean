import Verif.Spec.Loader
import Verif.Lemmas.Config
import Verif.Lemmas.Series
import Verif.Lemmas.Trim

set_option autoImplicit false
set_option linter.unusedSectionVars false

/-! # Lemmas about `loadModel` -/

namespace Verif.Model
open Verif Verif.Spec Fl

variable {K : Type} [Field K] [LinearOrder K] [IsStrictOrderedRing K]

/-- The stages of `loadModel`. -/
theorem load_inv [FloorRing K] {w : Sources K} {dir stem : String} {v : Conf K} {l : Loaded K} (h : loadModel w dir stem v = .ok l) :
    ∃ tp k2 br slope int actual fl ws se, timePars w.date v = .ok tp ∧ lstPars w.pow15 v = .ok (k2, br) ∧ barPars v = .ok (slope, int) ∧
      physPars v k2 br slope int = .ok l.pp ∧ v.num "NumericalParameters" "Dx" = .ok l.Dx ∧
      v.num "NumericalParameters" "MaxMorChange" = .ok l.MaxMorChange ∧ initialState w dir v = .ok (l.ld, l.norm, actual) ∧
      flowSeries w dir v tp = .ok fl ∧ waveSeries w dir v l.norm = .ok ws ∧ seaSeries w dir v tp = .ok se ∧
      l.tp = { tp with StartTime := startTime v tp.StartTime actual } ∧
      trimSeries fl l.tp.StartTime l.tp.EndTime (l.tp.EndTime + l.tp.MorDtMax) = .ok l.flow ∧
      trimSeries ws l.tp.StartTime l.tp.EndTime (l.tp.EndTime + l.tp.MorDtMax) = .ok l.waves ∧
      trimSeries se l.tp.StartTime l.tp.EndTime (l.tp.EndTime + l.tp.MorDtMax) = .ok l.sea ∧
      outFiles stem v = .ok (l.OutFile, l.TsOutFile) ∧ outOpts v = .ok l.oo := by
  unfold loadModel at h
  simp only [bind_ok, pure_ok, liftPy_ok] at h
  obtain ⟨tp, h1, ⟨k2, br⟩, h2, ⟨sl, it⟩, h3, pp, h4, dx, h5, mc, h6, ⟨ld, nm, ac⟩, h7, fl, h8, ws, h9, se, h10, fl', h11, ws', h12, se', h13,
    ⟨f1, f2⟩, h14, oo, h15, rfl⟩ := h
  exact ⟨tp, k2, br, sl, it, ac, fl, ws, se, h1, h2, h3, h4, h5, h6, h7, h8, h9, h10, rfl, h11, h12, h13, h14, h15⟩

/-- A column of the trimmed waves. -/
theorem trim_map {α β : Type} (g : α → β) {ts ts' : List (ℤ × α)} {S E stop : ℤ} (h : trimSeries ts S E stop = .ok ts') :
    trimSeries (ts.map fun r => (r.1, g r.2)) S E stop = .ok (ts'.map fun r => (r.1, g r.2)) := by
  unfold trimSeries at h ⊢
  simp only [bind_ok, pyAssert_ok, ixGet_ok, pyGet_last, pure_ok] at h ⊢
  obtain ⟨a, ha, b, hb, _, hab, rfl⟩ := h
  refine ⟨(a.1, g a.2), by rw [List.getElem?_map, ha]; rfl, (b.1, g b.2), ?_, (), hab, ?_⟩
  · rw [List.getLast?_map, hb]; rfl
  · rw [List.map_map, show (Prod.fst ∘ fun r : ℤ × α => (r.1, g r.2)) = Prod.fst from rfl]
    generalize keepTimes (List.map Prod.fst ts) S stop = ks
    clear ha hb hab
    induction ts generalizing ks with
    | nil => simp
    | cons r ts ih =>
      cases ks with
      | nil => rfl
      | cons k ks =>
        simp only [List.map_cons, List.zip_cons_cons, List.filterMap_cons]
        cases k
        · exact ih ks
        · simp only [if_true, List.map_cons]; rw [ih ks]

/-- A series accepted for a period of positive length has two records. -/
theorem trim_two {α : Type} {ts ts' : List (ℤ × α)} {S E stop : ℤ} (h : trimSeries ts S E stop = .ok ts') (hSE : S < E) : 2 ≤ ts.length := by
  unfold trimSeries at h
  simp only [bind_ok, pyAssert_ok, ixGet_ok, pyGet_last, pure_ok, Bool.and_eq_true, decide_eq_true_eq] at h
  obtain ⟨a, ha, b, hb, _, ⟨h1, h2⟩, _⟩ := h
  match ts, ha, hb with
  | [r], ha, hb =>
    simp only [List.getElem?_cons_zero, List.getLast?_singleton, Option.some.injEq] at ha hb
    subst ha; subst hb
    omega
  | _ :: _ :: _, _, _ => simp

/-- A series accepted for a period covers it. -/
theorem trim_ends {α : Type} {ts ts' : List (ℤ × α)} {S E stop : ℤ} (h : trimSeries ts S E stop = .ok ts') :
    (∃ a ∈ ts, a.1 ≤ S) ∧ ∃ b ∈ ts, E ≤ b.1 := by
  unfold trimSeries at h
  simp only [bind_ok, pyAssert_ok, ixGet_ok, pyGet_last, pure_ok, Bool.and_eq_true, decide_eq_true_eq] at h
  obtain ⟨a, ha, b, hb, _, ⟨h1, h2⟩, _⟩ := h
  exact ⟨⟨a, List.mem_of_getElem? ha, h1⟩, b, List.mem_of_getLast? hb, h2⟩

theorem interpTime_keys (rows : Series K) : (interpTime rows).map (·.1) = rows.map (·.1) := by
  unfold interpTime
  rw [List.map_map]
  apply List.map_congr_left
  intro r _
  simp only [Function.comp_apply]
  split <;> rfl

theorem lookup_some {l : Series K} {t : ℤ} (h : t ∈ l.map (·.1)) : ∃ x, l.lookup t = some x := by
  induction l with
  | nil => cases h
  | cons a l ih =>
    rw [List.lookup_cons]
    by_cases e : t = a.1
    · subst e; exact ⟨a.2, by simp⟩
    · rw [List.map_cons, List.mem_cons] at h
      obtain ⟨x, hx⟩ := ih (h.resolve_left e)
      have e' : (t == a.1) = false := by simpa using e
      exact ⟨x, by rw [e']; exact hx⟩

/-- Interpolation inside a series in order of time returns something. -/
theorem interpolate_total {ts : Series K} (hs : InTime ts) {req : List ℤ} (hne : req ≠ []) (hr : req.Pairwise (· ≤ ·))
    (hin : ∀ t ∈ req, (∃ a ∈ ts, a.1 ≤ t) ∧ ∃ b ∈ ts, t ≤ b.1) : ∃ out, interpolateAt ts req = .ok out ∧ out.length = req.length := by
  obtain ⟨r0, rt, rfl⟩ := List.exists_cons_of_ne_nil hne
  obtain ⟨rN, hlast⟩ : ∃ rN, (r0 :: rt).getLast? = some rN := ⟨_, List.getLast?_eq_some_getLast hne⟩
  obtain ⟨i, hi⟩ := lastIx_exists (p := fun r : ℤ × Fl K => decide (r.1 ≤ r0)) (l := ts)
    (by obtain ⟨a, ha, h⟩ := (hin r0 (by simp)).1; exact ⟨a, ha, by simpa using h⟩)
  obtain ⟨j, hj⟩ := firstIx_exists (p := fun r : ℤ × Fl K => decide (rN ≤ r.1)) (l := ts)
    (by obtain ⟨a, ha, h⟩ := (hin rN (List.mem_of_getLast? hlast)).2; exact ⟨a, ha, by simpa using h⟩)
  have hnd : (((ts.take (j + 1)).drop i).map (·.1)).Nodup := by
    have h1 : ((ts.take (j + 1)).drop i).Pairwise (fun a b => a.1 < b.1) := List.Pairwise.sublist ((List.drop_sublist _ _).trans (List.take_sublist _ _)) hs
    exact (List.pairwise_map.mpr h1).imp (fun h => h.ne)
  generalize hsel : (ts.take (j + 1)).drop i = sel at hnd
  obtain ⟨rows, hrows, hkeys⟩ : ∃ rows, requestRows sel (r0 :: rt) = .ok rows ∧ ∀ t ∈ r0 :: rt, t ∈ rows.map (·.1) := by
    unfold requestRows
    rw [if_pos hnd]
    refine ⟨_, rfl, fun t ht => ?_⟩
    rw [List.mem_map]
    by_cases hm : t ∈ sel.map Prod.fst
    · obtain ⟨a, ha, e⟩ := List.mem_map.mp hm
      exact ⟨a, (List.mem_insertionSort _).mpr (List.mem_append_left _ ha), e⟩
    · refine ⟨(t, nan), (List.mem_insertionSort _).mpr (List.mem_append_right _ (List.mem_map.mpr ⟨t, ?_, rfl⟩)), rfl⟩
      rw [List.mem_dedup, List.mem_filter]
      exact ⟨ht, by simpa using hm⟩
  obtain ⟨out, ho, hF⟩ := mapM_ok (R := fun _ _ => True)
    (f := fun t => match (interpTime rows).lookup t with | some v => Except.ok v | none => .error PyErr.other) (l := r0 :: rt) (fun t ht => by
      obtain ⟨x, hx⟩ := lookup_some (l := interpTime rows) (t := t) (by rw [interpTime_keys]; exact hkeys t ht)
      exact ⟨x, by rw [hx], trivial⟩)
  refine ⟨out, ?_, hF.length_eq.symm⟩
  unfold interpolateAt
  simp only [bind_ok, pyGet_last]
  exact ⟨r0, rfl, i, hi, rN, hlast, j, hj, rows, by rw [hsel]; exact hrows, ho⟩

theorem InTime.map {α β : Type} {g : α → β} {ts : List (ℤ × α)} (h : InTime ts) : InTime (ts.map fun r => (r.1, g r.2)) :=
  List.pairwise_map.mpr h

end Verif.Model
