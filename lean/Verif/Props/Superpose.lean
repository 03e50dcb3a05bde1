import Verif.Props.Forcing

set_option autoImplicit false
set_option linter.unusedSectionVars false

/-! # C217: the forcing is linear in the data -/

namespace Verif.Spec

/-- One column of a table of records: times and numbers. -/
def tabCol {α K : Type} (tab : List (ℤ × α)) (f : α → K) : List (ℤ × K) := tab.map fun r => (r.1, f r.2)

end Verif.Spec

namespace Verif.Props
open Verif Verif.Model Verif.Spec Fl

variable {K : Type} [Field K] [LinearOrder K] [IsStrictOrderedRing K] [FloorRing K] {α : Type}

theorem tabCol_increasing {tab : List (ℤ × α)} (h : tab.Pairwise fun a b => a.1 < b.1) (f : α → K) : Increasing (tabCol tab f) := by
  unfold Increasing tabCol
  rw [List.pairwise_map]
  exact h

theorem tabCol_get {tab : List (ℤ × α)} {f : α → K} {i : ℕ} {t : ℤ} {v : K} (h : (tabCol tab f)[i]? = some (t, v)) :
    ∃ r, tab[i]? = some (t, r) ∧ f r = v := by
  unfold tabCol at h
  rw [List.getElem?_map, Option.map_eq_some_iff] at h
  obtain ⟨⟨t', r⟩, h1, h2⟩ := h
  cases h2
  exact ⟨r, h1, rfl⟩

/-- At a time all columns are the same mean of two records. -/
theorem same_weights {tab : List (ℤ × α)} {f : α → K} {t : ℤ} {x : K} (h : LinearAt (tabCol tab f) t x) :
    ∃ r1 r2, (∃ t1, (t1, r1) ∈ tab) ∧ (∃ t2, (t2, r2) ∈ tab) ∧ ∃ s : K, 0 ≤ s ∧ s ≤ 1 ∧ ∀ g : α → K, LinearAt (tabCol tab g) t ((1 - s) * g r1 + s * g r2) := by
  rcases h with h | ⟨i, t1, t2, v1, v2, h1, h2, l1, l2, _⟩
  · obtain ⟨⟨t', r⟩, hr, e⟩ := List.mem_map.mp h
    cases e
    refine ⟨r, r, ⟨_, hr⟩, ⟨_, hr⟩, 0, le_rfl, zero_le_one, fun g => Or.inl ?_⟩
    rw [sub_zero, one_mul, zero_mul, add_zero]
    exact List.mem_map.mpr ⟨_, hr, rfl⟩
  · obtain ⟨r1, g1, _⟩ := tabCol_get h1
    obtain ⟨r2, g2, _⟩ := tabCol_get h2
    have l1' : (t1 : K) < t := by exact_mod_cast l1
    have l2' : (t : K) < t2 := by exact_mod_cast l2
    have hd : 0 < (t2 : K) - t1 := by linarith
    refine ⟨r1, r2, ⟨_, List.mem_of_getElem? g1⟩, ⟨_, List.mem_of_getElem? g2⟩, ((t : K) - t1) / ((t2 : K) - t1), div_nonneg (by linarith) hd.le,
      (div_le_one hd).mpr (by linarith), fun g => Or.inr ⟨i, t1, t2, g r1, g r2, ?_, ?_, l1, l2, ?_⟩⟩
    · unfold tabCol; rw [List.getElem?_map, g1]; rfl
    · unfold tabCol; rw [List.getElem?_map, g2]; rfl
    · field_simp
      ring

/-- Whether the requested times can be interpolated is the same for all columns. -/
theorem interp_cols {tab : List (ℤ × α)} (hs : tab.Pairwise fun a b => a.1 < b.1) {req : List ℤ} (hr : req.Pairwise (· ≤ ·)) (u : α → K) {out : List (Fl K)}
    (h : interpolateAt (finSeries (tabCol tab u)) req = .ok out) (g : α → K) :
    ∃ ys : List K, interpolateAt (finSeries (tabCol tab g)) req = .ok (ys.map fin) ∧ List.Forall₂ (LinearAt (tabCol tab g)) req ys := by
  obtain ⟨h0, h1⟩ := interp_inside hr h
  refine C52_linear (tabCol_increasing hs g) h0 hr fun t ht => ?_
  obtain ⟨⟨a, ha, ka⟩, b, hb, kb⟩ := h1 t ht
  obtain ⟨r, hr1, rfl⟩ := List.mem_map.mp ha
  obtain ⟨r', hr2, rfl⟩ := List.mem_map.mp hb
  exact ⟨⟨_, List.mem_map.mpr ⟨r, hr1, rfl⟩, ka⟩, _, List.mem_map.mpr ⟨r', hr2, rfl⟩, kb⟩

/-- **C217**: from a table with records in order of time, if one column can be interpolated at the requested times then any two columns `u`, `v` can, and so can
the column of `a u + b v`, and what results from it is `a` times the one plus `b` times the other at each of the times. -/
theorem C217_superpose {tab : List (ℤ × α)} (hs : tab.Pairwise fun a b => a.1 < b.1) {req : List ℤ} (hr : req.Pairwise (· ≤ ·)) (w u v : α → K) {out : List (Fl K)}
    (h : interpolateAt (finSeries (tabCol tab w)) req = .ok out) (a b : K) :
    ∃ xs ys : List K, xs.length = req.length ∧ ys.length = req.length ∧ interpolateAt (finSeries (tabCol tab u)) req = .ok (xs.map fin) ∧
      interpolateAt (finSeries (tabCol tab v)) req = .ok (ys.map fin) ∧
      interpolateAt (finSeries (tabCol tab fun r => a * u r + b * v r)) req = .ok ((List.zipWith (fun x y => a * x + b * y) xs ys).map fin) := by
  obtain ⟨xs, hx, fx⟩ := interp_cols hs hr w h u
  obtain ⟨ys, hy, fy⟩ := interp_cols hs hr w h v
  obtain ⟨zs, hz, fz⟩ := interp_cols hs hr w h fun r => a * u r + b * v r
  refine ⟨xs, ys, fx.length_eq.symm, fy.length_eq.symm, hx, hy, ?_⟩
  rw [hz]
  congr 2
  clear hx hy hz h hr
  induction fx generalizing ys zs with
  | nil => cases fy; cases fz; rfl
  | cons hx _ ih =>
    cases fy with
    | cons hy fy =>
      cases fz with
      | cons hz fz =>
        rw [List.zipWith_cons_cons, ← ih _ fy _ fz]
        congr 1
        obtain ⟨r1, r2, _, _, s, _, _, hg⟩ := same_weights hx
        rw [linearAt_unique (tabCol_increasing hs _) hx (hg u), linearAt_unique (tabCol_increasing hs _) hy (hg v), linearAt_unique (tabCol_increasing hs _) hz (hg _)]
        ring

/-- **C217**, order: a column that is nowhere less than another one is nowhere interpolated as less. -/
theorem C217_order {tab : List (ℤ × α)} (hs : tab.Pairwise fun a b => a.1 < b.1) {req : List ℤ} (hr : req.Pairwise (· ≤ ·)) (u v : α → K) {out : List (Fl K)}
    (h : interpolateAt (finSeries (tabCol tab u)) req = .ok out) (huv : ∀ r ∈ tab, u r.2 ≤ v r.2) :
    ∃ xs ys : List K, interpolateAt (finSeries (tabCol tab u)) req = .ok (xs.map fin) ∧ interpolateAt (finSeries (tabCol tab v)) req = .ok (ys.map fin) ∧
      xs.length = req.length ∧ List.Forall₂ (· ≤ ·) xs ys := by
  obtain ⟨xs, hx, fx⟩ := interp_cols hs hr u h u
  obtain ⟨ys, hy, fy⟩ := interp_cols hs hr u h v
  refine ⟨xs, ys, hx, hy, fx.length_eq.symm, ?_⟩
  clear hx hy h hr
  induction fx generalizing ys with
  | nil => cases fy; exact .nil
  | cons hx _ ih =>
    cases fy with
    | cons hy fy =>
      refine .cons ?_ (ih _ fy)
      obtain ⟨r1, r2, ⟨_, m1⟩, ⟨_, m2⟩, s, s0, s1, hg⟩ := same_weights hx
      rw [linearAt_unique (tabCol_increasing hs _) hx (hg u), linearAt_unique (tabCol_increasing hs _) hy (hg v)]
      exact add_le_add (mul_le_mul_of_nonneg_left (huv _ m1) (by linarith)) (mul_le_mul_of_nonneg_left (huv _ m2) s0)

/-- Two columns of three records, at times between and at the records: 2 and 10 at a quarter of the way, their sum 12. -/
def supTab : List (ℤ × ℚ × ℚ) := [(0, 1, 8), (4, 5, 16), (6, 5, 20)]

example : supTab.Pairwise (fun a b => a.1 < b.1) ∧ (∀ r ∈ supTab, r.2.1 ≤ r.2.2) ∧
    interpolateAt (finSeries (tabCol supTab (·.1))) [1, 4, 5] = .ok [fin 2, fin 5, fin 5] ∧
    interpolateAt (finSeries (tabCol supTab (·.2))) [1, 4, 5] = .ok [fin 10, fin 16, fin 18] ∧
    interpolateAt (finSeries (tabCol supTab fun r => 1 * r.1 + 1 * r.2)) [1, 4, 5] = .ok [fin 12, fin 21, fin 23] := by
  refine ⟨?_, ?_, ?_, ?_, ?_⟩ <;> decide +kernel

end Verif.Props
