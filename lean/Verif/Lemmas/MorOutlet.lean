import Verif.Lemmas.Py
import Verif.Model.MorRepair
import Verif.Spec.Channel

set_option autoImplicit false
set_option linter.unusedSectionVars false

/-! # The transects of the outlet channel -/

namespace Verif.Model
open Verif Fl Spec

variable {K : Type} [Field K] [LinearOrder K] [IsStrictOrderedRing K]

theorem outletIx_flow (rows : List (Transect K)) (e0 e1 : K) : FlowOrder (rows.map (·.x)) e0 e1 (outletIx rows (fin e0) (fin e1)) := by
  unfold outletIx FlowOrder
  by_cases h : e0 < e1
  · simp only [blt_fin, h, decide_true, if_true, min_eq_left h.le, max_eq_right h.le]
    refine ⟨fun i => ?_, whereIx_sorted _ _⟩
    simp only [mem_whereIx, ble_fin, Bool.and_eq_true, decide_eq_true_eq, List.getElem?_map, Option.map_eq_some_iff]
    constructor
    · rintro ⟨a, ha, h1, h2⟩; exact ⟨a.x, ⟨a, ha, rfl⟩, h1, h2⟩
    · rintro ⟨_, ⟨a, ha, rfl⟩, h1, h2⟩; exact ⟨a, ha, h1, h2⟩
  · have h' := not_lt.mp h
    simp only [blt_fin, h, decide_false, Bool.false_eq_true, if_false, min_eq_right h', max_eq_left h']
    refine ⟨fun i => ?_, ?_⟩
    · simp only [List.mem_reverse, mem_whereIx, ble_fin, Bool.and_eq_true, decide_eq_true_eq, List.getElem?_map, Option.map_eq_some_iff]
      constructor
      · rintro ⟨a, ha, h1, h2⟩; exact ⟨a.x, ⟨a, ha, rfl⟩, h1, h2⟩
      · rintro ⟨_, ⟨a, ha, rfl⟩, h1, h2⟩; exact ⟨a, ha, h1, h2⟩
    · exact List.pairwise_reverse.mpr (whereIx_sorted _ _)

theorem cellIx_flow (cells : List (Cell K)) (e0 e1 : K) : FlowOrder (cells.map (·.t.x)) e0 e1 (cellIx cells (fin e0) (fin e1)) := by
  have := outletIx_flow (cells.map (·.t)) e0 e1
  rw [List.map_map] at this
  exact this

theorem sorted_lt {cells : List (Cell K)} (hs : (cells.map (·.t.x)).Pairwise (· < ·)) {i j : ℕ} {a b : Cell K} (ha : cells[i]? = some a) (hb : cells[j]? = some b)
    (h : i < j) : a.t.x < b.t.x := by
  obtain ⟨hi, rfl⟩ := List.getElem?_eq_some_iff.mp ha
  obtain ⟨hj, rfl⟩ := List.getElem?_eq_some_iff.mp hb
  have := List.pairwise_iff_getElem.mp hs i j (by simpa using hi) (by simpa using hj) h
  simpa using this

theorem sorted_lt_iff {cells : List (Cell K)} (hs : (cells.map (·.t.x)).Pairwise (· < ·)) {i j : ℕ} {a b : Cell K} (ha : cells[i]? = some a) (hb : cells[j]? = some b) :
    a.t.x < b.t.x ↔ i < j := by
  refine ⟨fun h => ?_, sorted_lt hs ha hb⟩
  by_contra hcon
  rcases Nat.lt_or_eq_of_le (not_lt.mp hcon) with h' | h'
  · exact absurd (sorted_lt hs hb ha h') h.not_gt
  · subst h'; rw [ha] at hb; cases hb; exact lt_irrefl _ h

/-- In a list ordered by an asymmetric relation, all but the last are those with another one after them. -/
theorem mem_dropLast_iff {α : Type} {R : α → α → Prop} (hR : ∀ a b, R a b → ¬ R b a) : ∀ {l : List α}, l.Pairwise R → ∀ {k : α}, k ∈ l.dropLast ↔ k ∈ l ∧ ∃ m ∈ l, R k m
  | [], _, k => by simp
  | [a], _, k => by
    have := hR a a
    simp only [List.dropLast_singleton, List.not_mem_nil, List.mem_singleton, exists_eq_left, false_iff, not_and]
    rintro rfl h
    exact this h h
  | a :: b :: l, h, k => by
    rw [List.pairwise_cons] at h
    rw [List.dropLast_cons₂, List.mem_cons, mem_dropLast_iff hR h.2]
    constructor
    · rintro (rfl | ⟨h1, m, h2, h3⟩)
      · exact ⟨List.mem_cons_self, b, by simp, h.1 b (by simp)⟩
      · exact ⟨List.mem_cons_of_mem _ h1, m, List.mem_cons_of_mem _ h2, h3⟩
    · rintro ⟨h1, m, h2, h3⟩
      rcases List.mem_cons.mp h1 with rfl | g1
      · exact Or.inl rfl
      · refine Or.inr ⟨g1, m, ?_, h3⟩
        rcases List.mem_cons.mp h2 with rfl | g2
        · exact absurd h3 (hR _ _ (h.1 k g1))
        · exact g2

/-- In a list ordered by an asymmetric relation, all but the first are those with another one before them. -/
theorem mem_tail_iff {α : Type} {R : α → α → Prop} (hR : ∀ a b, R a b → ¬ R b a) {l : List α} (h : l.Pairwise R) {k : α} : k ∈ l.tail ↔ k ∈ l ∧ ∃ m ∈ l, R m k := by
  cases l with
  | nil => simp
  | cons a l =>
    rw [List.pairwise_cons] at h
    rw [List.tail_cons]
    constructor
    · intro hk
      exact ⟨List.mem_cons_of_mem _ hk, a, List.mem_cons_self, h.1 k hk⟩
    · rintro ⟨hk, m, hm, hr⟩
      rcases List.mem_cons.mp hk with rfl | hk
      · rcases List.mem_cons.mp hm with rfl | hm
        · exact absurd hr (hR _ _ hr)
        · exact absurd hr (hR _ _ (h.1 m hm))
      · exact hk

theorem flow_asymm {e0 e1 : K} (i j : ℕ) (h : if e0 < e1 then i < j else j < i) : ¬ (if e0 < e1 then j < i else i < j) := by
  split at h <;> rename_i hd <;> simp only [hd, if_true, if_false] <;> omega

end Verif.Model
