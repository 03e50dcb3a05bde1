import Verif.Lemmas.MorRel
import Verif.Spec.Mor

set_option autoImplicit false
set_option linter.unusedSectionVars false

/-! # Lemmas about the breach decisions -/

namespace Verif.Model
open Verif Verif.Spec Fl

variable {K : Type} [Field K] [LinearOrder K] [IsStrictOrderedRing K]

theorem find_best {α : Type} (l : List α) (p : α → Bool) (h : ∃ a ∈ l, p a = true) :
    ∃ (i : ℕ) (a : α), (List.range l.length).find? (fun i => (l[i]?).any p) = some i ∧ l[i]? = some a ∧ p a = true := by
  cases hf : (List.range l.length).find? (fun i => (l[i]?).any p) with
  | none =>
    obtain ⟨a, ha, hp⟩ := h
    obtain ⟨i, hi⟩ := List.mem_iff_getElem?.mp ha
    have hl : i < l.length := (List.getElem?_eq_some_iff.mp hi).1
    have := List.find?_eq_none.mp hf i (List.mem_range.mpr hl)
    rw [hi] at this
    simp [hp] at this
  | some i =>
    have hp := List.find?_some hf
    have hl := List.mem_range.mp (List.mem_of_find?_eq_some hf)
    rw [List.getElem?_eq_getElem hl] at hp
    exact ⟨i, l[i], rfl, List.getElem?_eq_getElem hl, by simpa using hp⟩

theorem no_nan_find (l : List K) : (List.range (l.map (fin (K := K))).length).find? (fun i => ((l.map fin)[i]?).any (·.isnan)) = none := by
  rw [List.find?_eq_none]
  intro i _ h
  rw [List.getElem?_map] at h
  cases hc : l[i]? with
  | none => rw [hc] at h; simp at h
  | some a => rw [hc] at h; simp at h

theorem exists_min (l : List K) (h : l ≠ []) : ∃ a ∈ l, ∀ b ∈ l, a ≤ b := by
  induction l with
  | nil => exact absurd rfl h
  | cons x t ih =>
    by_cases ht : t = []
    · subst ht; exact ⟨x, by simp, by simp⟩
    · obtain ⟨m, hm, hle⟩ := ih ht
      rcases le_total x m with hx | hx
      · exact ⟨x, by simp, fun b hb => by rcases List.mem_cons.mp hb with rfl | hb; exacts [le_refl _, hx.trans (hle b hb)]⟩
      · exact ⟨m, by simp [hm], fun b hb => by rcases List.mem_cons.mp hb with rfl | hb; exacts [hx, hle b hb]⟩

theorem exists_max (l : List K) (h : l ≠ []) : ∃ a ∈ l, ∀ b ∈ l, b ≤ a := by
  obtain ⟨m, hm, hle⟩ := exists_min (l.map (-·)) (by simpa using h)
  obtain ⟨a, ha, rfl⟩ := List.mem_map.mp hm
  exact ⟨a, ha, fun b hb => neg_le_neg_iff.mp (hle _ (List.mem_map.mpr ⟨b, hb, rfl⟩))⟩

theorem argmin_spec {l : List K} (h : l ≠ []) : ∃ a, l[argmin (l.map fin)]? = some a ∧ ∀ b ∈ l, a ≤ b := by
  obtain ⟨m, hm, hle⟩ := exists_min l h
  obtain ⟨i, a, hf, ha, hp⟩ := find_best (l.map (fin (K := K))) (fun a => (l.map fin).all (fun b => a ≤? b))
    ⟨fin m, List.mem_map.mpr ⟨m, hm, rfl⟩, by simpa using hle⟩
  unfold argmin
  rw [no_nan_find]
  simp only [hf, Option.getD_some]
  rw [List.getElem?_map] at ha
  obtain ⟨a', ha', rfl⟩ := Option.map_eq_some_iff.mp ha
  exact ⟨a', ha', by simpa using hp⟩

theorem argmax_spec {l : List K} (h : l ≠ []) : ∃ a, l[argmax (l.map fin)]? = some a ∧ ∀ b ∈ l, b ≤ a := by
  obtain ⟨m, hm, hle⟩ := exists_max l h
  obtain ⟨i, a, hf, ha, hp⟩ := find_best (l.map (fin (K := K))) (fun a => (l.map fin).all (fun b => b ≤? a))
    ⟨fin m, List.mem_map.mpr ⟨m, hm, rfl⟩, by simpa using hle⟩
  unfold argmax
  rw [no_nan_find]
  simp only [hf, Option.getD_some]
  rw [List.getElem?_map] at ha
  obtain ⟨a', ha', rfl⟩ := Option.map_eq_some_iff.mp ha
  exact ⟨a', ha', by simpa using hp⟩

/-- Position `argmax` of a list, whatever it holds, is a position of the list. -/
theorem argmax_lt {l : List (Fl K)} (h : l ≠ []) : argmax l < l.length := by
  have h0 : 0 < l.length := List.length_pos_iff.mpr h
  unfold argmax
  split
  · rename_i i hf; exact List.mem_range.mp (List.mem_of_find?_eq_some hf)
  · cases hf : (List.range l.length).find? (fun i => (l[i]?).any (fun a => l.all (fun b => b ≤? a))) with
    | none => simpa using h0
    | some i => simpa using List.mem_range.mp (List.mem_of_find?_eq_some hf)

theorem riverLinked_iff {openAt : List Bool} {r i : ℕ} : riverLinked openAt r i = true ↔ Linked (fun j : ℕ => openAt[j]? = some true) r i := by
  have any_iff : ∀ j : ℕ, ((openAt[j]?).any id = true ↔ openAt[j]? = some true) := by
    intro j
    cases openAt[j]? with
    | none => simp
    | some b => simp
  unfold riverLinked Linked
  split
  · rw [List.all_eq_true]
    constructor
    · intro h j hj
      exact (any_iff j).mp (h j (mem_arangeUp.mpr (by omega)))
    · intro h j hj
      have := mem_arangeUp.mp hj
      exact (any_iff j).mpr (h j (by omega))
  · split
    · rw [List.all_eq_true]
      constructor
      · intro h j hj
        exact (any_iff j).mp (h j (mem_arangeUp.mpr (by omega)))
      · intro h j hj
        have := mem_arangeUp.mp hj
        exact (any_iff j).mpr (h j (by omega))
    · simp only [true_iff]
      intro j hj
      omega

/-- `|ShoreX|` at existing transects. -/
theorem absX_eq {cells : List (Cell K)} {ixs : List ℕ} (h : ∀ i ∈ ixs, i < cells.length) :
    ∃ (xs : List K), absX cells ixs = xs.map fin ∧ xs.length = ixs.length ∧
      ∀ (k i : ℕ) c, ixs[k]? = some i → cells[i]? = some c → xs[k]? = some |c.t.x| := by
  induction ixs with
  | nil => exact ⟨[], rfl, rfl, by simp⟩
  | cons i t ih =>
    obtain ⟨xs, e, hl, hg⟩ := ih (fun j hj => h j (by simp [hj]))
    have hi := h i (by simp)
    refine ⟨|cells[i].t.x| :: xs, ?_, by simp [hl], ?_⟩
    · unfold absX at e ⊢
      rw [List.filterMap_cons, List.getElem?_eq_getElem hi]
      simp only [Option.map_some]
      rw [e]
      simp
    · intro k j c hk hc
      cases k with
      | zero =>
        simp only [List.getElem?_cons_zero, Option.some.injEq] at hk ⊢
        subst hk
        rw [List.getElem?_eq_getElem hi] at hc
        cases hc; rfl
      | succ k => exact hg k j c (by simpa using hk) hc

theorem foldl_npmin_fin (t : List K) (x : K) : (t.map fin).foldl npmin (fin x) = fin (t.foldl min x) := by
  induction t generalizing x with
  | nil => rfl
  | cons a t ih => simp only [List.map_cons, List.foldl_cons, npmin_fin, ih]

theorem foldl_min_spec (t : List K) (x : K) : t.foldl min x ∈ x :: t ∧ ∀ b ∈ x :: t, t.foldl min x ≤ b := by
  induction t generalizing x with
  | nil => simp
  | cons a t ih =>
    obtain ⟨h1, h2⟩ := ih (min x a)
    rw [List.foldl_cons]
    refine ⟨?_, ?_⟩
    · rcases List.mem_cons.mp h1 with h | h
      · rw [h]; rcases min_choice x a with e | e <;> rw [e] <;> simp
      · simp [h]
    · intro b hb
      have hm := h2 (min x a) (by simp)
      rcases List.mem_cons.mp hb with rfl | hb
      · exact hm.trans (min_le_left _ _)
      · rcases List.mem_cons.mp hb with rfl | hb
        · exact hm.trans (min_le_right _ _)
        · exact h2 b (by simp [hb])

/-- The only change the check for overtopping makes. -/
theorem overtop_cells {pp : PhysPars K} {C : Bool} {X0 : ℕ} {conn : Option (ℤ × ℤ)} {b b' : Option ℕ} {st st' : MorSt K}
    (h : overtopBreach pp C X0 conn b st = .ok (b', st')) : st' = { st with cells := st.cells.map crestCell } := by
  unfold overtopBreach at h
  simp only [bind_ok] at h
  obtain ⟨_, _, h⟩ := h
  split at h
  · simp only [pure_ok] at h; cases h; rfl
  · split at h
    · split at h
      · cases h
      · simp only [pure_ok] at h; cases h; rfl
    · simp only [bind_ok, pure_ok] at h
      obtain ⟨_, _, _, _, h⟩ := h
      cases h; rfl

end Verif.Model
