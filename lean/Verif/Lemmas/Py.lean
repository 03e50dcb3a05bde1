import Verif.Py
import Mathlib.Data.List.Basic
import Mathlib.Data.List.Nodup

set_option autoImplicit false
set_option linter.unusedSectionVars false

/-! # Lemmas about the Python primitives -/

namespace Verif

theorem bind_ok {ε α β : Type} {x : Except ε α} {f : α → Except ε β} {b : β} :
    (x >>= f) = .ok b ↔ ∃ a, x = .ok a ∧ f a = .ok b := by
  cases x with
  | error e => constructor
               · intro h; cases h
               · rintro ⟨a, h, _⟩; cases h
  | ok a => constructor
            · intro h; exact ⟨a, rfl, h⟩
            · rintro ⟨a', h, h'⟩; cases h; exact h'

theorem pure_ok {ε α : Type} {a b : α} : (pure a : Except ε α) = .ok b ↔ a = b := by
  constructor
  · intro h; cases h; rfl
  · rintro rfl; rfl

theorem ok_inj {ε α : Type} {a b : α} : (Except.ok a : Except ε α) = .ok b ↔ a = b := by
  constructor
  · intro h; cases h; rfl
  · rintro rfl; rfl

theorem pyAssert_ok {b : Bool} {u : Unit} : pyAssert b = .ok u ↔ b = true := by
  unfold pyAssert
  cases b <;> simp

theorem ixGet_ok {α : Type} {l : List α} {i : ℕ} {a : α} : ixGet l i = .ok a ↔ l[i]? = some a := by
  unfold ixGet
  cases l[i]? <;> simp

theorem pyGet_last {α : Type} {l : List α} {a : α} : pyGet l (-1) = .ok a ↔ l.getLast? = some a := by
  unfold pyGet
  rcases l with _ | ⟨x, t⟩
  · simp
  · have h1 : ¬ (0 : ℤ) ≤ -1 := by omega
    have h2 : -(((x :: t).length : ℕ) : ℤ) ≤ -1 := by simp
    have h3 : ((((x :: t).length : ℕ) : ℤ) + -1).toNat = t.length := by simp
    rw [if_neg h1, if_pos h2, h3, ixGet_ok, List.getLast?_eq_getElem?]
    simp

theorem gather_nil {α : Type} (l : List α) : gather l [] = .ok [] := rfl

theorem gather_cons_ok {α : Type} {l : List α} {i : ℕ} {is : List ℕ} {r : List α} :
    gather l (i :: is) = .ok r ↔ ∃ a t, l[i]? = some a ∧ gather l is = .ok t ∧ r = a :: t := by
  simp only [gather, List.mapM_cons, bind_ok, pure_ok, ixGet_ok]
  constructor
  · rintro ⟨a, h1, t, h2, h3⟩; exact ⟨a, t, h1, h2, h3.symm⟩
  · rintro ⟨a, t, h1, h2, h3⟩; exact ⟨a, h1, t, h2, h3.symm⟩

/-- What fancy indexing returns. -/
theorem gather_ok {α : Type} {l : List α} {is : List ℕ} {r : List α} :
    gather l is = .ok r ↔ is.map (fun i => l[i]?) = r.map some := by
  induction is generalizing r with
  | nil => cases r <;> simp [gather_nil]
  | cons i is ih =>
    rw [gather_cons_ok]
    cases r with
    | nil => simp
    | cons a r =>
      simp only [List.map_cons, List.cons.injEq]
      constructor
      · rintro ⟨a', t, h1, h2, rfl, rfl⟩; exact ⟨h1, ih.mp h2⟩
      · rintro ⟨h1, h2⟩; exact ⟨a, r, h1, ih.mpr h2, rfl, rfl⟩

theorem gather_length {α : Type} {l : List α} {is : List ℕ} {r : List α} (h : gather l is = .ok r) : r.length = is.length := by
  have := congrArg List.length (gather_ok.mp h)
  simpa using this.symm

theorem gather_getElem? {α : Type} {l : List α} {is : List ℕ} {r : List α} (h : gather l is = .ok r) (k : ℕ) :
    r[k]? = (is[k]?).bind (fun i => l[i]?) := by
  have h2 := congrArg (fun t => t[k]?) (gather_ok.mp h)
  simp only [List.getElem?_map] at h2
  cases hk : is[k]? with
  | none =>
    rw [hk] at h2
    cases hr : r[k]? with
    | none => rfl
    | some a => rw [hr] at h2; cases h2
  | some i =>
    rw [hk] at h2
    cases hr : r[k]? with
    | none => rw [hr] at h2; cases h2
    | some a => rw [hr] at h2; simpa using h2.symm

/-- Fancy indexing succeeds when all indices are in range. -/
theorem gather_range {α : Type} {l : List α} {is : List ℕ} (h : ∀ i ∈ is, i < l.length) : ∃ r, gather l is = .ok r := by
  induction is with
  | nil => exact ⟨[], rfl⟩
  | cons i is ih =>
    obtain ⟨r, hr⟩ := ih (fun j hj => h j (List.mem_cons_of_mem _ hj))
    exact ⟨l[i]'(h i (by simp)) :: r, gather_cons_ok.mpr ⟨_, _, List.getElem?_eq_getElem _, hr, rfl⟩⟩

theorem gather_mem {α : Type} {l : List α} {is : List ℕ} {r : List α} (h : gather l is = .ok r) {i : ℕ} (hi : i ∈ is) :
    ∃ a, l[i]? = some a ∧ a ∈ r := by
  obtain ⟨k, hk⟩ := List.mem_iff_getElem?.mp hi
  have := gather_getElem? h k
  rw [hk] at this
  simp only [Option.bind_some] at this
  have hlen : k < r.length := by
    rw [gather_length h]
    exact (List.getElem?_eq_some_iff.mp hk).1
  rw [List.getElem?_eq_getElem hlen] at this
  exact ⟨_, this.symm, List.getElem_mem _⟩

theorem mem_gather {α : Type} {l : List α} {is : List ℕ} {r : List α} (h : gather l is = .ok r) {a : α} (ha : a ∈ r) :
    ∃ i ∈ is, l[i]? = some a := by
  obtain ⟨k, hk⟩ := List.mem_iff_getElem?.mp ha
  have := gather_getElem? h k
  rw [hk] at this
  cases hi : is[k]? with
  | none => rw [hi] at this; cases this
  | some i =>
    rw [hi] at this
    exact ⟨i, List.mem_of_getElem? hi, this.symm⟩

theorem gather_map {α β : Type} {l : List α} {is : List ℕ} {r : List α} (f : α → β) (h : gather l is = .ok r) :
    gather (l.map f) is = .ok (r.map f) := by
  rw [gather_ok] at h ⊢
  have := congrArg (List.map (Option.map f)) h
  simpa [List.map_map, Function.comp_def] using this

theorem gather_take {α : Type} {l : List α} {is : List ℕ} {r : List α} (k : ℕ) (h : gather l is = .ok r) :
    gather l (is.take k) = .ok (r.take k) := by
  rw [gather_ok] at h ⊢
  rw [List.map_take, h, List.map_take]

theorem firstIx_ok {α : Type} {p : α → Bool} {l : List α} {i : ℕ} :
    firstIx p l = .ok i ↔ (∃ a, l[i]? = some a ∧ p a = true) ∧ ∀ (j : ℕ), j < i → ∀ b, l[j]? = some b → p b = false := by
  unfold firstIx
  have hs := whereIx_sorted p l
  constructor
  · intro h
    cases hw : whereIx p l with
    | nil => rw [hw] at h; cases h
    | cons k t =>
      rw [hw] at h hs
      cases h
      refine ⟨mem_whereIx.mp (by rw [hw]; simp), ?_⟩
      intro j hj b hb
      by_contra hp
      have : j ∈ whereIx p l := mem_whereIx.mpr ⟨b, hb, by simpa using hp⟩
      rw [hw] at this
      rcases List.mem_cons.mp this with rfl | hm
      · omega
      · have := (List.pairwise_cons.mp hs).1 j hm
        omega
  · rintro ⟨⟨a, ha, hp⟩, hmin⟩
    have hi : i ∈ whereIx p l := mem_whereIx.mpr ⟨a, ha, hp⟩
    cases hw : whereIx p l with
    | nil => rw [hw] at hi; cases hi
    | cons k t =>
      rw [hw] at hi hs
      rcases List.mem_cons.mp hi with rfl | hm
      · rfl
      · have hk := (List.pairwise_cons.mp hs).1 i hm
        obtain ⟨b, hb, hpb⟩ := mem_whereIx.mp (show k ∈ whereIx p l by rw [hw]; simp)
        rw [hmin k hk b hb] at hpb; cases hpb

theorem lastIx_ok {α : Type} {p : α → Bool} {l : List α} {i : ℕ} :
    lastIx p l = .ok i ↔ (∃ a, l[i]? = some a ∧ p a = true) ∧ ∀ (j : ℕ), i < j → ∀ b, l[j]? = some b → p b = false := by
  unfold lastIx
  have hs := whereIx_sorted p l
  constructor
  · intro h
    cases hw : (whereIx p l).getLast? with
    | none => rw [hw] at h; cases h
    | some k =>
      rw [hw] at h
      cases h
      obtain ⟨t, ht⟩ := List.getLast?_eq_some_iff.mp hw
      refine ⟨mem_whereIx.mp (by rw [ht]; simp), ?_⟩
      intro j hj b hb
      by_contra hp
      have : j ∈ whereIx p l := mem_whereIx.mpr ⟨b, hb, by simpa using hp⟩
      rw [ht] at this hs
      rcases List.mem_append.mp this with hm | hm
      · have := (List.pairwise_append.mp hs).2.2 j hm i (by simp)
        omega
      · simp at hm; omega
  · rintro ⟨⟨a, ha, hp⟩, hmax⟩
    have hi : i ∈ whereIx p l := mem_whereIx.mpr ⟨a, ha, hp⟩
    cases hw : (whereIx p l).getLast? with
    | none => rw [List.getLast?_eq_none_iff] at hw; rw [hw] at hi; cases hi
    | some k =>
      obtain ⟨t, ht⟩ := List.getLast?_eq_some_iff.mp hw
      have hk : k ∈ whereIx p l := by rw [ht]; simp
      rw [ht] at hi hs
      rcases List.mem_append.mp hi with hm | hm
      · have hlt := (List.pairwise_append.mp hs).2.2 i hm k (by simp)
        obtain ⟨b, hb, hpb⟩ := mem_whereIx.mp hk
        rw [hmax k hlt b hb] at hpb; cases hpb
      · simp at hm; rw [hm]

theorem firstIx_err {α : Type} {p : α → Bool} {l : List α} {e : PyErr} (h : firstIx p l = .error e) :
    e = .index ∧ ∀ a ∈ l, p a = false := by
  unfold firstIx at h
  cases hw : whereIx p l with
  | cons k t => rw [hw] at h; cases h
  | nil =>
    rw [hw] at h; cases h
    refine ⟨rfl, fun a ha => ?_⟩
    obtain ⟨i, hi⟩ := List.mem_iff_getElem?.mp ha
    by_contra hp
    have : i ∈ whereIx p l := mem_whereIx.mpr ⟨a, hi, by simpa using hp⟩
    rw [hw] at this; cases this

/-- Membership in `arangeUp` / `arangeDown`. -/
theorem mem_arangeUp {a b i : ℕ} : i ∈ arangeUp a b ↔ a ≤ i ∧ i < b := by
  unfold arangeUp
  rw [List.mem_map]
  constructor
  · rintro ⟨k, hk, rfl⟩; have := List.mem_range.mp hk; omega
  · rintro ⟨h1, h2⟩; exact ⟨i - a, List.mem_range.mpr (by omega), by omega⟩

theorem mem_arangeDown {a b i : ℕ} : i ∈ arangeDown a b ↔ b ≤ i ∧ i ≤ a := by
  unfold arangeDown
  rw [List.mem_map]
  constructor
  · rintro ⟨k, hk, rfl⟩; have := List.mem_range.mp hk; omega
  · rintro ⟨h1, h2⟩; exact ⟨a - i, List.mem_range.mpr (by omega), by omega⟩

theorem nodup_arangeUp (a b : ℕ) : (arangeUp a b).Nodup := by
  unfold arangeUp
  exact List.Nodup.map (fun x y h => by simpa using h) List.nodup_range

theorem nodup_arangeDown (a b : ℕ) : (arangeDown a b).Nodup := by
  unfold arangeDown
  refine List.Nodup.map_on ?_ List.nodup_range
  intro x hx y hy h
  have := List.mem_range.mp hx
  have := List.mem_range.mp hy
  omega

end Verif

namespace Verif

/-- A successful result satisfying a decidable test (used to compute witnesses). -/
def okAnd {ε α : Type} (x : Except ε α) (p : α → Bool) : Bool :=
  match x with
  | .ok a => p a
  | .error _ => false

theorem okAnd_iff {ε α : Type} {x : Except ε α} {p : α → Bool} : okAnd x p = true ↔ ∃ a, x = .ok a ∧ p a = true := by
  unfold okAnd
  cases x with
  | ok a => simp
  | error e => simp

theorem ok_witness {ε α : Type} {x : Except ε α} (P : α → Prop) [DecidablePred P] (h : okAnd x (fun a => decide (P a)) = true) :
    ∃ a, x = .ok a ∧ P a := by
  obtain ⟨a, h1, h2⟩ := okAnd_iff.mp h
  exact ⟨a, h1, of_decide_eq_true h2⟩

end Verif
