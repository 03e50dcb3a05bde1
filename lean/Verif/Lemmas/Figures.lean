import Verif.Lemmas.Py
import Verif.Lemmas.ViewInv
import Verif.Spec.Figures

set_option autoImplicit false
set_option linter.unusedSectionVars false

/-! # Lemmas about the figures -/

namespace Verif.Model
open Verif Fl Verif.Spec

variable {K : Type} [Field K] [LinearOrder K] [IsStrictOrderedRing K]

theorem minK_le (l : List K) (a : K) : l.foldl min a ≤ a ∧ ∀ b ∈ l, l.foldl min a ≤ b := by
  induction l generalizing a with
  | nil => simp
  | cons c t ih =>
    obtain ⟨h1, h2⟩ := ih (min a c)
    refine ⟨h1.trans (min_le_left _ _), ?_⟩
    intro b hb
    rcases List.mem_cons.mp hb with rfl | hb
    · exact h1.trans (min_le_right _ _)
    · exact h2 b hb

theorem minK_mem (l : List K) (a : K) : l.foldl min a = a ∨ l.foldl min a ∈ l := by
  induction l generalizing a with
  | nil => simp
  | cons c t ih =>
    rcases ih (min a c) with h | h
    · rcases min_choice a c with h' | h'
      · left; rw [List.foldl_cons, h, h']
      · right; rw [List.foldl_cons, h, h']; simp
    · right; exact List.mem_cons_of_mem _ h

theorem argminK_ok {d : List K} {i : ℕ} (h : argminK d = .ok i) : ∃ v, d[i]? = some v ∧ ∀ w ∈ d, v ≤ w := by
  cases d with
  | nil => cases h
  | cons a t =>
    obtain ⟨⟨v, hv, hp⟩, _⟩ := firstIx_ok.mp (show firstIx _ (a :: t) = .ok i from h)
    refine ⟨v, hv, ?_⟩
    have := of_decide_eq_true hp
    subst this
    intro w hw
    rcases List.mem_cons.mp hw with rfl | hw
    · exact (minK_le t w).1
    · exact (minK_le t a).2 w hw

theorem argminK_total {d : List K} (h : d ≠ []) : ∃ i, argminK d = .ok i := by
  cases d with
  | nil => exact absurd rfl h
  | cons a t =>
    have hm : t.foldl min a ∈ a :: t := by
      rcases minK_mem t a with h | h
      · rw [h]; simp
      · exact List.mem_cons_of_mem _ h
    cases hf : firstIx (fun v => decide (v = t.foldl min a)) (a :: t) with
    | ok i => exact ⟨i, hf⟩
    | error e => exact absurd ((firstIx_err hf).2 _ hm) (by simp)

theorem ground_paired (q : TransPars K) (r : Transect K) : Paired (groundLine q r) := by
  unfold Paired groundLine
  dsimp only
  split_ifs <;> rfl

theorem water_paired (r : Transect K) (a b c : Fl K) : Paired (waterLine r a b c) := by
  unfold Paired waterLine
  dsimp only
  split_ifs <;> rfl

theorem fillDown_ok {l f : Line K} (h : fillDown l = .ok f) : ∃ xl x0 y0, l.x.getLast? = some xl ∧ l.x[0]? = some x0 ∧ l.y[0]? = some y0 ∧
    f = { x := l.x ++ [xl, x0, x0], y := l.y ++ [fin (-100), fin (-100), y0] } := by
  unfold fillDown at h
  simp only [bind_ok, pure_ok, pyGet_last, pyGet_zero_ok] at h
  obtain ⟨xl, h1, x0, h2, y0, h3, rfl⟩ := h
  exact ⟨xl, x0, y0, h1, h2, h3, rfl⟩

theorem fillDown_total {l : Line K} (hx : l.x ≠ []) (hp : Paired l) : ∃ f, fillDown l = .ok f := by
  have hy : l.y ≠ [] := by
    intro h
    rw [Paired, h] at hp
    exact hx (List.length_eq_zero_iff.mp hp)
  have h2 : l.x[0]? = some (l.x[0]'(List.length_pos_iff.mpr hx)) := List.getElem?_eq_getElem _
  have h3 : l.y[0]? = some (l.y[0]'(List.length_pos_iff.mpr hy)) := List.getElem?_eq_getElem _
  exact ⟨_, bind_ok.mpr ⟨_, pyGet_last.mpr (List.getLast?_eq_some_getLast hx),
    bind_ok.mpr ⟨_, pyGet_zero_ok.mpr h2, bind_ok.mpr ⟨_, pyGet_zero_ok.mpr h3, rfl⟩⟩⟩⟩

theorem fillDown_closed {l f : Line K} (h : fillDown l = .ok f) (hp : Paired l) : Paired f ∧ ClosedPoly f := by
  obtain ⟨xl, x0, y0, h1, h2, h3, rfl⟩ := fillDown_ok h
  refine ⟨by simpa [Paired] using hp, (x0, y0), ?_, ?_⟩
  · cases hx : l.x with
    | nil => rw [hx] at h2; simp at h2
    | cons a t =>
      cases hy : l.y with
      | nil => rw [hy] at h3; simp at h3
      | cons b u =>
        rw [hx] at h2; rw [hy] at h3
        simp at h2 h3
        simp [pts, h2, h3]
  · unfold pts
    dsimp only
    rw [List.zip_append hp, List.getLast?_append]
    rfl

theorem cumFrom_length (a : Fl K) (d : List (Fl K)) : (cumFrom a d).length = d.length + 1 := by
  induction d generalizing a with
  | nil => rfl
  | cons x t ih => simp [cumFrom, ih]

theorem cumFrom_zero (a : Fl K) (d : List (Fl K)) : (cumFrom a d)[0]? = some a := by cases d <;> rfl

theorem cumFrom_step (a : Fl K) (d : List (Fl K)) {k : ℕ} {b x : Fl K} (h1 : (cumFrom a d)[k]? = some b) (h2 : d[k]? = some x) :
    (cumFrom a d)[k + 1]? = some (b + x) := by
  induction d generalizing a k with
  | nil => simp at h2
  | cons y t ih =>
    cases k with
    | zero =>
      simp [cumFrom] at h1 h2 ⊢
      subst h1 h2
      have := cumFrom_zero (a + y) t
      simpa using this
    | succ k =>
      simp only [cumFrom, List.getElem?_cons_succ] at h1 h2 ⊢
      exact ih (a + y) h1 h2

theorem mids_length (l : List (Fl K)) : (mids l).length = l.length - 1 := by
  simp [mids]

theorem zipOp_ok {f : Fl K → Fl K → Fl K} {a b c : List (Fl K)} : zipOp f a b = .ok c ↔ a.length = b.length ∧ c = List.zipWith f a b := by
  unfold zipOp
  split
  · next h => simp [h, eq_comm]
  · next h => simp [h]

theorem plotLine_ok {x y : List (Fl K)} {l : Line K} : plotLine x y = .ok l ↔ x.length = y.length ∧ l = ⟨x, y⟩ := by
  unfold plotLine
  split
  · next h => simp [h, eq_comm]
  · next h => simp [h]

theorem axisLimit_ok {a : Fl K} {v : K} : axisLimit a = .ok v ↔ a = fin v := by
  cases a <;> simp [axisLimit]

/-- Folding a list of finite values with Python's `min`. -/
theorem nanFold_min {l : List (Fl K)} {m : Fl K} (hl : ∀ a ∈ l, ∃ v, a = fin v) (h : nanFold pymin l = .ok m) :
    ∃ v, m = fin v ∧ ∀ w, fin w ∈ l → v ≤ w := by
  have hf : l.filter (fun a => !a.isnan) = l := List.filter_eq_self.mpr (fun a ha => by obtain ⟨v, rfl⟩ := hl a ha; rfl)
  unfold nanFold at h
  rw [hf] at h
  cases l with
  | nil => cases h
  | cons a t =>
    simp only [Except.ok.injEq] at h
    have key : ∀ (t : List (Fl K)) (v : K), (∀ a ∈ t, ∃ v, a = fin v) →
        ∃ u, t.foldl pymin (fin v) = fin u ∧ u ≤ v ∧ ∀ w, fin w ∈ t → u ≤ w := by
      intro t
      induction t with
      | nil => intro v _; exact ⟨v, rfl, le_rfl, by simp⟩
      | cons b t ih =>
        intro v hv
        obtain ⟨c, rfl⟩ := hv b (by simp)
        have hp : pymin (fin v) (fin c) = fin (min v c) := by
          by_cases hc : c < v
          · simp [pymin, Fl.blt, hc, min_eq_right hc.le]
          · simp [pymin, Fl.blt, hc, min_eq_left (not_lt.mp hc)]
        obtain ⟨u, h1, h2, h3⟩ := ih (min v c) (fun a ha => hv a (List.mem_cons_of_mem _ ha))
        refine ⟨u, by rw [List.foldl_cons, hp, h1], h2.trans (min_le_left _ _), ?_⟩
        intro w hw
        rcases List.mem_cons.mp hw with hw | hw
        · cases hw; exact h2.trans (min_le_right _ _)
        · exact h3 w hw
    obtain ⟨v, rfl⟩ := hl a (by simp)
    obtain ⟨u, h1, h2, h3⟩ := key t v (fun a ha => hl a (List.mem_cons_of_mem _ ha))
    refine ⟨u, by rw [← h, h1], ?_⟩
    intro w hw
    rcases List.mem_cons.mp hw with hw | hw
    · cases hw; exact h2
    · exact h3 w hw

/-- Folding a list of finite values with Python's `max`. -/
theorem nanFold_max {l : List (Fl K)} {m : Fl K} (hl : ∀ a ∈ l, ∃ v, a = fin v) (h : nanFold pymax l = .ok m) :
    ∃ v, m = fin v ∧ fin v ∈ l ∧ ∀ w, fin w ∈ l → w ≤ v := by
  have hf : l.filter (fun a => !a.isnan) = l := List.filter_eq_self.mpr (fun a ha => by obtain ⟨v, rfl⟩ := hl a ha; rfl)
  unfold nanFold at h
  rw [hf] at h
  cases l with
  | nil => cases h
  | cons a t =>
    simp only [Except.ok.injEq] at h
    have key : ∀ (t : List (Fl K)) (v : K), (∀ a ∈ t, ∃ v, a = fin v) →
        ∃ u, t.foldl pymax (fin v) = fin u ∧ (u = v ∨ fin u ∈ t) ∧ v ≤ u ∧ ∀ w, fin w ∈ t → w ≤ u := by
      intro t
      induction t with
      | nil => intro v _; exact ⟨v, rfl, .inl rfl, le_rfl, by simp⟩
      | cons b t ih =>
        intro v hv
        obtain ⟨c, rfl⟩ := hv b (by simp)
        have hp : pymax (fin v) (fin c) = fin (max v c) := by
          by_cases hc : v < c
          · simp [pymax, Fl.blt, hc, max_eq_right hc.le]
          · simp [pymax, Fl.blt, hc, max_eq_left (not_lt.mp hc)]
        obtain ⟨u, h1, h1', h2, h3⟩ := ih (max v c) (fun a ha => hv a (List.mem_cons_of_mem _ ha))
        refine ⟨u, by rw [List.foldl_cons, hp, h1], ?_, (le_max_left _ _).trans h2, ?_⟩
        · rcases h1' with h | h
          · rcases max_choice v c with h' | h'
            · left; rw [h, h']
            · right; rw [h, h']; simp
          · right; exact List.mem_cons_of_mem _ h
        · intro w hw
          rcases List.mem_cons.mp hw with hw | hw
          · cases hw; exact (le_max_right _ _).trans h2
          · exact h3 w hw
    obtain ⟨v, rfl⟩ := hl a (by simp)
    obtain ⟨u, h1, h1', h2, h3⟩ := key t v (fun a ha => hl a (List.mem_cons_of_mem _ ha))
    refine ⟨u, by rw [← h, h1], ?_, ?_⟩
    · rcases h1' with rfl | h
      · simp
      · exact List.mem_cons_of_mem _ h
    · intro w hw
      rcases List.mem_cons.mp hw with hw | hw
      · cases hw; exact h2
      · exact h3 w hw

theorem nanFold_total {pick : Fl K → Fl K → Fl K} {l : List (Fl K)} (h : l ≠ []) : ∃ m, nanFold pick l = .ok m := by
  unfold nanFold
  cases l with
  | nil => exact absurd rfl h
  | cons a t =>
    cases (a :: t).filter (fun a => !a.isnan) with
    | nil => exact ⟨_, rfl⟩
    | cons b u => exact ⟨_, rfl⟩

/-- Elementwise operations on finite values give finite values. -/
theorem zipWith_fin {f : Fl K → Fl K → Fl K} (hf : ∀ a b : K, ∃ c, f (fin a) (fin b) = fin c) {x y : List (Fl K)}
    (hx : ∀ a ∈ x, ∃ v, a = fin v) (hy : ∀ a ∈ y, ∃ v, a = fin v) : ∀ a ∈ List.zipWith f x y, ∃ v, a = fin v := by
  intro a ha
  obtain ⟨i, hi, rfl⟩ := List.getElem_of_mem ha
  rw [List.getElem_zipWith]
  have h1 : i < x.length := by simp at hi; omega
  have h2 : i < y.length := by simp at hi; omega
  obtain ⟨u, hu⟩ := hx _ (List.getElem_mem h1)
  obtain ⟨v, hv⟩ := hy _ (List.getElem_mem h2)
  rw [hu, hv]
  exact hf u v

theorem pyRange_pos {a b r : ℤ} (hr : 0 < r) : ∃ fs, pyRange a b r = .ok fs ∧ (∀ i, i ∈ fs ↔ ∃ k : ℕ, i = a + k * r ∧ i < b) ∧
    fs.Pairwise (· < ·) := by
  refine ⟨_, by unfold pyRange; rw [if_neg hr.ne', if_pos hr], ?_, ?_⟩
  · intro i
    rw [List.mem_map]
    have key : ∀ k : ℕ, (k : ℤ) < (b - a + r - 1) / r ↔ a + k * r < b := by
      intro k
      rw [← Int.add_one_le_iff, Int.le_ediv_iff_mul_le hr]
      constructor <;> intro h <;> nlinarith
    constructor
    · rintro ⟨k, hk, rfl⟩
      rw [List.mem_range] at hk
      exact ⟨k, rfl, (key k).mp (by omega)⟩
    · rintro ⟨k, rfl, hk⟩
      have := (key k).mpr hk
      exact ⟨k, List.mem_range.mpr (by omega), rfl⟩
  · rw [List.pairwise_map]
    refine List.pairwise_lt_range.imp ?_
    intro x y hxy
    have : (x : ℤ) < y := by exact_mod_cast hxy
    nlinarith

end Verif.Model
