import Verif.Model.TrimLine
import Verif.Spec.TrimLine
import Verif.Lemmas.Py
import Mathlib.Tactic.FieldSimp
import Mathlib.Tactic.LinearCombination

set_option autoImplicit false
set_option linter.unusedSectionVars false

namespace Verif.Model
open Verif Fl Spec

variable {K : Type} [Field K] [LinearOrder K] [IsStrictOrderedRing K]

/-- A point with finite coordinates. -/
def finP (a : K × K) : Fl K × Fl K := (fin a.1, fin a.2)

/-- Twice the signed area spanned by two directions. -/
def den (p q s t : K × K) : K := (p.1 - q.1) * (s.2 - t.2) - (p.2 - q.2) * (s.1 - t.1)

theorem meetDen_fin (p q s t : K × K) : meetDen (finP p) (finP q) (finP s) (finP t) = fin (den p q s t) := by
  simp [meetDen, finP, den]

def numX (p q s t : K × K) : K := (p.1 * q.2 - p.2 * q.1) * (s.1 - t.1) - (p.1 - q.1) * (s.1 * t.2 - s.2 * t.1)
def numY (p q s t : K × K) : K := (p.1 * q.2 - p.2 * q.1) * (s.2 - t.2) - (p.2 - q.2) * (s.1 * t.2 - s.2 * t.1)

theorem meetX_fin (p q s t : K × K) : meetX (finP p) (finP q) (finP s) (finP t) = fin (numX p q s t) / fin (den p q s t) := by
  unfold meetX
  rw [meetDen_fin]
  simp [finP, numX]

theorem meetY_fin (p q s t : K × K) : meetY (finP p) (finP q) (finP s) (finP t) = fin (numY p q s t) / fin (den p q s t) := by
  unfold meetY
  rw [meetDen_fin]
  simp [finP, numY]

theorem fin_div_fin {a b x : K} (h : (fin a / fin b : Fl K) = fin x) : b ≠ 0 ∧ x = a / b := by
  by_cases hb : b = 0
  · rw [div_fin_def, if_pos hb] at h
    unfold infOfSign at h
    split_ifs at h
  · rw [div_fin _ _ hb] at h
    exact ⟨hb, (Fl.fin.inj h).symm⟩

theorem cross_line {p q s t : K × K} (h : den p q s t ≠ 0) :
    OnLine p q (numX p q s t / den p q s t, numY p q s t / den p q s t) := by
  refine ⟨?_, ?_⟩
  · rintro rfl
    apply h
    simp [den]
  · simp only
    field_simp
    simp only [den, numX, numY]
    ring

theorem cross_seg {p q s t : K × K} (h : den p q s t ≠ 0) :
    (numX p q s t / den p q s t - s.1) * (t.2 - s.2) = (numY p q s t / den p q s t - s.2) * (t.1 - s.1) := by
  field_simp
  simp only [den, numX, numY]
  ring

theorem pyGet_ix {α : Type} {l : List α} {i : ℤ} {a : α} (h : pyGet l i = .ok a) :
    ∃ k : ℕ, l[k]? = some a ∧ ((0 ≤ i ∧ (k : ℤ) = i) ∨ (i < 0 ∧ (k : ℤ) = l.length + i)) := by
  unfold pyGet at h
  split_ifs at h with h1 h2
  · exact ⟨i.toNat, ixGet_ok.mp h, .inl ⟨h1, by omega⟩⟩
  · exact ⟨(l.length + i).toNat, ixGet_ok.mp h, .inr ⟨by omega, by omega⟩⟩

/-- What the search returns. -/
theorem trimSearch_inv {p q : K × K} {xs ys : List K} (hl : ys.length = xs.length) (hs : xs.Pairwise (· < ·)) {fuel : ℕ} {seg : ℤ} {x y : Fl K} {v : K}
    (h : trimSearch (finP p) (finP q) (xs.map fin) (ys.map fin) fuel seg = .ok (some (x, y))) (hx : x = fin v) :
    ∃ r : K × K, x = fin r.1 ∧ y = fin r.2 ∧ OnLine p q r ∧ OnGraph (xs.zip ys) r := by
  induction fuel generalizing seg with
  | zero => cases h
  | succ fuel ih =>
    unfold trimSearch at h
    simp only [bind_ok] at h
    obtain ⟨x0, a0, y0, b0, x1, a1, y1, b1, h⟩ := h
    obtain ⟨i, hi, hi2⟩ := pyGet_ix a0
    obtain ⟨i', hi', hi2'⟩ := pyGet_ix b0
    obtain ⟨j, hj, hj2⟩ := pyGet_ix a1
    obtain ⟨j', hj', hj2'⟩ := pyGet_ix b1
    simp only [List.length_map] at hi2 hi2' hj2 hj2'
    have e1 : i' = i := by omega
    have e2 : j' = j := by omega
    subst e1 e2
    rw [List.getElem?_map, Option.map_eq_some_iff] at hi hi' hj hj'
    obtain ⟨s1, gi, rfl⟩ := hi
    obtain ⟨s2, gi', rfl⟩ := hi'
    obtain ⟨t1, gj, rfl⟩ := hj
    obtain ⟨t2, gj', rfl⟩ := hj'
    change (if meetX (finP p) (finP q) (finP (s1, s2)) (finP (t1, t2)) <? fin s1 then _ else if fin t1 <? meetX (finP p) (finP q) (finP (s1, s2)) (finP (t1, t2)) then _ else
      pure (some (meetX (finP p) (finP q) (finP (s1, s2)) (finP (t1, t2)), meetY (finP p) (finP q) (finP (s1, s2)) (finP (t1, t2))))) = _ at h
    split_ifs at h with c1 c2
    · exact ih h
    · exact ih h
    · rw [pure_ok] at h
      obtain ⟨hX, hY⟩ := Prod.mk.inj (Option.some.inj h)
      rw [hx] at hX
      rw [hX] at c1 c2
      simp only [blt_fin, decide_eq_true_eq, not_lt] at c1 c2
      rw [meetX_fin] at hX
      obtain ⟨hd, hv⟩ := fin_div_fin hX
      have hord : ∀ (a b : ℕ) (u w : K), xs[a]? = some u → xs[b]? = some w → a < b → u < w := by
        intro a b u w ha hb hab
        obtain ⟨ha1, ha2⟩ := List.getElem?_eq_some_iff.mp ha
        obtain ⟨hb1, hb2⟩ := List.getElem?_eq_some_iff.mp hb
        have := List.pairwise_iff_getElem.mp hs a b ha1 hb1 hab
        rwa [ha2, hb2] at this
      have hij : j' = i' + 1 := by
        by_contra hne
        have hw : j' = 0 ∧ i' + 1 = xs.length := by
          have := (List.getElem?_eq_some_iff.mp gi).1
          have := (List.getElem?_eq_some_iff.mp gj).1
          omega
        by_cases h0 : i' = 0
        · have hst : i' = j' := by omega
          rw [← hst] at gj gj'
          rw [gi] at gj
          rw [gi'] at gj'
          cases gj
          cases gj'
          apply hd
          simp [den]
        · have := hord j' i' _ _ gj gi (by omega)
          exact absurd (lt_of_le_of_lt (le_trans c1 c2) this) (lt_irrefl _)
      subst hij
      refine ⟨(v, numY p q (s1, s2) (t1, t2) / den p q (s1, s2) (t1, t2)), hx, ?_, ?_, ?_⟩
      · rw [← hY, meetY_fin, div_fin _ _ hd]
      · rw [hv]
        exact cross_line hd
      · refine ⟨i', (s1, s2), (t1, t2), ?_, ?_, c1, c2, ?_⟩
        · rw [List.getElem?_zip_eq_some]; exact ⟨gi, gi'⟩
        · rw [List.getElem?_zip_eq_some]; exact ⟨gj, gj'⟩
        · rw [hv]
          exact cross_seg hd

/-- The trim line runs across the line from `p` to `q`, from one side to the other. -/
theorem side_sub (p q s t : K × K) : side p q t - side p q s = -den p q s t := by
  simp only [side, den]; ring

theorem cross_left {p q s t : K × K} (hst : s.1 < t.1) (hd : side p q s < side p q t) :
    (numX p q s t / den p q s t < s.1 ↔ 0 < side p q s) ∧ (t.1 < numX p q s t / den p q s t ↔ side p q t < 0) := by
  have hden : 0 < -den p q s t := by rw [← side_sub]; exact sub_pos.mpr hd
  have e : numX p q s t / den p q s t = (-numX p q s t) / (-den p q s t) := by rw [neg_div_neg_eq]
  have h1 : -numX p q s t - s.1 * -den p q s t = -side p q s * (t.1 - s.1) := by simp only [numX, den, side]; ring
  have h2 : -numX p q s t - t.1 * -den p q s t = -side p q t * (t.1 - s.1) := by simp only [numX, den, side]; ring
  have hp : 0 < t.1 - s.1 := sub_pos.mpr hst
  rw [e, div_lt_iff₀ hden, lt_div_iff₀ hden]
  constructor
  · rw [← sub_neg, h1, neg_mul, neg_lt_zero, mul_pos_iff_of_pos_right hp]
  · rw [← sub_pos, h2, neg_mul, neg_pos, ← not_le, ← not_le, mul_nonneg_iff_of_pos_right hp]

/-- One round of the search. -/
theorem trimSearch_round {p q : K × K} {xs ys : List K} {k : ℕ} {s t : K × K} (hs : (xs.zip ys)[k]? = some s) (ht : (xs.zip ys)[k+1]? = some t)
    (hst : s.1 < t.1) (hd : side p q s < side p q t) (fuel : ℕ) :
    trimSearch (finP p) (finP q) (xs.map fin) (ys.map fin) (fuel + 1) (k : ℤ) =
      if 0 < side p q s then trimSearch (finP p) (finP q) (xs.map fin) (ys.map fin) fuel ((k : ℤ) - 1)
      else if side p q t < 0 then trimSearch (finP p) (finP q) (xs.map fin) (ys.map fin) fuel ((k + 1 : ℕ) : ℤ)
      else .ok (some (fin (numX p q s t / den p q s t), fin (numY p q s t / den p q s t))) := by
  rw [List.getElem?_zip_eq_some] at hs ht
  have hden : den p q s t ≠ 0 := by
    intro h0
    have := side_sub p q s t
    rw [h0, neg_zero, sub_eq_zero] at this
    exact absurd this hd.ne'
  have g : ∀ (l : List K) (j : ℕ) (v : K), l[j]? = some v → pyGet (l.map fin) (j : ℤ) = .ok (fin v) := by
    intro l j v hv
    unfold pyGet
    rw [if_pos (by omega)]
    apply ixGet_ok.mpr
    simp [hv]
  have c1 : pyGet (xs.map fin) ((k : ℤ) + 1) = .ok (fin t.1) := by exact_mod_cast g xs (k + 1) _ ht.1
  have c2 : pyGet (ys.map fin) ((k : ℤ) + 1) = .ok (fin t.2) := by exact_mod_cast g ys (k + 1) _ ht.2
  have ob : ∀ {α β : Type} (a : α) (f : α → Except PyErr β), (Except.ok a >>= f) = f a := fun _ _ => rfl
  conv_lhs => unfold trimSearch
  rw [g xs k _ hs.1, g ys k _ hs.2, c1, c2]
  simp only [ob]
  change (if meetX (finP p) (finP q) (finP s) (finP t) <? fin s.1 then _ else if fin t.1 <? meetX (finP p) (finP q) (finP s) (finP t) then _ else
      pure (some (meetX (finP p) (finP q) (finP s) (finP t), meetY (finP p) (finP q) (finP s) (finP t)))) = _
  rw [meetX_fin, meetY_fin, div_fin _ _ hden, div_fin _ _ hden]
  simp only [blt_fin, decide_eq_true_eq, (cross_left hst hd).1, (cross_left hst hd).2]
  rfl

/-- The search ends if the trim line runs steadily across the line, and starts and ends on the two sides of it. -/
theorem trimSearch_stops {p q : K × K} {xs ys : List K} (hl : ys.length = xs.length) (hinc : xs.Pairwise (· < ·))
    (hside : ((xs.zip ys).map (side p q)).Pairwise (· < ·))
    (h0 : ∀ s, (xs.zip ys)[0]? = some s → side p q s ≤ 0) (h1 : ∀ s, (xs.zip ys).getLast? = some s → 0 ≤ side p q s)
    {k : ℕ} (hk : k + 1 < xs.length) : ∃ x y : K, trimSearch (finP p) (finP q) (xs.map fin) (ys.map fin) xs.length (k : ℤ) = .ok (some (fin x, fin y)) := by
  have hlen : (xs.zip ys).length = xs.length := by simp [hl]
  have pt : ∀ j, j < xs.length → ∃ s, (xs.zip ys)[j]? = some s := fun j hj => ⟨_, List.getElem?_eq_getElem (by omega)⟩
  have ord : ∀ (i j : ℕ) (s t : K × K), i < j → (xs.zip ys)[i]? = some s → (xs.zip ys)[j]? = some t → s.1 < t.1 ∧ side p q s < side p q t := by
    intro i j s t hij hs ht
    constructor
    · rw [List.getElem?_zip_eq_some] at hs ht
      obtain ⟨a1, a2⟩ := List.getElem?_eq_some_iff.mp hs.1
      obtain ⟨b1, b2⟩ := List.getElem?_eq_some_iff.mp ht.1
      have := List.pairwise_iff_getElem.mp hinc i j a1 b1 hij
      rwa [a2, b2] at this
    · obtain ⟨a1, a2⟩ := List.getElem?_eq_some_iff.mp hs
      obtain ⟨b1, b2⟩ := List.getElem?_eq_some_iff.mp ht
      have := List.pairwise_iff_getElem.mp hside i j (by simpa using a1) (by simpa using b1) hij
      rw [List.getElem_map, List.getElem_map, a2, b2] at this
      exact this
  -- downwards
  have down : ∀ (k fuel : ℕ), k + 1 < xs.length → k < fuel → (∀ t, (xs.zip ys)[k+1]? = some t → 0 ≤ side p q t) →
      ∃ x y : K, trimSearch (finP p) (finP q) (xs.map fin) (ys.map fin) fuel (k : ℤ) = .ok (some (fin x, fin y)) := by
    intro k
    induction k with
    | zero =>
      intro fuel hk hf hn
      obtain ⟨f, rfl⟩ : ∃ f, fuel = f + 1 := ⟨fuel - 1, by omega⟩
      obtain ⟨s, hs⟩ := pt 0 (by omega)
      obtain ⟨t, ht⟩ := pt 1 (by omega)
      have ho := ord 0 1 s t (by omega) hs ht
      rw [trimSearch_round hs ht ho.1 ho.2, if_neg (not_lt.mpr (h0 s hs)), if_neg (not_lt.mpr (hn t ht))]
      exact ⟨_, _, rfl⟩
    | succ k ih =>
      intro fuel hk hf hn
      obtain ⟨f, rfl⟩ : ∃ f, fuel = f + 1 := ⟨fuel - 1, by omega⟩
      obtain ⟨s, hs⟩ := pt (k + 1) (by omega)
      obtain ⟨t, ht⟩ := pt (k + 1 + 1) (by omega)
      have ho := ord _ _ s t (by omega) hs ht
      rw [trimSearch_round hs ht ho.1 ho.2]
      split_ifs with c1 c2
      · have e : ((k + 1 : ℕ) : ℤ) - 1 = (k : ℤ) := by omega
        rw [e]
        exact ih f (by omega) (by omega) (fun t' ht' => by rw [hs] at ht'; cases ht'; exact c1.le)
      · exact absurd c2 (not_lt.mpr (hn t ht))
      · exact ⟨_, _, rfl⟩
  -- upwards
  have up : ∀ (m k fuel : ℕ), k + 1 + m = xs.length → 0 < m → m ≤ fuel → (∀ s, (xs.zip ys)[k]? = some s → side p q s ≤ 0) →
      ∃ x y : K, trimSearch (finP p) (finP q) (xs.map fin) (ys.map fin) fuel (k : ℤ) = .ok (some (fin x, fin y)) := by
    intro m
    induction m with
    | zero => intro k fuel _ h; omega
    | succ m ih =>
      intro k fuel hk _ hf hn
      obtain ⟨f, rfl⟩ : ∃ f, fuel = f + 1 := ⟨fuel - 1, by omega⟩
      obtain ⟨s, hs⟩ := pt k (by omega)
      obtain ⟨t, ht⟩ := pt (k + 1) (by omega)
      have ho := ord _ _ s t (by omega) hs ht
      rw [trimSearch_round hs ht ho.1 ho.2, if_neg (not_lt.mpr (hn s hs))]
      split_ifs with c2
      · rcases Nat.eq_zero_or_pos m with rfl | hm
        · have hlast : (xs.zip ys).getLast? = some t := by rw [List.getLast?_eq_getElem?, hlen, ← hk]; exact ht
          exact absurd c2 (not_lt.mpr (h1 t hlast))
        · exact ih (k + 1) f (by omega) hm (by omega) (fun s' hs' => by rw [ht] at hs'; cases hs'; exact c2.le)
      · exact ⟨_, _, rfl⟩
  obtain ⟨s, hs⟩ := pt k (by omega)
  obtain ⟨t, ht⟩ := pt (k + 1) hk
  rcases le_total (side p q s) 0 with hc | hc
  · exact up (xs.length - (k + 1)) k xs.length (by omega) (by omega) (by omega) (fun s' hs' => by rw [hs] at hs'; cases hs'; exact hc)
  · exact down k xs.length hk (by omega) (fun t' ht' => by
      rw [ht] at ht'; cases ht'
      exact le_trans hc (ord _ _ s t (by omega) hs ht).2.le)

/-- The first segment tried exists if the node lies within the extent of the trim line. -/
theorem trimStart_ok {xs : List K} {x a b : K} (ha : xs[0]? = some a) (hb : xs.getLast? = some b) (h1 : a < x) (h2 : x ≤ b) :
    ∃ k, trimStart (fin x) (xs.map fin) = .ok k ∧ k + 1 < xs.length := by
  have key : ∀ (l : List K) (a : K), l[0]? = some a → l.getLast? = some b → a < x →
      ∃ c ∈ l.dropLast.zip l.tail, x ≤ c.2 ∧ c.1 < x := by
    intro l
    induction l with
    | nil => intro a ha; cases ha
    | cons c l ih =>
      intro a ha hb hax
      cases ha
      cases l with
      | nil =>
        cases hb
        exact absurd (lt_of_lt_of_le hax h2) (lt_irrefl _)
      | cons d l =>
        rcases lt_or_ge d x with hd | hd
        · obtain ⟨e, he, he2⟩ := ih d rfl (by simpa using hb) hd
          refine ⟨e, ?_, he2⟩
          cases l with
          | nil => simp at he
          | cons f l => exact List.mem_cons_of_mem _ he
        · exact ⟨(c, d), by simp, hd, hax⟩
  obtain ⟨c, hc, hc2⟩ := key xs a ha hb h1
  obtain ⟨j, hj⟩ := List.mem_iff_getElem?.mp hc
  unfold trimStart
  cases hf : firstIx (fun (a : Fl K × Fl K) => (fin x ≤? a.2) && (a.1 <? fin x)) ((xs.map fin).dropLast.zip (xs.map fin).tail) with
  | ok i =>
    refine ⟨i, rfl, ?_⟩
    obtain ⟨⟨w, hw, _⟩, _⟩ := firstIx_ok.mp hf
    have := (List.getElem?_eq_some_iff.mp hw).1
    simp only [List.length_zip, List.length_dropLast, List.length_tail, List.length_map] at this
    omega
  | error e =>
    have hm : (fin c.1, fin c.2) ∈ (xs.map fin).dropLast.zip (xs.map fin).tail := by
      rw [← List.map_dropLast, ← List.map_tail, List.zip_map]
      exact List.mem_map.mpr ⟨c, hc, rfl⟩
    have := (firstIx_err hf).2 _ hm
    simp [hc2.1, hc2.2] at this

end Verif.Model
