import Verif.Lemmas.MorLimit

set_option autoImplicit false
set_option linter.unusedSectionVars false

/-! # Lemmas on the rates due to the river -/

namespace Verif.Model
open Verif Fl Verif.Spec

variable {K : Type} [Field K] [LinearOrder K] [IsStrictOrderedRing K]

theorem ero_fin {s : Sec K} {v : K} (h : s.dvol = fin v) : s.ero = fin (-(min v 0)) := by
  unfold Sec.ero; rw [h]; simp

theorem bedDep_fin {s : Sec K} {v : K} (h : s.dvol = fin v) : s.bedDep = fin (max v 0) := by
  unfold Sec.bedDep; rw [h]; simp

/-- Total erosion is divided between bed and banks. -/
theorem ero_split {s : Sec K} {v : K} (h : s.dvol = fin v) :
    ∃ b k : K, s.bedEro = fin b ∧ s.bankEro = fin k ∧ 0 ≤ b ∧ 0 ≤ k ∧ max v 0 - b - k = v ∧ (b = 0 ∨ k = 0) ∧ (k = 0 ∨ max v 0 = 0)
      ∧ (b = 0 ∨ max v 0 = 0) := by
  unfold Sec.bedEro Sec.bankEro
  rw [ero_fin h]
  have e : max v 0 - -(min v 0) = v := by
    rcases le_total v 0 with hv | hv
    · rw [max_eq_right hv, min_eq_left hv]; ring
    · rw [max_eq_left hv, min_eq_right hv]; ring
  have hn : 0 ≤ -(min v 0) := by linarith [min_le_right v 0]
  have hz : -(min v 0) = 0 ∨ max v 0 = 0 := by
    rcases le_total v 0 with hv | hv
    · exact Or.inr (max_eq_right hv)
    · left; rw [min_eq_right hv]; ring
  cases s.wide with
  | true => exact ⟨-(min v 0), 0, by simp, by simp, hn, le_refl _, by linarith, Or.inr rfl, Or.inl rfl, hz⟩
  | false => exact ⟨0, -(min v 0), by simp, by simp, le_refl _, hn, by linarith, Or.inl rfl, hz, Or.inl rfl⟩

/-- Bed rise and bank retreat of a section with `w` the bed width, `h1`, `h2` the bank heights. -/
theorem section_rates {s : Sec K} {v : K} (h : s.dvol = fin v) {w h1 h2 Dx : K} (hw : 0 < w) (hh1 : 0 < h1) (hh2 : 0 < h2) (hD : 0 < Dx) :
    ∃ p q r : K, (s.bedDep - s.bedEro) / (fin w * fin Dx) = fin p ∧ s.bankEro / fin 2 / (fin h1 * fin Dx) = fin q ∧
      s.bankEro / fin 2 / (fin h2 * fin Dx) = fin r ∧ gain p w q h1 r h2 Dx = v ∧ OneWay p q r := by
  obtain ⟨b, k, e1, e2, hb, hk, e3, e4, e5, e6⟩ := ero_split h
  have hwD : w * Dx ≠ 0 := by positivity
  have hD1 : h1 * Dx ≠ 0 := by positivity
  have hD2 : h2 * Dx ≠ 0 := by positivity
  have h20 : (2 : K) ≠ 0 := two_ne_zero
  refine ⟨(max v 0 - b) / (w * Dx), k / 2 / (h1 * Dx), k / 2 / (h2 * Dx), ?_, ?_, ?_, ?_, ?_, ?_, ?_, ?_⟩
  · rw [bedDep_fin h, e1]; simp [hwD]
  · rw [e2]; simp [hD1]
  · rw [e2]; simp [hD2]
  · unfold gain
    refine Eq.trans ?_ e3
    generalize max v 0 = u
    field_simp
    ring
  · positivity
  · positivity
  · intro hneg
    have hk0 : k = 0 := by
      rcases e4 with h | h
      · exfalso
        rw [h, sub_zero] at hneg
        have : 0 ≤ max v 0 / (w * Dx) := div_nonneg (le_max_right _ _) (by positivity)
        linarith
      · exact h
    subst hk0; simp
  · intro hpos
    have hk0 : k ≠ 0 := by rintro rfl; simp at hpos
    have hb0 : b = 0 := e4.resolve_right hk0
    have hm := e5.resolve_left hk0
    rw [hb0, hm]; simp

/-- The values put in a column. -/
theorem addCol_at {n : ℕ} {l' : List (Fl K)} {ixs : List ℕ} {ss : List (Sec K)} {rows rs : List (Transect K)} {f : Sec K → Transect K → Fl K}
    (h : addCol (List.replicate n (fin 0)) ixs ss rs f = .ok l') (hn : ixs.Nodup) (hg : gather rows ixs = .ok rs)
    {k i : ℕ} {s : Sec K} {r : Transect K} (hk : ixs[k]? = some i) (hs : ss[k]? = some s) (hr : rows[i]? = some r) :
    l'[i]? = some (fin 0 + f s r) := by
  unfold addCol at h
  split at h
  · cases h
  · obtain ⟨h1, h2, h3, h4, h5⟩ := scatter_inv h hn
    have hrs : rs[k]? = some r := by rw [gather_getElem? hg, hk]; exact hr
    rw [h4 k i (f s r) hk (by rw [List.getElem?_zipWith, hs, hrs])]
    have := h3 i (List.mem_of_getElem? hk)
    rw [List.getElem?_replicate, if_pos (by simpa using this)]
    rfl

theorem addCol_total {n : ℕ} {ixs : List ℕ} {ss : List (Sec K)} {rows rs : List (Transect K)} (f : Sec K → Transect K → Fl K)
    (hl : ss.length = ixs.length) (hg : gather rows ixs = .ok rs) (hb : ∀ i ∈ ixs, i < n) :
    ∃ l', addCol (List.replicate n (fin 0)) ixs ss rs f = .ok l' := by
  unfold addCol
  rw [if_neg (by simpa using hl)]
  apply scatter_total
  · have := gather_length hg
    simp [hl, this]
  · simpa using hb

/-- Volume change rates of the sections, from bedload `c` through the reaches. -/
def netIn (c : List K) : List K := List.zipWith (· - ·) c c.tail

theorem netIn_sum (c : List K) (a b : K) (h0 : c.head? = some a) (h1 : c.getLast? = some b) : (netIn c).sum = a - b := by
  induction c generalizing a with
  | nil => cases h0
  | cons x t ih =>
    cases h0
    cases t with
    | nil => simp at h1; subst h1; simp [netIn]
    | cons y t =>
      have : (netIn (y :: t)).sum = y - b := ih y rfl (by simpa using h1)
      have e : netIn (x :: y :: t) = (x - y) :: netIn (y :: t) := rfl
      rw [e, List.sum_cons, this]; ring

theorem netIn_getElem? (c : List K) (j : ℕ) {x y : K} (h1 : c[j]? = some x) (h2 : c[j+1]? = some y) : (netIn c)[j]? = some (x - y) := by
  unfold netIn
  rw [List.getElem?_zipWith, h1, List.getElem?_tail, h2]

theorem netIn_length (c : List K) : (netIn c).length = c.length - 1 := by simp [netIn]

/-- The flags of the assembled channel below the first section. -/
def secFlags (Closed : Bool) (nr no nl : ℕ) : List ℕ :=
  List.replicate nr 0 ++ List.replicate no 1 ++ (if Closed then [] else List.replicate nl 2 ++ [3])

/-- The list of sections: their flags and volume rates. -/
theorem sections_ok (pp : PhysPars K) (a : MorIn K) (bs : List K) (nr no nl : ℕ)
    (hf : a.ChanFlag = 0 :: secFlags a.Closed nr no nl ++ (if a.Closed then [] else [4]))
    (hb : a.Bedload = bs.map fin) (hbl : bs.length + 1 = a.ChanFlag.length)
    (hw : a.ChanWidth.length = a.ChanFlag.length) (hd : a.ChanDep.length = a.ChanFlag.length) :
    ∃ ss, sections pp a = .ok ss ∧ ss.map (·.flag) = secFlags a.Closed nr no nl ∧
      ss.map (·.dvol) = (netIn (if a.Closed then bs ++ [0] else bs)).map fin := by
  unfold sections
  cases hc : a.Closed with
  | true =>
    rw [hc] at hf
    simp only [if_true, List.append_nil] at hf
    have e : List.zipWith (· - ·) a.Bedload (a.Bedload.tail ++ [fin 0]) = (netIn (bs ++ [0])).map fin := by
      rw [hb]
      clear hb hbl
      cases bs with
      | nil => rfl
      | cons x t =>
        have : netIn (x :: t ++ [0]) = List.zipWith (· - ·) (x :: t) (t ++ [0]) := by
          unfold netIn
          simp only [List.cons_append, List.tail_cons]
          have := List.zipWith_append (f := fun a b : K => a - b) (l₁ := x :: t) (l₁' := [0]) (l₂ := t ++ [0]) (l₂' := []) (by simp)
          simpa using this
        rw [this, List.map_zipWith]
        have e2 : (List.map fin (x :: t)).tail ++ [fin (0 : K)] = List.map fin (t ++ [0]) := by simp
        rw [e2, List.zipWith_map]
        simp
    simp only [if_true, e]
    have hl1 : (netIn (bs ++ [0])).length = (secFlags true nr no nl).length := by
      rw [netIn_length, List.length_append]
      rw [hf] at hbl; simp at hbl ⊢; omega
    have hft : a.ChanFlag.tail = secFlags true nr no nl := by rw [hf]; rfl
    have hno : ¬ (a.ChanWidth.length ≠ a.ChanDep.length ∨
        (List.zipWith (fun w d => fin pp.WidthDepthRatio <? w / d) a.ChanWidth.tail a.ChanDep.tail).length ≠ ((netIn (bs ++ [0])).map (fin : K → Fl K)).length ∨
        a.ChanFlag.tail.length ≠ ((netIn (bs ++ [0])).map (fin : K → Fl K)).length) := by
      rw [hft]
      have : a.ChanFlag.length = (secFlags true nr no nl).length + 1 := by rw [hf]; rfl
      simp [hw, hd, hl1, this]
    rw [if_neg hno]
    refine ⟨_, rfl, ?_, ?_⟩
    · rw [hft, List.map_zipWith]
      have h1 : (List.zipWith (fun w d => fin pp.WidthDepthRatio <? w / d) a.ChanWidth.tail a.ChanDep.tail).length = (secFlags true nr no nl).length := by
        have : a.ChanFlag.length = (secFlags true nr no nl).length + 1 := by rw [hf]; rfl
        simp [hw, hd, this]
      apply List.ext_getElem
      · simp only [List.length_zipWith, List.length_map, List.length_zip] at h1 ⊢
        omega
      · intro i _ _; simp
    · rw [List.map_zipWith]
      apply List.ext_getElem
      · have : a.ChanFlag.length = (secFlags true nr no nl).length + 1 := by rw [hf]; rfl
        simp [hl1, hw, hd, hft]
        omega
      · intro i _ _; simp
  | false =>
    rw [hc] at hf
    simp only [Bool.false_eq_true, if_false] at hf
    have e : List.zipWith (· - ·) a.Bedload.dropLast a.Bedload.tail = (netIn bs).map fin := by
      rw [hb]
      unfold netIn
      rw [List.map_zipWith, ← List.map_tail, List.zipWith_map_right]
      have : (List.map (fin : K → Fl K) bs).dropLast = (bs.dropLast).map fin := by simp [List.map_dropLast]
      rw [this, List.zipWith_map_left]
      cases bs with
      | nil => rfl
      | cons x t =>
        apply List.ext_getElem
        · simp
        · intro i h1 h2
          simp [List.getElem_dropLast]
    simp only [Bool.false_eq_true, if_false, e]
    have hl1 : (netIn bs).length = (secFlags false nr no nl).length := by
      rw [netIn_length]
      rw [hf] at hbl; simp at hbl ⊢; omega
    have hft : a.ChanFlag.tail.dropLast = secFlags false nr no nl := by rw [hf]; simp
    have hfl : a.ChanFlag.length = (secFlags false nr no nl).length + 2 := by rw [hf]; simp
    have h1 : (List.zipWith (fun w d => fin pp.WidthDepthRatio <? w / d) a.ChanWidth.tail.dropLast a.ChanDep.tail.dropLast).length = (secFlags false nr no nl).length := by
      simp [hw, hd, hfl]
    have hno : ¬ (a.ChanWidth.length ≠ a.ChanDep.length ∨
        (List.zipWith (fun w d => fin pp.WidthDepthRatio <? w / d) a.ChanWidth.tail.dropLast a.ChanDep.tail.dropLast).length ≠ ((netIn bs).map (fin : K → Fl K)).length ∨
        a.ChanFlag.tail.dropLast.length ≠ ((netIn bs).map (fin : K → Fl K)).length) := by
      rw [hft, h1]
      simp [hw, hd, hl1]
    rw [if_neg hno]
    refine ⟨_, rfl, ?_, ?_⟩
    · rw [hft, List.map_zipWith]
      apply List.ext_getElem
      · simp only [List.length_zipWith, List.length_map, List.length_zip] at h1 ⊢
        omega
      · intro i _ _; simp
    · rw [List.map_zipWith, hft]
      apply List.ext_getElem
      · simp only [List.length_zipWith, List.length_map, List.length_zip] at h1 ⊢
        omega
      · intro i _ _; simp

/-- Selecting by flag from sections whose flags come in blocks. -/
theorem sec_blocks {ss : List (Sec K)} {C : Bool} {nr no nl : ℕ} (h : ss.map (·.flag) = secFlags C nr no nl) :
    (∀ k, k < nr → (ss.filter (·.flag == 0))[k]? = ss[k]?) ∧ (ss.filter (·.flag == 0)).length = nr ∧
    (∀ k, k < no → (ss.filter (·.flag == 1))[k]? = ss[nr + k]?) ∧ (ss.filter (·.flag == 1)).length = no ∧
    (C = false → (∀ k, k < nl → (ss.filter (·.flag == 2))[k]? = ss[nr + no + k]?) ∧ (ss.filter (·.flag == 2)).length = nl ∧
      ∃ e, ss.filter (·.flag == 3) = [e] ∧ ss[nr + no + nl]? = some e) := by
  have key : ∀ (l : List (Sec K)) (n c d : ℕ), l.map (·.flag) = List.replicate n c → l.filter (·.flag == d) = if c = d then l else [] := by
    intro l n c d hl
    have hm : ∀ s ∈ l, s.flag = c := by
      intro s hs
      have : s.flag ∈ l.map (·.flag) := List.mem_map.mpr ⟨s, hs, rfl⟩
      rw [hl] at this
      exact (List.mem_replicate.mp this).2
    split
    · rename_i e; subst e
      apply List.filter_eq_self.mpr
      intro s hs; simp [hm s hs]
    · rename_i e
      apply List.filter_eq_nil_iff.mpr
      intro s hs; simp [hm s hs, e]
  unfold secFlags at h
  obtain ⟨l01, l2, rfl, h01, h2⟩ := List.map_eq_append_iff.mp h
  obtain ⟨l0, l1, rfl, h0, h1⟩ := List.map_eq_append_iff.mp h01
  have len0 : l0.length = nr := by have := congrArg List.length h0; simpa using this
  have len1 : l1.length = no := by have := congrArg List.length h1; simpa using this
  cases C with
  | true =>
    simp only [if_true, List.map_eq_nil_iff] at h2
    subst h2
    refine ⟨?_, ?_, ?_, ?_, fun h => by cases h⟩
    · intro k hk
      simp only [List.append_nil, List.filter_append, key _ _ _ _ h0, key _ _ _ _ h1, if_true, Nat.one_ne_zero, if_false]
      rw [List.getElem?_append_left (by omega)]
    · simp [List.filter_append, key _ _ _ _ h0, key _ _ _ _ h1, len0]
    · intro k hk
      simp only [List.append_nil, List.filter_append, key _ _ _ _ h0, key _ _ _ _ h1, if_true, Nat.zero_ne_one, if_false, List.nil_append]
      rw [List.getElem?_append_right (by omega)]
      congr 1; omega
    · simp [List.filter_append, key _ _ _ _ h0, key _ _ _ _ h1, len1]
  | false =>
    simp only [Bool.false_eq_true, if_false] at h2
    obtain ⟨l2, l3, rfl, h2, h3⟩ := List.map_eq_append_iff.mp h2
    have len2 : l2.length = nl := by have := congrArg List.length h2; simpa using this
    have h3' : l3.map (·.flag) = List.replicate 1 3 := h3
    have len3 : l3.length = 1 := by have := congrArg List.length h3; simpa using this
    have F : ∀ d, (l0 ++ l1 ++ (l2 ++ l3)).filter (·.flag == d) =
        (if 0 = d then l0 else []) ++ (if 1 = d then l1 else []) ++ ((if 2 = d then l2 else []) ++ (if 3 = d then l3 else [])) := by
      intro d
      simp only [List.filter_append, key _ _ _ _ h0, key _ _ _ _ h1, key _ _ _ _ h2, key _ _ _ _ h3']
    refine ⟨?_, ?_, ?_, ?_, fun _ => ⟨?_, ?_, ?_⟩⟩
    · intro k hk
      rw [F]
      simp only [if_true, Nat.one_ne_zero, if_false, List.append_nil, (by decide : ¬ (2 : ℕ) = 0), (by decide : ¬ (3 : ℕ) = 0)]
      rw [List.append_assoc, List.getElem?_append_left (by omega)]
    · rw [F]; simp [len0]
    · intro k hk
      rw [F]
      simp only [if_true, Nat.zero_ne_one, if_false, List.append_nil, List.nil_append, (by decide : ¬ (2 : ℕ) = 1), (by decide : ¬ (3 : ℕ) = 1)]
      rw [List.append_assoc, List.getElem?_append_right (by omega), List.getElem?_append_left (by omega)]
      congr 1; omega
    · rw [F]; simp [len1]
    · intro k hk
      rw [F]
      simp only [if_true, if_false, List.append_nil, List.nil_append, (by decide : ¬ (0 : ℕ) = 2), (by decide : ¬ (1 : ℕ) = 2),
        (by decide : ¬ (3 : ℕ) = 2)]
      rw [List.getElem?_append_right (by simp; omega), List.getElem?_append_left (by simp; omega)]
      congr 1; simp; omega
    · rw [F]; simp [len2]
    · obtain ⟨e, rfl⟩ := List.length_eq_one_iff.mp len3
      refine ⟨e, by rw [F]; simp, ?_⟩
      rw [List.getElem?_append_right (by simp; omega), List.getElem?_append_right (by simp; omega)]
      simp
      have : nr + no + nl - (l0.length + l1.length) - l2.length = 0 := by omega
      rw [this]; rfl

end Verif.Model
