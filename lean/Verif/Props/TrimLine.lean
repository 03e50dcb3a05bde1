import Verif.Lemmas.TrimLine
import Mathlib.Data.Rat.Defs
import Mathlib.Algebra.Order.Ring.Rat
import Mathlib.Tactic.NormNum

set_option autoImplicit false
set_option linter.unusedSectionVars false

/-! # C98, C99: trimming a line -/

namespace Verif.Props
open Verif Fl Model Spec

variable {K : Type} [Field K] [LinearOrder K] [IsStrictOrderedRing K]

def xsOf (l : List (K × K)) : List (Fl K) := l.map (fun a => fin a.1)
def ysOf (l : List (K × K)) : List (Fl K) := l.map (fun a => fin a.2)

theorem on_line_trans {a b a' d : K × K} (h1 : OnLine a b a') (h2 : OnLine a' b d) : OnLine a b d := by
  obtain ⟨n1, e1⟩ := h1
  obtain ⟨n2, e2⟩ := h2
  refine ⟨n1, ?_⟩
  have hw : a'.1 - b.1 ≠ 0 ∨ a'.2 - b.2 ≠ 0 := by
    by_contra hc
    push Not at hc
    exact n2 (Prod.ext (sub_eq_zero.mp hc.1) (sub_eq_zero.mp hc.2))
  have k1 : (a'.1 - b.1) * (a.2 - b.2) = (a'.2 - b.2) * (a.1 - b.1) := by linear_combination -e1
  have k2 : (d.1 - b.1) * (a'.2 - b.2) = (d.2 - b.2) * (a'.1 - b.1) := by linear_combination -e2
  have k3 : (d.1 - b.1) * (a.2 - b.2) = (d.2 - b.2) * (a.1 - b.1) := by
    rcases hw with hw | hw
    · apply mul_right_cancel₀ hw
      linear_combination (d.1 - b.1) * k1 + (a.1 - b.1) * k2
    · apply mul_right_cancel₀ hw
      linear_combination (d.2 - b.2) * k1 + (a.2 - b.2) * k2
  linear_combination -k3

/-- C98: if the line returned by `trimLine` has numbers as coordinates of its ends, then the first node lies on the start trim
line and on the straight line through the two first nodes given, the last node on the end trim line and on the straight line
through the two last nodes given, and the other nodes are unchanged. -/
theorem C98_trimmed {fuel : ℕ} {ln : List (K × K)} {xs sy ey : List K} (hsy : sy.length = xs.length) (hey : ey.length = xs.length)
    (hinc : xs.Pairwise (· < ·)) {lx ly : List (Fl K)}
    (h : trimLine fuel (xsOf ln) (ysOf ln) (xs.map fin) (sy.map fin) (ey.map fin) = .ok (some (lx, ly))) {u v : K}
    (hu : lx[0]? = some (fin u)) (hv : lx.getLast? = some (fin v)) :
    ∃ ln' : List (K × K), lx = xsOf ln' ∧ ly = ysOf ln' ∧ ln'.length = ln.length ∧
      (∀ i, 0 < i → i + 1 < ln.length → ln'[i]? = ln[i]?) ∧
      ∃ a b c d a' d', ln[0]? = some a ∧ ln[1]? = some b ∧ ln[ln.length - 2]? = some c ∧ ln[ln.length - 1]? = some d ∧
        ln'[0]? = some a' ∧ ln'[ln.length - 1]? = some d' ∧
        OnLine a b a' ∧ OnGraph (xs.zip sy) a' ∧ OnLine c d d' ∧ OnGraph (xs.zip ey) d' := by
  unfold trimLine at h
  simp only [bind_ok] at h
  obtain ⟨xa, e1, seg, _, xb, e2, ya, e3, yb, e4, r, e5, h⟩ := h
  match ln, e1, e2, e3, e4 with
  | [], e1, _, _, _ => cases e1
  | [_], _, e2, _, _ => cases e2
  | a :: b :: rest, e1, e2, e3, e4 =>
    cases e1; cases e2; cases e3; cases e4
    match r, h with
    | none, h => cases h
    | some (x, y), h =>
      simp only [bind_ok] at h
      obtain ⟨xd, f1, seg2, _, xc, f2, yc, f3, yd, f4, r, f5, h⟩ := h
      match r, h with
      | none, h => cases h
      | some (x2, y2), h =>
        rw [pure_ok] at h
        obtain ⟨hlx, hly⟩ := Prod.mk.inj (Option.some.inj h)
        have hlen : ((xsOf (a :: b :: rest)).set 0 x).length = rest.length + 2 := by simp [xsOf]
        have hlen' : ((ysOf (a :: b :: rest)).set 0 y).length = rest.length + 2 := by simp [ysOf]
        rw [hlen] at hlx
        rw [hlen'] at hly
        subst hlx hly
        have hx : x = fin u := by
          rw [List.getElem?_set_ne (by omega)] at hu
          simpa [xsOf] using hu
        have hx2 : x2 = fin v := by
          rw [List.getLast?_eq_getElem?, List.length_set, hlen, List.getElem?_set_self (by rw [hlen]; omega)] at hv
          exact Option.some.inj hv
        obtain ⟨a', ea1, ea2, ea3, ea4⟩ := trimSearch_inv hsy hinc e5 hx
        subst ea1 ea2
        have hset : (xsOf (a :: b :: rest)).set 0 (fin a'.1) = xsOf (a' :: b :: rest) := rfl
        have hset' : (ysOf (a :: b :: rest)).set 0 (fin a'.2) = ysOf (a' :: b :: rest) := rfl
        rw [hset] at f1 f2 ⊢
        rw [hset'] at f3 f4 ⊢
        have hne : (a' :: b :: rest).length = rest.length + 2 := rfl
        obtain ⟨d, hd⟩ : ∃ d, (a' :: b :: rest)[rest.length + 1]? = some d := ⟨_, List.getElem?_eq_getElem (by rw [hne]; omega)⟩
        obtain ⟨c, hc⟩ : ∃ c, (a' :: b :: rest)[rest.length]? = some c := ⟨_, List.getElem?_eq_getElem (by rw [hne]; omega)⟩
        have gx : ∀ (l : List (K × K)) (i : ℕ) (w : K × K), l[i]? = some w → (xsOf l)[i]? = some (fin w.1) := by
          intro l i w hw; simp [xsOf, hw]
        have gy : ∀ (l : List (K × K)) (i : ℕ) (w : K × K), l[i]? = some w → (ysOf l)[i]? = some (fin w.2) := by
          intro l i w hw; simp [ysOf, hw]
        have g1 : xd = fin d.1 := by
          obtain ⟨k, hk, hk2⟩ := pyGet_ix f1
          have : k = rest.length + 1 := by simp only [xsOf, List.length_map, hne] at hk2; omega
          rw [this, gx _ _ _ hd] at hk
          exact (Option.some.inj hk).symm
        have g2 : xc = fin c.1 := by
          obtain ⟨k, hk, hk2⟩ := pyGet_ix f2
          have : k = rest.length := by simp only [xsOf, List.length_map, hne] at hk2; omega
          rw [this, gx _ _ _ hc] at hk
          exact (Option.some.inj hk).symm
        have g3 : yc = fin c.2 := by
          obtain ⟨k, hk, hk2⟩ := pyGet_ix f3
          have : k = rest.length := by simp only [ysOf, List.length_map, hne] at hk2; omega
          rw [this, gy _ _ _ hc] at hk
          exact (Option.some.inj hk).symm
        have g4 : yd = fin d.2 := by
          obtain ⟨k, hk, hk2⟩ := pyGet_ix f4
          have : k = rest.length + 1 := by simp only [ysOf, List.length_map, hne] at hk2; omega
          rw [this, gy _ _ _ hd] at hk
          exact (Option.some.inj hk).symm
        subst g1 g2 g3 g4
        obtain ⟨d', ed1, ed2, ed3, ed4⟩ := trimSearch_inv (p := c) (q := d) hey hinc f5 hx2
        subst ed1 ed2
        have hn : ∀ w, (a :: b :: rest)[rest.length + 1]? = some w ↔ (a' :: b :: rest)[rest.length + 1]? = some w := by intro w; simp
        refine ⟨(a' :: b :: rest).set (rest.length + 1) d', ?_, ?_, by simp, ?_, a, b, (if rest.length = 0 then a else c), d, a', d', rfl, rfl, ?_, ?_, ?_, ?_, ea3, ea4, ?_, ed4⟩
        · simp [xsOf, List.map_set]
        · simp [ysOf, List.map_set]
        · intro i hi hi2
          have hi3 : i + 1 < rest.length + 2 := hi2
          rw [List.getElem?_set_ne (by omega)]
          obtain ⟨j, rfl⟩ : ∃ j, i = j + 1 := ⟨i - 1, by omega⟩
          simp
        · show (a :: b :: rest)[rest.length + 2 - 2]? = _
          split_ifs with h0
          · rw [h0]; rfl
          · rw [Nat.add_sub_cancel]
            obtain ⟨j, hj⟩ : ∃ j, rest.length = j + 1 := ⟨rest.length - 1, by omega⟩
            rw [hj] at hc ⊢
            simpa using hc
        · exact (hn d).mpr hd
        · rw [List.getElem?_set_ne (by omega)]; rfl
        · show ((a' :: b :: rest).set (rest.length + 1) d')[rest.length + 1]? = _
          rw [List.getElem?_set_self (by rw [hne]; omega)]
        · split_ifs with h0
          · have hr : rest = [] := List.length_eq_zero_iff.mp h0
            subst hr
            simp only [List.length_nil, List.getElem?_cons_zero, Option.some.injEq] at hc
            simp at hd
            subst hc hd
            exact on_line_trans ea3 ed3
          · exact ed3

/-- A line extended at its start and trimmed at its end. -/
example : trimLine 5 (xsOf [(1, 1), (1, 2), (2, 3), (3, 10)]) (ysOf [(1, 1), (1, 2), (2, 3), (3, 10)]) (([0, 2, 4] : List ℚ).map fin)
    (([0, 1, 0] : List ℚ).map fin) (([4, 4, 4] : List ℚ).map fin) = .ok (some (xsOf [(1, 1/2), (1, 2), (2, 3), (15/7, 4)], ysOf [(1, 1/2), (1, 2), (2, 3), (15/7, 4)])) := by
  decide +kernel

/-! ## C99 -/

/-- What the documentation of `trimLine` asks for (`TrimLineX` and `LineY` increasing), and that the ends of the line lie within
the extent of the trim lines. -/
structure TrimReady (ln : List (K × K)) (xs sy ey : List K) : Prop where
  nodes : 2 ≤ ln.length
  starts : sy.length = xs.length
  ends : ey.length = xs.length
  xInc : xs.Pairwise (· < ·)
  yInc : (ln.map Prod.snd).Pairwise (· < ·)
  within : ∀ a b x, xs[0]? = some a → xs.getLast? = some b → (ln[0]? = some x ∨ ln.getLast? = some x) → a < x.1 ∧ x.1 ≤ b

/-- C99 as stated. -/
def C99_stated (K : Type) [Field K] [LinearOrder K] [IsStrictOrderedRing K] : Prop :=
  ∀ (ln : List (K × K)) (xs sy ey : List K), TrimReady ln xs sy ey →
    ∃ fuel r, trimLine fuel (xsOf ln) (ysOf ln) (xs.map fin) (sy.map fin) (ey.map fin) = .ok (some r)

/-- C99 is false: for a nearly level line and a trim line that rises and falls the search goes back and forth for ever. -/
theorem C99_refuted : ¬ C99_stated ℚ := by
  intro h
  have hr : TrimReady ([(1/2, 999/200), (3/2, 1001/200)] : List (ℚ × ℚ)) [0, 1, 2] [0, 1, 0] [9, 9, 9] := by
    refine ⟨by decide, rfl, rfl, by decide +kernel, by decide +kernel, ?_⟩
    intro a b x ha hb hx
    cases ha
    cases hb
    rcases hx with hx | hx <;> cases hx <;> norm_num
  obtain ⟨fuel, r, hf⟩ := h _ _ _ _ hr
  have loop : ∀ n : ℕ, trimSearch (finP (1/2, 999/200)) (finP (3/2, 1001/200)) (([0, 1, 2] : List ℚ).map fin) (([0, 1, 0] : List ℚ).map fin) n 0 = .ok none ∧
      trimSearch (finP (1/2, 999/200)) (finP (3/2, 1001/200)) (([0, 1, 2] : List ℚ).map fin) (([0, 1, 0] : List ℚ).map fin) n 1 = .ok none := by
    intro n
    induction n with
    | zero => exact ⟨rfl, rfl⟩
    | succ n ih =>
      constructor
      · have c1 : (meetX (finP (1/2, 999/200)) (finP (3/2, 1001/200)) (fin (0:ℚ), fin 0) (fin 1, fin 1) <? fin 0) = false := by decide +kernel
        have c2 : (fin 1 <? meetX (finP (1/2, 999/200)) (finP (3/2, 1001/200)) (fin (0:ℚ), fin 0) (fin 1, fin 1)) = true := by decide +kernel
        change (if (meetX (finP (1/2, 999/200)) (finP (3/2, 1001/200)) (fin (0:ℚ), fin 0) (fin 1, fin 1) <? fin 0) then _ else if
          (fin 1 <? meetX (finP (1/2, 999/200)) (finP (3/2, 1001/200)) (fin (0:ℚ), fin 0) (fin 1, fin 1)) then _ else _) = _
        rw [c1, c2]
        exact ih.2
      · have c1 : (meetX (finP (1/2, 999/200)) (finP (3/2, 1001/200)) (fin (1:ℚ), fin 1) (fin 2, fin 0) <? fin 1) = true := by decide +kernel
        change (if (meetX (finP (1/2, 999/200)) (finP (3/2, 1001/200)) (fin (1:ℚ), fin 1) (fin 2, fin 0) <? fin 1) then _ else _) = _
        rw [c1]
        exact ih.1
  have hs : trimStart (fin (1/2 : ℚ)) (([0, 1, 2] : List ℚ).map fin) = .ok 0 := by decide +kernel
  unfold trimLine at hf
  simp only [bind_ok] at hf
  obtain ⟨xa, e1, seg, e, xb, e2, ya, e3, yb, e4, r', e5, hf⟩ := hf
  cases e1; cases e2; cases e3; cases e4
  have e' := hs.symm.trans e
  cases e'
  have e5' := (loop fuel).1.symm.trans e5
  cases e5'
  cases hf

/-- The line from `p` to `q` is steeper than the polyline `l`, and meets it. -/
structure Steep (p q : K × K) (l : List (K × K)) : Prop where
  across : (l.map (side p q)).Pairwise (· < ·)
  first : ∀ s, l[0]? = some s → side p q s ≤ 0
  last : ∀ s, l.getLast? = some s → 0 ≤ side p q s

/-- C99, the part that holds: if moreover the line has at least three nodes and its first and last segments, extended, are steeper
than the trim lines and meet them, `trimLine` ends, after at most as many rounds of each search as the trim line has points, and returns
numbers.  (Missing: lines of two nodes, of which the second search uses the node moved by the first one.) -/
theorem C99_partial {ln : List (K × K)} {xs sy ey : List K} (h : TrimReady ln xs sy ey) (h3 : 3 ≤ ln.length) {a b c d : K × K}
    (ha : ln[0]? = some a) (hb : ln[1]? = some b) (hc : ln[ln.length - 2]? = some c) (hd : ln.getLast? = some d) (hx : xs ≠ [])
    (hS : Steep a b (xs.zip sy)) (hE : Steep c d (xs.zip ey)) :
    ∃ x y x' y' : K, trimLine xs.length (xsOf ln) (ysOf ln) (xs.map fin) (sy.map fin) (ey.map fin) =
      .ok (some (((xsOf ln).set 0 (fin x)).set (ln.length - 1) (fin x'), ((ysOf ln).set 0 (fin y)).set (ln.length - 1) (fin y'))) := by
  obtain ⟨u, hu⟩ : ∃ u, xs[0]? = some u := ⟨_, List.getElem?_eq_getElem (List.length_pos_iff.mpr hx)⟩
  obtain ⟨w, hw⟩ : ∃ w, xs.getLast? = some w := ⟨_, List.getLast?_eq_some_getLast hx⟩
  have wa := h.within u w a hu hw (.inl ha)
  have wd := h.within u w d hu hw (.inr hd)
  obtain ⟨k, hk, hk2⟩ := trimStart_ok hu hw wa.1 wa.2
  obtain ⟨k', hk', hk2'⟩ := trimStart_ok hu hw wd.1 wd.2
  obtain ⟨x, y, hs⟩ := trimSearch_stops h.starts h.xInc hS.across hS.first hS.last hk2
  obtain ⟨x', y', hs'⟩ := trimSearch_stops h.ends h.xInc hE.across hE.first hE.last hk2'
  refine ⟨x, y, x', y', ?_⟩
  have gp : ∀ (l : List (Fl K)) (i : ℤ) (j : ℕ) (v : Fl K), ((0 ≤ i ∧ (j : ℤ) = i) ∨ (i < 0 ∧ (j : ℤ) = l.length + i)) → l[j]? = some v → pyGet l i = .ok v := by
    intro l i j v hij hv
    have hj := (List.getElem?_eq_some_iff.mp hv).1
    unfold pyGet
    rcases hij with ⟨h1, h2⟩ | ⟨h1, h2⟩
    · rw [if_pos h1]
      exact ixGet_ok.mpr (by rw [show i.toNat = j by omega]; exact hv)
    · rw [if_neg (by omega), if_pos (by omega)]
      exact ixGet_ok.mpr (by rw [show ((l.length : ℤ) + i).toNat = j by omega]; exact hv)
  have hd' : ln[ln.length - 1]? = some d := by rw [← List.getLast?_eq_getElem?]; exact hd
  have lx : (xsOf ln).length = ln.length := by simp [xsOf]
  have ly : (ysOf ln).length = ln.length := by simp [ysOf]
  have gx : ∀ (i : ℕ) (v : K × K), ln[i]? = some v → (xsOf ln)[i]? = some (fin v.1) := by intro i v hv; simp [xsOf, hv]
  have gy : ∀ (i : ℕ) (v : K × K), ln[i]? = some v → (ysOf ln)[i]? = some (fin v.2) := by intro i v hv; simp [ysOf, hv]
  unfold trimLine
  simp only [bind_ok]
  refine ⟨_, gp _ 0 0 _ (.inl ⟨le_refl _, rfl⟩) (gx 0 a ha), k, hk, _, gp _ 1 1 _ (.inl ⟨by decide, rfl⟩) (gx 1 b hb), _,
    gp _ 0 0 _ (.inl ⟨le_refl _, rfl⟩) (gy 0 a ha), _, gp _ 1 1 _ (.inl ⟨by decide, rfl⟩) (gy 1 b hb), _, hs, ?_⟩
  simp only [bind_ok]
  refine ⟨_, gp _ (-1) (ln.length - 1) (fin d.1) (.inr ⟨by decide, by rw [List.length_set, lx]; omega⟩) ?_, k', hk', _,
    gp _ (-2) (ln.length - 2) (fin c.1) (.inr ⟨by decide, by rw [List.length_set, lx]; omega⟩) ?_, _,
    gp _ (-2) (ln.length - 2) (fin c.2) (.inr ⟨by decide, by rw [List.length_set, ly]; omega⟩) ?_, _,
    gp _ (-1) (ln.length - 1) (fin d.2) (.inr ⟨by decide, by rw [List.length_set, ly]; omega⟩) ?_, _, hs', ?_⟩
  · rw [List.getElem?_set_ne (by omega)]; exact gx _ _ hd'
  · rw [List.getElem?_set_ne (by omega)]; exact gx _ _ hc
  · rw [List.getElem?_set_ne (by omega)]; exact gy _ _ hc
  · rw [List.getElem?_set_ne (by omega)]; exact gy _ _ hd'
  · rw [pure_ok, List.length_set, List.length_set, lx, ly]

/-- The hypotheses of `C99_partial` hold for the line trimmed above. -/
example : TrimReady ([(1, 1), (1, 2), (2, 3), (3, 10)] : List (ℚ × ℚ)) [0, 2, 4] [0, 1, 0] [4, 4, 4] ∧
    Steep ((1, 1) : ℚ × ℚ) (1, 2) [(0, 0), (2, 1), (4, 0)] ∧ Steep ((2, 3) : ℚ × ℚ) (3, 10) [(0, 4), (2, 4), (4, 4)] := by
  refine ⟨⟨by decide, rfl, rfl, by decide +kernel, by decide +kernel, ?_⟩, ⟨by decide +kernel, ?_, ?_⟩, ⟨by decide +kernel, ?_, ?_⟩⟩
  · intro a b x ha hb hx
    cases ha
    cases hb
    rcases hx with hx | hx <;> cases hx <;> norm_num
  all_goals
    intro s hs
    cases hs
    norm_num [side]

end Verif.Props
