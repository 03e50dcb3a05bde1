import Verif.Lemmas.MorShore
import Verif.Props.MorSample

set_option autoImplicit false
set_option linter.unusedSectionVars false

/-! # Property C75: sediment balance of cross-shore transport -/

namespace Verif.Props
open Verif Verif.Model Verif.Spec Fl

variable {K : Type} [Field K] [LinearOrder K] [IsStrictOrderedRing K]

/-- The same step without cross-shore transport. -/
def noCST (a : MorIn K) : MorIn K := { a with CST := a.CST.map (fun _ => fin 0) }

/-- `l` is `l0` with `d i` added at each place `i` of the first `n`. -/
def Plus (n : ℕ) (l l0 : List (Fl K)) (d : ℕ → K) : Prop := ∀ i, i < n → ∃ v, l0[i]? = some v ∧ l[i]? = some (v + fin (d i))

theorem add_fin_zero (v : Fl K) : v + fin (0 : K) = v := by
  cases v with
  | fin y => simp
  | nan => rfl
  | ninf => rfl
  | pinf => rfl

theorem sub_fin_neg (v : Fl K) (q : K) : v - fin q = v + fin (-q) := by
  cases v with
  | fin y => simp [sub_eq_add_neg]
  | nan => rfl
  | ninf => rfl
  | pinf => rfl

/-- C75: for every step with defined cross-shore transport `cs`, overwash proportions `ow`, and crest widths `cw`, back heights `bh` and shoreface heights `sf` of the
transects (all positive).  Compared with the same step without cross-shore transport only four columns of rates differ, and at every transect the crest
gains `(1 - ow) cs` by volume, the back of the barrier (towards the channel if there is one, else the lagoon) gains `ow cs`, and
the shoreface loses `cs`, the sum of the two; except that the shoreline of the two end transects is not affected. -/
theorem C75_conserves (pp : PhysPars K) (a : MorIn K) (rb : ℕ) (cells cells' cells0 : List (Cell K)) (R R0 : Rates K) (hn : cells.length = a.rows.length)
    (cs ow cw bh sf : ℕ → K) (hcs : ∀ i, i < a.rows.length → a.CST[i]? = some (fin (cs i))) (how : ∀ i, i < a.rows.length → a.OverwashProp[i]? = some (fin (ow i)))
    (hcell : ∀ (i : ℕ) c, cells[i]? = some c → c.cw = fin (cw i) ∧ c.bh = fin (bh i) ∧ c.sfh = fin (sf i))
    (hpos : ∀ i, 0 < cw i ∧ 0 < bh i ∧ 0 < sf i)
    (h : allRates pp a rb cells = .ok (R, cells')) (h0 : allRates pp (noCST a) rb cells = .ok (R0, cells0)) :
    cells' = cells0 ∧ R = { R0 with y0 := R.y0, y1 := R.y1, y3 := R.y3, z0 := R.z0 } ∧
    ∃ dy0 dback dz0 : ℕ → K, Plus a.rows.length R.y0 R0.y0 dy0 ∧ Plus a.rows.length R.z0 R0.z0 dz0 ∧
      (∀ (i : ℕ) c, cells[i]? = some c → (if c.op then ∃ v, R0.y1[i]? = some v ∧ R.y1[i]? = some (v + fin (dback i)) ∧ R.y3[i]? = R0.y3[i]?
        else ∃ v, R0.y3[i]? = some v ∧ R.y3[i]? = some (v + fin (dback i)) ∧ R.y1[i]? = R0.y1[i]?)) ∧
      (∀ i, dz0 i * cw i = (1 - ow i) * cs i) ∧ (∀ i, -dback i * bh i = ow i * cs i) ∧
      (∀ i, 0 < i → i + 1 < a.rows.length → -dy0 i * sf i = cs i ∧ -dy0 i * sf i = dz0 i * cw i + -dback i * bh i) ∧
      (∀ i, i = 0 ∨ i + 1 = a.rows.length → dy0 i = 0) := by
  unfold allRates at h h0
  simp only [bind_ok, pure_ok] at h h0
  obtain ⟨R1, g1, ⟨R2, c2⟩, g2, R3, g3, he⟩ := h
  obtain ⟨R1', g1', ⟨R2', c2'⟩, g2', R3', g3', he'⟩ := h0
  cases he; cases he'
  have e1 : R1 = R1' := ok_inj.mp (g1.symm.trans g1')
  subst e1
  have e2 : (R2, c2) = (R2', c2') := ok_inj.mp (g2.symm.trans g2')
  cases e2
  obtain ⟨k1, k2, _⟩ := lstRates_len rfl (riverRates_len hn g1 |> fun x => hn ▸ x) g2
  -- the cells keep their derived quantities
  have hkeep : ∀ (i : ℕ) c', c2[i]? = some c' → ∃ c, cells[i]? = some c ∧ c'.cw = c.cw ∧ c'.bh = c.bh ∧ c'.sfh = c.sfh ∧ c'.op = c.op := by
    intro i c' hc'
    unfold lstRates at g2
    simp only [bind_ok] at g2
    obtain ⟨y0, hy, g2⟩ := g2
    split at g2
    · cases g2; exact ⟨c', hc', rfl, rfl, rfl, rfl⟩
    · simp only [bind_ok, ixGet_ok] at g2
      obtain ⟨l, hl, g2⟩ := g2
      split at g2
      · simp only [bind_ok, ixGet_ok] at g2
        obtain ⟨cr, hcr, g2⟩ := g2
        cases g2; exact ⟨c', hc', rfl, rfl, rfl, rfl⟩
      · simp only [bind_ok, ixGet_ok] at g2
        obtain ⟨cr, hcr, g2⟩ := g2
        cases g2
        simp only [List.getElem?_modify, Option.map_eq_map, Option.map_eq_some_iff] at hc'
        obtain ⟨c0, hc0, rfl⟩ := hc'
        refine ⟨c0, hc0, ?_⟩
        split <;> exact ⟨rfl, rfl, rfl, rfl⟩
  unfold cstRates at g3 g3'
  simp only at g3 g3'
  split at g3
  · cases g3
  split at g3'
  · cases g3'
  cases g3; cases g3'
  have z0' : ∀ i, i < a.rows.length → (noCST a).CST[i]? = some (fin (0 : K)) := by
    intro i hi
    show (a.CST.map _)[i]? = _
    rw [List.getElem?_map, hcs i hi]; rfl
  have ow' : ∀ i, i < a.rows.length → (noCST a).OverwashProp[i]? = some (fin (ow i)) := how
  have at_ : ∀ (l : List (Fl K)), l.length = a.rows.length → ∀ i, i < a.rows.length → ∃ v c, l[i]? = some v ∧ c2[i]? = some c ∧ (l.zip c2)[i]? = some (v, c) ∧
      c.cw = fin (cw i) ∧ c.bh = fin (bh i) ∧ c.sfh = fin (sf i) := by
    intro l hl i hi
    have b1 : l[i]? = some (l[i]'(by omega)) := List.getElem?_eq_getElem _
    have b2 : c2[i]? = some (c2[i]'(by omega)) := List.getElem?_eq_getElem _
    obtain ⟨c, hc, q1, q2, q3, _⟩ := hkeep i _ b2
    obtain ⟨p1, p2, p3⟩ := hcell i c hc
    exact ⟨_, _, b1, b2, List.getElem?_zip_eq_some.mpr ⟨b1, b2⟩, q1.trans p1, q2.trans p2, q3.trans p3⟩
  have hlen : c2.length = a.rows.length := by omega
  refine ⟨rfl, rfl, fun i => if 0 < i ∧ i + 1 < a.rows.length then -(cs i / sf i) else 0, fun i => -(ow i * cs i / bh i), fun i => (1 - ow i) * cs i / cw i, ?_, ?_, ?_, ?_, ?_, ?_, ?_⟩
  · intro i hi
    obtain ⟨v, c, hv, hc, hz, p1, p2, p3⟩ := at_ R2.y0 (k1.1.trans hn) i hi
    have hp := (hpos i).2.2.ne'
    simp only [List.getElem?_mapIdx, hz, Option.map_some, p3, hcs i hi, z0' i hi, Option.getD_some, div_fin _ _ hp, hlen]
    split
    · refine ⟨_, rfl, ?_⟩
      rw [sub_fin_neg, sub_fin_neg, zero_div, neg_zero, add_fin_zero]
    · refine ⟨_, rfl, ?_⟩
      rw [add_fin_zero]
  · intro i hi
    obtain ⟨v, c, hv, hc, hz, p1, p2, p3⟩ := at_ R2.z0 (k1.2.2.2.2.2.1.trans hn) i hi
    have hp := (hpos i).1.ne'
    simp only [List.getElem?_mapIdx, hz, Option.map_some, p1, hcs i hi, z0' i hi, how i hi, ow' i hi, Option.getD_some, sub_fin, mul_fin, div_fin _ _ hp]
    refine ⟨_, rfl, ?_⟩
    rw [mul_zero, zero_div, add_fin_zero]
  · intro i c hc
    have hi : i < a.rows.length := by rw [← hn]; exact (List.getElem?_eq_some_iff.mp hc).1
    have hp := (hpos i).2.1.ne'
    obtain ⟨v, d, hv, hd, hz, p1, p2, p3⟩ := at_ R2.y1 (k1.2.1.trans hn) i hi
    obtain ⟨v', d', hv', hd', hz', _, _, _⟩ := at_ R2.y3 (k1.2.2.2.1.trans hn) i hi
    rw [hd] at hd'; cases hd'
    obtain ⟨c', hc', _, _, _, q4⟩ := hkeep i d hd
    rw [hc] at hc'; cases hc'
    simp only [List.getElem?_mapIdx, hz, hz', Option.map_some, p2, hcs i hi, z0' i hi, how i hi, ow' i hi, Option.getD_some, mul_fin, div_fin _ _ hp, q4]
    cases c.op with
    | true =>
      simp only [if_true]
      refine ⟨_, rfl, ?_, trivial⟩
      rw [sub_fin_neg, sub_fin_neg, mul_zero, zero_div, neg_zero, add_fin_zero]
    | false =>
      simp only [Bool.false_eq_true, if_false]
      refine ⟨_, rfl, ?_, trivial⟩
      rw [sub_fin_neg, sub_fin_neg, mul_zero, zero_div, neg_zero, add_fin_zero]
  · intro i; have := (hpos i).1.ne'; field_simp
  · intro i; have := (hpos i).2.1.ne'; field_simp
  · intro i h1 h2
    have := (hpos i).1.ne'; have := (hpos i).2.1.ne'; have := (hpos i).2.2.ne'
    simp only [h1, h2, and_self, if_true]
    constructor
    · field_simp
    · field_simp; ring
  · intro i hi
    exact if_neg (by omega)

/-- Concrete case for C75: a step with overwash at every transect. -/
def crIn : MorIn ℚ := { brIn with CST := List.replicate 9 (fin (1/1000)), OverwashProp := List.replicate 9 (fin (1/4)) }

example : okAnd (precalc moPP crIn) (fun r => okAnd (allRates moPP crIn r.2.2 r.1) (fun q => decide (q.1.z0[6]? = some (fin (3/4 * (1/1000) / 40))))) = true := by decide +kernel
example : okAnd (precalc moPP crIn) (fun r => r.1.all (fun c => (fin 0 <? c.cw) && (fin 0 <? c.bh) && (fin 0 <? c.sfh))) = true := by decide +kernel

end Verif.Props
