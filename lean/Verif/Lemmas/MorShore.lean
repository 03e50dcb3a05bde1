import Verif.Lemmas.MorLimit
import Mathlib.Algebra.BigOperators.Fin
import Mathlib.Algebra.BigOperators.Intervals

set_option autoImplicit false
set_option linter.unusedSectionVars false

/-! # Shoreline rates of `updateMorphology` (mor.py 130-172) -/

namespace Verif.Model
open Verif Verif.Spec Fl

variable {K : Type} [Field K] [LinearOrder K] [IsStrictOrderedRing K]

/-- The hat function spreading the outlet bedload, per unit bedload. -/
def hat (Dx S d : K) : K := Dx / S * max (1 - |d| / S) 0

theorem river_y0 {pp : PhysPars K} {a : MorIn K} {cells : List (Cell K)} {R : Rates K} (h : riverRates pp a cells = .ok R) :
    (a.Closed = true → R.y0 = List.replicate a.rows.length (fin 0)) ∧
    (a.Closed = false → ∃ bl, a.Bedload.getLast? = some bl ∧ R.y0 = cells.map (fun c => toShore pp a bl c / (c.sfh * fin a.Dx))) := by
  unfold riverRates at h
  simp only [bind_ok] at h
  obtain ⟨ss, _, onr, _, z3, _, y3, _, y4, _, h⟩ := h
  split at h
  · rename_i hc
    cases h
    exact ⟨fun _ => rfl, fun h => (by rw [hc] at h; cases h)⟩
  · rename_i hc
    simp only [bind_ok, pyGet_last] at h
    obtain ⟨_, _, _, _, _, _, _, _, _, _, bl, hbl, h⟩ := h
    cases h
    exact ⟨fun h => absurd h hc, fun _ => ⟨bl, hbl, rfl⟩⟩

theorem toShore_fin {pp : PhysPars K} {a : MorIn K} {c : Cell K} {b e h : K} (hS : 0 < pp.OutletSedSpreadDist) (hD : 0 < a.Dx) (hh : 0 < h)
    (he : a.EndX1 = fin e) (hs : c.sfh = fin h) :
    toShore pp a (fin b) c / (c.sfh * fin a.Dx) = fin (b * hat a.Dx pp.OutletSedSpreadDist (c.t.x - e) / (h * a.Dx)) := by
  have hne : h * a.Dx ≠ 0 := by positivity
  unfold toShore hat
  rw [he, hs]
  simp only [sub_fin, abs_fin, mul_fin, div_fin _ _ hS.ne', npmax_fin, div_fin _ _ hne]
  congr 1
  field_simp

/-- Removal of sediment beyond the mouth (mor.py 144) as volume rate at transect `i`. -/
def mouthLoss (Closed : Bool) (rb i : ℕ) (L : K) : K := if Closed = false ∧ i = rb ∧ 0 < L then L else 0

/-- Bedload delivered to the shore at transect `i`. -/
def delivered (Closed : Bool) (b Dx S d : K) : K := if Closed then 0 else b * hat Dx S d

/-- Shoreline rate of an interior transect as a volume balance. -/
theorem allRates_y0 {pp : PhysPars K} {a : MorIn K} {rb : ℕ} {cells cells' : List (Cell K)} {R : Rates K} (hc : cells.length = a.rows.length)
    (h : allRates pp a rb cells = .ok (R, cells')) (hS : 0 < pp.OutletSedSpreadDist) (hD : 0 < a.Dx)
    {i : ℕ} {c : Cell K} {hh l0 l1 s b e L : K} (h0 : 0 < i) (h1 : i + 1 < cells.length) (hi : cells[i]? = some c) (hs : c.sfh = fin hh) (hp : 0 < hh)
    (hl0 : a.LST[i-1]? = some (fin l0)) (hl1 : a.LST[i]? = some (fin l1)) (hcs : a.CST[i]? = some (fin s))
    (hb : a.Closed = false → a.Bedload.getLast? = some (fin b) ∧ a.EndX1 = fin e ∧ a.LST[prevIx a.LST.length rb]? = some (fin L)) :
    R.y0[i]? = some (fin ((delivered a.Closed b a.Dx pp.OutletSedSpreadDist (c.t.x - e) + l0 - l1 - mouthLoss a.Closed rb i L) / (hh * a.Dx) - s / hh)) := by
  have hne : hh * a.Dx ≠ 0 := by positivity
  unfold allRates at h
  simp only [bind_ok, pure_ok] at h
  obtain ⟨R1, g1, ⟨R2, c2⟩, g2, R3, g3, he⟩ := h
  cases he
  obtain ⟨q1, q2⟩ := river_y0 g1
  -- after the river
  have s1 : R1.y0[i]? = some (fin (delivered a.Closed b a.Dx pp.OutletSedSpreadDist (c.t.x - e) / (hh * a.Dx))) := by
    cases hcl : a.Closed with
    | true =>
      rw [q1 hcl, List.getElem?_replicate, if_pos (by omega)]
      simp [delivered]
    | false =>
      obtain ⟨bl, hbl, hy⟩ := q2 hcl
      obtain ⟨b1, b2, b3⟩ := hb hcl
      rw [b1] at hbl; cases hbl
      rw [hy, List.getElem?_map, hi, Option.map_some, toShore_fin hS hD hp b2 hs]
      simp [delivered]
  -- after longshore transport
  have hint : ∀ y0, lstInterior a cells R1.y0 = .ok y0 →
      y0[i]? = some (fin ((delivered a.Closed b a.Dx pp.OutletSedSpreadDist (c.t.x - e) + l0 - l1) / (hh * a.Dx))) := by
    intro y0 hy
    unfold lstInterior at hy
    simp only at hy
    split at hy
    · cases hy
    · cases hy
      have hz : (R1.y0.zip cells)[i]? = some (fin (delivered a.Closed b a.Dx pp.OutletSedSpreadDist (c.t.x - e) / (hh * a.Dx)), c) := by
        rw [List.getElem?_zip_eq_some]; exact ⟨s1, hi⟩
      rw [List.getElem?_mapIdx, hz, Option.map_some, if_pos ⟨h0, h1⟩, hl0, hl1, hs]
      simp only [Option.getD_some, sub_fin, mul_fin, div_fin _ _ hne, add_fin]
      congr 2
      field_simp
      ring
  have s2 : R2.y0[i]? = some (fin ((delivered a.Closed b a.Dx pp.OutletSedSpreadDist (c.t.x - e) + l0 - l1 - mouthLoss a.Closed rb i L) / (hh * a.Dx))) ∧
      ∃ c', c2[i]? = some c' ∧ c'.sfh = fin hh := by
    unfold lstRates at g2
    simp only [bind_ok] at g2
    obtain ⟨y0, hy, g2⟩ := g2
    have hy := hint y0 hy
    split at g2
    · rename_i hcl
      cases g2
      refine ⟨?_, c, hi, hs⟩
      rw [hy, hcl]; simp [mouthLoss]
    · rename_i hcl
      have hcl : a.Closed = false := by simpa using hcl
      obtain ⟨b1, b2, b3⟩ := hb hcl
      simp only [bind_ok, ixGet_ok] at g2
      obtain ⟨l, hl, g2⟩ := g2
      rw [b3] at hl; cases hl
      split at g2
      · rename_i hpos
        have hpos : 0 < L := by simpa using hpos
        simp only [bind_ok, ixGet_ok] at g2
        obtain ⟨cr, hcr, g2⟩ := g2
        cases g2
        refine ⟨?_, c, hi, hs⟩
        simp only [List.getElem?_modify, hy, Option.map_eq_map, Option.map_some]
        by_cases e' : rb = i
        · subst e'
          rw [hi] at hcr; cases hcr
          rw [if_pos rfl, hs]
          simp only [mul_fin, div_fin _ _ hne, sub_fin, mouthLoss, hcl, hpos, and_self, if_true]
          congr 2
          field_simp
        · rw [if_neg e']
          have : ¬ i = rb := fun h => e' h.symm
          simp [mouthLoss, this]
      · rename_i hneg
        have hneg : ¬ 0 < L := by simpa using hneg
        simp only [bind_ok, ixGet_ok] at g2
        obtain ⟨cr, hcr, g2⟩ := g2
        cases g2
        refine ⟨?_, ?_⟩
        · rw [hy]; simp [mouthLoss, hneg]
        · simp only [List.getElem?_modify, hi, Option.map_eq_map, Option.map_some]
          split
          · exact ⟨_, rfl, hs⟩
          · exact ⟨_, rfl, hs⟩
  obtain ⟨s2, c', hc', hs'⟩ := s2
  have hlen : c2.length = cells.length := (lstRates_len rfl (riverRates_len hc g1 |> fun x => hc ▸ x) g2).2.1
  unfold cstRates at g3
  simp only at g3
  split at g3
  · cases g3
  · cases g3
    have hz : (R2.y0.zip c2)[i]? = some (_, _) := List.getElem?_zip_eq_some.mpr ⟨s2, hc'⟩
    simp only [List.getElem?_mapIdx, hz, Option.map_some, hs', hlen, if_pos (And.intro h0 h1), hcs, Option.getD_some, div_fin _ _ hp.ne', sub_fin]

/-- The rates imposed at the two ends. -/
theorem allRates_ends {pp : PhysPars K} {a : MorIn K} {rb : ℕ} {cells cells' : List (Cell K)} {R : Rates K} (hc : cells.length = a.rows.length)
    (h : allRates pp a rb cells = .ok (R, cells')) {i : ℕ} (hi : i < cells.length) (h0 : i = 0 ∨ i + 1 = cells.length) :
    R.y0[i]? = some (fin (-pp.ShorelineErosionRate / 31557600)) := by
  unfold allRates at h
  simp only [bind_ok, pure_ok] at h
  obtain ⟨R1, g1, ⟨R2, c2⟩, g2, R3, g3, he⟩ := h
  cases he
  obtain ⟨k1, k2, _⟩ := lstRates_len rfl (riverRates_len hc g1 |> fun x => hc ▸ x) g2
  unfold cstRates at g3
  simp only at g3
  split at g3
  · cases g3
  · cases g3
    have hz : (R2.y0.zip c2)[i]? = some ((R2.y0)[i]'(by rw [k1.1]; exact hi), c2[i]'(by omega)) := by
      rw [List.getElem?_zip_eq_some]
      exact ⟨List.getElem?_eq_getElem _, List.getElem?_eq_getElem _⟩
    simp only [List.getElem?_mapIdx, hz, Option.map_some]
    rw [if_neg (by omega)]
    simp only [neg_fin, div_fin _ _ (by norm_num : (31557600 : K) ≠ 0)]

/-- Widening rate and position of the outlet end after longshore transport, and what happens to the
transects themselves. -/
theorem allRates_end {pp : PhysPars K} {a : MorIn K} {rb : ℕ} {cells cells' : List (Cell K)} {R : Rates K}
    (h : allRates pp a rb cells = .ok (R, cells')) (hcl : a.Closed = false) {L z : K} (hz : a.EndElev = fin z)
    (hd : (pp.BeachTopElev - z) * pp.SpitWidth ≠ 0) (hL : a.LST[prevIx a.LST.length rb]? = some (fin L)) :
    ∃ R1, riverRates pp a cells = .ok R1 ∧ R.endW = R1.endW - fin (|L| / ((pp.BeachTopElev - z) * pp.SpitWidth)) ∧
      R.endX = (if 0 < L then R1.endX + fin (|L| / ((pp.BeachTopElev - z) * pp.SpitWidth) / 2)
        else R1.endX - fin (|L| / ((pp.BeachTopElev - z) * pp.SpitWidth) / 2)) ∧
      (0 < L → cells' = cells) ∧
      (¬ 0 < L → ∃ c, cells[prevIx cells.length rb]? = some c ∧ cells' = cells.modify (prevIx cells.length rb)
        (fun c' => { c' with t := { c'.t with y0 := c'.t.y0 + fin L / (c.sfh * fin a.Dx) } })) := by
  unfold allRates at h
  simp only [bind_ok, pure_ok] at h
  obtain ⟨R1, g1, ⟨R2, c2⟩, g2, R3, g3, he⟩ := h
  cases he
  refine ⟨R1, g1, ?_⟩
  have k : R.endW = R2.endW ∧ R.endX = R2.endX := by
    unfold cstRates at g3
    simp only at g3
    split at g3
    · cases g3
    · cases g3; exact ⟨rfl, rfl⟩
  rw [k.1, k.2]
  unfold lstRates at g2
  simp only [bind_ok] at g2
  obtain ⟨y0, hy, g2⟩ := g2
  rw [hcl] at g2
  simp only [Bool.false_eq_true, if_false, bind_ok, ixGet_ok] at g2
  obtain ⟨l, hl, g2⟩ := g2
  rw [hL] at hl; cases hl
  have hd' : (fin pp.BeachTopElev - a.EndElev) * fin pp.SpitWidth = fin ((pp.BeachTopElev - z) * pp.SpitWidth) := by
    rw [hz]; simp
  rw [hd'] at g2
  split at g2
  · rename_i hpos
    have hpos : 0 < L := by simpa using hpos
    simp only [bind_ok, ixGet_ok] at g2
    obtain ⟨cr, hcr, g2⟩ := g2
    cases g2
    simp only [div_fin _ _ hd, div_fin _ _ (two_ne_zero : (2:K) ≠ 0), abs_of_pos hpos, hpos, if_true]
    exact ⟨trivial, trivial, fun _ => trivial, fun h => absurd trivial h⟩
  · rename_i hneg
    have hneg : ¬ 0 < L := by simpa using hneg
    simp only [bind_ok, ixGet_ok] at g2
    obtain ⟨cr, hcr, g2⟩ := g2
    cases g2
    simp only [neg_fin, div_fin _ _ hd, div_fin _ _ (two_ne_zero : (2:K) ≠ 0), abs_of_nonpos (not_lt.mp hneg), hneg, if_false]
    exact ⟨trivial, trivial, fun h => h.elim, fun _ => ⟨cr, hcr, rfl⟩⟩

end Verif.Model
