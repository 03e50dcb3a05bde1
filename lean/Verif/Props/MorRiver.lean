import Verif.Lemmas.MorRiver
import Verif.Props.MorSample

set_option autoImplicit false
set_option linter.unusedSectionVars false

/-! # Property C35: bed and bank changes conserve bedload -/

namespace Verif.Props
open Verif Verif.Model Verif.Spec Fl

variable {K : Type} [Field K] [LinearOrder K] [IsStrictOrderedRing K]

/-- The channel arrays describe `nr + 1` river sections, the lagoon sections `online`, and when open the
outlet sections `outlet`, the outlet end and a dummy section (as assembled, C24), with one bedload `bs` per reach. -/
structure ChannelArrays (a : MorIn K) (bs : List K) (nr : ℕ) : Prop where
  flag : a.ChanFlag = 0 :: (List.replicate nr 0 ++ List.replicate a.online.length 1 ++
    (if a.Closed then [] else List.replicate a.outlet.length 2 ++ [3])) ++ (if a.Closed then [] else [4])
  width : a.ChanWidth.length = a.ChanFlag.length
  dep : a.ChanDep.length = a.ChanFlag.length
  bed : a.Bedload = bs.map fin
  reaches : bs.length + 1 = a.ChanFlag.length
  onNodup : a.online.Nodup
  outNodup : a.outlet.Nodup
  onIn : ∀ i ∈ a.online, i < a.rows.length
  outIn : ∀ i ∈ a.outlet, i < a.rows.length

/-- C35: the rates are computed, and there is a list of volume rates, one per section below the first (river, lagoon,
outlet, outlet end), which add up to the bedload entering at the top minus the bedload leaving at the
bottom (nothing when closed), each being bedload in minus bedload out of that section, such that the bed and bank changes of every section store
exactly that volume, and no section both deepens and widens. -/
theorem C35_conserves (pp : PhysPars K) (a : MorIn K) (cells : List (Cell K)) (bs : List K) (nr : ℕ)
    (H : ChannelArrays a bs nr) (hne : bs ≠ []) (hD : 0 < a.Dx) (hRW : 0 < pp.RiverWidth) :
    ∃ (R : Rates K) (vs : List K), riverRates pp a cells = .ok R ∧
      vs.length = nr + a.online.length + (if a.Closed then 0 else a.outlet.length + 1) ∧
      (∀ j, j < vs.length → vs[j]? = some (bs.getD j 0 - bs.getD (j + 1) 0)) ∧
      vs.sum = bs.head hne - (if a.Closed then 0 else bs.getLast hne) ∧
      -- river sections: bed only
      (∀ k, k < nr → ∃ p v, R.riv[k]? = some (fin p) ∧ vs[k]? = some v ∧ gain p pp.RiverWidth 0 0 0 0 a.Dx = v) ∧ R.riv.length = nr ∧
      -- lagoon sections
      (∀ (k i : ℕ) (r : Transect K) (y3 y4 z3 zb : K), a.online[k]? = some i → a.rows[i]? = some r →
        r.y3 = fin y3 → r.y4 = fin y4 → r.z3 = fin z3 → (if r.y1.isnan then r.z0 else r.z2) = fin zb →
        y4 < y3 → z3 < zb → z3 < pp.BackshoreElev →
        ∃ p q s v, R.z3[i]? = some (fin p) ∧ R.y3[i]? = some (fin q) ∧ R.y4[i]? = some (fin (-s)) ∧ vs[nr + k]? = some v ∧
          gain p (y3 - y4) q (zb - z3) s (pp.BackshoreElev - z3) a.Dx = v ∧ OneWay p q s) ∧
      -- outlet sections
      (a.Closed = false → ∀ (k i : ℕ) (r : Transect K) (y1 y2 z0 z1 z2 : K), a.outlet[k]? = some i → a.rows[i]? = some r →
        r.y1 = fin y1 → r.y2 = fin y2 → r.z0 = fin z0 → r.z1 = fin z1 → r.z2 = fin z2 → y2 < y1 → z1 < z0 → z1 < z2 →
        ∃ p q s v, R.z1[i]? = some (fin p) ∧ R.y1[i]? = some (fin q) ∧ R.y2[i]? = some (fin (-s)) ∧ vs[nr + a.online.length + k]? = some v ∧
          gain p (y1 - y2) q (z0 - z1) s (z2 - z1) a.Dx = v ∧ OneWay p q s) ∧
      -- outlet end: a spit of width SpitWidth is its only bank
      (a.Closed = false → ∀ w z, a.EndWidth = fin w → a.EndElev = fin z → 0 < w → z < pp.BeachTopElev → 0 < pp.SpitWidth →
        ∃ p q v, R.endZ = fin p ∧ R.endW = fin q ∧ vs[nr + a.online.length + a.outlet.length]? = some v ∧
          p * w * a.Dx - q * (pp.BeachTopElev - z) * pp.SpitWidth = v ∧ OneWay p q 0) := by
  obtain ⟨ss, h1, h2, h3⟩ := sections_ok pp a bs nr a.online.length a.outlet.length H.flag H.bed H.reaches H.width H.dep
  obtain ⟨b1, b2, b3, b4, b5⟩ := sec_blocks h2
  obtain ⟨onRows, hon⟩ := gather_range H.onIn
  obtain ⟨outRows, hout⟩ := gather_range H.outIn
  set c := if a.Closed then bs ++ [0] else bs with hc
  set vs := netIn c with hvs
  have hvl : vs.length = ss.length := by
    have := congrArg List.length h3; simpa using this.symm
  have hsl : ss.length = nr + a.online.length + (if a.Closed then 0 else a.outlet.length + 1) := by
    have := congrArg List.length h2
    unfold secFlags at this
    cases hcl : a.Closed <;> simp [hcl] at this ⊢ <;> omega
  have hsec : ∀ (j : ℕ) s, ss[j]? = some s → ∃ v, vs[j]? = some v ∧ s.dvol = fin v := by
    intro j s hs
    have := congrArg (fun l => l[j]?) h3
    simp only [List.getElem?_map, hs, Option.map_some] at this
    cases hv : vs[j]? with
    | none => rw [hv] at this; cases this
    | some v => rw [hv] at this; simp at this; exact ⟨v, rfl, this⟩
  have hget : ∀ j, j < vs.length → vs[j]? = some (bs.getD j 0 - bs.getD (j + 1) 0) := by
    intro j hj
    rw [hvs, netIn_length] at hj
    have g1 : c[j]? = some (bs.getD j 0) := by
      rw [hc] at hj ⊢
      cases hcl : a.Closed with
      | true =>
        simp only [hcl, if_true] at hj ⊢
        simp at hj
        rw [List.getElem?_append_left hj]
        rw [List.getElem?_eq_getElem hj, List.getD_eq_getElem?_getD, List.getElem?_eq_getElem hj]; rfl
      | false =>
        simp only [hcl, Bool.false_eq_true, if_false] at hj ⊢
        have hj' : j < bs.length := by omega
        rw [List.getElem?_eq_getElem hj', List.getD_eq_getElem?_getD, List.getElem?_eq_getElem hj']; rfl
    have g2 : c[j+1]? = some (bs.getD (j+1) 0) := by
      rw [hc] at hj ⊢
      cases hcl : a.Closed with
      | true =>
        simp only [hcl, if_true] at hj ⊢
        simp at hj
        rcases Nat.lt_or_ge (j+1) bs.length with h | h
        · rw [List.getElem?_append_left h]
          rw [List.getElem?_eq_getElem h, List.getD_eq_getElem?_getD, List.getElem?_eq_getElem h]; rfl
        · rw [List.getElem?_append_right h, List.getD_eq_getElem?_getD, List.getElem?_eq_none h]
          have : j + 1 - bs.length = 0 := by omega
          rw [this]; rfl
      | false =>
        simp only [hcl, Bool.false_eq_true, if_false] at hj ⊢
        have hj' : j + 1 < bs.length := by omega
        rw [List.getElem?_eq_getElem hj', List.getD_eq_getElem?_getD, List.getElem?_eq_getElem hj']; rfl
    exact netIn_getElem? c j g1 g2
  have hsum : vs.sum = bs.head hne - (if a.Closed then 0 else bs.getLast hne) := by
    apply netIn_sum
    · rw [hc]
      cases hcl : a.Closed with
      | true =>
        simp only [if_true]
        rw [List.head?_append_of_ne_nil _ hne, List.head?_eq_some_head hne]
      | false => simp only [Bool.false_eq_true, if_false]; rw [List.head?_eq_some_head hne]
    · rw [hc]
      cases hcl : a.Closed with
      | true => simp
      | false => simp only [Bool.false_eq_true, if_false]; rw [List.getLast?_eq_some_getLast hne]
  obtain ⟨z3, hz3⟩ := addCol_total (n := a.rows.length) (fun s r => (s.bedDep - s.bedEro) / ((r.y3 - r.y4) * fin a.Dx)) b4 hon H.onIn
  obtain ⟨y3, hy3⟩ := addCol_total (n := a.rows.length) (fun s r => s.bankEro / fin 2 / ((lagBank r - r.z3) * fin a.Dx)) b4 hon H.onIn
  obtain ⟨y4, hy4⟩ := addCol_total (n := a.rows.length) (fun s r => -(s.bankEro / fin 2 / ((fin pp.BackshoreElev - r.z3) * fin a.Dx))) b4 hon H.onIn
  have hriv : ∀ k, k < nr → ∃ p v, ((ss.filter (·.flag == 0)).map (fun s => (s.bedDep - s.ero) / (fin pp.RiverWidth * fin a.Dx)))[k]? = some (fin p) ∧
      vs[k]? = some v ∧ gain p pp.RiverWidth 0 0 0 0 a.Dx = v := by
    intro k hk
    have hks : k < ss.length := by omega
    have e := b1 k hk
    rw [List.getElem?_eq_getElem hks] at e
    obtain ⟨v, hv, hd⟩ := hsec k _ (List.getElem?_eq_getElem hks)
    have hne0 : pp.RiverWidth * a.Dx ≠ 0 := by positivity
    refine ⟨v / (pp.RiverWidth * a.Dx), v, ?_, hv, ?_⟩
    · rw [List.getElem?_map, e]
      simp only [Option.map_some, bedDep_fin hd, ero_fin hd, sub_fin, mul_fin, div_fin _ _ hne0]
      congr 3
      rcases le_total v 0 with h | h
      · rw [max_eq_right h, min_eq_left h]; ring
      · rw [max_eq_left h, min_eq_right h]; ring
    · unfold gain; field_simp; ring
  have hlag : ∀ (k i : ℕ) (r : Transect K) (y3' y4' z3' zb : K), a.online[k]? = some i → a.rows[i]? = some r →
        r.y3 = fin y3' → r.y4 = fin y4' → r.z3 = fin z3' → (if r.y1.isnan then r.z0 else r.z2) = fin zb →
        y4' < y3' → z3' < zb → z3' < pp.BackshoreElev →
        ∃ p q s v, z3[i]? = some (fin p) ∧ y3[i]? = some (fin q) ∧ y4[i]? = some (fin (-s)) ∧ vs[nr + k]? = some v ∧
          gain p (y3' - y4') q (zb - z3') s (pp.BackshoreElev - z3') a.Dx = v ∧ OneWay p q s := by
    intro k i r y3' y4' z3' zb hk hr e3 e4 ez eb l1 l2 l3
    have hkl := (List.getElem?_eq_some_iff.mp hk).1
    have hks : nr + k < ss.length := by omega
    have e := b3 k hkl
    rw [List.getElem?_eq_getElem hks] at e
    obtain ⟨v, hv, hd⟩ := hsec _ _ (List.getElem?_eq_getElem hks)
    obtain ⟨p, q, s, g1, g2, g3, g4, g5⟩ := section_rates hd (w := y3' - y4') (h1 := zb - z3') (h2 := pp.BackshoreElev - z3')
      (by linarith) (by linarith) (by linarith) hD
    refine ⟨p, q, s, v, ?_, ?_, ?_, hv, g4, g5⟩
    · rw [addCol_at hz3 H.onNodup hon hk e hr, e3, e4, sub_fin, g1]; simp
    · have : lagBank r = fin zb := eb
      rw [addCol_at hy3 H.onNodup hon hk e hr, this, ez, sub_fin, g2]; simp
    · rw [addCol_at hy4 H.onNodup hon hk e hr, ez, sub_fin, g3]; simp
  cases hcl : a.Closed with
  | true =>
    refine ⟨⟨List.replicate a.rows.length (fin 0), List.replicate a.rows.length (fin 0), List.replicate a.rows.length (fin 0), y3, y4,
      List.replicate a.rows.length (fin 0), List.replicate a.rows.length (fin 0), z3,
      (ss.filter (·.flag == 0)).map (fun s => (s.bedDep - s.ero) / (fin pp.RiverWidth * fin a.Dx)), fin 0, fin 0, fin 0⟩, vs, ?_, ?_, hget, ?_, hriv, ?_, hlag, ?_, ?_⟩
    · unfold riverRates
      simp only [bind_ok]
      exact ⟨ss, h1, onRows, hon, z3, hz3, y3, hy3, y4, hy4, by rw [hcl]; rfl⟩
    · rw [hvl, hsl, hcl]
    · rw [hsum, hcl]
    · rw [List.length_map, b2]
    · intro h; cases h
    · intro h; cases h
  | false =>
    obtain ⟨b6, b7, e, he, hes⟩ := b5 hcl
    obtain ⟨z1, hz1⟩ := addCol_total (n := a.rows.length) (fun s r => (s.bedDep - s.bedEro) / ((r.y1 - r.y2) * fin a.Dx)) b7 hout H.outIn
    obtain ⟨y1, hy1⟩ := addCol_total (n := a.rows.length) (fun s r => s.bankEro / fin 2 / ((r.z0 - r.z1) * fin a.Dx)) b7 hout H.outIn
    obtain ⟨y2, hy2⟩ := addCol_total (n := a.rows.length) (fun s r => -(s.bankEro / fin 2 / ((r.z2 - r.z1) * fin a.Dx))) b7 hout H.outIn
    have hbl : a.Bedload.getLast? = some (fin (bs.getLast hne)) := by
      rw [H.bed, List.getLast?_map, List.getLast?_eq_some_getLast hne]; rfl
    rw [hcl] at hsl
    simp only [Bool.false_eq_true, if_false] at hsl
    refine ⟨⟨cells.map (fun c => toShore pp a (fin (bs.getLast hne)) c / (c.sfh * fin a.Dx)), y1, y2, y3, y4,
      List.replicate a.rows.length (fin 0), z1, z3,
      (ss.filter (·.flag == 0)).map (fun s => (s.bedDep - s.ero) / (fin pp.RiverWidth * fin a.Dx)),
      e.bankEro / ((fin pp.BeachTopElev - a.EndElev) * fin pp.SpitWidth), (e.bedDep - e.bedEro) / (a.EndWidth * fin a.Dx),
      if a.EndX0 <? a.EndX1 then e.bankEro / ((fin pp.BeachTopElev - a.EndElev) * fin pp.SpitWidth) / fin 2 * fin pp.OutletBankEroFac
        else if a.EndX1 <? a.EndX0 then -(e.bankEro / ((fin pp.BeachTopElev - a.EndElev) * fin pp.SpitWidth) / fin 2 * fin pp.OutletBankEroFac)
        else fin 0⟩, vs, ?_, ?_, hget, ?_, ?_, ?_, ?_, ?_, ?_⟩
    · unfold riverRates
      simp only [bind_ok]
      exact ⟨ss, h1, onRows, hon, z3, hz3, y3, hy3, y4, hy4, by
        rw [hcl]
        exact bind_ok.mpr ⟨outRows, hout, bind_ok.mpr ⟨z1, hz1, bind_ok.mpr ⟨y1, hy1, bind_ok.mpr ⟨y2, hy2, bind_ok.mpr ⟨e, by rw [he],
          bind_ok.mpr ⟨_, pyGet_last.mpr hbl, rfl⟩⟩⟩⟩⟩⟩⟩
    · rw [hvl, hsl]; rfl
    · rw [hsum, hcl]
    · exact hriv
    · rw [List.length_map, b2]
    · exact hlag
    · intro _ k i r y1' y2' z0' z1' z2' hk hr e1 e2 ez0 ez1 ez2 l1 l2 l3
      have hkl := (List.getElem?_eq_some_iff.mp hk).1
      have hks : nr + a.online.length + k < ss.length := by omega
      have e := b6 k hkl
      rw [List.getElem?_eq_getElem hks] at e
      obtain ⟨v, hv, hd⟩ := hsec _ _ (List.getElem?_eq_getElem hks)
      obtain ⟨p, q, s, g1, g2, g3, g4, g5⟩ := section_rates hd (w := y1' - y2') (h1 := z0' - z1') (h2 := z2' - z1')
        (by linarith) (by linarith) (by linarith) hD
      refine ⟨p, q, s, v, ?_, ?_, ?_, hv, g4, g5⟩
      · rw [addCol_at hz1 H.outNodup hout hk e hr, e1, e2, sub_fin, g1]; simp
      · rw [addCol_at hy1 H.outNodup hout hk e hr, ez0, ez1, sub_fin, g2]; simp
      · rw [addCol_at hy2 H.outNodup hout hk e hr, ez1, ez2, sub_fin, g3]; simp
    · intro _ w z hw hz w0 z0 sp0
      obtain ⟨v, hv, hd⟩ := hsec _ _ hes
      obtain ⟨b, k, e1, e2, hb, hk, e3, e4, e5, e6⟩ := ero_split hd
      have hwD : w * a.Dx ≠ 0 := by positivity
      have hz' : 0 < pp.BeachTopElev - z := by linarith
      have hzs : (pp.BeachTopElev - z) * pp.SpitWidth ≠ 0 := by positivity
      refine ⟨(max v 0 - b) / (w * a.Dx), k / ((pp.BeachTopElev - z) * pp.SpitWidth), v, ?_, ?_, hv, ?_, ?_, le_refl _, ?_, ?_⟩
      · simp only [bedDep_fin hd, e1, hw, sub_fin, mul_fin, div_fin _ _ hwD]
      · simp only [e2, hz, sub_fin, mul_fin, div_fin _ _ hzs]
      · refine Eq.trans ?_ e3
        generalize max v 0 = u
        field_simp
      · positivity
      · intro hneg
        have hk0 : k = 0 := by
          rcases e4 with h | h
          · exfalso
            rw [h, sub_zero] at hneg
            have : 0 ≤ max v 0 / (w * a.Dx) := div_nonneg (le_max_right _ _) (by positivity)
            linarith
          · exact h
        subst hk0; simp
      · intro hpos
        have hk0 : k ≠ 0 := by rintro rfl; simp at hpos
        rw [e4.resolve_right hk0, e5.resolve_left hk0]; simp

/-- Concrete cases for C35: an open and a closed channel. -/
example : ChannelArrays moIn [1/100, 1/100, 1/200, 1/100, 1/100, 1/200] 1 :=
  ⟨by decide +kernel, by decide +kernel, by decide +kernel, by decide +kernel, by decide +kernel, by decide +kernel, by decide +kernel,
    by decide +kernel, by decide +kernel⟩

example : ChannelArrays moClosed [1/100, 1/100, 1/200, 1/100, 0] 1 :=
  ⟨by decide +kernel, by decide +kernel, by decide +kernel, by decide +kernel, by decide +kernel, by decide +kernel, by decide +kernel,
    by decide +kernel, by decide +kernel⟩

/-- In the open case the third section fills, the fourth scours and the outlet end fills. -/
example : okAnd (riverRates moPP moIn (moIn.rows.mapIdx (mkCell moPP moIn))) (fun R =>
    (fin 0 <? (R.z3.getD 3 nan)) && ((R.z3.getD 4 nan <? fin 0) || (fin 0 <? R.y3.getD 4 nan)) && (fin 0 <? R.endZ)) = true := by
  decide +kernel

end Verif.Props
