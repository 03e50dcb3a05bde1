import Verif.Lemmas.Budget

set_option autoImplicit false
set_option linter.unusedSectionVars false

/-! # A transect without a channel away from the outlet through a step -/

namespace Verif.Model
open Verif Fl Verif.Spec List

variable {K : Type} [Field K] [LinearOrder K] [IsStrictOrderedRing K]

/-- A transect without a channel, the shoreline seaward of the lagoon. -/
def PlainCell (c : Cell K) : Prop := Free c ∧ c.op = false

/-- A transect that will fail the checks at the end of the step. -/
def Lost (c : Cell K) : Prop := c.t.y1 = nan ∧ c.t.y2 = nan ∧ (c.t.y0 = nan ∨ c.t.y3 = nan)

/-- A plain transect has not changed (or is lost). -/
def KeepRow (c c' : Cell K) : Prop := (Lost c → Lost c') ∧ (PlainCell c → Lost c' ∨ (c'.t = c.t ∧ PlainCell c'))

theorem keepRow_refl (c : Cell K) : KeepRow c c := ⟨fun h => h, fun h => Or.inr ⟨rfl, h⟩⟩

theorem keepRow_trans (a b c : Cell K) (h1 : KeepRow a b) (h2 : KeepRow b c) : KeepRow a c := by
  refine ⟨fun h => h2.1 (h1.1 h), fun h => ?_⟩
  rcases h1.2 h with hn | ⟨e, hf⟩
  · exact Or.inl (h2.1 hn)
  · rcases h2.2 hf with hn | ⟨e', hf'⟩
    · exact Or.inl hn
    · exact Or.inr ⟨e'.trans e, hf'⟩

theorem keepRow_extend (c : Cell K) : KeepRow c (extendCell c) :=
  ⟨fun h => ⟨rfl, rfl, Or.inr h.1⟩, fun h => Or.inl ⟨rfl, rfl, Or.inr h.1.1⟩⟩

theorem keepRow_seaPrevent (c : Cell K) : KeepRow c (seaPreventCell c) := by
  have key : c.t.y1 = nan → c.t.y2 = nan → (seaPreventCell c).t = c.t := by
    intro h1 h2
    simp only [seaPreventCell, h1, h2, nan_sub']
    cases hc : c.t
    simp only [hc] at h1 h2
    subst h1 h2
    rfl
  refine ⟨fun h => ?_, fun h => Or.inr ?_⟩
  · unfold Lost; rw [key h.1 h.2.1]; exact h
  · refine ⟨key h.1.1 h.1.2.1, ?_, h.2⟩
    unfold Free; rw [key h.1.1 h.1.2.1]; exact h.1

theorem keepRow_lagoonPrevent (pp : PhysPars K) (c : Cell K) : KeepRow c (lagoonPreventCell pp c) := by
  have key : c.t.y1 = nan → c.t.y2 = nan → Lost (lagoonPreventCell pp c) := by
    intro h1 h2
    unfold lagoonPreventCell
    dsimp only
    rw [h2, nan_sub', nan_blt]
    exact ⟨h1, rfl, Or.inr rfl⟩
  exact ⟨fun h => key h.1 h.2.1, fun h => Or.inl (key h.1.1 h.1.2.1)⟩

theorem keepRow_merge (pp : PhysPars K) : MergeRel pp (KeepRow (K := K)) where
  refl := keepRow_refl
  trans := keepRow_trans
  mergeLagoon c := by
    have key : c.t.y1 = nan → Lost (mergeLagoonCell c) := by
      intro h
      refine ⟨rfl, rfl, Or.inr ?_⟩
      show c.t.y3 + (c.t.y1 - c.t.y2) = nan
      rw [h, nan_sub', add_nan']
    exact ⟨fun h => key h.1, fun h => Or.inl (key h.1.1)⟩
  setWl c w := ⟨fun h => h, fun h => Or.inr ⟨rfl, h⟩⟩
  mergeShore c := by
    have key : c.t.y1 = nan → Lost (mergeShoreCell pp c) := by
      intro h
      refine ⟨rfl, rfl, Or.inl ?_⟩
      show c.t.y0 - (c.t.y1 - c.t.y2) * (c.t.z2 - c.t.z1) / (c.t.z2 + fin pp.ClosureDepth) = nan
      rw [h, nan_sub', nan_mul', nan_div', sub_nan']
    exact ⟨fun h => key h.1, fun h => Or.inl (key h.1.1)⟩
  restore c he := by
    unfold eroded at he
    rw [Bool.and_eq_true] at he
    refine ⟨fun h => ?_, fun h => ?_⟩
    · rcases h.2.2 with h | h
      · rw [h, nan_ble] at he; cases he.1
      · rw [h, ble_nan] at he; cases he.1
    · rw [h.1.2.2] at he; cases he.1
  crest c := by
    unfold crestCell
    split
    · next ho => exact ⟨fun h => h, fun h => by rw [h.2] at ho; cases ho⟩
    · exact keepRow_refl c

/-- Breaches leave a plain transect as it is unless it is breached itself. -/
theorem breach_plain {pp : PhysPars K} {j1 j2 : ℕ → Bool} {C B : Bool} {X0 : ℕ} {st st' : MorSt K} (h : breachStage pp j1 j2 C X0 st = .ok (B, st'))
    {i : ℕ} {c : Cell K} (hc : st.cells[i]? = some c) (hp : Lost c ∨ PlainCell c) :
    ∃ c', st'.cells[i]? = some c' ∧ (c'.t.y0 = nan ∨ c'.t.y3 = nan ∨ c'.t = c.t ∨ (B = true ∧ st'.e0 = fin c.t.x ∧ st'.e1 = fin c.t.x)) := by
  unfold breachStage at h
  simp only [bind_ok] at h
  obtain ⟨⟨conn, t1⟩, g1, ⟨b2, t2⟩, g2, ⟨b3, t3⟩, g3, ⟨b4, t4⟩, g4, t5, g5, g6⟩ := h
  simp only [pure_ok] at g6
  cases g6
  have H := keepRow_merge pp (K := K)
  have t := H.trans
  have e0 : Forall₂ KeepRow st.cells (mergeLagoon j1 st.cells) := by
    apply forall₂_mapIdx'
    intro i c; split
    · exact H.mergeLagoon _
    · exact H.refl _
  have g := forall₂_trans t e0 (forall₂_trans t (connected_rel H g1) (forall₂_trans t (mergeShore_rel H g2) (forall₂_trans t (erosion_rel H g3) (overtop_rel H g4))))
  obtain ⟨c1, hc1, r1⟩ := forall₂_get g hc
  have q : Lost c1 ∨ c1.t = c.t := by
    rcases hp with hp | hp
    · exact Or.inl (r1.1 hp)
    · rcases r1.2 hp with k | k
      · exact Or.inl k
      · exact Or.inr k.1
  unfold createBreach at g5
  cases b4 with
  | none =>
    simp only [pure_ok] at g5
    cases g5
    refine ⟨c1, hc1, ?_⟩
    rcases q with q | q
    · rcases q.2.2 with q | q
      · exact Or.inl q
      · exact Or.inr (Or.inl q)
    · exact Or.inr (Or.inr (Or.inl q))
  | some b =>
    simp only [bind_ok, ixGet_ok] at g5
    obtain ⟨cb, hcb, g5⟩ := g5
    split at g5
    · simp only [pure_ok] at g5
      cases g5
      refine ⟨c1, hc1, ?_⟩
      rcases q with q | q
      · rcases q.2.2 with q | q
        · exact Or.inl q
        · exact Or.inr (Or.inl q)
      · exact Or.inr (Or.inr (Or.inl q))
    · simp only [pure_ok] at g5
      cases g5
      by_cases hb : b = i
      · subst hb
        rw [hc1] at hcb
        cases hcb
        refine ⟨_, by rw [getElem?_modify, hc1, Option.map_eq_map, Option.map_some, if_pos rfl], ?_⟩
        rcases q with q | q
        · rcases q.2.2 with q | q
          · exact Or.inl q
          · refine Or.inr (Or.inl ?_)
            show (if _ ≤? c1.t.y3 then _ else c1.t.y3) = nan
            rw [q, ble_nan]
            rfl
        · exact Or.inr (Or.inr (Or.inr ⟨rfl, by rw [q], by rw [q]⟩))
      · refine ⟨c1, by rw [getElem?_modify, hc1, Option.map_eq_map, Option.map_some, if_neg hb], ?_⟩
        rcases q with q | q
        · rcases q.2.2 with q | q
          · exact Or.inl q
          · exact Or.inr (Or.inl q)
        · exact Or.inr (Or.inr (Or.inl q))

theorem lagoonTrunc_row {st st' : MorSt K} (h : lagoonTrunc st = .ok st') : Forall₂ KeepRow st.cells st'.cells := by
  unfold lagoonTrunc at h
  split at h
  · simp only [pure_ok] at h; subst h; exact forall₂_rfl keepRow_refl _
  · split at h
    · simp only [pure_ok] at h; subst h; exact forall₂_rfl keepRow_refl _
    · simp only [bind_ok] at h
      obtain ⟨_, _, _, _, _, _, h⟩ := h
      split at h
      · simp only [bind_ok, pure_ok] at h
        obtain ⟨_, _, rfl⟩ := h
        apply forall₂_mapIdx'
        intro i c; split
        · exact keepRow_extend _
        · exact keepRow_refl _
      · simp only [pure_ok] at h; subst h; exact forall₂_rfl keepRow_refl _

theorem seaTrunc_row {Dx : K} {st st' : MorSt K} (h : seaTrunc Dx st = .ok st') : st'.cells = st.cells := by
  unfold seaTrunc at h
  split at h
  · simp only [pure_ok] at h; subst h; rfl
  · simp only at h
    split at h
    · simp only [pure_ok] at h; subst h; rfl
    · split at h <;>
      · simp only [bind_ok, pure_ok] at h
        obtain ⟨_, _, _, _, rfl⟩ := h
        rfl

theorem overwash_plain {cs cs' : List (Cell K)} (h : overwashRepair cs = .ok cs') {i : ℕ} {c : Cell K} (hc : cs[i]? = some c) (hp : PlainCell c) :
    cs'[i]? = some c := by
  have hn : overwashCell c = c := by
    unfold overwashCell
    have : negWidth c = false := by simp [negWidth, hp.2]
    rw [this]
    rfl
  unfold overwashRepair at h
  simp only [bind_ok] at h
  obtain ⟨_, _, _, _, h⟩ := h
  split at h
  · simp only [pure_ok] at h
    rw [← h]
    simp only [getElem?_map, hc, Option.map_some, hn, hp.1.1]
    congr 1
    have := hp.2
    cases c
    simp only at this
    subst this
    rfl
  · simp only [pure_ok] at h
    rw [← h, getElem?_map, hc, Option.map_some, hn]

/-- The repairs leave a plain transect beyond the outlet and away from the cliff as it is. -/
theorem repair_plain {pp : PhysPars K} {C : Bool} {Dx : K} {st st' : MorSt K} (h : repairStage pp C Dx st = .ok st') {i : ℕ} {c : Cell K}
    (hc : st.cells[i]? = some c) (hf : PlainCell c) (h4 : (c.t.y0 ≤? c.t.y4) = false) (hb : C = false → Inside st ∧ Beyond st c) :
    ∃ c', st'.cells[i]? = some c' ∧ (Lost c' ∨ (c'.t = c.t ∧ PlainCell c')) := by
  unfold repairStage at h
  simp only [bind_ok] at h
  obtain ⟨s1, h1, cs, h2, s3, h3', s4, h4', s5, h5, s6, h6, h7⟩ := h
  have e1 : s1.cells = st.cells ∧ s1.ix = st.ix := by
    unfold edgeCheck at h1
    simp only [bind_ok, pure_ok] at h1
    obtain ⟨_, _, _, _, rfl⟩ := h1
    exact ⟨rfl, rfl⟩
  have hcl : (s1.cells.map (cliffCell pp))[i]? = some c := by
    rw [e1.1, getElem?_map, hc, Option.map_some]
    unfold cliffCell
    simp only [h4]
    rfl
  have hc2 := overwash_plain h2 hcl hf
  have X := sameX_repair pp (K := K)
  have gx : Forall₂ SameX st.cells cs := by
    rw [← e1.1]
    exact forall₂_trans X.trans (forall₂_map' X.cliff _) (overwash_rel X.toTruncRel h2)
  have hc3 : s3.cells[i]? = some c := by
    refine elongate_far h3' hc2 ?_
    intro hC
    obtain ⟨hin, e, he, hside⟩ := hb hC
    have hback : ∀ (j : ℕ) d, cs[j]? = some d → ∃ d', st.cells[j]? = some d' ∧ d.t.x = d'.t.x := by
      intro j d hd
      have hjl := (List.getElem?_eq_some_iff.mp hd).1
      have hj : st.cells[j]? = some (st.cells[j]'(by rw [gx.length_eq]; exact hjl)) := List.getElem?_eq_getElem _
      obtain ⟨d2, hd2, hx⟩ := forall₂_get gx hj
      rw [hd] at hd2; cases hd2
      exact ⟨_, hj, hx⟩
    refine ⟨e, (edge_far h1 hin).trans he, ?_⟩
    rcases hside with ⟨k1, k2⟩ | ⟨k1, k2⟩
    · refine Or.inl ⟨k1, fun j hj d hd => ?_⟩
      obtain ⟨d', hd', hx⟩ := hback j d hd
      rw [hx]
      exact k2 j (e1.2 ▸ hj) d' hd'
    · refine Or.inr ⟨k1, fun j hj d hd => ?_⟩
      obtain ⟨d', hd', hx⟩ := hback j d hd
      rw [hx]
      exact k2 j (e1.2 ▸ hj) d' hd'
  have g4 : Forall₂ KeepRow s3.cells s4.cells := by
    unfold seaPrevent at h4'
    split at h4'
    · simp only [pure_ok] at h4'; subst h4'; exact forall₂_rfl keepRow_refl _
    · simp only [bind_ok] at h4'
      obtain ⟨_, _, _, _, h⟩ := h4'
      split at h
      · simp only [pure_ok] at h; subst h; exact forall₂_modify' keepRow_refl keepRow_seaPrevent _ _
      · simp only [pure_ok] at h; subst h; exact forall₂_rfl keepRow_refl _
  have g7 : Forall₂ KeepRow s6.cells st'.cells := by
    unfold lagoonPrevent at h7
    split at h7
    · simp only [pure_ok] at h7; subst h7; exact forall₂_rfl keepRow_refl _
    · simp only [bind_ok] at h7
      obtain ⟨_, _, _, _, h⟩ := h7
      split at h
      · simp only [pure_ok] at h; subst h; exact forall₂_modify' keepRow_refl (keepRow_lagoonPrevent pp) _ _
      · simp only [pure_ok] at h; subst h; exact forall₂_rfl keepRow_refl _
  rw [seaTrunc_row h6] at g7
  obtain ⟨c', hc', r'⟩ := forall₂_get (forall₂_trans keepRow_trans g4 (forall₂_trans keepRow_trans (lagoonTrunc_row h5) g7)) hc3
  exact ⟨c', hc', r'.2 hf⟩

/-! ## The rates -/

theorem limit_cases {R R' : Rates K} {v : Fl K} {lim : K} {dtMin dt : ℤ} (h : limitRates v lim dtMin dt R = .ok R') :
    R' = R ∨ (0 < secs dt ∧ R'.y3 = R.y3.map (clip (lim / (secs dt : K))) ∧ R'.y4 = R.y4.map (clip (lim / (secs dt : K))) ∧
      R'.z0 = R.z0.map (clip (lim / (secs dt : K))) ∧ R'.z3 = R.z3.map (clip (lim / (secs dt : K)))) := by
  unfold limitRates at h
  split at h
  · simp only [bind_ok] at h
    obtain ⟨_, _, h⟩ := h
    split at h
    · cases h
    · next hne =>
      cases h
      exact Or.inr ⟨lt_of_le_of_ne (secs_nonneg dt) (Ne.symm hne), rfl, rfl, rfl, rfl⟩
  · cases h; exact Or.inl rfl

theorem clip_keeps {lim s x : K} (hs : 0 < s) (h : |x| * s ≤ lim) : clip (lim / s) (fin x) = fin x := by
  have hL := abs_le.mp ((le_div_iff₀ hs).mpr h)
  simp only [clip, npmax_fin, npmin_fin]
  rw [max_eq_left hL.1, min_eq_left hL.2]

theorem clip_col {l : List (Fl K)} {lim : K} {s : K} (hs : 0 < s) {i : ℕ} {x : K} (hx : l[i]? = some (fin x)) (h : |x| * s ≤ lim) :
    (l.map (clip (lim / s)))[i]? = some (fin x) := by
  rw [getElem?_map, hx, Option.map_some, clip_keeps hs h]

theorem scatter_other {f : Fl K → Fl K → Fl K} : ∀ {l : List (Fl K)} {ix : List ℕ} {vs l' : List (Fl K)}, scatter f l ix vs = .ok l' →
    ∀ i, i ∉ ix → l'[i]? = l[i]?
  | l, [], [], l', h, i, _ => by cases h; rfl
  | l, [], _ :: _, l', h, _, _ => by cases h
  | l, _ :: _, [], l', h, _, _ => by cases h
  | l, j :: ix, v :: vs, l', h, i, hi => by
    simp only [scatter, bind_ok] at h
    obtain ⟨old, _, h⟩ := h
    rw [scatter_other h i (fun hm => hi (mem_cons_of_mem _ hm)), getElem?_set_ne]
    rintro rfl
    exact hi mem_cons_self

/-- What the rates at a transect without a channel are made of. -/
theorem plain_rates {pp : PhysPars K} {a : MorIn K} {rb : ℕ} {cells' : List (Cell K)} {R : Rates K}
    (h : allRates pp a rb (a.rows.mapIdx (mkCell pp a)) = .ok (R, cells')) {i : ℕ} {r : Transect K} (hr : a.rows[i]? = some r)
    {y0 y3 z0 z3 o s : K} (h0 : r.y0 = fin y0) (h1 : r.y1 = nan) (h3 : r.y3 = fin y3) (hz0 : r.z0 = fin z0) (hz3 : r.z3 = fin z3)
    (ho : a.OverwashProp[i]? = some (fin o)) (hs : a.CST[i]? = some (fin s)) (hw : y0 ≠ y3) (hb : z0 ≠ z3)
    (hcell : cells'[i]? = some (mkCell pp a i r)) :
    R.z0[i]? = some (fin ((1 - o) * s / (y0 - y3))) ∧
    (i ∉ a.online → R.y3[i]? = some (fin (-(o * s / (z0 - z3)))) ∧ R.y4[i]? = some (fin 0) ∧ R.z3[i]? = some (fin 0)) := by
  have hil := (List.getElem?_eq_some_iff.mp hr).1
  unfold allRates at h
  simp only [bind_ok] at h
  obtain ⟨R1, g1, ⟨R2, c2⟩, g2, R3, g3, h⟩ := h
  obtain ⟨rfl, rfl⟩ : R3 = R ∧ c2 = cells' := by cases h; exact ⟨rfl, rfl⟩
  have hz : (List.replicate a.rows.length (fin (0 : K)))[i]? = some (fin 0) := by
    rw [List.getElem?_replicate, if_pos hil]
  have other : ∀ {ss : List (Sec K)} {rs : List (Transect K)} {f : Sec K → Transect K → Fl K} {l : List (Fl K)}, i ∉ a.online →
      addCol (List.replicate a.rows.length (fin 0)) a.online ss rs f = .ok l → l[i]? = some (fin 0) := by
    intro ss rs f l hi hh
    unfold addCol at hh
    split at hh
    · cases hh
    · rw [scatter_other hh i hi, hz]
  have k1 : R1.z0[i]? = some (fin 0) ∧ (i ∉ a.online → R1.y3[i]? = some (fin 0) ∧ R1.y4[i]? = some (fin 0) ∧ R1.z3[i]? = some (fin 0)) := by
    unfold riverRates at g1
    simp only [bind_ok] at g1
    obtain ⟨ss, _, rows, _, z, e1, y, e2, w, e3, g1⟩ := g1
    split at g1
    · cases g1
      exact ⟨hz, fun hi => ⟨other hi e2, other hi e3, other hi e1⟩⟩
    · simp only [bind_ok] at g1
      obtain ⟨_, _, _, _, _, _, _, _, _, _, _, _, g1⟩ := g1
      cases g1
      exact ⟨hz, fun hi => ⟨other hi e2, other hi e3, other hi e1⟩⟩
  have k2 : R2.z0 = R1.z0 ∧ R2.y3 = R1.y3 ∧ R2.y4 = R1.y4 ∧ R2.z3 = R1.z3 := by
    unfold lstRates at g2
    simp only [bind_ok] at g2
    obtain ⟨_, _, g2⟩ := g2
    split at g2
    · cases g2; exact ⟨rfl, rfl, rfl, rfl⟩
    · simp only [bind_ok] at g2
      obtain ⟨_, _, g2⟩ := g2
      split at g2 <;>
      · simp only [bind_ok, pure_ok] at g2
        obtain ⟨_, _, g2⟩ := g2
        cases g2; exact ⟨rfl, rfl, rfl, rfl⟩
  rw [← k2.1, ← k2.2.1, ← k2.2.2.1, ← k2.2.2.2] at k1
  have hop : (mkCell pp a i r).op = false := by show (!r.y1.isnan) = false; rw [h1]; rfl
  have hcw : (mkCell pp a i r).cw = fin (y0 - y3) := by
    show (if (!r.y1.isnan) = true then _ else r.y0 - r.y3) = _
    rw [h1]
    simp [Fl.isnan, h0, h3]
  have hbh : (mkCell pp a i r).bh = fin (z0 - z3) := by
    show (if (!r.y1.isnan) = true then _ else r.z0 - r.z3) = _
    rw [h1]
    simp [Fl.isnan, hz0, hz3]
  unfold cstRates at g3
  dsimp only at g3
  split at g3
  · cases g3
  · cases g3
    refine ⟨?_, fun hi => ⟨?_, (k1.2 hi).2.1, (k1.2 hi).2.2⟩⟩
    · simp only [getElem?_mapIdx, getElem?_zip_eq_some, Option.map_eq_some_iff, Prod.exists]
      refine ⟨fin 0, _, ⟨k1.1, hcell⟩, ?_⟩
      rw [hs, ho, hcw]
      simp only [Option.getD_some, sub_fin, mul_fin, div_fin _ _ (sub_ne_zero.mpr hw), add_fin, zero_add]
    · simp only [getElem?_mapIdx, getElem?_zip_eq_some, Option.map_eq_some_iff, Prod.exists]
      refine ⟨fin 0, _, ⟨(k1.2 hi).1, hcell⟩, ?_⟩
      rw [hs, ho, hbh, hop]
      simp only [Option.getD_some, Bool.false_eq_true, if_false, mul_fin, div_fin _ _ (sub_ne_zero.mpr hb), sub_fin, zero_sub]

/-- The same for the rates of the lagoon where the river flows through it. -/
theorem plain_rates_on {pp : PhysPars K} {a : MorIn K} {rb : ℕ} {cells' : List (Cell K)} {R R1 : Rates K}
    (h : allRates pp a rb (a.rows.mapIdx (mkCell pp a)) = .ok (R, cells')) (hR1 : riverRates pp a (a.rows.mapIdx (mkCell pp a)) = .ok R1)
    {i : ℕ} {r : Transect K} {q z0 z3 o s : K} (h1 : r.y1 = nan) (hz0 : r.z0 = fin z0) (hz3 : r.z3 = fin z3)
    (ho : a.OverwashProp[i]? = some (fin o)) (hs : a.CST[i]? = some (fin s)) (hb : z0 ≠ z3)
    (hcell : cells'[i]? = some (mkCell pp a i r)) (hq : R1.y3[i]? = some (fin q)) :
    R.y3[i]? = some (fin (q - o * s / (z0 - z3))) ∧ R.y4 = R1.y4 ∧ R.z3 = R1.z3 := by
  unfold allRates at h
  simp only [bind_ok] at h
  obtain ⟨R1', g1, ⟨R2, c2⟩, g2, R3, g3, h⟩ := h
  rw [hR1] at g1
  cases g1
  obtain ⟨rfl, rfl⟩ : R3 = R ∧ c2 = cells' := by cases h; exact ⟨rfl, rfl⟩
  have k2 : R2.z0 = R1.z0 ∧ R2.y3 = R1.y3 ∧ R2.y4 = R1.y4 ∧ R2.z3 = R1.z3 := by
    unfold lstRates at g2
    simp only [bind_ok] at g2
    obtain ⟨_, _, g2⟩ := g2
    split at g2
    · cases g2; exact ⟨rfl, rfl, rfl, rfl⟩
    · simp only [bind_ok] at g2
      obtain ⟨_, _, g2⟩ := g2
      split at g2 <;>
      · simp only [bind_ok, pure_ok] at g2
        obtain ⟨_, _, g2⟩ := g2
        cases g2; exact ⟨rfl, rfl, rfl, rfl⟩
  have hop : (mkCell pp a i r).op = false := by show (!r.y1.isnan) = false; rw [h1]; rfl
  have hbh : (mkCell pp a i r).bh = fin (z0 - z3) := by
    show (if (!r.y1.isnan) = true then _ else r.z0 - r.z3) = _
    rw [h1]
    simp [Fl.isnan, hz0, hz3]
  unfold cstRates at g3
  dsimp only at g3
  split at g3
  · cases g3
  · cases g3
    refine ⟨?_, k2.2.2.1, k2.2.2.2⟩
    simp only [getElem?_mapIdx, getElem?_zip_eq_some, Option.map_eq_some_iff, Prod.exists]
    refine ⟨fin q, _, ⟨by rw [k2.2.1]; exact hq, hcell⟩, ?_⟩
    rw [hs, ho, hbh, hop]
    simp only [Option.getD_some, Bool.false_eq_true, if_false, mul_fin, div_fin _ _ (sub_ne_zero.mpr hb), sub_fin]

theorem limit_all {R R' : Rates K} {v : Fl K} {lim : K} {dtMin dt : ℤ} (h : limitRates v lim dtMin dt R = .ok R') :
    R' = R ∨ (0 < secs dt ∧ R'.y0 = R.y0.map (clip (lim / (secs dt : K))) ∧
      R'.y3 = R.y3.map (clip (lim / (secs dt : K))) ∧ R'.y4 = R.y4.map (clip (lim / (secs dt : K))) ∧
      R'.z0 = R.z0.map (clip (lim / (secs dt : K))) ∧ R'.z3 = R.z3.map (clip (lim / (secs dt : K)))) := by
  unfold limitRates at h
  split at h
  · simp only [bind_ok] at h
    obtain ⟨_, _, h⟩ := h
    split at h
    · cases h
    · next hne =>
      cases h
      exact Or.inr ⟨lt_of_le_of_ne (secs_nonneg dt) (Ne.symm hne), rfl, rfl, rfl, rfl, rfl⟩
  · cases h; exact Or.inl rfl

/-- A rate after the limiter is a number, and the rate before it unless the limit is reached. -/
theorem clip_free {l l' : List (Fl K)} {lim : K} {dt : ℤ} (h : l' = l ∨ (0 < secs dt ∧ l' = l.map (clip (lim / (secs dt : K))))) {i : ℕ} {x : K}
    (hx : l[i]? = some (fin x)) : ∃ x', l'[i]? = some (fin x') ∧ (|x' * (secs dt : K)| < lim → x' = x) := by
  rcases h with rfl | ⟨hs, rfl⟩
  · exact ⟨x, hx, fun _ => rfl⟩
  · refine ⟨min (max x (-(lim / (secs dt : K)))) (lim / (secs dt : K)), ?_, ?_⟩
    · rw [getElem?_map, hx, Option.map_some]
      simp only [clip, npmax_fin, npmin_fin]
    · have hs' : (0 : K) < (secs dt : K) := by exact_mod_cast hs
      intro hl
      rw [abs_mul, abs_of_pos hs', ← lt_div_iff₀ hs'] at hl
      obtain ⟨h1, h2⟩ := abs_lt.mp hl
      rcases le_total (max x (-(lim / (secs dt : K)))) (lim / (secs dt : K)) with g | g
      · rw [min_eq_left g] at h1 h2 ⊢
        rcases le_total x (-(lim / (secs dt : K))) with g' | g'
        · rw [max_eq_right g'] at h1
          exact absurd h1 (lt_irrefl _)
        · exact max_eq_left g'
      · rw [min_eq_right g] at h2
        exact absurd h2 (lt_irrefl _)

/-- A plain transect after the forces have acted. -/
theorem force_plain {pp : PhysPars K} {a : MorIn K} {dt : ℤ} {X0 : ℕ} {st : MorSt K} (h : forceStage pp a = .ok (dt, X0, st))
    (hB : 0 ≤ a.MaxMorChange) (hreg : Regular pp a) {i : ℕ} {r : Transect K} (hr : a.rows[i]? = some r)
    (hbey : BeyondOutlet a r) (hnear : ∀ rb cells' R, precalc pp a = .ok (a.rows.mapIdx (mkCell pp a), X0, rb) →
      allRates pp a rb (a.rows.mapIdx (mkCell pp a)) = .ok (R, cells') → cells'[i]? = some (mkCell pp a i r))
    {y y3 y4 : K} (h0 : r.y0 = fin y) (h1 : r.y1 = nan) (h2 : r.y2 = nan)
    (h3 : r.y3 = fin y3) (h4 : r.y4 = fin y4) (hw3 : 2 * a.MaxMorChange < y - y3) (hw4 : 2 * a.MaxMorChange < y - y4) :
    ∃ rb cells' R R' rate, precalc pp a = .ok (a.rows.mapIdx (mkCell pp a), X0, rb) ∧ allRates pp a rb (a.rows.mapIdx (mkCell pp a)) = .ok (R, cells') ∧
      cells'[i]? = some (mkCell pp a i r) ∧
      limitRates rate a.MaxMorChange a.MorDtMin dt R = .ok R' ∧ st.cells[i]? = some (moveCell R' (fin (secs dt : K)) i (mkCell pp a i r)) ∧
      PlainCell (moveCell R' (fin (secs dt : K)) i (mkCell pp a i r)) ∧
      ((moveCell R' (fin (secs dt : K)) i (mkCell pp a i r)).t.y0 ≤? (moveCell R' (fin (secs dt : K)) i (mkCell pp a i r)).t.y4) = false ∧
      (a.Closed = false → Inside st ∧ Beyond st (moveCell R' (fin (secs dt : K)) i (mkCell pp a i r))) ∧
      (∀ v ∈ R'.y3, ∃ x, v = fin x ∧ |x| * (secs dt : K) ≤ a.MaxMorChange) ∧ (∀ v ∈ R'.y4, ∃ x, v = fin x ∧ |x| * (secs dt : K) ≤ a.MaxMorChange) := by
  obtain ⟨rb, cells', R, R', rate, hp, hall, hrt, hdt, hl, ha⟩ := force_inv h
  have hF := regular_finite hreg hp hall
  have hm : (a.rows.mapIdx (mkCell pp a)).length = a.rows.length := by simp
  obtain ⟨hlen, hlen', _⟩ := allRates_len hm hall
  obtain ⟨hsm, hcl⟩ := limit_small hB hF hrt hl
  have hil := (List.getElem?_eq_some_iff.mp hr).1
  have hcell := hnear rb cells' R hp hall
  simp only [Rates.cols, List.mem_cons, List.not_mem_nil, or_false, forall_eq_or_imp, forall_eq] at hsm
  obtain ⟨s0, _, _, s3, s4, _, _, _, _, _, _, sx⟩ := hsm
  have l0 : R'.y0.length = a.rows.length := by
    have := congrArg (fun l => l[0]?) hcl
    simp only [Rates.cols, List.map_cons, List.getElem?_cons_succ, List.getElem?_cons_zero, Option.some.injEq] at this
    rw [this]; exact hlen.1
  have l3 : R'.y3.length = a.rows.length := by
    have := congrArg (fun l => l[3]?) hcl
    simp only [Rates.cols, List.map_cons, List.getElem?_cons_succ, List.getElem?_cons_zero, Option.some.injEq] at this
    rw [this]; exact hlen.2.2.2.1
  have l4 : R'.y4.length = a.rows.length := by
    have := congrArg (fun l => l[4]?) hcl
    simp only [Rates.cols, List.map_cons, List.getElem?_cons_succ, List.getElem?_cons_zero, Option.some.injEq] at this
    rw [this]; exact hlen.2.2.2.2.1
  have hs0 : (0 : K) ≤ (secs dt : K) := by exact_mod_cast secs_nonneg dt
  obtain ⟨x0, hx0, b0⟩ := s0 _ (List.getElem_mem (l := R'.y0) (n := i) (by omega))
  obtain ⟨x3, hx3, b3⟩ := s3 _ (List.getElem_mem (l := R'.y3) (n := i) (by omega))
  obtain ⟨x4, hx4, b4⟩ := s4 _ (List.getElem_mem (l := R'.y4) (n := i) (by omega))
  obtain ⟨xe, hxe, be⟩ := sx
  refine ⟨rb, cells', R, R', rate, hp, hall, hcell, hl, ?_⟩
  unfold applyRates at ha
  simp only at ha
  split at ha
  · cases ha
  · cases ha
    have c0 : (moveCell R' (fin (secs dt : K)) i (mkCell pp a i r)).t.y0 = fin (y + x0 * (secs dt : K)) := by
      show r.y0 + (R'.y0[i]?).getD nan * fin (secs dt : K) = _
      rw [List.getElem?_eq_getElem (by omega), Option.getD_some, hx0, h0, mul_fin, add_fin]
    have c3 : (moveCell R' (fin (secs dt : K)) i (mkCell pp a i r)).t.y3 = fin (y3 + x3 * (secs dt : K)) := by
      show r.y3 + (R'.y3[i]?).getD nan * fin (secs dt : K) = _
      rw [List.getElem?_eq_getElem (by omega), Option.getD_some, hx3, h3, mul_fin, add_fin]
    have c4 : (moveCell R' (fin (secs dt : K)) i (mkCell pp a i r)).t.y4 = fin (y4 + x4 * (secs dt : K)) := by
      show r.y4 + (R'.y4[i]?).getD nan * fin (secs dt : K) = _
      rw [List.getElem?_eq_getElem (by omega), Option.getD_some, hx4, h4, mul_fin, add_fin]
    have d0 : -(a.MaxMorChange) ≤ x0 * (secs dt : K) := by
      have := mul_le_mul_of_nonneg_right (neg_abs_le x0) hs0
      linarith
    have d3 : x3 * (secs dt : K) ≤ a.MaxMorChange := (mul_le_mul_of_nonneg_right (le_abs_self x3) hs0).trans b3
    have d4 : x4 * (secs dt : K) ≤ a.MaxMorChange := (mul_le_mul_of_nonneg_right (le_abs_self x4) hs0).trans b4
    have hxs : ∀ j : ℕ, ((cells'.mapIdx (moveCell R' (fin (secs dt : K))))[j]?).map (fun c : Cell K => c.t.x) = (a.rows[j]?).map (fun r : Transect K => r.x) := by
      intro j
      have e := congrArg (fun l => l[j]?) (allRates_x hall)
      simp only [getElem?_map, getElem?_mapIdx] at e ⊢
      cases hA : cells'[j]? with
      | none =>
        rw [hA] at e
        cases hB : a.rows[j]? with
        | none => rfl
        | some q => rw [hB] at e; cases e
      | some d =>
        rw [hA] at e
        cases hB : a.rows[j]? with
        | none => rw [hB] at e; cases e
        | some q =>
          rw [hB] at e
          simp only [Option.map_some, Option.some.injEq] at e ⊢
          exact e
    have hxof : ∀ (j : ℕ) q, a.rows[j]? = some q → ∃ d, (cells'.mapIdx (moveCell R' (fin (secs dt : K))))[j]? = some d ∧ d.t.x = q.x := by
      intro j q hq
      have := hxs j
      rw [hq, Option.map_some] at this
      exact Option.map_eq_some_iff.mp this
    have hxof' : ∀ (j : ℕ) d, (cells'.mapIdx (moveCell R' (fin (secs dt : K))))[j]? = some d → ∃ q, a.rows[j]? = some q ∧ q.x = d.t.x := by
      intro j d hd
      have := hxs j
      rw [hd, Option.map_some] at this
      exact Option.map_eq_some_iff.mp this.symm
    refine ⟨by rw [List.getElem?_mapIdx, hcell]; rfl, ⟨⟨?_, ?_, ?_⟩, ?_⟩, ?_, ?_, s3, s4⟩
    · show r.y1 + _ = nan
      rw [h1, nan_add']
    · show r.y2 + _ = nan
      rw [h2, nan_add']
    · rw [c0, c3]
      simp only [ble_fin, decide_eq_false_iff_not, not_le]
      linarith
    · show (!r.y1.isnan) = false
      rw [h1]; rfl
    · rw [c0, c4]
      simp only [ble_fin, decide_eq_false_iff_not, not_le]
      linarith
    · intro hC
      obtain ⟨e, p, q, he, hp1, hq1, k1, k2, k3⟩ := hbey hC
      have be1 : xe * (secs dt : K) ≤ a.MaxMorChange := (mul_le_mul_of_nonneg_right (le_abs_self xe) hs0).trans be
      have be2 : -(a.MaxMorChange) ≤ xe * (secs dt : K) := by
        have := mul_le_mul_of_nonneg_right (neg_abs_le xe) hs0
        linarith
      have he1 : (if a.Closed = true then a.EndX1 else a.EndX1 + R'.endX * fin (secs dt : K)) = fin (e + xe * (secs dt : K)) := by
        rw [if_neg (by rw [hC]; simp), he, hxe, mul_fin, add_fin]
      obtain ⟨p', hp', ep⟩ := hxof _ _ hp1
      obtain ⟨q', hq', eq'⟩ := hxof _ _ hq1
      refine ⟨⟨_, p', q', he1, hp', ?_, ?_, ?_⟩, _, he1, ?_⟩
      · rw [List.length_mapIdx, hlen']; exact hq'
      · rw [ep]; linarith
      · rw [eq']; linarith
      · show (_ < r.x ∧ _) ∨ (r.x < _ ∧ _)
        rcases k3 with ⟨k4, k5⟩ | ⟨k4, k5⟩
        · refine Or.inl ⟨by linarith, fun j hj d hd => ?_⟩
          obtain ⟨u, hu, ux⟩ := hxof' j d hd
          rw [← ux]; exact k5 j hj u hu
        · refine Or.inr ⟨by linarith, fun j hj d hd => ?_⟩
          obtain ⟨u, hu, ux⟩ := hxof' j d hd
          rw [← ux]; exact k5 j hj u hu

/-- A plain transect after the whole step: what the forces make of it, unless it is breached. -/
theorem update_plain0 {pp : PhysPars K} {j1 j2 : ℕ → Bool} {a : MorIn K} {o : MorOut K} (h : updateMorphology pp j1 j2 a = .ok o)
    (hB : 0 ≤ a.MaxMorChange) (hreg : Regular pp a) {i : ℕ} {r : Transect K} (hr : a.rows[i]? = some r)
    (hbey : BeyondOutlet a r) (hnear : ∀ X0 rb cells' R, precalc pp a = .ok (a.rows.mapIdx (mkCell pp a), X0, rb) →
      allRates pp a rb (a.rows.mapIdx (mkCell pp a)) = .ok (R, cells') → cells'[i]? = some (mkCell pp a i r))
    {y y3 y4 : K} (h0 : r.y0 = fin y) (h1 : r.y1 = nan) (h2 : r.y2 = nan)
    (h3 : r.y3 = fin y3) (h4 : r.y4 = fin y4) (hw3 : 2 * a.MaxMorChange < y - y3) (hw4 : 2 * a.MaxMorChange < y - y4) :
    ∃ X0 s0 rb cells' R R' rate, forceStage pp a = .ok (o.MorDt, X0, s0) ∧ s0.cells[i]? = some (moveCell R' (fin (secs o.MorDt : K)) i (mkCell pp a i r)) ∧
      precalc pp a = .ok (a.rows.mapIdx (mkCell pp a), X0, rb) ∧ allRates pp a rb (a.rows.mapIdx (mkCell pp a)) = .ok (R, cells') ∧
      cells'[i]? = some (mkCell pp a i r) ∧ limitRates rate a.MaxMorChange a.MorDtMin o.MorDt R = .ok R' ∧
      (∀ v ∈ R'.y3, ∃ x, v = fin x ∧ |x| * (secs o.MorDt : K) ≤ a.MaxMorChange) ∧ (∀ v ∈ R'.y4, ∃ x, v = fin x ∧ |x| * (secs o.MorDt : K) ≤ a.MaxMorChange) ∧
      ((o.Breach = true ∧ o.EndX0 = fin r.x ∧ o.EndX1 = fin r.x) ∨
        ∃ r' : Transect K, o.rows[i]? = some r' ∧ { r' with y4 := nan } = { (moveCell R' (fin (secs o.MorDt : K)) i (mkCell pp a i r)).t with y4 := nan } ∧
          (r.x ≠ 0 ∨ (((moveCell R' (fin (secs o.MorDt : K)) i (mkCell pp a i r)).t.y3 - (moveCell R' (fin (secs o.MorDt : K)) i (mkCell pp a i r)).t.y4) <?
              fin pp.MinOutletWidth) = false → r'.y4 = (moveCell R' (fin (secs o.MorDt : K)) i (mkCell pp a i r)).t.y4)) := by
  obtain ⟨X0, s0, s1, s2, s3, g0, g1, g2, g3, e, e0, e1, _⟩ := update_inv h
  obtain ⟨rb, cells', R, R', rate, hp, hall, hcell, hl, hc, f5, f6, f7, f8, f9⟩ := force_plain g0 hB hreg hr hbey (hnear X0) h0 h1 h2 h3 h4 hw3 hw4
  refine ⟨X0, s0, rb, cells', R, R', rate, g0, hc, hp, hall, hcell, hl, f8, f9, ?_⟩
  set c := moveCell R' (fin (secs o.MorDt : K)) i (mkCell pp a i r) with hcdef
  obtain ⟨c1, hc1, q1⟩ := repair_plain g1 hc f5 f6 f7
  obtain ⟨c2, hc2, q2⟩ := breach_plain g2 hc1 (q1.imp_right (·.2))
  have hX0 : ∀ r', a.rows[X0]? = some r' → r'.x = 0 := by
    intro r' hr'
    unfold precalc at hp
    simp only [bind_ok] at hp
    obtain ⟨x, hx, rb', _, hp⟩ := hp
    split at hp
    · cases hp
    · split at hp
      · cases hp
      · simp only [bind_ok, pure_ok] at hp
        obtain ⟨_, _, _, _, hp⟩ := hp
        cases hp
        obtain ⟨⟨q, hq, hq1⟩, _⟩ := firstIx_ok.mp hx
        rw [hr'] at hq
        cases hq
        simpa using hq1
  unfold finishStage at g3
  simp only [bind_ok, pure_ok, pyAssert_ok] at g3
  obtain ⟨_, n0, _, n3, _, _, rfl⟩ := g3
  have hx : c.t.x = r.x := rfl
  obtain ⟨c3, hc3, r0, r3', rx⟩ : ∃ c3, (s2.cells.modify X0 (keepCell pp))[i]? = some c3 ∧ c3.t.y0 = c2.t.y0 ∧ c3.t.y3 = c2.t.y3 ∧
      ({ c3.t with y4 := nan } = { c2.t with y4 := nan } ∧ (r.x ≠ 0 ∨ ((c2.t.y3 - c2.t.y4) <? fin pp.MinOutletWidth) = false → c3 = c2)) := by
    rw [getElem?_modify, hc2, Option.map_eq_map, Option.map_some]
    by_cases hi : X0 = i
    · rw [if_pos hi]
      refine ⟨_, rfl, by unfold keepCell; split <;> rfl, by unfold keepCell; split <;> rfl, by unfold keepCell; split <;> rfl, fun hne => ?_⟩
      rcases hne with hne | hne
      · exact absurd (hX0 r (hi ▸ hr)) hne
      · unfold keepCell; rw [hne]; rfl
    · rw [if_neg hi]
      exact ⟨_, rfl, rfl, rfl, rfl, fun _ => rfl⟩
  have a0 := List.all_eq_true.mp n0 c3 (List.mem_of_getElem? hc3)
  have a3 := List.all_eq_true.mp n3 c3 (List.mem_of_getElem? hc3)
  rw [r0] at a0
  rw [r3'] at a3
  rcases q2 with q | q | q | ⟨q1', q2', q3'⟩
  · rw [q] at a0; cases a0
  · rw [q] at a3; cases a3
  · rcases q1 with q1 | q1
    · rcases q1.2.2 with k | k
      · rw [q, k] at a0; cases a0
      · rw [q, k] at a3; cases a3
    · refine Or.inr ⟨c3.t, by rw [e, List.getElem?_map, hc3]; rfl, ?_, fun hne => ?_⟩
      · rw [rx.1, q, q1.1]
      · rw [rx.2 (by rw [q, q1.1]; exact hne), q, q1.1]
  · have hx1 : c1.t.x = r.x := by
      obtain ⟨d, hd, hdx⟩ := forall₂_get (repair_rel (sameX_repair pp) g1) hc
      rw [hc1] at hd
      cases hd
      exact hdx
    exact Or.inl ⟨q1', by rw [e0, ← hx1, ← q2'], by rw [e1, ← hx1, ← q3']⟩

/-- A plain transect after the whole step: what the rates make of it, unless it is breached. -/
theorem update_plain {pp : PhysPars K} {j1 j2 : ℕ → Bool} {a : MorIn K} {o : MorOut K} (h : updateMorphology pp j1 j2 a = .ok o)
    (hB : 0 ≤ a.MaxMorChange) (hreg : Regular pp a) {i : ℕ} {r : Transect K} (hr : a.rows[i]? = some r)
    (hbey : BeyondOutlet a r) (hnear : ∀ X0 rb cells' R, precalc pp a = .ok (a.rows.mapIdx (mkCell pp a), X0, rb) →
      allRates pp a rb (a.rows.mapIdx (mkCell pp a)) = .ok (R, cells') → cells'[i]? = some (mkCell pp a i r))
    {y y3 y4 : K} (h0 : r.y0 = fin y) (h1 : r.y1 = nan) (h2 : r.y2 = nan)
    (h3 : r.y3 = fin y3) (h4 : r.y4 = fin y4) (hw3 : 2 * a.MaxMorChange < y - y3) (hw4 : 2 * a.MaxMorChange < y - y4) :
    ∃ X0 rb cells' R R' rate, precalc pp a = .ok (a.rows.mapIdx (mkCell pp a), X0, rb) ∧ allRates pp a rb (a.rows.mapIdx (mkCell pp a)) = .ok (R, cells') ∧
      cells'[i]? = some (mkCell pp a i r) ∧ limitRates rate a.MaxMorChange a.MorDtMin o.MorDt R = .ok R' ∧
      (∀ v ∈ R'.y3, ∃ x, v = fin x ∧ |x| * (secs o.MorDt : K) ≤ a.MaxMorChange) ∧ (∀ v ∈ R'.y4, ∃ x, v = fin x ∧ |x| * (secs o.MorDt : K) ≤ a.MaxMorChange) ∧
      ((o.Breach = true ∧ o.EndX0 = fin r.x ∧ o.EndX1 = fin r.x) ∨
        ∃ r' : Transect K, o.rows[i]? = some r' ∧ { r' with y4 := nan } = { (moveCell R' (fin (secs o.MorDt : K)) i (mkCell pp a i r)).t with y4 := nan } ∧
          (r.x ≠ 0 ∨ (((moveCell R' (fin (secs o.MorDt : K)) i (mkCell pp a i r)).t.y3 - (moveCell R' (fin (secs o.MorDt : K)) i (mkCell pp a i r)).t.y4) <?
              fin pp.MinOutletWidth) = false → r'.y4 = (moveCell R' (fin (secs o.MorDt : K)) i (mkCell pp a i r)).t.y4)) := by
  obtain ⟨X0, _, rb, cells', R, R', rate, _, _, g⟩ := update_plain0 h hB hreg hr hbey hnear h0 h1 h2 h3 h4 hw3 hw4
  exact ⟨X0, rb, cells', R, R', rate, g⟩

end Verif.Model
