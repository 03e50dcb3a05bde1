import Verif.Lemmas.Ends
import Verif.Lemmas.Relic
import Verif.Spec.Remnant

set_option autoImplicit false
set_option linter.unusedSectionVars false

/-! # Transects without a channel keep nothing of one -/

namespace Verif.Model
open Verif Fl Verif.Spec List

variable {K : Type} [Field K] [LinearOrder K] [IsStrictOrderedRing K]

/-- No trace of a channel, or its outer bank, if the shoreline is known. -/
def Outer (z : Bool) (t : Transect K) : Prop := IsNumber t.y0 → IsNumber t.y1 ∨ Bare z t

theorem num_of_add {u v : Fl K} (h : IsNumber (u + v)) : IsNumber u := by
  cases u with
  | fin => trivial
  | nan => rw [nan_add'] at h; exact h
  | pinf => cases v <;> exact h
  | ninf => cases v <;> exact h

theorem num_of_sub {u v : Fl K} (h : IsNumber (u - v)) : IsNumber u := by
  cases u with
  | fin => trivial
  | nan => rw [nan_sub'] at h; exact h
  | pinf => cases v <;> exact h
  | ninf => cases v <;> exact h

theorem not_num_nan : ¬ IsNumber (nan : Fl K) := id

/-- The shoreline was known if it is, and `Banked` is kept. -/
def KeepsBanked (z : Bool) (c c' : Cell K) : Prop := (IsNumber c'.t.y0 → IsNumber c.t.y0) ∧ (Banked z c.t → Banked z c'.t)

/-- The shoreline was known if it is, and `Outer` is kept. -/
def KeepsOuter (z : Bool) (c c' : Cell K) : Prop := (IsNumber c'.t.y0 → IsNumber c.t.y0) ∧ (Outer z c.t → Outer z c'.t)

theorem bare_extend (z : Bool) (c : Cell K) : Bare z (extendCell c).t := ⟨rfl, rfl, rfl, fun _ => rfl⟩

theorem banked_closed (pp : PhysPars K) (z : Bool) : ClosedRel pp (KeepsBanked (K := K) z) where
  refl _ := ⟨id, id⟩
  trans _ _ _ h1 h2 := ⟨h1.1 ∘ h2.1, h2.2 ∘ h1.2⟩
  setOp _ _ := ⟨id, id⟩
  extend c := ⟨id, fun _ => Or.inr (bare_extend z c)⟩
  overwash c := by
    unfold overwashCell
    split
    · next hw =>
      dsimp only
      refine ⟨?_, fun h => ?_⟩
      · split <;> split <;> split <;> exact id
      · split
        · exact Or.inr ⟨rfl, rfl, rfl, fun _ => rfl⟩
        · rcases h with ⟨h1, h2⟩ | hb
          · refine Or.inl ?_
            have : IsNumber (c.t.y1 + (overwashOf c).width) := num_add h1 (num_sub h2 h1)
            split <;> split <;> exact ⟨this, h2⟩
          · exfalso
            unfold negWidth at hw
            rw [hb.1] at hw
            simp at hw
    · exact ⟨id, id⟩
  cliff c := by
    unfold cliffCell
    dsimp only
    split
    · exact ⟨fun h => num_of_add h, id⟩
    · exact ⟨id, id⟩

theorem outer_stage (pp : PhysPars K) (z : Bool) : ChanRel pp (KeepsOuter (K := K) z) where
  refl _ := ⟨id, id⟩
  trans _ _ _ h1 h2 := ⟨h1.1 ∘ h2.1, h2.2 ∘ h1.2⟩
  setOp _ _ := ⟨id, id⟩
  extend c := ⟨id, fun _ _ => Or.inr (bare_extend z c)⟩
  elong _ c := ⟨id, fun _ h0 => Or.inl (num_sub h0 trivial)⟩
  seaPrevent c := by
    refine ⟨id, fun h h0 => ?_⟩
    have h0' : IsNumber c.t.y0 := h0
    rcases h h0' with h1 | hb
    · exact Or.inl (num_sub h1 (num_add trivial (num_sub h1 h0')))
    · refine Or.inr ⟨?_, ?_, hb.2.2.1, hb.2.2.2⟩
      · show c.t.y1 - _ = nan; rw [hb.1, nan_sub']
      · show c.t.y2 - _ = nan; rw [hb.2.1, nan_sub']

theorem outer_lagoonPrevent (pp : PhysPars K) (z : Bool) (c : Cell K) : KeepsOuter z c (lagoonPreventCell pp c) := by
  unfold lagoonPreventCell
  dsimp only
  split
  · refine ⟨id, fun h h0 => ?_⟩
    rcases h h0 with h1 | hb
    · exact Or.inl h1
    · exact Or.inr ⟨hb.1, by show c.t.y2 + _ = nan; rw [hb.2.1, nan_add'], hb.2.2⟩
  · exact ⟨id, id⟩

/-- The repairs. -/
theorem repair_outer {pp : PhysPars K} {C : Bool} {Dx : K} {st st' : MorSt K} (z : Bool) (h : repairStage pp C Dx st = .ok st') {i : ℕ} {c : Cell K}
    (hc : st.cells[i]? = some c) (hb : Banked z c.t) : ∃ c', st'.cells[i]? = some c' ∧ Outer z c'.t := by
  unfold repairStage at h
  simp only [bind_ok] at h
  obtain ⟨s1, h1, cs, h2, s3, h3, s4, h4, s5, h5, s6, h6, h7⟩ := h
  have T := banked_closed (K := K) pp z
  have U := outer_stage (K := K) pp z
  have t := T.trans
  have u := U.trans
  have g12 : Forall₂ (KeepsBanked z) st.cells cs :=
    forall₂_trans t (edge_rel T.toStageRel h1) (forall₂_trans t (forall₂_map' T.cliff _) (overwash_rel T.toTruncRel h2))
  obtain ⟨c2, hc2, _, n2⟩ := forall₂_get g12 hc
  have o2 : Outer z c2.t := fun _ => (n2 hb).imp And.left id
  have g7 : Forall₂ (KeepsOuter z) s6.cells st'.cells := by
    unfold lagoonPrevent at h7
    split at h7
    · simp only [pure_ok] at h7; subst h7; exact forall₂_rfl U.refl _
    · simp only [bind_ok] at h7
      obtain ⟨_, _, _, _, h⟩ := h7
      split at h
      · simp only [pure_ok] at h; subst h; exact forall₂_modify' U.refl (outer_lagoonPrevent pp z) _ _
      · simp only [pure_ok] at h; subst h; exact forall₂_rfl U.refl _
  obtain ⟨c', hc', _, n'⟩ := forall₂_get (forall₂_trans u (elongate_rel U h3) (forall₂_trans u (seaPrevent_rel U h4)
    (forall₂_trans u (lagoonTrunc_rel U.toStageRel h5) (forall₂_trans u (seaTrunc_rel U.toStageRel h6) g7)))) hc2
  exact ⟨c', hc', n' o2⟩

theorem outer_wet (z : Bool) : WetRel (KeepsOuter (K := K) z) where
  refl _ := ⟨id, id⟩
  trans _ _ _ h1 h2 := ⟨h1.1 ∘ h2.1, h2.2 ∘ h1.2⟩
  setWl _ _ := ⟨id, id⟩
  restore c _ := ⟨fun h => num_of_add h, fun h h0 => h (num_of_add h0)⟩
  crest c := by
    unfold crestCell
    split
    · exact ⟨id, id⟩
    · exact ⟨id, id⟩

theorem outer_mergeShore (pp : PhysPars K) (z : Bool) (c : Cell K) : KeepsOuter z c (mergeShoreCell pp c) :=
  ⟨fun h => num_of_sub h, fun _ _ => Or.inr ⟨rfl, rfl, rfl, fun _ => rfl⟩⟩

theorem outer_mergeShore_stage {pp : PhysPars K} (z : Bool) {junk : ℕ → Bool} {C : Bool} {conn : Option (ℤ × ℤ)} {st st' : MorSt K} {b : Option ℕ}
    (h : mergeShore pp junk C conn st = .ok (b, st')) : Forall₂ (KeepsOuter z) st.cells st'.cells := by
  rw [mergeShore_inv h]
  apply forall₂_of_get (by simp)
  intro i c c' hc hc'
  simp only [getElem?_map] at hc'
  have hz : (st.cells.zip (st.cells.mapIdx (shoreHit junk)))[i]? = some (c, shoreHit junk i c) := by
    rw [getElem?_zip_eq_some]
    exact ⟨hc, by rw [getElem?_mapIdx, hc]; rfl⟩
  rw [hz] at hc'
  simp only [Option.map_some, Option.some.injEq] at hc'
  subst hc'
  split
  · exact outer_mergeShore pp z _
  · exact ⟨id, id⟩

theorem pymin_not_nan {u v : Fl K} (h : IsNumber u) : pymin u v ≠ nan := by
  unfold pymin
  cases u with
  | fin x => cases v <;> simp [Fl.blt]; split <;> simp
  | nan => exact absurd h id
  | pinf => exact absurd h id
  | ninf => exact absurd h id

/-- Merging of channels and breaches: where there is no channel afterwards nothing of one is left.  With `z`: if no channel
has reached the lagoon there. -/
theorem breach_bare {pp : PhysPars K} {j1 j2 : ℕ → Bool} {C B : Bool} {X0 : ℕ} {st st' : MorSt K} (z : Bool)
    (h : breachStage pp j1 j2 C X0 st = .ok (B, st')) {i : ℕ} {c : Cell K} (hc : st.cells[i]? = some c) (ho : Outer z c.t)
    (hit : z = true → c.t.y1 ≠ nan → lagoonHit j1 i c = false) :
    ∃ c', st'.cells[i]? = some c' ∧ (IsNumber c'.t.y0 → c'.t.y1 = nan → Bare z c'.t) := by
  unfold breachStage at h
  simp only [bind_ok] at h
  obtain ⟨⟨conn, t1⟩, g1, ⟨b2, t2⟩, g2, ⟨b3, t3⟩, g3, ⟨b4, t4⟩, g4, t5, g5, g6⟩ := h
  simp only [pure_ok] at g6
  cases g6
  have W := outer_wet (K := K) z
  have t := W.trans
  have e0 : ∃ c0, (mergeLagoon j1 st.cells)[i]? = some c0 ∧ Outer z c0.t := by
    unfold mergeLagoon
    rw [getElem?_mapIdx, hc]
    refine ⟨_, rfl, ?_⟩
    beta_reduce
    by_cases hh : lagoonHit j1 i c = true
    · rw [if_pos hh]
      intro h0
      refine Or.inr ⟨rfl, rfl, rfl, fun hz => ?_⟩
      by_cases h1 : c.t.y1 = nan
      · rcases ho h0 with k | k
        · rw [h1] at k; exact absurd k id
        · exact k.2.2.2 hz
      · rw [hit hz h1] at hh; cases hh
    · rw [if_neg hh]; exact ho
  obtain ⟨c0, hc0, o0⟩ := e0
  obtain ⟨c4, hc4, _, n4⟩ := forall₂_get (forall₂_trans t (connected_wet W g1) (forall₂_trans t (outer_mergeShore_stage z g2)
    (forall₂_trans t (erosion_wet W g3) (overtop_wet W g4)))) hc0
  have o4 := n4 o0
  have done : IsNumber c4.t.y0 → c4.t.y1 = nan → Bare z c4.t := by
    intro h0 h1
    rcases o4 h0 with k | k
    · rw [h1] at k; exact absurd k id
    · exact k
  unfold createBreach at g5
  cases b4 with
  | none =>
    simp only [pure_ok] at g5; subst g5
    exact ⟨c4, hc4, done⟩
  | some b =>
    simp only [bind_ok, ixGet_ok] at g5
    obtain ⟨d, hd, g5⟩ := g5
    split at g5
    · simp only [pure_ok] at g5; subst g5
      exact ⟨c4, hc4, done⟩
    · simp only [pure_ok] at g5; subst g5
      by_cases hbi : b = i
      · subst hbi
        refine ⟨breachCell pp _ _ c4, by simp [getElem?_modify, hc4]; rfl, fun h0 h1 => ?_⟩
        exact absurd h1 (pymin_not_nan (num_sub h0 trivial))
      · exact ⟨c4, by simp [getElem?_modify, hbi, hc4], done⟩

/-- The forcing. -/
theorem force_banked {pp : PhysPars K} {a : MorIn K} {dt : ℤ} {X0 : ℕ} {st : MorSt K} (z : Bool) (h : forceStage pp a = .ok (dt, X0, st))
    (hB : 0 ≤ a.MaxMorChange) (hreg : Regular pp a) {i : ℕ} {r : Transect K} (hr : a.rows[i]? = some r) (hb : Banked z r) :
    ∃ c, st.cells[i]? = some c ∧ Banked z c.t := by
  obtain ⟨rb, cells', R, R', rate, hp, hall, hrt, hdt, hl, ha⟩ := force_inv h
  have hF := regular_finite hreg hp hall
  have hm : (a.rows.mapIdx (mkCell pp a)).length = a.rows.length := by simp
  obtain ⟨hlen, hlen', hsame⟩ := allRates_len hm hall
  obtain ⟨hsm, hcl⟩ := limit_small hB hF hrt hl
  have hil := (List.getElem?_eq_some_iff.mp hr).1
  simp only [Rates.cols, List.mem_cons, List.not_mem_nil, or_false, forall_eq_or_imp, forall_eq] at hsm
  obtain ⟨s0, s1, s2, s3, s4, _, s6, _, _, _, _, _⟩ := hsm
  simp only [Rates.cols, List.map_cons, List.map_nil, List.cons.injEq, and_true] at hcl
  obtain ⟨q0, q1, q2, q3, q4, _, q6, _⟩ := hcl
  obtain ⟨p0, p1, p2, p3, p4, _, p6, _⟩ := hlen
  have hcell : ∃ c, cells'[i]? = some c ∧ c.t.y1 = r.y1 ∧ c.t.y2 = r.y2 ∧ c.t.z1 = r.z1 ∧ c.t.z2 = r.z2 := by
    have hc : (a.rows.mapIdx (mkCell pp a))[i]? = some (mkCell pp a i r) := by rw [getElem?_mapIdx, hr]; rfl
    unfold allRates at hall
    simp only [bind_ok] at hall
    obtain ⟨R1, _, ⟨R2, c2⟩, g2, R3, _, hall⟩ := hall
    cases hall
    unfold lstRates at g2
    simp only [bind_ok] at g2
    obtain ⟨y0, _, g2⟩ := g2
    split at g2
    · cases g2; exact ⟨_, hc, rfl, rfl, rfl, rfl⟩
    · simp only [bind_ok] at g2
      obtain ⟨l, _, g2⟩ := g2
      split at g2
      · simp only [bind_ok, pure_ok] at g2
        obtain ⟨_, _, g2⟩ := g2
        cases g2; exact ⟨_, hc, rfl, rfl, rfl, rfl⟩
      · simp only [bind_ok, pure_ok] at g2
        obtain ⟨_, _, g2⟩ := g2
        cases g2
        refine ⟨_, by rw [List.getElem?_modify, hc]; rfl, ?_⟩
        split <;> exact ⟨rfl, rfl, rfl, rfl⟩
  obtain ⟨c, hc, e1, e2, e3, e4⟩ := hcell
  have one : ∀ (l : List (Fl K)), (∀ v ∈ l, Small a.MaxMorChange (secs dt : K) v) → l.length = a.rows.length → ∀ (v : Fl K), IsNumber v →
      IsNumber (v + (l[i]?).getD nan * fin (secs dt : K)) := by
    intro l hs hl v hv
    obtain ⟨x, hx, b⟩ := hs _ (List.getElem_mem (l := l) (n := i) (by omega))
    rw [List.getElem?_eq_getElem (by omega), Option.getD_some, hx]
    exact num_add hv trivial
  unfold applyRates at ha
  simp only at ha
  split at ha
  · cases ha
  · cases ha
    refine ⟨moveCell R' (fin (secs dt : K)) i c, by rw [List.getElem?_mapIdx, hc]; rfl, ?_⟩
    rcases hb with ⟨h1, h2⟩ | hb
    · exact Or.inl ⟨one R'.y1 s1 (q1.trans p1) _ (e1 ▸ h1), one R'.y2 s2 (q2.trans p2) _ (e2 ▸ h2)⟩
    · refine Or.inr ⟨?_, ?_, ?_, fun hz => e4.trans (hb.2.2.2 hz)⟩
      · show c.t.y1 + _ = nan; rw [e1, hb.1, nan_add']
      · show c.t.y2 + _ = nan; rw [e2, hb.2.1, nan_add']
      · show c.t.z1 + _ = nan; rw [e3, hb.2.2.1, nan_add']

/-- No channel before means none after, with the same crest behind it, if the shoreline stays known. -/
def KeepsCrest (c c' : Cell K) : Prop := (IsNumber c'.t.y0 → IsNumber c.t.y0) ∧ (c.t.y1 = nan → IsNumber c'.t.y0 → c'.t.y1 = nan ∧ c'.t.z2 = c.t.z2)

theorem keepsCrest_trans (a b c : Cell K) (h1 : KeepsCrest a b) (h2 : KeepsCrest b c) : KeepsCrest a c :=
  ⟨h1.1 ∘ h2.1, fun ha hc => by
    obtain ⟨b1, b2⟩ := h1.2 ha (h2.1 hc)
    obtain ⟨c1, c2⟩ := h2.2 b1 hc
    exact ⟨c1, c2.trans b2⟩⟩

theorem keepsCrest_merge (pp : PhysPars K) : WetRel (KeepsCrest (K := K)) where
  refl _ := ⟨id, fun h _ => ⟨h, rfl⟩⟩
  trans := keepsCrest_trans
  setWl _ _ := ⟨id, fun h _ => ⟨h, rfl⟩⟩
  restore c _ := ⟨fun h => num_of_add h, fun h _ => ⟨h, rfl⟩⟩
  crest c := by
    unfold crestCell
    split <;> exact ⟨id, fun h _ => ⟨h, rfl⟩⟩

theorem keepsCrest_mergeShore (pp : PhysPars K) (c : Cell K) : KeepsCrest c (mergeShoreCell pp c) := by
  refine ⟨fun h => num_of_sub h, fun h h0 => ?_⟩
  exfalso
  unfold mergeShoreCell at h0
  dsimp only at h0
  rw [h] at h0
  simp at h0
  exact h0

/-- A channel that has reached the lagoon is gone unless there is a breach, the crest behind it is left. -/
theorem breach_left {pp : PhysPars K} {j1 j2 : ℕ → Bool} {C B : Bool} {X0 : ℕ} {st st' : MorSt K}
    (h : breachStage pp j1 j2 C X0 st = .ok (B, st')) {i : ℕ} {c : Cell K} (hc : st.cells[i]? = some c) (hit : lagoonHit j1 i c = true) :
    ∃ c', st'.cells[i]? = some c' ∧ (IsNumber c'.t.y0 → c'.t.y1 = nan → c'.t.z2 = c.t.z2) := by
  unfold breachStage at h
  simp only [bind_ok] at h
  obtain ⟨⟨conn, t1⟩, g1, ⟨b2, t2⟩, g2, ⟨b3, t3⟩, g3, ⟨b4, t4⟩, g4, t5, g5, g6⟩ := h
  simp only [pure_ok] at g6
  cases g6
  have W := keepsCrest_merge (K := K) pp
  have t := W.trans
  have hc0 : (mergeLagoon j1 st.cells)[i]? = some (mergeLagoonCell c) := by
    unfold mergeLagoon
    rw [getElem?_mapIdx, hc]
    simp [hit]
  have g2' : Forall₂ KeepsCrest t1.cells t2.cells := by
    rw [mergeShore_inv g2]
    apply forall₂_of_get (by simp)
    intro i c c' hc hc'
    simp only [getElem?_map] at hc'
    have hz : (t1.cells.zip (t1.cells.mapIdx (shoreHit j2)))[i]? = some (c, shoreHit j2 i c) := by
      rw [getElem?_zip_eq_some]
      exact ⟨hc, by rw [getElem?_mapIdx, hc]; rfl⟩
    rw [hz] at hc'
    simp only [Option.map_some, Option.some.injEq] at hc'
    subst hc'
    split
    · exact keepsCrest_mergeShore pp _
    · exact W.refl _
  obtain ⟨c4, hc4, _, n4⟩ := forall₂_get (forall₂_trans t (connected_wet W g1) (forall₂_trans t g2'
    (forall₂_trans t (erosion_wet W g3) (overtop_wet W g4)))) hc0
  have done : IsNumber c4.t.y0 → c4.t.y1 = nan → c4.t.z2 = c.t.z2 := fun h0 _ => (n4 rfl h0).2
  unfold createBreach at g5
  cases b4 with
  | none =>
    simp only [pure_ok] at g5; subst g5
    exact ⟨c4, hc4, done⟩
  | some b =>
    simp only [bind_ok, ixGet_ok] at g5
    obtain ⟨d, hd, g5⟩ := g5
    split at g5
    · simp only [pure_ok] at g5; subst g5
      exact ⟨c4, hc4, done⟩
    · simp only [pure_ok] at g5; subst g5
      by_cases hbi : b = i
      · subst hbi
        refine ⟨breachCell pp _ _ c4, by simp [getElem?_modify, hc4]; rfl, fun h0 h1 => ?_⟩
        exact absurd h1 (pymin_not_nan (num_sub h0 trivial))
      · exact ⟨c4, by simp [getElem?_modify, hbi, hc4], done⟩

/-- The end of the step changes neither. -/
theorem keep_chan (pp : PhysPars K) (c : Cell K) :
    (keepCell pp c).t.y0 = c.t.y0 ∧ (keepCell pp c).t.y1 = c.t.y1 ∧ (keepCell pp c).t.y2 = c.t.y2 ∧ (keepCell pp c).t.z1 = c.t.z1 ∧ (keepCell pp c).t.z2 = c.t.z2 := by
  unfold keepCell
  split <;> exact ⟨rfl, rfl, rfl, rfl, rfl⟩

theorem finish_chan {pp : PhysPars K} {X0 : ℕ} {st st' : MorSt K} (h : finishStage pp X0 st = .ok st') {i : ℕ} {c : Cell K} (hc : st.cells[i]? = some c) :
    ∃ c', st'.cells[i]? = some c' ∧ c'.t.y0 = c.t.y0 ∧ c'.t.y1 = c.t.y1 ∧ c'.t.y2 = c.t.y2 ∧ c'.t.z1 = c.t.z1 ∧ c'.t.z2 = c.t.z2 := by
  unfold finishStage at h
  simp only [bind_ok, pure_ok, pyAssert_ok] at h
  obtain ⟨_, _, _, _, _, _, rfl⟩ := h
  by_cases hX : X0 = i
  · subst hX
    exact ⟨keepCell pp c, by simp [getElem?_modify, hc], keep_chan pp c⟩
  · exact ⟨c, by simp [getElem?_modify, hX, hc], rfl, rfl, rfl, rfl, rfl⟩

/-- A whole step: where it leaves no channel, neither banks nor bed of one are left. -/
theorem update_bare {pp : PhysPars K} {j1 j2 : ℕ → Bool} {a : MorIn K} {o : MorOut K} (h : updateMorphology pp j1 j2 a = .ok o) (z : Bool)
    (hB : 0 ≤ a.MaxMorChange) (hreg : Regular pp a) {i : ℕ} {r r' : Transect K} (hr : a.rows[i]? = some r) (hb : Banked z r)
    (hr' : o.rows[i]? = some r') (h0 : IsNumber r'.y0) (h1 : r'.y1 = nan) :
    Bare false r' ∧ (z = true → r'.z2 = nan ∨ ∃ X0 s0 s1 c, forceStage pp a = .ok (o.MorDt, X0, s0) ∧ repairStage pp a.Closed a.Dx s0 = .ok s1 ∧
      s1.cells[i]? = some c ∧ c.t.y1 ≠ nan ∧ (c.t.y3 <? c.t.y2) = false ∧ r'.z2 = c.t.z2) := by
  obtain ⟨X0, s0, s1, s2, s3, g0, g1, g2, g3, e, _⟩ := update_inv h
  obtain ⟨c0, hc0, b0⟩ := force_banked z g0 hB hreg hr hb
  obtain ⟨c1, hc1, o1⟩ := repair_outer z g1 hc0 b0
  have o1' : Outer false c1.t := fun k => (o1 k).imp id (fun b => ⟨b.1, b.2.1, b.2.2.1, fun h => absurd h (by simp)⟩)
  obtain ⟨c2, hc2, n2⟩ := breach_bare false g2 hc1 o1' (fun h => absurd h (by simp))
  obtain ⟨c3, hc3, q0, q1, q2, q3, q4⟩ := finish_chan g3 hc2
  rw [e, List.getElem?_map, hc3] at hr'
  cases hr'
  have k := n2 (q0 ▸ h0) (q1 ▸ h1)
  refine ⟨⟨h1, q2.trans k.2.1, q3.trans k.2.2.1, fun h => absurd h (by simp)⟩, fun hz => ?_⟩
  by_cases hn : c1.t.y1 = nan
  · obtain ⟨d2, hd2, m2⟩ := breach_bare z g2 hc1 o1 (fun _ h => absurd hn h)
    rw [hc2] at hd2; cases hd2
    exact Or.inl (q4.trans ((m2 (q0 ▸ h0) (q1 ▸ h1)).2.2.2 hz))
  · cases hit : lagoonHit j1 i c1 with
    | false =>
      obtain ⟨d2, hd2, m2⟩ := breach_bare z g2 hc1 o1 (fun _ _ => hit)
      rw [hc2] at hd2; cases hd2
      exact Or.inl (q4.trans ((m2 (q0 ▸ h0) (q1 ▸ h1)).2.2.2 hz))
    | true =>
      obtain ⟨d2, hd2, m2⟩ := breach_left g2 hc1 hit
      rw [hc2] at hd2; cases hd2
      refine Or.inr ⟨X0, s0, s1, c1, g0, g1, hc1, hn, ?_, q4.trans (m2 (q0 ▸ h0) (q1 ▸ h1))⟩
      have hm : c1.t.y1.isnan = false := by cases hh : c1.t.y1 <;> first | rfl | exact absurd hh hn
      unfold lagoonHit notGreater at hit
      rw [hm] at hit
      simpa using hit

end Verif.Model
