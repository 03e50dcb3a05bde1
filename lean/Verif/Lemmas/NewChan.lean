import Verif.Lemmas.Budget
import Verif.Spec.Outlet

set_option autoImplicit false
set_option linter.unusedSectionVars false

/-! # Transects without a channel through a step -/

namespace Verif.Model
open Verif Fl Verif.Spec List

variable {K : Type} [Field K] [LinearOrder K] [IsStrictOrderedRing K]

/-- The transect is at the same place and has not got a channel. -/
def NoNew (c c' : Cell K) : Prop := c'.t.x = c.t.x ∧ (c.t.y1 = nan → c'.t.y1 = nan)

theorem noNew_refl (c : Cell K) : NoNew c c := ⟨rfl, id⟩

theorem noNew_trans (a b c : Cell K) (h1 : NoNew a b) (h2 : NoNew b c) : NoNew a c := ⟨h2.1.trans h1.1, h2.2 ∘ h1.2⟩

theorem noNew_closed (pp : PhysPars K) : ClosedRel pp (NoNew (K := K)) where
  refl := noNew_refl
  trans := noNew_trans
  setOp _ _ := ⟨rfl, id⟩
  extend _ := ⟨rfl, fun _ => rfl⟩
  overwash c := by
    unfold overwashCell
    split
    · dsimp only
      refine ⟨?_, fun h => ?_⟩
      · split <;> split <;> split <;> rfl
      · split
        · rfl
        · split <;> split <;> (show c.t.y1 + _ = nan; rw [h, nan_add'])
    · exact noNew_refl c
  cliff c := by
    unfold cliffCell
    dsimp only
    split
    · exact ⟨rfl, id⟩
    · exact noNew_refl c

theorem noNew_merge (pp : PhysPars K) : MergeRel pp (NoNew (K := K)) where
  refl := noNew_refl
  trans := noNew_trans
  mergeLagoon _ := ⟨rfl, fun _ => rfl⟩
  setWl _ _ := ⟨rfl, id⟩
  mergeShore _ := ⟨rfl, fun _ => rfl⟩
  restore _ _ := ⟨rfl, id⟩
  crest c := by
    unfold crestCell
    split
    · exact ⟨rfl, id⟩
    · exact noNew_refl c

theorem noNew_seaPrevent (c : Cell K) : NoNew c (seaPreventCell c) :=
  ⟨rfl, fun h => by show c.t.y1 - _ = nan; rw [h, nan_sub']⟩

theorem noNew_lagoonPrevent (pp : PhysPars K) (c : Cell K) : NoNew c (lagoonPreventCell pp c) := by
  unfold lagoonPreventCell
  dsimp only
  split <;> exact ⟨rfl, id⟩

theorem noNew_keep (pp : PhysPars K) (c : Cell K) : NoNew c (keepCell pp c) := by
  unfold keepCell
  split
  · exact ⟨rfl, id⟩
  · exact noNew_refl c

/-- The same position as `Reached`, for an end that may be nan or infinite. -/
def Swept (e : Fl K) (xl x : K) : Prop := (xl < x ∧ (fin x ≤? e) = true) ∨ ((e ≤? fin x) = true ∧ x < xl)

theorem elongate_new {pp : PhysPars K} {C : Bool} {st st' : MorSt K} (h : elongate pp C st = .ok st') {i : ℕ} {c : Cell K} (hc : st.cells[i]? = some c) :
    st'.cells[i]? = some c ∨ (C = false ∧ ∃ l cl c', st.ix.getLast? = some l ∧ st.cells[l]? = some cl ∧ Swept st.e1 cl.t.x c.t.x ∧
      st'.cells[i]? = some c' ∧ c'.t.x = c.t.x) := by
  have ext : ∀ (m : Transect K → Bool) (s : MorSt K), extendChan pp st m = .ok s →
      (m c.t = false ∧ s.cells[i]? = some c) ∨ (m c.t = true ∧ s.cells[i]? = some (elongCell pp st c)) := by
    intro m s hx
    unfold extendChan at hx
    split at hx
    · cases hx
    · cases hx
      simp only [getElem?_map, hc, Option.map_some]
      cases m c.t
      · exact Or.inl ⟨rfl, rfl⟩
      · exact Or.inr ⟨rfl, rfl⟩
  unfold elongate at h
  split at h
  · simp only [pure_ok] at h; subst h; exact Or.inl hc
  · next hC =>
    simp only [bind_ok, ixGet_ok, pyGet_last] at h
    obtain ⟨last, hlast, cl, hcl, h⟩ := h
    split at h
    · simp only [bind_ok] at h
      obtain ⟨_, _, h⟩ := h
      split at h
      · rcases ext _ _ h with ⟨_, k⟩ | ⟨k, k'⟩
        · exact Or.inl k
        · simp only [Bool.and_eq_true, blt_fin, decide_eq_true_eq] at k
          exact Or.inr ⟨by simpa using hC, last, cl, _, hlast, hcl, Or.inl k, k', rfl⟩
      · simp only [pure_ok] at h; subst h; exact Or.inl hc
    · simp only [bind_ok] at h
      obtain ⟨_, _, h⟩ := h
      split at h
      · rcases ext _ _ h with ⟨_, k⟩ | ⟨k, k'⟩
        · exact Or.inl k
        · simp only [Bool.and_eq_true, blt_fin, decide_eq_true_eq] at k
          exact Or.inr ⟨by simpa using hC, last, cl, _, hlast, hcl, Or.inr ⟨k.2, k.1⟩, k', rfl⟩
      · simp only [pure_ok] at h; subst h; exact Or.inl hc

/-- The repairs give a channel only to transects swept by the end of an open outlet. -/
theorem repair_new {pp : PhysPars K} {C : Bool} {Dx : K} {st st' : MorSt K} (h : repairStage pp C Dx st = .ok st') {i : ℕ} {c : Cell K}
    (hc : st.cells[i]? = some c) (hn : c.t.y1 = nan) :
    ∃ c', st'.cells[i]? = some c' ∧ c'.t.x = c.t.x ∧ (c'.t.y1 = nan ∨ (C = false ∧ ∃ s1 l cl, edgeCheck st = .ok s1 ∧ st.ix.getLast? = some l ∧
      st.cells[l]? = some cl ∧ Swept s1.e1 cl.t.x c.t.x)) := by
  unfold repairStage at h
  simp only [bind_ok] at h
  obtain ⟨s1, h1, cs, h2, s3, h3, s4, h4, s5, h5, s6, h6, h7⟩ := h
  have T := noNew_closed (K := K) pp
  have t := T.trans
  have e1 : s1.cells = st.cells ∧ s1.ix = st.ix := by
    unfold edgeCheck at h1
    simp only [bind_ok, pure_ok] at h1
    obtain ⟨_, _, _, _, rfl⟩ := h1
    exact ⟨rfl, rfl⟩
  have g12 : Forall₂ NoNew st.cells cs := by
    rw [← e1.1]
    exact forall₂_trans t (forall₂_map' T.cliff _) (overwash_rel T.toTruncRel h2)
  obtain ⟨c2, hc2, x2, n2⟩ := forall₂_get g12 hc
  have g4 : Forall₂ NoNew s3.cells s4.cells := by
    unfold seaPrevent at h4
    split at h4
    · simp only [pure_ok] at h4; subst h4; exact forall₂_rfl noNew_refl _
    · simp only [bind_ok] at h4
      obtain ⟨_, _, _, _, h⟩ := h4
      split at h
      · simp only [pure_ok] at h; subst h; exact forall₂_modify' noNew_refl noNew_seaPrevent _ _
      · simp only [pure_ok] at h; subst h; exact forall₂_rfl noNew_refl _
  have g7 : Forall₂ NoNew s6.cells st'.cells := by
    unfold lagoonPrevent at h7
    split at h7
    · simp only [pure_ok] at h7; subst h7; exact forall₂_rfl noNew_refl _
    · simp only [bind_ok] at h7
      obtain ⟨_, _, _, _, h⟩ := h7
      split at h
      · simp only [pure_ok] at h; subst h; exact forall₂_modify' noNew_refl (noNew_lagoonPrevent pp) _ _
      · simp only [pure_ok] at h; subst h; exact forall₂_rfl noNew_refl _
  have grest := forall₂_trans t g4 (forall₂_trans t (lagoonTrunc_rel T.toStageRel h5) (forall₂_trans t (seaTrunc_rel T.toStageRel h6) g7))
  rcases elongate_new h3 hc2 with k | ⟨kC, l, cl, c3, k1, k2, k3, k4, k5⟩
  · obtain ⟨c', hc', x', n'⟩ := forall₂_get grest k
    exact ⟨c', hc', x'.trans x2, Or.inl (n' (n2 hn))⟩
  · obtain ⟨c', hc', x', _⟩ := forall₂_get grest k4
    refine ⟨c', hc', x'.trans (k5.trans x2), Or.inr ⟨kC, s1, l, ?_⟩⟩
    dsimp only at k1 k2 k3
    rw [e1.2] at k1
    have hl := (List.getElem?_eq_some_iff.mp k2).1
    have hj : st.cells[l]? = some (st.cells[l]'(by rw [g12.length_eq]; exact hl)) := List.getElem?_eq_getElem _
    obtain ⟨d2, hd2, xd, _⟩ := forall₂_get g12 hj
    rw [k2] at hd2; cases hd2
    refine ⟨_, h1, k1, hj, ?_⟩
    rw [← xd, ← x2]
    exact k3

/-- The merging of channels gives no transect a channel, a breach gives one to the transect at which the outlet then is. -/
theorem breach_new {pp : PhysPars K} {j1 j2 : ℕ → Bool} {C B : Bool} {X0 : ℕ} {st st' : MorSt K} (h : breachStage pp j1 j2 C X0 st = .ok (B, st')) {i : ℕ} {c : Cell K}
    (hc : st.cells[i]? = some c) (hn : c.t.y1 = nan) :
    ∃ c', st'.cells[i]? = some c' ∧ c'.t.x = c.t.x ∧ (c'.t.y1 = nan ∨ (B = true ∧ st'.e0 = fin c.t.x ∧ st'.e1 = fin c.t.x)) := by
  unfold breachStage at h
  simp only [bind_ok] at h
  obtain ⟨⟨conn, t1⟩, g1, ⟨b2, t2⟩, g2, ⟨b3, t3⟩, g3, ⟨b4, t4⟩, g4, t5, g5, g6⟩ := h
  simp only [pure_ok] at g6
  cases g6
  have H := noNew_merge (K := K) pp
  have t := H.trans
  have e0 : Forall₂ NoNew st.cells (mergeLagoon j1 st.cells) := by
    apply forall₂_mapIdx'
    intro i c; split
    · exact H.mergeLagoon _
    · exact H.refl _
  obtain ⟨c4, hc4, x4, n4⟩ := forall₂_get (forall₂_trans t e0 (forall₂_trans t (connected_rel H g1) (forall₂_trans t (mergeShore_rel H g2)
    (forall₂_trans t (erosion_rel H g3) (overtop_rel H g4))))) hc
  unfold createBreach at g5
  cases b4 with
  | none =>
    simp only [pure_ok] at g5; subst g5
    exact ⟨c4, hc4, x4, Or.inl (n4 hn)⟩
  | some b =>
    simp only [bind_ok, ixGet_ok] at g5
    obtain ⟨d, hd, g5⟩ := g5
    split at g5
    · simp only [pure_ok] at g5; subst g5
      exact ⟨c4, hc4, x4, Or.inl (n4 hn)⟩
    · simp only [pure_ok] at g5; subst g5
      by_cases hbi : b = i
      · subst hbi
        rw [hc4] at hd; cases hd
        refine ⟨breachCell pp _ _ c4, by simp [getElem?_modify, hc4]; rfl, x4, Or.inr ⟨rfl, ?_, ?_⟩⟩
        · show fin c4.t.x = _; rw [x4]
        · show fin c4.t.x = _; rw [x4]
      · exact ⟨c4, by simp [getElem?_modify, hbi, hc4], x4, Or.inl (n4 hn)⟩

/-- The positions and channels after the forcing. -/
theorem force_new {pp : PhysPars K} {a : MorIn K} {dt : ℤ} {X0 : ℕ} {st : MorSt K} (h : forceStage pp a = .ok (dt, X0, st)) :
    st.ix = a.outlet ∧ st.cells.map (·.t.x) = a.rows.map (·.x) ∧
      ∀ (i : ℕ) r, a.rows[i]? = some r → r.y1 = nan → ∃ c, st.cells[i]? = some c ∧ c.t.y1 = nan := by
  obtain ⟨rb, cells', R, R', rate, hp, hall, hrt, hdt, hl, ha⟩ := force_inv h
  have hx := allRates_x hall
  have hm : (a.rows.mapIdx (mkCell pp a)).length = a.rows.length := by simp
  have hy : ∀ (i : ℕ) r, a.rows[i]? = some r → r.y1 = nan → ∃ c, cells'[i]? = some c ∧ c.t.y1 = nan := by
    intro i r hr hn
    have hc : (a.rows.mapIdx (mkCell pp a))[i]? = some (mkCell pp a i r) := by rw [getElem?_mapIdx, hr]; rfl
    unfold allRates at hall
    simp only [bind_ok] at hall
    obtain ⟨R1, _, ⟨R2, c2⟩, g2, R3, _, hall⟩ := hall
    cases hall
    unfold lstRates at g2
    simp only [bind_ok] at g2
    obtain ⟨y0, _, g2⟩ := g2
    split at g2
    · cases g2; exact ⟨_, hc, hn⟩
    · simp only [bind_ok] at g2
      obtain ⟨l, _, g2⟩ := g2
      split at g2
      · simp only [bind_ok, pure_ok] at g2
        obtain ⟨_, _, g2⟩ := g2
        cases g2; exact ⟨_, hc, hn⟩
      · simp only [bind_ok, pure_ok] at g2
        obtain ⟨_, _, g2⟩ := g2
        cases g2
        refine ⟨_, by rw [List.getElem?_modify, hc]; rfl, ?_⟩
        split
        · exact hn
        · exact hn
  unfold applyRates at ha
  simp only at ha
  split at ha
  · cases ha
  · cases ha
    refine ⟨rfl, ?_, ?_⟩
    · have : (cells'.mapIdx (moveCell R' (fin (secs dt : K)))).map (·.t.x) = cells'.map (·.t.x) := by
        apply List.ext_getElem?
        intro k
        simp only [List.getElem?_map, List.getElem?_mapIdx]
        cases cells'[k]? <;> rfl
      rw [this, hx]
      apply List.ext_getElem?
      intro k
      simp only [List.getElem?_map, List.getElem?_mapIdx]
      cases a.rows[k]? <;> rfl
    · intro i r hr hn
      obtain ⟨c, hc, hc1⟩ := hy i r hr hn
      refine ⟨_, by rw [List.getElem?_mapIdx, hc]; rfl, ?_⟩
      show c.t.y1 + _ = nan
      rw [hc1, nan_add']

/-- A transect gets a channel by a breach, or from the end of an open outlet sweeping over it. -/
theorem update_new {pp : PhysPars K} {j1 j2 : ℕ → Bool} {a : MorIn K} {o : MorOut K} (h : updateMorphology pp j1 j2 a = .ok o) {i : ℕ} {r r' : Transect K}
    (hr : a.rows[i]? = some r) (hn : r.y1 = nan) (hr' : o.rows[i]? = some r') (hn' : r'.y1 ≠ nan) :
    (o.Breach = true ∧ o.EndX0 = fin r.x ∧ o.EndX1 = fin r.x) ∨
    (a.Closed = false ∧ ∃ X0 s0 s1 l last, forceStage pp a = .ok (o.MorDt, X0, s0) ∧ edgeCheck s0 = .ok s1 ∧ a.outlet.getLast? = some l ∧ a.rows[l]? = some last ∧
      Swept s1.e1 last.x r.x) := by
  obtain ⟨X0, s0, s1, s2, s3, g0, g1, g2, g3, e, eX0, eX1, _⟩ := update_inv h
  obtain ⟨fix, fx, fn⟩ := force_new g0
  have posOf : ∀ (j : ℕ) c q, s0.cells[j]? = some c → a.rows[j]? = some q → c.t.x = q.x := by
    intro j c q hc hq
    have := congrArg (fun l => l[j]?) fx
    simp only [getElem?_map, hc, hq, Option.map_some, Option.some.injEq] at this
    exact this
  obtain ⟨c0, hc0, n0⟩ := fn i r hr hn
  have x0 := posOf i c0 r hc0 hr
  obtain ⟨c1, hc1, x1, k1⟩ := repair_new g1 hc0 n0
  unfold finishStage at g3
  simp only [bind_ok, pure_ok, pyAssert_ok] at g3
  obtain ⟨_, _, _, _, _, _, rfl⟩ := g3
  rcases k1 with n1 | ⟨kC, t1, l, cl, q1, q2, q3, q4⟩
  · obtain ⟨c2, hc2, x2, k2⟩ := breach_new g2 hc1 n1
    rcases k2 with n2 | ⟨kB, k3, k4⟩
    · exfalso
      obtain ⟨c3, hc3, x3, n3⟩ := forall₂_get (forall₂_modify' noNew_refl (noNew_keep pp) s2.cells X0) hc2
      rw [e, List.getElem?_map, hc3] at hr'
      cases hr'
      exact hn' (n3 n2)
    · exact Or.inl ⟨kB, by rw [eX0, ← x0, ← x1]; exact k3, by rw [eX1, ← x0, ← x1]; exact k4⟩
  · refine Or.inr ⟨kC, X0, s0, t1, l, ?_⟩
    have hl := (List.getElem?_eq_some_iff.mp q3).1
    have hlen : s0.cells.length = a.rows.length := by
      have := congrArg List.length fx
      simpa using this
    have hj : a.rows[l]? = some (a.rows[l]'(by rw [← hlen]; exact hl)) := List.getElem?_eq_getElem _
    refine ⟨_, g0, q1, fix ▸ q2, hj, ?_⟩
    rw [← posOf l _ _ q3 hj, ← x0]
    exact q4

end Verif.Model
