import Verif.Lemmas.DatumRun
import Verif.Lemmas.MorRel

set_option autoImplicit false
set_option linter.unusedSectionVars false

/-! # A step of a closed lagoon in which no channel is lost does not merge a channel with the lagoon -/

namespace Verif.Model
open Verif Fl Spec
open List hiding span

variable {K : Type} [Field K] [LinearOrder K] [IsStrictOrderedRing K] (pp : PhysPars K)

/-- A transect without channel stays one. -/
def Dry (c c' : Cell K) : Prop := c.t.y1 = nan → c'.t.y1 = nan

/-- Likewise for the inner shore of the lagoon. -/
def Dry3 (c c' : Cell K) : Prop := c.t.y3 = nan → c'.t.y3 = nan

theorem dry_closed : ClosedRel pp (Dry (K := K)) where
  refl _ h := h
  trans _ _ _ f g h := g (f h)
  cliff c h := by unfold cliffCell; simp only; split <;> exact h
  overwash c h := by
    unfold overwashCell
    have : negWidth c = false := by simp [negWidth, h]
    rw [this]
    exact h
  setOp _ _ h := h
  extend _ _ := rfl

theorem dry_merge : MergeRel pp (Dry (K := K)) where
  refl _ h := h
  trans _ _ _ f g h := g (f h)
  mergeLagoon _ _ := rfl
  setWl _ _ h := h
  mergeShore _ _ := rfl
  restore _ _ h := h
  crest c h := by unfold crestCell; split <;> exact h

theorem dry3_merge : MergeRel pp (Dry3 (K := K)) where
  refl _ h := h
  trans _ _ _ f g h := g (f h)
  mergeLagoon c h := by simp [mergeLagoonCell, h]
  setWl _ _ h := h
  mergeShore _ h := h
  restore c _ h := by simp [restoreCell, h]
  crest c h := by unfold crestCell; split <;> exact h

theorem force_dry {a : MorIn K} (hC : a.Closed = true) {dt : ℤ} {X0 : ℕ} {st : MorSt K} (h : forceStage pp a = .ok (dt, X0, st)) {i : ℕ}
    {r : Transect K} (hr : a.rows[i]? = some r) (hn : r.y1 = nan) : ∃ c, st.cells[i]? = some c ∧ c.t.y1 = nan := by
  obtain ⟨rb, cells', R, R', rate, _, hall, _, _, _, ha⟩ := force_inv h
  obtain ⟨_, _, hs⟩ := allRates_len (by simp) hall
  rw [hs (Or.inl hC)] at ha
  unfold applyRates at ha
  simp only at ha
  split at ha
  · cases ha
  · cases ha
    refine ⟨moveCell R' (fin (secs dt : K)) i (mkCell pp a i r), ?_, ?_⟩
    · rw [getElem?_mapIdx, getElem?_mapIdx, hr]
      rfl
    · simp [moveCell, mkCell, hn]

theorem noMerge_closed {j1 j2 : ℕ → Bool} {a : MorIn K} (hC : a.Closed = true) {m : MorOut K} (h : updateMorphology pp j1 j2 a = .ok m)
    (hb : m.Breach = false) (hk : ∀ (i : ℕ) (r r' : Transect K), a.rows[i]? = some r → m.rows[i]? = some r' → r'.y1 = nan → r.y1 = nan) :
    NoMerge pp j1 a := by
  intro dt X0 s0 s1 h0 h1 i c hc
  obtain ⟨X0', s0', s1', s2, s3, g0, g1, g2, g3, gr, _⟩ := update_inv h
  rw [h0] at g0
  obtain ⟨rfl, g00⟩ := Prod.mk.inj (Except.ok.inj g0)
  obtain ⟨rfl, rfl⟩ := Prod.mk.inj g00
  rw [h1] at g1
  cases g1
  rw [hb] at g2
  by_contra hh
  have hh : lagoonHit j1 i c = true := by simpa using hh
  have hm : (mergeLagoon j1 s1.cells)[i]? = some (mergeLagoonCell c) := by
    unfold mergeLagoon
    rw [getElem?_mapIdx, hc]
    simp [hh]
  obtain ⟨c2, hc2, d2⟩ := forall₂_get (merge_rel (dry_merge pp) g2) hm
  obtain ⟨c2', hc2', d3⟩ := forall₂_get (merge_rel (dry3_merge pp) g2) hm
  rw [hc2] at hc2'
  cases hc2'
  obtain ⟨hs3, hfin⟩ := finish_inv g3
  have hc3 : ∃ c3, s3.cells[i]? = some c3 ∧ c3.t.y1 = c2.t.y1 ∧ c3.t.y3 = c2.t.y3 := by
    rw [hs3]
    simp only [getElem?_modify, hc2]
    refine ⟨if X0 = i then keepCell pp c2 else c2, rfl, ?_⟩
    split
    · unfold keepCell
      split <;> exact ⟨rfl, rfl⟩
    · exact ⟨rfl, rfl⟩
  obtain ⟨c3, hc3, e1, e3⟩ := hc3
  have hrow : m.rows[i]? = some c3.t := by
    rw [gr, getElem?_map, hc3]
    rfl
  have hn3 : c3.t.y1 = nan := e1.trans (d2 rfl)
  have hlt : i < a.rows.length := by
    have l1 : s0.cells.length = s1.cells.length := (by rw [hC] at h1; exact (repair_closed_rel (dry_closed pp) h1).length_eq)
    obtain ⟨rb, cells', R, R', rate, _, hall, _, _, _, ha⟩ := force_inv h0
    obtain ⟨_, hl, _⟩ := allRates_len (by simp) hall
    unfold applyRates at ha
    simp only at ha
    split at ha
    · cases ha
    · cases ha
      simp only [length_mapIdx] at l1
      rw [← hl, l1]
      exact (List.getElem?_eq_some_iff.mp hc).1
  have hy1 : a.rows[i].y1 = nan := hk i _ _ (getElem?_eq_getElem hlt) hrow hn3
  obtain ⟨c0, hc0, hn0⟩ := force_dry pp hC h0 (getElem?_eq_getElem hlt) hy1
  obtain ⟨c1, hc1, d1⟩ := forall₂_get (repair_closed_rel (dry_closed pp) (by rw [hC] at h1; exact h1)) hc0
  rw [hc] at hc1
  cases hc1
  have hcn : c.t.y1 = nan := d1 hn0
  have : c3.t.y3 = nan := by
    rw [e3]
    exact d3 (by simp [mergeLagoonCell, hcn])
  exact (hfin c3 (mem_of_getElem? hc3)).2.1 this

end Verif.Model
