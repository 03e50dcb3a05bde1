import Verif.Lemmas.Relic
import Verif.Lemmas.Plain
import Verif.Spec.Spit

set_option autoImplicit false
set_option linter.unusedSectionVars false

/-! # An open outlet channel away from sea and lagoon through a step -/

namespace Verif.Model
open Verif Fl Verif.Spec List

variable {K : Type} [Field K] [LinearOrder K] [IsStrictOrderedRing K]

/-- Overwash repair leaves the transect of such a channel alone. -/
theorem overwash_safe {cs cs' : List (Cell K)} (h : overwashRepair cs = .ok cs') {i : ℕ} {c : Cell K} (hc : cs[i]? = some c) (hs : SafeT c.t) :
    ∃ c', cs'[i]? = some c' ∧ c'.t = c.t := by
  unfold overwashRepair at h
  simp only [bind_ok] at h
  obtain ⟨_, _, _, _, h⟩ := h
  split at h
  · simp only [pure_ok] at h
    subst h
    refine ⟨{ c with op := !c.t.y1.isnan }, ?_, rfl⟩
    show ((map overwashCell cs).map (fun c : Cell K => { c with op := !c.t.y1.isnan }))[i]? = _
    rw [getElem?_map, getElem?_map, hc, Option.map_some, safe_overwash c hs, Option.map_some]
  · simp only [pure_ok] at h
    subst h
    refine ⟨c, ?_, rfl⟩
    show (map overwashCell cs)[i]? = _
    rw [getElem?_map, hc, Option.map_some, safe_overwash c hs]

/-- The end of the outlet has not passed a transect. -/
def EndStays (st : MorSt K) : Prop :=
  ∃ l p q e, st.ix.getLast? = some l ∧ 2 ≤ l ∧ l + 2 < st.cells.length ∧ st.cells[l - 1]? = some p ∧ st.cells[l + 1]? = some q ∧ st.e1 = fin e ∧
    p.t.x < e ∧ e < q.t.x

/-- The repairs of an open lagoon leave the outlet channel alone if it is safe everywhere and its end has not passed a transect. -/
theorem repair_open {pp : PhysPars K} {Dx : K} {st st' : MorSt K} (h : repairStage pp false Dx st = .ok st')
    (hsafe : ∀ j ∈ st.ix, ∃ c, st.cells[j]? = some c ∧ SafeT c.t) (hend : EndStays st) (hsort : st.cells.Pairwise (fun c d => c.t.x < d.t.x))
    {i : ℕ} {c : Cell K} (hi : i ∈ st.ix) (hc : st.cells[i]? = some c) : (∃ c', st'.cells[i]? = some c' ∧ c'.t = c.t) ∧ st'.e1 = st.e1 := by
  obtain ⟨l, p, q, e, hl, l1, l2, hp, hq, he, k1, k2⟩ := hend
  unfold repairStage at h
  simp only [bind_ok] at h
  obtain ⟨s1, h1, cs, h2, s3, h3, s4, h4, s5, h5, s6, h6, h7⟩ := h
  have hlt : ∀ (j k : ℕ) (u v : Cell K), st.cells[j]? = some u → st.cells[k]? = some v → j ≤ k → u.t.x ≤ v.t.x := by
    intro j k u v hu hv hjk
    rcases Nat.eq_or_lt_of_le hjk with rfl | hjk
    · rw [hu] at hv; cases hv; exact le_refl _
    · obtain ⟨h1, rfl⟩ := List.getElem?_eq_some_iff.mp hu
      obtain ⟨h2, rfl⟩ := List.getElem?_eq_some_iff.mp hv
      exact (List.pairwise_iff_getElem.mp hsort j k h1 h2 hjk).le
  have hin : Inside st := by
    have i1 : 1 < st.cells.length := by omega
    have i2 : st.cells.length - 2 < st.cells.length := by omega
    refine ⟨e, st.cells[1], st.cells[st.cells.length - 2], he, List.getElem?_eq_getElem i1, List.getElem?_eq_getElem i2, ?_, ?_⟩
    · exact (hlt 1 (l - 1) _ _ (List.getElem?_eq_getElem i1) hp (by omega)).trans k1.le
    · exact k2.le.trans (hlt (l + 1) _ _ _ hq (List.getElem?_eq_getElem i2) (by omega))
  have e1 : s1 = st := by
    have he1 := edge_far h1 hin
    unfold edgeCheck at h1
    simp only [bind_ok, pure_ok] at h1
    obtain ⟨_, _, _, _, rfl⟩ := h1
    simp only at he1
    rw [he1]
  subst e1
  have X := sameX_repair pp (K := K)
  have gx : Forall₂ SameX s1.cells cs := forall₂_trans X.trans (forall₂_map' X.cliff _) (overwash_rel X.toTruncRel h2)
  have hcs : ∀ j ∈ s1.ix, ∀ c, s1.cells[j]? = some c → ∃ c', cs[j]? = some c' ∧ c'.t = c.t := by
    intro j hj c hc
    obtain ⟨c1, hc1, hs1⟩ := hsafe j hj
    rw [hc] at hc1
    cases hc1
    refine overwash_safe h2 ?_ hs1
    rw [getElem?_map, hc, Option.map_some, safe_cliff pp c hs1]
  have hcs' : ∀ j ∈ s1.ix, ∃ c, cs[j]? = some c ∧ SafeT c.t := by
    intro j hj
    obtain ⟨c, hc, hs⟩ := hsafe j hj
    obtain ⟨c', hc', e⟩ := hcs j hj c hc
    exact ⟨c', hc', by rw [e]; exact hs⟩
  have e3 : { s1 with cells := cs } = s3 := by
    unfold elongate at h3
    rw [if_neg (by simp)] at h3
    simp only [bind_ok, ixGet_ok, pyGet_last] at h3
    obtain ⟨last, hlast, cl, hcl, h3⟩ := h3
    rw [hl] at hlast
    cases hlast
    split at h3
    · simp only [bind_ok] at h3
      obtain ⟨qn, hqn, h3⟩ := h3
      obtain ⟨q', hq', hx⟩ := forall₂_get gx hq
      rw [ixGet_ok.mp hqn] at hq'
      cases hq'
      rw [if_neg (by rw [he]; show ¬ (fin qn.t.x ≤? fin e) = true; rw [hx]; simpa using k2)] at h3
      simpa [pure_ok] using h3
    · simp only [bind_ok] at h3
      obtain ⟨qn, hqn, h3⟩ := h3
      obtain ⟨q', hq', hx⟩ := forall₂_get gx hp
      have : prevIx cs.length l = l - 1 := by unfold prevIx; rw [if_neg (by omega)]
      rw [ixGet_ok] at hqn
      rw [this, hq'] at hqn
      cases hqn
      rw [if_neg (by rw [he]; show ¬ (fin e ≤? fin qn.t.x) = true; rw [hx]; simpa using k1)] at h3
      simpa [pure_ok] using h3
  subst e3
  have e4 : { s1 with cells := cs } = s4 := by
    unfold seaPrevent at h4
    rw [if_neg (by simp)] at h4
    simp only [bind_ok, ixGet_ok] at h4
    obtain ⟨j, hj, d, hd, h4⟩ := h4
    obtain ⟨d', hd', hs⟩ := hcs' j (List.mem_of_getElem? hj)
    rw [hd] at hd'
    cases hd'
    obtain ⟨y0, y1, y2, y3, y4, f0, f1, f2, f3, f4, m1, m2, m3, m4⟩ := hs
    rw [if_neg (by rw [f0, f1]; simpa using m1)] at h4
    simpa [pure_ok] using h4
  subst e4
  have e5 : { s1 with cells := cs } = s5 := by
    unfold lagoonTrunc at h5
    split at h5
    · simpa [pure_ok] using h5
    · have : ixWhere cs s1.ix.dropLast (fun t => t.y2 ≤? t.y3) = [] := by
        unfold ixWhere
        rw [List.filter_eq_nil_iff]
        intro j hj
        obtain ⟨d', hd', hs⟩ := hcs' j (List.mem_of_mem_dropLast hj)
        obtain ⟨y0, y1, y2, y3, y4, f0, f1, f2, f3, f4, m1, m2, m3, m4⟩ := hs
        rw [hd']
        simp [f2, f3, m3]
      simp only [this] at h5
      simpa [pure_ok] using h5
  subst e5
  have e6 : { s1 with cells := cs } = s6 := by
    unfold seaTrunc at h6
    split at h6
    · simpa [pure_ok] using h6
    · have : ixWhere cs s1.ix.tail (fun t => t.y0 ≤? t.y1) = [] := by
        unfold ixWhere
        rw [List.filter_eq_nil_iff]
        intro j hj
        obtain ⟨d', hd', hs⟩ := hcs' j (List.mem_of_mem_tail hj)
        obtain ⟨y0, y1, y2, y3, y4, f0, f1, f2, f3, f4, m1, m2, m3, m4⟩ := hs
        rw [hd']
        simp [f0, f1, m1]
      simp only [this] at h6
      simpa [pure_ok] using h6
  subst e6
  have e7 : { s1 with cells := cs } = st' := by
    unfold lagoonPrevent at h7
    rw [if_neg (by simp)] at h7
    simp only [bind_ok, ixGet_ok, pyGet_last] at h7
    obtain ⟨j, hj, d, hd, h7⟩ := h7
    obtain ⟨d', hd', hs⟩ := hcs' j (List.mem_of_getLast? hj)
    rw [hd] at hd'
    cases hd'
    obtain ⟨y0, y1, y2, y3, y4, f0, f1, f2, f3, f4, m1, m2, m3, m4⟩ := hs
    rw [if_neg (by rw [f2, f3]; simpa using m3)] at h7
    simpa [pure_ok] using h7
  subst e7
  exact ⟨hcs i hi c hc, rfl⟩

/-- The transect is the same, or its crest has been raised to the height of the inner crest. -/
def CrestT (t t' : Transect K) : Prop := t' = t ∨ t' = { t with z0 := npmax t.z0 t.z2 }

theorem npmax_max (x y : Fl K) : npmax (npmax x y) y = npmax x y := by
  cases x <;> cases y <;> simp [npmax, Fl.isnan] <;> (repeat' split) <;> simp_all

theorem crestT_trans {a b c : Transect K} (h1 : CrestT a b) (h2 : CrestT b c) : CrestT a c := by
  rcases h1 with rfl | rfl
  · exact h2
  · rcases h2 with rfl | rfl
    · exact Or.inr rfl
    · exact Or.inr (by simp only [npmax_max])

def SafeCrest (c c' : Cell K) : Prop := SafeT c.t → CrestT c.t c'.t

theorem crestT_kept {t t' : Transect K} (h : CrestT t t') : KeptT t t' := by
  rcases h with rfl | rfl <;> rfl

theorem safeCrest_wet : WetRel (SafeCrest (K := K)) where
  refl _ := fun _ => Or.inl rfl
  trans a b c h1 h2 := fun h => crestT_trans (h1 h) (h2 (h.kept (crestT_kept (h1 h))))
  setWl _ _ := fun _ => Or.inl rfl
  restore c he := fun h => by rw [safe_eroded h] at he; cases he
  crest c := by
    intro _
    unfold crestCell
    split
    · exact Or.inr rfl
    · exact Or.inl rfl

/-- Such a channel keeps its transect, but for the crest, unless the breach happens there. -/
theorem breach_crest {pp : PhysPars K} {j1 j2 : ℕ → Bool} {C B : Bool} {X0 : ℕ} {st st' : MorSt K} (h : breachStage pp j1 j2 C X0 st = .ok (B, st')) {i : ℕ} {c : Cell K}
    (hc : st.cells[i]? = some c) (hs : SafeT c.t) :
    ∃ c', st'.cells[i]? = some c' ∧ (CrestT c.t c'.t ∨ (B = true ∧ st'.e0 = fin c.t.x ∧ st'.e1 = fin c.t.x)) := by
  unfold breachStage at h
  simp only [bind_ok] at h
  obtain ⟨⟨conn, t1⟩, g1, ⟨b2, t2⟩, g2, ⟨b3, t3⟩, g3, ⟨b4, t4⟩, g4, t5, g5, g6⟩ := h
  simp only [pure_ok] at g6
  cases g6
  have H := safeCrest_wet (K := K)
  have hc0 : (mergeLagoon j1 st.cells)[i]? = some c := by
    unfold mergeLagoon
    rw [getElem?_mapIdx, hc, Option.map_some, if_neg (by rw [safe_lagoonHit j1 i c hs]; simp)]
  obtain ⟨c1, hc1, k1⟩ := forall₂_get (connected_wet H g1) hc0
  have hs1 := hs.kept (crestT_kept (k1 hs))
  have hc2 : t2.cells[i]? = some c1 := by
    rw [mergeShore_inv g2]
    show ((t1.cells.zip (t1.cells.mapIdx (shoreHit j2))).map _)[i]? = _
    have hz : (t1.cells.zip (t1.cells.mapIdx (shoreHit j2)))[i]? = some (c1, false) := by
      rw [getElem?_zip_eq_some]
      refine ⟨hc1, ?_⟩
      rw [getElem?_mapIdx, hc1, Option.map_some, safe_shoreHit j2 i c1 hs1]
    rw [getElem?_map, hz]
    rfl
  obtain ⟨c4, hc4, k4⟩ := forall₂_get (forall₂_trans H.trans (erosion_wet H g3) (overtop_wet H g4)) hc2
  have k := crestT_trans (k1 hs) (k4 hs1)
  have x4 : c4.t.x = c.t.x := by rcases k with k | k <;> rw [k]
  unfold createBreach at g5
  cases b4 with
  | none =>
    simp only [pure_ok] at g5; subst g5
    exact ⟨c4, hc4, Or.inl k⟩
  | some b =>
    simp only [bind_ok, ixGet_ok] at g5
    obtain ⟨d, hd, g5⟩ := g5
    split at g5
    · simp only [pure_ok] at g5; subst g5
      exact ⟨c4, hc4, Or.inl k⟩
    · simp only [pure_ok] at g5; subst g5
      by_cases hbi : b = i
      · subst hbi
        rw [hc4] at hd; cases hd
        refine ⟨breachCell pp _ _ c4, by simp [hc4]; rfl, Or.inr ⟨rfl, ?_, ?_⟩⟩
        · show fin c4.t.x = _; rw [x4]
        · show fin c4.t.x = _; rw [x4]
      · exact ⟨c4, by simp [hbi, hc4], Or.inl k⟩

end Verif.Model
