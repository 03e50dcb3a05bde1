import Verif.Lemmas.Budget
import Verif.Spec.Relic

set_option autoImplicit false
set_option linter.unusedSectionVars false

/-! # A channel away from sea and lagoon through a step with a closed lagoon -/

namespace Verif.Model
open Verif Fl Verif.Spec List

variable {K : Type} [Field K] [LinearOrder K] [IsStrictOrderedRing K]

/-- The channel meets neither the sea nor the lagoon. -/
def SafeT (t : Transect K) : Prop :=
  ∃ y0 y1 y2 y3 y4, t.y0 = fin y0 ∧ t.y1 = fin y1 ∧ t.y2 = fin y2 ∧ t.y3 = fin y3 ∧ t.y4 = fin y4 ∧ y1 < y0 ∧ y2 < y1 ∧ y3 < y2 ∧ y4 < y0

/-- Nothing but the crest may have changed. -/
def KeptT (t t' : Transect K) : Prop := t' = { t with z0 := t'.z0 }

def SafeKept (c c' : Cell K) : Prop := SafeT c.t → KeptT c.t c'.t

theorem SafeT.kept {t t' : Transect K} (h : SafeT t) (k : KeptT t t') : SafeT t' := by
  unfold KeptT at k
  rw [k]
  exact h

theorem keptT_trans {a b c : Transect K} (h1 : KeptT a b) (h2 : KeptT b c) : KeptT a c := by
  unfold KeptT at *
  rw [h2, h1]

theorem safeKept_refl (c : Cell K) : SafeKept c c := fun _ => rfl

theorem safeKept_trans (a b c : Cell K) (h1 : SafeKept a b) (h2 : SafeKept b c) : SafeKept a c := by
  intro h
  have k := h1 h
  exact keptT_trans k (h2 (h.kept k))

theorem safe_eroded {t : Transect K} (h : SafeT t) : eroded t = false := by
  obtain ⟨y0, y1, y2, y3, y4, e0, e1, e2, e3, e4, k1, k2, k3, k4⟩ := h
  unfold eroded
  rw [e0, e3]
  have : ¬ y0 ≤ y3 := by linarith
  simp [this]

theorem safeKept_wet : WetRel (SafeKept (K := K)) where
  refl := safeKept_refl
  trans := safeKept_trans
  setWl _ _ := fun _ => rfl
  restore c he := fun h => by rw [safe_eroded h] at he; cases he
  crest c := by
    intro _
    unfold crestCell
    split <;> rfl

theorem safe_cliff (pp : PhysPars K) (c : Cell K) (h : SafeT c.t) : cliffCell pp c = c := by
  obtain ⟨y0, y1, y2, y3, y4, e0, e1, e2, e3, e4, k1, k2, k3, k4⟩ := h
  unfold cliffCell
  dsimp only
  rw [if_neg (by rw [e0, e4]; simpa using k4)]

theorem safe_overwash (c : Cell K) (h : SafeT c.t) : overwashCell c = c := by
  obtain ⟨y0, y1, y2, y3, y4, e0, e1, e2, e3, e4, k1, k2, k3, k4⟩ := h
  unfold overwashCell
  rw [if_neg (by unfold negWidth; rw [e1, e2]; simp [k2.le])]

theorem safe_lagoonHit (j : ℕ → Bool) (i : ℕ) (c : Cell K) (h : SafeT c.t) : lagoonHit j i c = false := by
  obtain ⟨y0, y1, y2, y3, y4, e0, e1, e2, e3, e4, k1, k2, k3, k4⟩ := h
  unfold lagoonHit notGreater
  rw [e1, e2, e3]
  simp [isnan, k3]

theorem safe_shoreHit (j : ℕ → Bool) (i : ℕ) (c : Cell K) (h : SafeT c.t) : shoreHit j i c = false := by
  obtain ⟨y0, y1, y2, y3, y4, e0, e1, e2, e3, e4, k1, k2, k3, k4⟩ := h
  unfold shoreHit notGreater
  rw [e1, e0]
  simp [isnan, k1]

/-- The repairs of a closed lagoon leave such a channel alone. -/
theorem repair_safe {pp : PhysPars K} {Dx : K} {st st' : MorSt K} (h : repairStage pp true Dx st = .ok st') (hix : st.ix.length ≤ 1) {i : ℕ} {c : Cell K}
    (hc : st.cells[i]? = some c) (hs : SafeT c.t) : ∃ c', st'.cells[i]? = some c' ∧ c'.t = c.t := by
  unfold repairStage at h
  simp only [bind_ok] at h
  obtain ⟨s1, h1, cs, h2, s3, h3, s4, h4, s5, h5, s6, h6, h7⟩ := h
  have e1 : s1.cells = st.cells ∧ s1.ix = st.ix := by
    unfold edgeCheck at h1
    simp only [bind_ok, pure_ok] at h1
    obtain ⟨_, _, _, _, rfl⟩ := h1
    exact ⟨rfl, rfl⟩
  have e3 : { s1 with cells := cs } = s3 := by unfold elongate at h3; simpa [pure_ok] using h3
  have e4 : s3 = s4 := by unfold seaPrevent at h4; simpa [pure_ok] using h4
  have e7 : s6 = st' := by unfold lagoonPrevent at h7; simpa [pure_ok] using h7
  have hl : s4.ix.length ≤ 1 := by rw [← e4, ← e3]; show s1.ix.length ≤ 1; rw [e1.2]; exact hix
  have e5 : s4 = s5 := by unfold lagoonTrunc at h5; rw [if_pos hl] at h5; simpa [pure_ok] using h5
  have e6 : s5 = s6 := by unfold seaTrunc at h6; rw [if_pos (by rw [← e5]; exact hl)] at h6; simpa [pure_ok] using h6
  subst e7 e6 e5 e4 e3
  have hcl : (s1.cells.map (cliffCell pp))[i]? = some c := by
    rw [e1.1, getElem?_map, hc, Option.map_some, safe_cliff pp c hs]
  unfold overwashRepair at h2
  simp only [bind_ok] at h2
  obtain ⟨_, _, _, _, h2⟩ := h2
  split at h2
  · simp only [pure_ok] at h2
    subst h2
    refine ⟨{ c with op := !c.t.y1.isnan }, ?_, rfl⟩
    show ((map overwashCell (s1.cells.map (cliffCell pp))).map (fun c : Cell K => { c with op := !c.t.y1.isnan }))[i]? = _
    rw [getElem?_map, getElem?_map, hcl, Option.map_some, safe_overwash c hs, Option.map_some]
  · simp only [pure_ok] at h2
    subst h2
    refine ⟨c, ?_, rfl⟩
    show (map overwashCell (s1.cells.map (cliffCell pp)))[i]? = _
    rw [getElem?_map, hcl, Option.map_some, safe_overwash c hs]

/-- Nothing but the crest changes at such a channel, unless the breach happens there. -/
theorem breach_safe {pp : PhysPars K} {j1 j2 : ℕ → Bool} {C B : Bool} {X0 : ℕ} {st st' : MorSt K} (h : breachStage pp j1 j2 C X0 st = .ok (B, st')) {i : ℕ} {c : Cell K}
    (hc : st.cells[i]? = some c) (hs : SafeT c.t) :
    ∃ c', st'.cells[i]? = some c' ∧ (KeptT c.t c'.t ∨ (B = true ∧ st'.e0 = fin c.t.x ∧ st'.e1 = fin c.t.x)) := by
  unfold breachStage at h
  simp only [bind_ok] at h
  obtain ⟨⟨conn, t1⟩, g1, ⟨b2, t2⟩, g2, ⟨b3, t3⟩, g3, ⟨b4, t4⟩, g4, t5, g5, g6⟩ := h
  simp only [pure_ok] at g6
  cases g6
  have H := safeKept_wet (K := K)
  have hc0 : (mergeLagoon j1 st.cells)[i]? = some c := by
    unfold mergeLagoon
    rw [getElem?_mapIdx, hc, Option.map_some, if_neg (by rw [safe_lagoonHit j1 i c hs]; simp)]
  obtain ⟨c1, hc1, k1⟩ := forall₂_get (connected_wet H g1) hc0
  have hs1 := hs.kept (k1 hs)
  have hc2 : t2.cells[i]? = some c1 := by
    rw [mergeShore_inv g2]
    show ((t1.cells.zip (t1.cells.mapIdx (shoreHit j2))).map _)[i]? = _
    have hz : (t1.cells.zip (t1.cells.mapIdx (shoreHit j2)))[i]? = some (c1, false) := by
      rw [getElem?_zip_eq_some]
      refine ⟨hc1, ?_⟩
      rw [getElem?_mapIdx, hc1, Option.map_some, safe_shoreHit j2 i c1 hs1]
    rw [getElem?_map, hz]
    rfl
  obtain ⟨c4, hc4, k4⟩ := forall₂_get (forall₂_trans H.trans (erosion_wet H g3) (overtop_wet H g4)) hc2
  have k := keptT_trans (k1 hs) (k4 hs1)
  have x4 : c4.t.x = c.t.x := by unfold KeptT at k; rw [k]
  unfold createBreach at g5
  cases b4 with
  | none =>
    simp only [pure_ok] at g5; subst g5
    exact ⟨c4, hc4, Or.inl k⟩
  | some b =>
    simp only [bind_ok, ixGet_ok] at g5
    obtain ⟨d, hd, g5⟩ := g5
    split at g5
    · simp only [pure_ok] at g5; subst g5
      exact ⟨c4, hc4, Or.inl k⟩
    · simp only [pure_ok] at g5; subst g5
      by_cases hbi : b = i
      · subst hbi
        rw [hc4] at hd; cases hd
        refine ⟨breachCell pp _ _ c4, by simp [getElem?_modify, hc4]; rfl, Or.inr ⟨rfl, ?_, ?_⟩⟩
        · show fin c4.t.x = _; rw [x4]
        · show fin c4.t.x = _; rw [x4]
      · exact ⟨c4, by simp [getElem?_modify, hbi, hc4], Or.inl k⟩

/-- Forcing in a closed lagoon: every feature of a transect moves by at most MaxMorChange. -/
theorem force_moved {pp : PhysPars K} {a : MorIn K} {dt : ℤ} {X0 : ℕ} {st : MorSt K} (h : forceStage pp a = .ok (dt, X0, st))
    (hB : 0 ≤ a.MaxMorChange) (hreg : Regular pp a) (hC : a.Closed = true) {i : ℕ} {r : Transect K} (hr : a.rows[i]? = some r) :
    st.ix = a.outlet ∧ ∃ c, st.cells[i]? = some c ∧ c.t.x = r.x ∧ c.t.z2 = r.z2 ∧
      (∀ f ∈ [(r.y0, c.t.y0), (r.y1, c.t.y1), (r.y2, c.t.y2), (r.y3, c.t.y3), (r.y4, c.t.y4), (r.z1, c.t.z1)], ∀ u, f.1 = fin u →
        ∃ u', f.2 = fin u' ∧ |u' - u| ≤ a.MaxMorChange) := by
  obtain ⟨rb, cells', R, R', rate, hp, hall, hrt, hdt, hl, ha⟩ := force_inv h
  have hF := regular_finite hreg hp hall
  have hm : (a.rows.mapIdx (mkCell pp a)).length = a.rows.length := by simp
  obtain ⟨hlen, hlen', hsame⟩ := allRates_len hm hall
  obtain ⟨hsm, hcl⟩ := limit_small hB hF hrt hl
  have hil := (List.getElem?_eq_some_iff.mp hr).1
  have hcell : cells'[i]? = some (mkCell pp a i r) := by
    rw [hsame (Or.inl hC), getElem?_mapIdx, hr]; rfl
  simp only [Rates.cols, List.mem_cons, List.not_mem_nil, or_false, forall_eq_or_imp, forall_eq] at hsm
  obtain ⟨s0, s1, s2, s3, s4, _, s6, _, _, _, _, _⟩ := hsm
  simp only [Rates.cols, List.map_cons, List.map_nil, List.cons.injEq, and_true] at hcl
  obtain ⟨q0, q1, q2, q3, q4, _, q6, _⟩ := hcl
  obtain ⟨p0, p1, p2, p3, p4, _, p6, _⟩ := hlen
  have hs0 : (0 : K) ≤ (secs dt : K) := by exact_mod_cast secs_nonneg dt
  have one : ∀ (l : List (Fl K)), (∀ v ∈ l, Small a.MaxMorChange (secs dt : K) v) → l.length = a.rows.length → ∀ (v : Fl K) (u : K), v = fin u →
      ∃ u', v + (l[i]?).getD nan * fin (secs dt : K) = fin u' ∧ |u' - u| ≤ a.MaxMorChange := by
    intro l hs hl v u hv
    obtain ⟨x, hx, b⟩ := hs _ (List.getElem_mem (l := l) (n := i) (by omega))
    refine ⟨u + x * (secs dt : K), ?_, ?_⟩
    · rw [List.getElem?_eq_getElem (by omega), Option.getD_some, hx, hv, mul_fin, add_fin]
    · rw [add_sub_cancel_left, abs_mul, abs_of_nonneg hs0]; exact b
  unfold applyRates at ha
  simp only at ha
  split at ha
  · cases ha
  · cases ha
    refine ⟨rfl, moveCell R' (fin (secs dt : K)) i (mkCell pp a i r), by rw [List.getElem?_mapIdx, hcell]; rfl, rfl, rfl, ?_⟩
    simp only [List.mem_cons, List.not_mem_nil, or_false, forall_eq_or_imp, forall_eq]
    exact ⟨one R'.y0 s0 (q0.trans p0) r.y0, one R'.y1 s1 (q1.trans p1) r.y1, one R'.y2 s2 (q2.trans p2) r.y2, one R'.y3 s3 (q3.trans p3) r.y3,
      one R'.y4 s4 (q4.trans p4) r.y4, one R'.z1 s6 (q6.trans p6) r.z1⟩

end Verif.Model
