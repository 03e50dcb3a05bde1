import Verif.Lemmas.MorLimit
import Verif.Lemmas.MorJunk

set_option autoImplicit false
set_option linter.unusedSectionVars false

/-! # Relations between the transects before and after the repairs and breaches -/

namespace Verif.Model
open Verif Fl List

variable {K : Type} [Field K] [LinearOrder K] [IsStrictOrderedRing K]

/-- Truncation keeps a transect in relation `R` to what it was. -/
structure StageRel (R : Cell K → Cell K → Prop) : Prop where
  refl : ∀ c, R c c
  trans : ∀ a b c, R a b → R b c → R a c
  setOp : ∀ c b, R c { c with op := b }
  extend : ∀ c, R c (extendCell c)

/-- Overwash does so, too. -/
structure TruncRel (R : Cell K → Cell K → Prop) : Prop extends StageRel R where
  overwash : ∀ c, R c (overwashCell c)

/-- Truncation and elongation of the outlet channel do so. -/
structure ChanRel (pp : PhysPars K) (R : Cell K → Cell K → Prop) : Prop extends StageRel R where
  elong : ∀ st c, R c (elongCell pp st c)
  seaPrevent : ∀ c, R c (seaPreventCell c)

/-- Everything the repairs of a closed lagoon do to a single transect keeps it in relation `R` to what it was. -/
structure ClosedRel (pp : PhysPars K) (R : Cell K → Cell K → Prop) : Prop extends TruncRel R where
  cliff : ∀ c, R c (cliffCell pp c)

/-- Everything the repairs do to a single transect keeps it in relation `R` to what it was. -/
structure RepairRel (pp : PhysPars K) (R : Cell K → Cell K → Prop) : Prop extends ClosedRel pp R, ChanRel pp R where
  lagoonPrevent : ∀ c, R c (lagoonPreventCell pp c)

/-- The same for water levels, restored barriers and crests. -/
structure WetRel (R : Cell K → Cell K → Prop) : Prop where
  refl : ∀ c, R c c
  trans : ∀ a b c, R a b → R b c → R a c
  setWl : ∀ c w, R c { c with wl := w }
  restore : ∀ c, eroded c.t = true → R c (restoreCell c)
  crest : ∀ c, R c (crestCell c)

/-- The same for merging of channels. -/
structure MergeRel (pp : PhysPars K) (R : Cell K → Cell K → Prop) : Prop extends WetRel R where
  mergeLagoon : ∀ c, R c (mergeLagoonCell c)
  mergeShore : ∀ c, R c (mergeShoreCell pp c)

/-- The same for merging of channels and breaches. -/
structure BreachRel (pp : PhysPars K) (R : Cell K → Cell K → Prop) : Prop extends MergeRel pp R where
  breach : ∀ w z c, R c (breachCell pp w z c)

section
variable {R : Cell K → Cell K → Prop}

theorem forall₂_map' {f : Cell K → Cell K} (h : ∀ c, R c (f c)) (cs : List (Cell K)) : Forall₂ R cs (cs.map f) := by
  rw [forall₂_map_right_iff]
  exact forall₂_same.mpr (fun c _ => h c)

theorem forall₂_of_get {cs cs' : List (Cell K)} (hl : cs.length = cs'.length) (h : ∀ (i : ℕ) c c', cs[i]? = some c → cs'[i]? = some c' → R c c') :
    Forall₂ R cs cs' := by
  rw [forall₂_iff_get]
  refine ⟨hl, fun i h1 h2 => h i _ _ ?_ ?_⟩
  · rw [getElem?_eq_getElem h1]; rfl
  · rw [getElem?_eq_getElem h2]; rfl

theorem forall₂_get {cs cs' : List (Cell K)} (h : Forall₂ R cs cs') {i : ℕ} {c : Cell K} (hc : cs[i]? = some c) : ∃ c', cs'[i]? = some c' ∧ R c c' := by
  obtain ⟨hl, hg⟩ := forall₂_iff_get.mp h
  obtain ⟨hi, e⟩ := List.getElem?_eq_some_iff.mp hc
  refine ⟨cs'[i]'(hl ▸ hi), getElem?_eq_getElem (hl ▸ hi), ?_⟩
  have := hg i hi (hl ▸ hi)
  simp only [get_eq_getElem] at this
  rw [e] at this
  exact this

theorem forall₂_mapIdx' {f : ℕ → Cell K → Cell K} (h : ∀ i c, R c (f i c)) (cs : List (Cell K)) : Forall₂ R cs (cs.mapIdx f) := by
  apply forall₂_of_get (by simp)
  intro i c c' hc hc'
  rw [getElem?_mapIdx, hc] at hc'
  simp only [Option.map_some, Option.some.injEq] at hc'
  exact hc' ▸ h i c

theorem forall₂_modify' (hr : ∀ c, R c c) {f : Cell K → Cell K} (h : ∀ c, R c (f c)) (cs : List (Cell K)) (i : ℕ) : Forall₂ R cs (cs.modify i f) := by
  apply forall₂_of_get (by simp)
  intro j c c' hc hc'
  rw [getElem?_modify, hc] at hc'
  by_cases e : i = j
  · simp [e] at hc'; exact hc' ▸ h c
  · simp [e] at hc'; exact hc' ▸ hr c

theorem forall₂_rfl (hr : ∀ c, R c c) (cs : List (Cell K)) : Forall₂ R cs cs := forall₂_same.mpr (fun c _ => hr c)

theorem forall₂_trans (ht : ∀ a b c, R a b → R b c → R a c) : ∀ {a b c : List (Cell K)}, Forall₂ R a b → Forall₂ R b c → Forall₂ R a c
  | _, _, _, .nil, .nil => .nil
  | _, _, _, .cons h1 t1, .cons h2 t2 => .cons (ht _ _ _ h1 h2) (forall₂_trans ht t1 t2)

end

section
variable {R : Cell K → Cell K → Prop} (H : StageRel R)
include H

theorem edge_rel {st st' : MorSt K} (h : edgeCheck st = .ok st') : Forall₂ R st.cells st'.cells := by
  unfold edgeCheck at h
  simp only [bind_ok, pure_ok] at h
  obtain ⟨_, _, _, _, rfl⟩ := h
  exact forall₂_rfl H.refl _

theorem lagoonTrunc_rel {st st' : MorSt K} (h : lagoonTrunc st = .ok st') : Forall₂ R st.cells st'.cells := by
  unfold lagoonTrunc at h
  split at h
  · simp only [pure_ok] at h; subst h; exact forall₂_rfl H.refl _
  · split at h
    · simp only [pure_ok] at h; subst h; exact forall₂_rfl H.refl _
    · simp only [bind_ok] at h
      obtain ⟨_, _, _, _, _, _, h⟩ := h
      split at h
      · simp only [bind_ok, pure_ok] at h
        obtain ⟨_, _, rfl⟩ := h
        apply forall₂_mapIdx'
        intro i c; split
        · exact H.extend _
        · exact H.refl _
      · simp only [pure_ok] at h; subst h; exact forall₂_rfl H.refl _

theorem seaTrunc_rel {Dx : K} {st st' : MorSt K} (h : seaTrunc Dx st = .ok st') : Forall₂ R st.cells st'.cells := by
  unfold seaTrunc at h
  split at h
  · simp only [pure_ok] at h; subst h; exact forall₂_rfl H.refl _
  · simp only at h
    split at h
    · simp only [pure_ok] at h; subst h; exact forall₂_rfl H.refl _
    · split at h
      · simp only [bind_ok, pure_ok] at h
        obtain ⟨_, _, _, _, rfl⟩ := h
        exact forall₂_rfl H.refl _
      · simp only [bind_ok, pure_ok] at h
        obtain ⟨_, _, _, _, rfl⟩ := h
        exact forall₂_rfl H.refl _

end

section
variable {R : Cell K → Cell K → Prop} (H : TruncRel R)
include H

theorem overwash_rel {cs cs' : List (Cell K)} (h : overwashRepair cs = .ok cs') : Forall₂ R cs cs' := by
  unfold overwashRepair at h
  simp only [bind_ok] at h
  obtain ⟨_, _, _, _, h⟩ := h
  split at h
  · simp only [pure_ok] at h
    rw [← h]
    refine forall₂_trans H.trans (forall₂_map' H.overwash cs) ?_
    exact forall₂_map' (f := fun c => { c with op := !c.t.y1.isnan }) (fun c => H.setOp c _) (cs.map overwashCell)
  · simp only [pure_ok] at h
    rw [← h]
    exact forall₂_map' H.overwash cs

end

section
variable {pp : PhysPars K} {R : Cell K → Cell K → Prop} (H : ClosedRel pp R)
include H

theorem repair_closed_rel {Dx : K} {st st' : MorSt K} (h : repairStage pp true Dx st = .ok st') : Forall₂ R st.cells st'.cells := by
  unfold repairStage at h
  simp only [bind_ok] at h
  obtain ⟨s1, h1, cs, h2, s3, h3, s4, h4, s5, h5, s6, h6, h7⟩ := h
  have e3 : { s1 with cells := cs } = s3 := by unfold elongate at h3; simpa [pure_ok] using h3
  have e4 : s3 = s4 := by unfold seaPrevent at h4; simpa [pure_ok] using h4
  have e7 : s6 = st' := by unfold lagoonPrevent at h7; simpa [pure_ok] using h7
  subst e3 e4 e7
  have t := H.trans
  refine forall₂_trans t (edge_rel H.toTruncRel.toStageRel h1) (forall₂_trans t (forall₂_map' H.cliff _) (forall₂_trans t (overwash_rel H.toTruncRel h2) ?_))
  exact forall₂_trans t (lagoonTrunc_rel H.toTruncRel.toStageRel h5) (seaTrunc_rel H.toTruncRel.toStageRel h6)

end

section
variable {pp : PhysPars K} {R : Cell K → Cell K → Prop} (H : ChanRel pp R)
include H

theorem extendChan_rel {m : Transect K → Bool} {st st' : MorSt K} (h : extendChan pp st m = .ok st') : Forall₂ R st.cells st'.cells := by
  unfold extendChan at h
  split at h
  · exact absurd h (by simp)
  · rw [ok_inj] at h; subst h
    apply forall₂_map'
    intro c; split
    · exact H.elong _ _
    · exact H.refl _

theorem elongate_rel {C : Bool} {st st' : MorSt K} (h : elongate pp C st = .ok st') : Forall₂ R st.cells st'.cells := by
  unfold elongate at h
  split at h
  · simp only [pure_ok] at h; subst h; exact forall₂_rfl H.refl _
  · simp only [bind_ok] at h
    obtain ⟨_, _, _, _, h⟩ := h
    split at h
    · simp only [bind_ok] at h
      obtain ⟨_, _, h⟩ := h
      split at h
      · exact extendChan_rel H h
      · simp only [pure_ok] at h; subst h; exact forall₂_rfl H.refl _
    · simp only [bind_ok] at h
      obtain ⟨_, _, h⟩ := h
      split at h
      · exact extendChan_rel H h
      · simp only [pure_ok] at h; subst h; exact forall₂_rfl H.refl _

theorem seaPrevent_rel {C : Bool} {st st' : MorSt K} (h : seaPrevent C st = .ok st') : Forall₂ R st.cells st'.cells := by
  unfold seaPrevent at h
  split at h
  · simp only [pure_ok] at h; subst h; exact forall₂_rfl H.refl _
  · simp only [bind_ok] at h
    obtain ⟨_, _, _, _, h⟩ := h
    split at h
    · simp only [pure_ok] at h; subst h; exact forall₂_modify' H.refl H.seaPrevent _ _
    · simp only [pure_ok] at h; subst h; exact forall₂_rfl H.refl _

end

section
variable {pp : PhysPars K} {R : Cell K → Cell K → Prop} (H : RepairRel pp R)
include H

theorem lagoonPrevent_rel {C : Bool} {st st' : MorSt K} (h : lagoonPrevent pp C st = .ok st') : Forall₂ R st.cells st'.cells := by
  unfold lagoonPrevent at h
  split at h
  · simp only [pure_ok] at h; subst h; exact forall₂_rfl H.refl _
  · simp only [bind_ok] at h
    obtain ⟨_, _, _, _, h⟩ := h
    split at h
    · simp only [pure_ok] at h; subst h; exact forall₂_modify' H.refl H.lagoonPrevent _ _
    · simp only [pure_ok] at h; subst h; exact forall₂_rfl H.refl _

theorem repair_rel {C : Bool} {Dx : K} {st st' : MorSt K} (h : repairStage pp C Dx st = .ok st') : Forall₂ R st.cells st'.cells := by
  unfold repairStage at h
  simp only [bind_ok] at h
  obtain ⟨s1, h1, cs, h2, s3, h3, s4, h4, s5, h5, s6, h6, h7⟩ := h
  have t := H.trans
  refine forall₂_trans t (edge_rel H.toTruncRel.toStageRel h1) (forall₂_trans t (forall₂_map' H.cliff _) (forall₂_trans t (overwash_rel H.toTruncRel h2) ?_))
  exact forall₂_trans t (elongate_rel H.toChanRel h3) (forall₂_trans t (seaPrevent_rel H.toChanRel h4) (forall₂_trans t (lagoonTrunc_rel H.toTruncRel.toStageRel h5)
    (forall₂_trans t (seaTrunc_rel H.toTruncRel.toStageRel h6) (lagoonPrevent_rel H h7))))

end

section
variable {pp : PhysPars K} {R : Cell K → Cell K → Prop} (H : WetRel R)
include H

theorem walk_wet (d : ℤ) : ∀ (f : ℕ) (c : ℤ) (cells : List (Cell K)) (r : ℤ × List (Cell K)), walk pp d f c cells = .ok r → Forall₂ R cells r.2 := by
  intro f
  induction f with
  | zero => intro c cells r h; cases h
  | succ f ih =>
    intro c cells r h
    unfold walk at h
    split at h
    · cases h
    · simp only [bind_ok] at h
      obtain ⟨nxt, _, h⟩ := h
      split at h
      · split at h
        · cases h
        · simp only [bind_ok] at h
          obtain ⟨cur, _, h⟩ := h
          refine forall₂_trans H.trans ?_ (ih _ _ _ h)
          exact forall₂_modify' H.refl (f := fun x => { x with wl := cur.wl }) (fun c => H.setWl c _) _ _
      · simp only [pure_ok] at h
        subst h
        exact forall₂_rfl H.refl _

theorem connected_wet {C : Bool} {X0 : ℕ} {st st' : MorSt K} {conn : Option (ℤ × ℤ)} (h : connected pp C X0 st = .ok (conn, st')) :
    Forall₂ R st.cells st'.cells := by
  unfold connected at h
  simp only [bind_ok] at h
  obtain ⟨⟨mm, e0⟩, _, h⟩ := h
  cases mm with
  | none =>
    simp only [bind_ok, pure_ok] at h
    obtain ⟨_, _, h⟩ := h
    cases h
    exact forall₂_rfl H.refl _
  | some p =>
    obtain ⟨lo, hi⟩ := p
    simp only [bind_ok, pure_ok] at h
    obtain ⟨⟨l1, c1⟩, h1, ⟨l2, c2⟩, h2, _, _, h⟩ := h
    cases h
    exact forall₂_trans H.trans (walk_wet H _ _ _ _ _ h1) (walk_wet H _ _ _ _ _ h2)

theorem erosion_wet {C : Bool} {X0 : ℕ} {b b' : Option ℕ} {st st' : MorSt K} (h : erosionBreach C X0 b st = .ok (b', st')) : Forall₂ R st.cells st'.cells := by
  unfold erosionBreach at h
  simp only at h
  split at h
  · simp only [pure_ok] at h; cases h; exact forall₂_rfl H.refl _
  · simp only [bind_ok, pure_ok] at h
    obtain ⟨⟨b1, rest⟩, hd, h⟩ := h
    cases h
    have hsub : ∀ i ∈ rest, i ∈ whereIx (fun c : Cell K => eroded c.t) st.cells := by
      unfold erosionDecide at hd
      split at hd
      · cases hd; exact fun i hi => hi
      · dsimp only at hd
        split at hd
        · simp only [bind_ok, pure_ok] at hd
          obtain ⟨k, _, hd⟩ := hd
          cases hd
          exact fun i hi => (mem_filter.mp hi).1
        · cases hd; exact fun i hi => hi
    apply forall₂_of_get (by simp [modifyIf])
    intro i c c' hc hc'
    unfold modifyIf at hc'
    rw [getElem?_mapIdx, hc] at hc'
    cases hc'
    split
    · next hi =>
      obtain ⟨d, hd', he⟩ := mem_whereIx.mp (hsub i (by simpa using hi))
      rw [hc] at hd'
      cases hd'
      exact H.restore _ he
    · exact H.refl _

theorem overtop_wet {C : Bool} {X0 : ℕ} {conn : Option (ℤ × ℤ)} {b b' : Option ℕ} {st st' : MorSt K}
    (h : overtopBreach pp C X0 conn b st = .ok (b', st')) : Forall₂ R st.cells st'.cells := by
  have key := forall₂_map' H.crest st.cells
  unfold overtopBreach at h
  simp only [bind_ok] at h
  obtain ⟨_, _, h⟩ := h
  split at h
  · simp only [pure_ok] at h; cases h; exact key
  · split at h
    · split at h
      · cases h
      · simp only [pure_ok] at h; cases h; exact key
    · simp only [bind_ok, pure_ok] at h
      obtain ⟨_, _, _, _, h⟩ := h
      cases h; exact key

end

section
variable {pp : PhysPars K} {R : Cell K → Cell K → Prop} (H : MergeRel pp R)
include H

theorem mergeShore_rel {junk : ℕ → Bool} {C : Bool} {conn : Option (ℤ × ℤ)} {st st' : MorSt K} {b : Option ℕ}
    (h : mergeShore pp junk C conn st = .ok (b, st')) : Forall₂ R st.cells st'.cells := by
  rw [mergeShore_inv h]
  apply forall₂_of_get (by simp)
  intro i c c' hc hc'
  simp only [getElem?_map] at hc'
  have hz : (st.cells.zip (st.cells.mapIdx (shoreHit junk)))[i]? = some (c, shoreHit junk i c) := by
    rw [getElem?_zip_eq_some]
    exact ⟨hc, by rw [getElem?_mapIdx, hc]; rfl⟩
  rw [hz] at hc'
  simp only [Option.map_some, Option.some.injEq] at hc'
  subst hc'
  split
  · exact H.mergeShore _
  · exact H.refl _

theorem connected_rel {C : Bool} {X0 : ℕ} {st st' : MorSt K} {conn : Option (ℤ × ℤ)} (h : connected pp C X0 st = .ok (conn, st')) :
    Forall₂ R st.cells st'.cells := connected_wet H.toWetRel h

theorem erosion_rel {C : Bool} {X0 : ℕ} {b b' : Option ℕ} {st st' : MorSt K} (h : erosionBreach C X0 b st = .ok (b', st')) : Forall₂ R st.cells st'.cells :=
  erosion_wet H.toWetRel h

theorem overtop_rel {C : Bool} {X0 : ℕ} {conn : Option (ℤ × ℤ)} {b b' : Option ℕ} {st st' : MorSt K}
    (h : overtopBreach pp C X0 conn b st = .ok (b', st')) : Forall₂ R st.cells st'.cells := overtop_wet H.toWetRel h

theorem merge_rel {j1 j2 : ℕ → Bool} {C : Bool} {X0 : ℕ} {st st' : MorSt K} (h : breachStage pp j1 j2 C X0 st = .ok (false, st')) :
    Forall₂ R (mergeLagoon j1 st.cells) st'.cells := by
  unfold breachStage at h
  simp only [bind_ok] at h
  obtain ⟨⟨conn, t1⟩, g1, ⟨b2, t2⟩, g2, ⟨b3, t3⟩, g3, ⟨b4, t4⟩, g4, t5, g5, g6⟩ := h
  simp only [pure_ok] at g6
  obtain ⟨hb, rfl⟩ := Prod.mk.inj g6
  cases b4 with
  | some k => cases hb
  | none =>
    have e5 : t4 = t5 := by unfold createBreach at g5; simpa [pure_ok] using g5
    subst e5
    have t := H.trans
    exact forall₂_trans t (connected_rel H g1) (forall₂_trans t (mergeShore_rel H g2) (forall₂_trans t (erosion_rel H g3) (overtop_rel H g4)))

end

section
variable {pp : PhysPars K} {R : Cell K → Cell K → Prop} (H : BreachRel pp R)
include H

theorem create_rel {conn : Option (ℤ × ℤ)} {b : Option ℕ} {st st' : MorSt K} (h : createBreach pp conn b st = .ok st') :
    Forall₂ R st.cells st'.cells := by
  unfold createBreach at h
  split at h
  · simp only [pure_ok] at h; cases h; exact forall₂_rfl H.refl _
  · simp only [bind_ok] at h
    obtain ⟨c, _, h⟩ := h
    split at h
    · simp only [pure_ok] at h; cases h; exact forall₂_rfl H.refl _
    · simp only [pure_ok] at h; cases h
      exact forall₂_modify' H.refl (H.breach _ _) _ _

theorem breach_rel {j1 j2 : ℕ → Bool} {C B : Bool} {X0 : ℕ} {st st' : MorSt K} (h : breachStage pp j1 j2 C X0 st = .ok (B, st')) :
    Forall₂ R st.cells st'.cells := by
  unfold breachStage at h
  simp only [bind_ok] at h
  obtain ⟨⟨conn, t1⟩, g1, ⟨b2, t2⟩, g2, ⟨b3, t3⟩, g3, ⟨b4, t4⟩, g4, t5, g5, g6⟩ := h
  simp only [pure_ok] at g6
  cases g6
  have t := H.trans
  have e0 : Forall₂ R st.cells (mergeLagoon j1 st.cells) := by
    apply forall₂_mapIdx'
    intro i c; split
    · exact H.mergeLagoon _
    · exact H.refl _
  exact forall₂_trans t e0 (forall₂_trans t (connected_rel H.toMergeRel g1) (forall₂_trans t (mergeShore_rel H.toMergeRel g2) (forall₂_trans t (erosion_rel H.toMergeRel g3)
    (forall₂_trans t (overtop_rel H.toMergeRel g4) (create_rel H g5)))))

end

/-- The stages of a successful step. -/
theorem update_inv {pp : PhysPars K} {j1 j2 : ℕ → Bool} {a : MorIn K} {o : MorOut K} (h : updateMorphology pp j1 j2 a = .ok o) :
    ∃ (X0 : ℕ) (s0 s1 s2 s3 : MorSt K), forceStage pp a = .ok (o.MorDt, X0, s0) ∧ repairStage pp a.Closed a.Dx s0 = .ok s1 ∧
      breachStage pp j1 j2 a.Closed X0 s1 = .ok (o.Breach, s2) ∧ finishStage pp X0 s2 = .ok s3 ∧ o.rows = s3.cells.map (·.t) ∧
      o.EndX0 = s3.e0 ∧ o.EndX1 = s3.e1 ∧ o.EndWidth = s3.endW ∧ o.EndElev = s3.endZ ∧ o.RiverElev = s3.riv := by
  unfold updateMorphology at h
  simp only [bind_ok, pure_ok] at h
  obtain ⟨⟨dt, X0, s0⟩, h0, s1, h1, ⟨b, s2⟩, h2, s3, h3, rfl⟩ := h
  exact ⟨X0, s0, s1, s2, s3, h0, h1, h2, h3, rfl, rfl, rfl, rfl, rfl, rfl⟩

/-- The transect is at the same place. -/
def SameX (c c' : Cell K) : Prop := c'.t.x = c.t.x

theorem sameX_repair (pp : PhysPars K) : RepairRel pp (SameX (K := K)) where
  refl _ := rfl
  trans _ _ _ h1 h2 := Eq.trans h2 h1
  cliff c := by unfold SameX cliffCell; dsimp only; split <;> rfl
  overwash c := by unfold SameX overwashCell; dsimp only; split_ifs <;> rfl
  setOp _ _ := rfl
  elong _ _ := rfl
  seaPrevent _ := rfl
  extend _ := rfl
  lagoonPrevent c := by unfold SameX lagoonPreventCell; dsimp only; split <;> rfl

theorem sameX_breach (pp : PhysPars K) : BreachRel pp (SameX (K := K)) where
  refl _ := rfl
  trans _ _ _ h1 h2 := Eq.trans h2 h1
  mergeLagoon _ := rfl
  setWl _ _ := rfl
  mergeShore _ := rfl
  restore _ _ := rfl
  crest c := by unfold SameX crestCell; split <;> rfl
  breach _ _ _ := rfl

end Verif.Model
