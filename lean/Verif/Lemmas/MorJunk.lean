import Verif.Lemmas.MorLimit
import Verif.Lemmas.ChannelStore
import Verif.Model.MorRepair

set_option autoImplicit false
set_option linter.unusedSectionVars false

/-! # Missing values survive to the final checks of `updateMorphology` -/

namespace Verif.Model
open Verif Verif.Spec Fl

variable {K : Type} [Field K] [LinearOrder K] [IsStrictOrderedRing K]

/-- A missing lagoon edge or shoreline in `cs` is missing in `cs'`. -/
def NanKept (cs cs' : List (Cell K)) : Prop :=
  ∀ (i : ℕ) c, cs[i]? = some c → ∃ c', cs'[i]? = some c' ∧ (c.t.y3 = nan → c'.t.y3 = nan) ∧ (c.t.y0 = nan → c'.t.y0 = nan)

theorem NanKept.refl (cs : List (Cell K)) : NanKept cs cs := fun _ c h => ⟨c, h, id, id⟩

theorem NanKept.trans {a b c : List (Cell K)} (h1 : NanKept a b) (h2 : NanKept b c) : NanKept a c := by
  intro i x hx
  obtain ⟨y, hy, p, q⟩ := h1 i x hx
  obtain ⟨z, hz, p', q'⟩ := h2 i y hy
  exact ⟨z, hz, p' ∘ p, q' ∘ q⟩

theorem nanKept_modify (cs : List (Cell K)) (j : ℕ) (f : Cell K → Cell K) (h3 : ∀ c, c.t.y3 = nan → (f c).t.y3 = nan) (h0 : ∀ c, c.t.y0 = nan → (f c).t.y0 = nan) :
    NanKept cs (cs.modify j f) := by
  intro i c hc
  rw [List.getElem?_modify, hc]
  by_cases e : j = i
  · exact ⟨f c, by simp [e], h3 c, h0 c⟩
  · exact ⟨c, by simp [e], id, id⟩

theorem nanKept_mapIdx (cs : List (Cell K)) (f : ℕ → Cell K → Cell K) (h3 : ∀ i c, c.t.y3 = nan → (f i c).t.y3 = nan) (h0 : ∀ i c, c.t.y0 = nan → (f i c).t.y0 = nan) :
    NanKept cs (cs.mapIdx f) := by
  intro i c hc
  exact ⟨f i c, by rw [List.getElem?_mapIdx, hc]; rfl, h3 i c, h0 i c⟩

theorem walk_kept (pp : PhysPars K) (d : ℤ) : ∀ (f : ℕ) (c : ℤ) (cells : List (Cell K)) (r : ℤ × List (Cell K)), walk pp d f c cells = .ok r → NanKept cells r.2 := by
  intro f
  induction f with
  | zero => intro c cells r h; cases h
  | succ f ih =>
    intro c cells r h
    unfold walk at h
    split at h
    · cases h
    · simp only [bind_ok] at h
      obtain ⟨nxt, _, h⟩ := h
      split at h
      · split at h
        · cases h
        · simp only [bind_ok] at h
          obtain ⟨cur, _, h⟩ := h
          refine NanKept.trans ?_ (ih _ _ _ h)
          exact nanKept_modify cells _ _ (fun _ h => h) (fun _ h => h)
      · simp only [pure_ok] at h
        subst h
        exact NanKept.refl _

theorem connected_kept {pp : PhysPars K} {C : Bool} {X0 : ℕ} {st st' : MorSt K} {conn : Option (ℤ × ℤ)} (h : connected pp C X0 st = .ok (conn, st')) :
    NanKept st.cells st'.cells := by
  unfold connected at h
  simp only [bind_ok] at h
  obtain ⟨⟨mm, e0⟩, _, h⟩ := h
  cases mm with
  | none =>
    simp only [bind_ok, pure_ok] at h
    obtain ⟨_, _, h⟩ := h
    cases h
    exact NanKept.refl _
  | some p =>
    obtain ⟨lo, hi⟩ := p
    simp only [bind_ok, pure_ok] at h
    obtain ⟨⟨l1, c1⟩, h1, ⟨l2, c2⟩, h2, _, _, h⟩ := h
    cases h
    exact (walk_kept _ _ _ _ _ _ h1).trans (walk_kept _ _ _ _ _ _ h2)

theorem erosion_kept {C : Bool} {X0 : ℕ} {b b' : Option ℕ} {st st' : MorSt K} (h : erosionBreach C X0 b st = .ok (b', st')) : NanKept st.cells st'.cells := by
  unfold erosionBreach at h
  simp only [bind_ok] at h
  split at h
  · simp only [pure_ok] at h; cases h; exact NanKept.refl _
  · simp only [bind_ok, pure_ok] at h
    obtain ⟨⟨b1, rest⟩, _, h⟩ := h
    cases h
    apply nanKept_mapIdx
    · intro i c hc; split
      · simp [restoreCell, hc]
      · exact hc
    · intro i c hc; split
      · simp [restoreCell, hc]
      · exact hc

theorem overtop_kept {pp : PhysPars K} {C : Bool} {X0 : ℕ} {conn : Option (ℤ × ℤ)} {b b' : Option ℕ} {st st' : MorSt K}
    (h : overtopBreach pp C X0 conn b st = .ok (b', st')) : NanKept st.cells st'.cells := by
  have key : NanKept st.cells (st.cells.map crestCell) := by
    intro i c hc
    refine ⟨crestCell c, by rw [List.getElem?_map, hc]; rfl, ?_, ?_⟩ <;> unfold crestCell <;> split <;> exact id
  unfold overtopBreach at h
  simp only [bind_ok] at h
  obtain ⟨_, _, h⟩ := h
  split at h
  · simp only [pure_ok] at h; cases h; exact key
  · split at h
    · split at h
      · cases h
      · simp only [pure_ok] at h; cases h; exact key
    · simp only [bind_ok, pure_ok] at h
      obtain ⟨_, _, _, _, h⟩ := h
      cases h; exact key

theorem create_kept {pp : PhysPars K} {conn : Option (ℤ × ℤ)} {b : Option ℕ} {st st' : MorSt K} (h : createBreach pp conn b st = .ok st') :
    NanKept st.cells st'.cells := by
  unfold createBreach at h
  split at h
  · simp only [pure_ok] at h; cases h; exact NanKept.refl _
  · simp only [bind_ok] at h
    obtain ⟨c, _, h⟩ := h
    split at h
    · simp only [pure_ok] at h; cases h; exact NanKept.refl _
    · simp only [pure_ok] at h; cases h
      apply nanKept_modify
      · intro c hc; simp [breachCell, hc]
      · intro c hc; simp [breachCell, hc]

theorem finish_inv {pp : PhysPars K} {X0 : ℕ} {st st' : MorSt K} (h : finishStage pp X0 st = .ok st') :
    st' = { st with cells := st.cells.modify X0 (keepCell pp) } ∧
    ∀ c ∈ st'.cells, c.t.y0 ≠ nan ∧ c.t.y3 ≠ nan ∧ c.t.y4 ≠ nan := by
  unfold finishStage at h
  simp only [bind_ok, pure_ok, pyAssert_ok] at h
  obtain ⟨_, h0, _, h3, _, h4, rfl⟩ := h
  refine ⟨rfl, fun c hc => ⟨?_, ?_, ?_⟩⟩
  · have := List.all_eq_true.mp h0 c hc; rw [Bool.not_eq_true'] at this; exact (not_isnan_iff _).mp this
  · have := List.all_eq_true.mp h3 c hc; rw [Bool.not_eq_true'] at this; exact (not_isnan_iff _).mp this
  · have := List.all_eq_true.mp h4 c hc; rw [Bool.not_eq_true'] at this; exact (not_isnan_iff _).mp this

theorem keep_kept (pp : PhysPars K) (cs : List (Cell K)) (X0 : ℕ) : NanKept cs (cs.modify X0 (keepCell pp)) := by
  apply nanKept_modify
  · intro c hc; unfold keepCell; split <;> exact hc
  · intro c hc; unfold keepCell; split <;> exact hc

theorem dropBreach_len {hit : List Bool} {b : ℕ} (h : (dropBreach hit b).length = hit.length) : dropBreach hit b = hit := by
  unfold dropBreach at h ⊢
  exact List.filter_eq_self.mpr (List.length_filter_eq_length_iff.mp h)

/-- What `mergeShore` does when it returns. -/
theorem mergeShore_inv {pp : PhysPars K} {junk : ℕ → Bool} {C : Bool} {conn : Option (ℤ × ℤ)} {st st' : MorSt K} {b : Option ℕ}
    (h : mergeShore pp junk C conn st = .ok (b, st')) :
    st' = { st with cells := (st.cells.zip (st.cells.mapIdx (shoreHit junk))).map (fun (c, h) => if h then mergeShoreCell pp c else c) } := by
  unfold mergeShore at h
  simp only [bind_ok] at h
  split at h
  · rename_i hno
    simp only [pure_ok] at h
    cases h
    have : (st.cells.zip (st.cells.mapIdx (shoreHit junk))).map (fun (c, h) => if h then mergeShoreCell pp c else c) = st.cells := by
      apply List.ext_getElem?
      intro i
      rw [List.getElem?_map]
      rcases Nat.lt_or_ge i st.cells.length with hi | hi
      · have hz : (st.cells.zip (st.cells.mapIdx (shoreHit junk)))[i]? = some (st.cells[i], shoreHit junk i st.cells[i]) := by
          rw [List.getElem?_zip_eq_some]
          exact ⟨List.getElem?_eq_getElem hi, by rw [List.getElem?_mapIdx, List.getElem?_eq_getElem hi]; rfl⟩
        have hf : shoreHit junk i st.cells[i] = false := by
          by_contra hcon
          have : (st.cells.mapIdx (shoreHit junk)).any id = true := by
            rw [List.any_eq_true]
            exact ⟨true, List.mem_of_getElem? (i := i) (by rw [List.getElem?_mapIdx, List.getElem?_eq_getElem hi]; simpa using hcon), rfl⟩
          rw [this] at hno; simp at hno
        rw [hz, Option.map_some, hf, List.getElem?_eq_getElem hi]; rfl
      · rw [List.getElem?_eq_none (by simpa using hi), List.getElem?_eq_none hi]; rfl
    rw [this]
  · simp only [bind_ok] at h
    obtain ⟨b', hb, h⟩ := h
    cases b' with
    | none =>
      dsimp only at h
      by_cases hlen : (st.cells.mapIdx (shoreHit junk)).length ≠ st.cells.length
      · rw [if_pos hlen] at h; cases h
      · rw [if_neg hlen] at h
        simp only [pure_ok] at h
        cases h
        rfl
    | some k =>
      dsimp only at h
      by_cases hlen : (dropBreach (st.cells.mapIdx (shoreHit junk)) k).length ≠ st.cells.length
      · rw [if_pos hlen] at h; cases h
      · rw [if_neg hlen] at h
        push Not at hlen
        have e : dropBreach (st.cells.mapIdx (shoreHit junk)) k = st.cells.mapIdx (shoreHit junk) := dropBreach_len (by simpa using hlen)
        simp only [pure_ok] at h
        cases h
        rw [e]

theorem mergeShore_kept {pp : PhysPars K} {junk : ℕ → Bool} {C : Bool} {conn : Option (ℤ × ℤ)} {st st' : MorSt K} {b : Option ℕ}
    (h : mergeShore pp junk C conn st = .ok (b, st')) : NanKept st.cells st'.cells ∧
      ∀ (i : ℕ) c, st.cells[i]? = some c → c.t.y1 = nan → junk i = false → ∃ c', st'.cells[i]? = some c' ∧ c'.t.y0 = nan := by
  rw [mergeShore_inv h]
  have hget : ∀ (i : ℕ) c, st.cells[i]? = some c →
      ((st.cells.zip (st.cells.mapIdx (shoreHit junk))).map (fun (c, h) => if h then mergeShoreCell pp c else c))[i]? = some (if shoreHit junk i c then mergeShoreCell pp c else c) := by
    intro i c hc
    have hz : (st.cells.zip (st.cells.mapIdx (shoreHit junk)))[i]? = some (c, shoreHit junk i c) := by
      rw [List.getElem?_zip_eq_some]
      exact ⟨hc, by rw [List.getElem?_mapIdx, hc]; rfl⟩
    rw [List.getElem?_map, hz]; rfl
  refine ⟨fun i c hc => ⟨_, hget i c hc, ?_, ?_⟩, fun i c hc hn hj => ⟨_, hget i c hc, ?_⟩⟩
  · intro h3; split
    · exact h3
    · exact h3
  · intro h0; split
    · simp [mergeShoreCell, h0]
    · exact h0
  · have : shoreHit junk i c = true := by simp [shoreHit, notGreater, hn, hj]
    rw [this, if_pos rfl]
    simp [mergeShoreCell, hn]

theorem mergeLagoon_congr {j j' : ℕ → Bool} {cells : List (Cell K)} (h : ∀ (i : ℕ) c, cells[i]? = some c → c.t.y1 = nan → j i = j' i) :
    mergeLagoon j cells = mergeLagoon j' cells := by
  apply List.ext_getElem?
  intro i
  unfold mergeLagoon
  rw [List.getElem?_mapIdx, List.getElem?_mapIdx]
  cases hc : cells[i]? with
  | none => rfl
  | some c =>
    have : lagoonHit j i c = lagoonHit j' i c := by
      unfold lagoonHit notGreater
      cases hn : c.t.y1.isnan with
      | true => rw [h i c hc ((isnan_iff _).mp hn)]
      | false => rfl
    simp only [Option.map_some, this]

theorem shoreHit_congr {j j' : ℕ → Bool} {cells : List (Cell K)} (h : ∀ (i : ℕ) c, cells[i]? = some c → c.t.y1 = nan → j i = j' i) :
    cells.mapIdx (shoreHit j) = cells.mapIdx (shoreHit j') := by
  apply List.ext_getElem?
  intro i
  rw [List.getElem?_mapIdx, List.getElem?_mapIdx]
  cases hc : cells[i]? with
  | none => rfl
  | some c =>
    have : shoreHit j i c = shoreHit j' i c := by
      unfold shoreHit notGreater
      cases hn : c.t.y1.isnan with
      | true => rw [h i c hc ((isnan_iff _).mp hn)]
      | false => rfl
    simp only [Option.map_some, this]

/-- A successful run does not depend on the uninitialised memory. -/
theorem update_junk {pp : PhysPars K} {j1 j2 : ℕ → Bool} {a : MorIn K} {o : MorOut K} (h : updateMorphology pp j1 j2 a = .ok o) :
    updateMorphology pp (fun _ => true) (fun _ => true) a = .ok o := by
  unfold updateMorphology at h ⊢
  simp only [bind_ok] at h
  obtain ⟨⟨dt, X0, s0⟩, h0, s1, h1, ⟨b, s2⟩, h2, s3, h3, h4⟩ := h
  unfold breachStage at h2
  simp only [bind_ok] at h2
  obtain ⟨⟨conn, t1⟩, g1, ⟨b2, t2⟩, g2, ⟨b3, t3⟩, g3, ⟨b4, t4⟩, g4, t5, g5, g6⟩ := h2
  simp only [pure_ok] at g6
  cases g6
  obtain ⟨hf, hfin⟩ := finish_inv h3
  have k1 := connected_kept g1
  obtain ⟨k2, k2'⟩ := mergeShore_kept g2
  have k6 : NanKept t2.cells s3.cells := ((erosion_kept g3).trans (overtop_kept g4)).trans ((create_kept g5).trans (by rw [hf]; exact keep_kept _ _ _))
  have e1 : mergeLagoon j1 s1.cells = mergeLagoon (fun _ => true) s1.cells := by
    apply mergeLagoon_congr
    intro i c hc hn
    by_contra hj
    have hj : j1 i = false := by simpa using hj
    have hg : (mergeLagoon j1 s1.cells)[i]? = some (mergeLagoonCell c) := by
      unfold mergeLagoon
      rw [List.getElem?_mapIdx, hc]
      simp [lagoonHit, notGreater, hn, hj]
    obtain ⟨c', hc', p, _⟩ := (k1.trans (k2.trans k6)) i _ hg
    exact (hfin c' (List.mem_of_getElem? hc')).2.1 (p (by simp [mergeLagoonCell, hn]))
  have e2 : t1.cells.mapIdx (shoreHit j2) = t1.cells.mapIdx (shoreHit (fun _ => true)) := by
    apply shoreHit_congr
    intro i c hc hn
    by_contra hj
    have hj : j2 i = false := by simpa using hj
    obtain ⟨c', hc', p⟩ := k2' i c hc hn hj
    obtain ⟨c'', hc'', _, q⟩ := k6 i _ hc'
    exact (hfin c'' (List.mem_of_getElem? hc'')).1 (q p)
  refine bind_ok.mpr ⟨_, h0, bind_ok.mpr ⟨_, h1, bind_ok.mpr ⟨_, ?_, bind_ok.mpr ⟨_, h3, h4⟩⟩⟩⟩
  unfold breachStage
  rw [← e1]
  refine bind_ok.mpr ⟨_, g1, bind_ok.mpr ⟨(b2, t2), ?_, bind_ok.mpr ⟨_, g3, bind_ok.mpr ⟨_, g4, bind_ok.mpr ⟨_, g5, rfl⟩⟩⟩⟩⟩
  unfold mergeShore at g2 ⊢
  rw [← e2]
  exact g2

end Verif.Model
