import Verif.Model.Channel
import Verif.Lemmas.Py

set_option autoImplicit false
set_option linter.unusedSectionVars false

namespace Verif.Model
open Verif Fl

variable {K : Type} [Field K] [LinearOrder K] [IsStrictOrderedRing K]

/-! ### Inversion of the stages -/

/-- Everything established on the way to a successful return of `assembleChannel`. -/
structure Assembled [FloorRing K] (pp : PhysPars K) (a : ChanIn K) (out : ChanOut K)
    (X0 : ℕ) (r0 : Transect K) (w : List (Fl K)) (C1 : Bool) (s1 s : LagStage K) (onRows outRows : List (Transect K)) : Prop where
  x0 : firstIx (fun r : Transect K => fin r.x ==? fin 0) a.rows = .ok X0
  outlet : outletStage pp a = .ok (out.outlet, w, C1)
  hr0 : a.rows[X0]? = some r0
  w0 : (fin 0 <? lagWidth r0) = true
  nonan : ∀ r ∈ a.rows, (lagWidth r).isnan = false
  lag : lagoonStage a X0 C1 = .ok s1
  cut : cutStage pp a s1 C1 = .ok (s, out.closed)
  online : out.online = s.online
  hon : gather a.rows s.online = .ok onRows
  hout : (if out.closed then .ok [] else gather a.rows out.outlet) = (.ok outRows : Except PyErr _)
  geom : (out.dx, out.flag, out.elev, out.width, out.lagArea, out.lagLen) = chanGeom pp a s out.closed out.outlet w onRows outRows
  hyd : chanHyd a s.online out.outlet out.closed onRows = .ok (out.dep, out.vel)
  width0 : ∀ x ∈ out.width, (x ≤? fin 0) = false
  widthN : ∀ x ∈ out.width, x.isnan = false
  elevN : ∀ x ∈ out.elev, x.isnan = false
  velN : ∀ x ∈ out.vel, x.isnan = false
  depN : ∀ x ∈ out.dep, x.isnan = false
  count : s.online.length = (out.flag.filter (· == 1)).length

theorem not_any_iff {α : Type} {p : α → Bool} {l : List α} : (!l.any p) = true ↔ ∀ x ∈ l, p x = false := by
  simp

theorem assemble_inv [FloorRing K] {pp : PhysPars K} {a : ChanIn K} {out : ChanOut K} (h : assembleChannel pp a = .ok out) :
    ∃ X0 r0 w C1 s1 s onRows outRows, Assembled pp a out X0 r0 w C1 s1 s onRows outRows := by
  unfold assembleChannel at h
  simp only [bind_ok, pyAssert_ok, ixGet_ok] at h
  obtain ⟨X0, h1, ⟨outlet, w, C1⟩, h2, r0, h3, _, h4, _, h5, s1, h6, ⟨s, C⟩, h7, onRows, h8, outRows, h9, ⟨dep, vel⟩, h10,
    _, h11, _, h12, _, h13, _, h14, _, h15, _, h16, h17⟩ := h
  rw [pure_ok] at h17
  subst h17
  refine ⟨X0, r0, w, C1, s1, s, onRows, outRows, ⟨h1, h2, h3, h4, ?_, h6, h7, rfl, h8, h9, rfl, h10, ?_, ?_, ?_, ?_, ?_, ?_⟩⟩
  · simpa using h5
  · exact not_any_iff.mp h11
  · exact not_any_iff.mp h12
  · exact not_any_iff.mp h13
  · exact not_any_iff.mp h14
  · exact not_any_iff.mp h15
  · simpa using h16

theorem Assembled.mk_ok [FloorRing K] {pp : PhysPars K} {a : ChanIn K} {out : ChanOut K} {X0 r0 w C1 s1 s onRows outRows}
    (h : Assembled pp a out X0 r0 w C1 s1 s onRows outRows) : assembleChannel pp a = .ok out := by
  unfold assembleChannel
  simp only [bind_ok, pyAssert_ok, ixGet_ok]
  have hg := h.geom
  refine ⟨X0, h.x0, ⟨out.outlet, w, C1⟩, h.outlet, r0, h.hr0, (), h.w0, (), by simpa using h.nonan, s1, h.lag, ⟨s, out.closed⟩, h.cut,
    onRows, h.hon, outRows, h.hout, ⟨out.dep, out.vel⟩, h.hyd, (), ?_⟩
  rw [← hg]
  refine ⟨not_any_iff.mpr h.width0, (), not_any_iff.mpr h.widthN, (), not_any_iff.mpr h.elevN, (), not_any_iff.mpr h.velN, (),
    not_any_iff.mpr h.depN, (), by simpa using h.count, ?_⟩
  rw [pure_ok, ← h.online]

/-- What the lagoon cut does. -/
theorem cut_inv {pp : PhysPars K} {a : ChanIn K} {s1 s : LagStage K} {C1 C : Bool} (h : cutStage pp a s1 C1 = .ok (s, C)) :
    s1.online ≠ [] ∧ ∃ rows1, gather a.rows s1.online = .ok rows1 ∧ s.online ≠ [] ∧
      s.startArea = s1.startArea ∧ s.startLen = s1.startLen ∧
      (∀ i ∈ s.online, ∃ r, a.rows[i]? = some r ∧ (fin 0 <? lagWidth r) = true) ∧
      ((s = s1 ∧ C = C1 ∧ ∀ r ∈ rows1, (lagWidth r <? fin pp.MinOutletWidth) = false) ∨
       (∃ k r, C = true ∧ 0 < k ∧ s.online = s1.online.take k ∧ rows1[k]? = some r ∧ (lagWidth r <? fin pp.MinOutletWidth) = true ∧
          (∀ (j : ℕ), j < k → ∀ b, rows1[j]? = some b → (lagWidth b <? fin pp.MinOutletWidth) = false) ∧
          s.endArea = s1.endArea + lagAreaOf a.Dx (rows1.drop k) ∧ s.endLen = s1.endLen + lagLenOf a.Dx (rows1.drop k))) := by
  unfold cutStage at h
  simp only [bind_ok, pyAssert_ok, ixGet_ok, pyGet_last] at h
  obtain ⟨_, h1, rows1, h2, h3⟩ := h
  refine ⟨by simpa using h1, rows1, h2, ?_⟩
  cases hw : whereIx (fun r : Transect K => lagWidth r <? fin pp.MinOutletWidth) rows1 with
  | nil =>
    rw [hw] at h3
    obtain ⟨i, hi, j, hj, _, _, onr, h4, _, h5, h6⟩ := h3
    rw [pure_ok] at h6
    cases h6
    refine ⟨by simpa using h1, rfl, rfl, ?_, Or.inl ⟨rfl, rfl, ?_⟩⟩
    · intro i hi
      obtain ⟨r, hr, hm⟩ := gather_mem h4 hi
      exact ⟨r, hr, by simpa using (List.all_eq_true.mp h5 r hm)⟩
    · intro r hr
      by_contra hp
      obtain ⟨k, hk⟩ := List.mem_iff_getElem?.mp hr
      have : k ∈ whereIx (fun r : Transect K => lagWidth r <? fin pp.MinOutletWidth) rows1 := mem_whereIx.mpr ⟨r, hk, by simpa using hp⟩
      rw [hw] at this; cases this
  | cons k t =>
    have hf : firstIx (fun r : Transect K => lagWidth r <? fin pp.MinOutletWidth) rows1 = .ok k := by
      unfold firstIx; rw [hw]
    obtain ⟨⟨r, hr, hp⟩, hmin⟩ := firstIx_ok.mp hf
    rw [hw] at h3
    obtain ⟨i, hi, j, hj, _, _, onr, h4, _, h5, h6⟩ := h3
    rw [pure_ok] at h6
    cases h6
    simp only at hi h4 h5
    have hk : k ≠ 0 := by rintro rfl; simp at hi
    refine ⟨?_, rfl, rfl, ?_, Or.inr ⟨k, r, rfl, by omega, rfl, hr, hp, hmin, rfl, rfl⟩⟩
    · rintro h; simp only at h; rw [h] at hi; simp at hi
    · intro i hi
      obtain ⟨r, hr, hm⟩ := gather_mem h4 hi
      exact ⟨r, hr, by simpa using (List.all_eq_true.mp h5 r hm)⟩

/-- What the outlet stage does. -/
theorem outlet_inv {pp : PhysPars K} {a : ChanIn K} {outlet : List ℕ} {w : List (Fl K)} {C1 : Bool}
    (h : outletStage pp a = .ok (outlet, w, C1)) :
    (a.Closed = true ∧ outlet = [] ∧ C1 = true) ∨
    (a.Closed = false ∧ ∃ rs, gather a.rows (outletIx a.rows a.EndX0 a.EndX1) = .ok rs ∧ w = rs.map outWidth ∧
      ((C1 = true ∧ outlet = [] ∧ (w.any (· ≤? fin pp.MinOutletWidth) || a.EndWidth ≤? fin pp.MinOutletWidth) = true) ∨
       (C1 = false ∧ outlet = outletIx a.rows a.EndX0 a.EndX1 ∧ outlet ≠ [] ∧
          (w.any (· ≤? fin pp.MinOutletWidth) || a.EndWidth ≤? fin pp.MinOutletWidth) = false))) := by
  unfold outletStage at h
  cases hc : a.Closed with
  | true =>
    rw [hc] at h
    simp only [if_true, pure_ok] at h
    cases h
    exact Or.inl ⟨rfl, rfl, rfl⟩
  | false =>
    rw [hc] at h
    simp only [Bool.false_eq_true, if_false, bind_ok] at h
    obtain ⟨rs, h1, h2⟩ := h
    refine Or.inr ⟨rfl, rs, h1, ?_⟩
    split at h2
    · rename_i hx
      rw [pure_ok] at h2; cases h2
      exact ⟨rfl, Or.inl ⟨rfl, rfl, hx⟩⟩
    · rename_i hx
      split at h2
      · cases h2
      · rename_i hy
        rw [pure_ok] at h2; cases h2
        refine ⟨rfl, Or.inr ⟨rfl, rfl, ?_, by simpa using hx⟩⟩
        intro hnil
        apply hy
        rw [hnil, gather_nil] at h1
        cases h1; rfl

/-- The index reached `k` transects from `X0` towards the outlet. -/
def step (e0 : Fl K) (X0 k : ℕ) : ℕ := if (fin 0 ≤? e0) = true then X0 + k else X0 - k

theorem ble_of (e0 : Fl K) (h : (e0 ==? fin 0) = true ∨ (fin 0 <? e0) = true) : (fin 0 ≤? e0) = true := by
  cases e0 <;> simp [Fl.beq, Fl.blt, Fl.ble] at h ⊢
  rcases h with rfl | h
  · exact le_refl _
  · exact le_of_lt h

theorem not_ble_of (e0 : Fl K) (h1 : ¬ (e0 ==? fin 0) = true) (h2 : ¬ (fin 0 <? e0) = true) : (fin 0 ≤? e0) = false := by
  cases e0 <;> simp [Fl.beq, Fl.blt, Fl.ble] at h1 h2 ⊢
  exact lt_of_le_of_ne h2 h1

/-- The online transects before the cut are consecutive. -/
theorem lagoon_shape {a : ChanIn K} {X0 : ℕ} {C1 : Bool} {s : LagStage K} (h : lagoonStage a X0 C1 = .ok s) :
    ∃ m, s.online = (List.range m).map (step a.EndX0 X0) ∧ ((fin 0 ≤? a.EndX0) = false → m ≤ X0 + 1) := by
  unfold lagoonStage at h
  simp only [bind_ok] at h
  split at h
  · rename_i he
    have hb := ble_of _ (Or.inl he)
    split at h
    · simp only [bind_ok, pure_ok] at h
      obtain ⟨l, _, rfl⟩ := h
      refine ⟨l + 1 - X0, ?_, by rw [hb]; simp⟩
      unfold arangeUp; apply List.map_congr_left; intro j _; simp [step, hb]
    · rw [pure_ok] at h; subst h
      refine ⟨1, ?_, by rw [hb]; simp⟩
      simp [step, hb]
  · rename_i he
    split at h
    · rename_i he2
      have hb := ble_of _ (Or.inr he2)
      split at h
      all_goals
        simp only [bind_ok, pure_ok] at h
        obtain ⟨l, _, rfl⟩ := h
        refine ⟨l + 1 - X0, ?_, by rw [hb]; simp⟩
        unfold arangeUp; apply List.map_congr_left; intro j _; simp [step, hb]
    · rename_i he2
      have hb := not_ble_of _ he he2
      split at h
      all_goals
        simp only [bind_ok, pure_ok] at h
        obtain ⟨l, _, rfl⟩ := h
        refine ⟨X0 + 1 - l, ?_, by intro; omega⟩
        unfold arangeDown; apply List.map_congr_left; intro j _; simp [step, hb]

theorem nodup_step (e0 : Fl K) (X0 m : ℕ) (h : (fin 0 ≤? e0) = false → m ≤ X0 + 1) : ((List.range m).map (step e0 X0)).Nodup := by
  refine List.Nodup.map_on ?_ List.nodup_range
  intro x hx y hy h2
  have := List.mem_range.mp hx
  have := List.mem_range.mp hy
  unfold step at h2
  split at h2
  · omega
  · rename_i hb
    have := h (by simpa using hb)
    omega

/-- The final online transects are consecutive. -/
theorem Assembled.shape [FloorRing K] {pp : PhysPars K} {a : ChanIn K} {out : ChanOut K} {X0 r0 w C1 s1 s onRows outRows}
    (h : Assembled pp a out X0 r0 w C1 s1 s onRows outRows) :
    ∃ m, 0 < m ∧ out.online = (List.range m).map (step a.EndX0 X0) ∧ ((fin 0 ≤? a.EndX0) = false → m ≤ X0 + 1) := by
  obtain ⟨m, hm, hb⟩ := lagoon_shape h.lag
  obtain ⟨_, _, _, hne, _, _, _, hc⟩ := cut_inv h.cut
  rw [h.online]
  rcases hc with ⟨rfl, _⟩ | ⟨k, _, _, _, hk, _⟩
  · refine ⟨m, ?_, hm, hb⟩
    rcases Nat.eq_zero_or_pos m with rfl | h0
    · rw [hm] at hne; simp at hne
    · exact h0
  · rw [hk, hm] at hne ⊢
    refine ⟨min k m, ?_, ?_, fun h => by have := hb h; omega⟩
    · rcases Nat.eq_zero_or_pos (min k m) with h0 | h0
      · exfalso; apply hne; rw [← List.map_take, List.take_range, h0]; rfl
      · exact h0
    · rw [← List.map_take, List.take_range]

theorem Assembled.closed_of [FloorRing K] {pp : PhysPars K} {a : ChanIn K} {out : ChanOut K} {X0 r0 w C1 s1 s onRows outRows}
    (h : Assembled pp a out X0 r0 w C1 s1 s onRows outRows) (hc : out.closed = false) : C1 = false ∧ s = s1 := by
  obtain ⟨_, _, _, _, _, _, _, hc2⟩ := cut_inv h.cut
  rcases hc2 with ⟨h1, h2, _⟩ | ⟨k, r, h1, _⟩
  · exact ⟨by rw [← h2]; exact hc, h1⟩
  · rw [hc] at h1; cases h1

end Verif.Model
