import Verif.Lemmas.MorBreach
import Verif.Props.MorSample

set_option autoImplicit false
set_option linter.unusedSectionVars false

/-! # C43, C51, C72: a whole step of `updateMorphology` -/

namespace Verif.Props
open Verif Verif.Model Verif.Spec Fl

variable {K : Type} [Field K] [LinearOrder K] [IsStrictOrderedRing K]

/-! ## C43 -/

/-- C43, partial: any two runs from the same state that return, return the same, whatever the memory used for masked
comparisons held.  (Missing: a run may also fail, depending on that memory; see `C43_refuted`.) -/
theorem C43_partial {pp : PhysPars K} {j1 j2 j1' j2' : ℕ → Bool} {a : MorIn K} {o o' : MorOut K}
    (h : updateMorphology pp j1 j2 a = .ok o) (h' : updateMorphology pp j1' j2' a = .ok o') : o = o' := by
  have e := update_junk h
  rw [update_junk h'] at e
  exact (ok_inj.mp e).symm

/-- And if any run returns then so does one whose memory held True, with the same result. -/
theorem C43_clean_partial {pp : PhysPars K} {j1 j2 : ℕ → Bool} {a : MorIn K} {o : MorOut K} (h : updateMorphology pp j1 j2 a = .ok o) :
    updateMorphology pp cleanMem cleanMem a = .ok o := update_junk h

/-- C43 refuted: the same state, once with memory holding True and once with memory holding False. -/
theorem C43_refuted : (∃ o, updateMorphology moPP cleanMem cleanMem brIn = .ok o ∧ o.Breach = false) ∧
    updateMorphology moPP (fun _ => false) cleanMem brIn = .error .assertion ∧
    updateMorphology moPP cleanMem (fun _ => false) brIn = .error .assertion :=
  ⟨ok_witness (x := updateMorphology moPP cleanMem cleanMem brIn) (fun o : MorOut ℚ => o.Breach = false) (by decide +kernel),
    by decide +kernel, by decide +kernel⟩

/-! ## C72 -/

theorem lst_sameX {pp : PhysPars K} {a : MorIn K} {rb : ℕ} {cells cells' : List (Cell K)} {R : Rates K}
    (h : allRates pp a rb cells = .ok (R, cells')) : List.Forall₂ SameX cells cells' := by
  have hr : ∀ c : Cell K, SameX c c := fun _ => rfl
  unfold allRates at h
  simp only [bind_ok] at h
  obtain ⟨R1, h1, ⟨R2, c2⟩, h2, R3, h3, h⟩ := h
  cases h
  unfold lstRates at h2
  simp only [bind_ok] at h2
  obtain ⟨y0, hy, h2⟩ := h2
  split at h2
  · cases h2; exact forall₂_rfl hr _
  · simp only [bind_ok] at h2
    obtain ⟨l, hl, h2⟩ := h2
    split at h2
    · simp only [bind_ok] at h2
      obtain ⟨c, _, h2⟩ := h2
      cases h2; exact forall₂_rfl hr _
    · simp only [bind_ok] at h2
      obtain ⟨c, _, h2⟩ := h2
      cases h2
      apply forall₂_modify' hr
      intro c; rfl

theorem forall₂_map_x {cs cs' : List (Cell K)} (h : List.Forall₂ SameX cs cs') : cs'.map (·.t.x) = cs.map (·.t.x) := by
  induction h with
  | nil => rfl
  | cons h _ ih => simp only [List.map_cons, ih, show _ = _ from h]

/-- C72: a step of `updateMorphology` neither adds, removes, reorders nor moves transects. -/
theorem C72_positions {pp : PhysPars K} {j1 j2 : ℕ → Bool} {a : MorIn K} {o : MorOut K} (h : updateMorphology pp j1 j2 a = .ok o) :
    o.rows.map (·.x) = a.rows.map (·.x) := by
  obtain ⟨X0, s0, s1, s2, s3, h0, h1, h2, h3, er, _⟩ := update_inv h
  obtain ⟨rb, cells', R, R', rate, g1, g2, g3, g4, g5, g6⟩ := force_inv h0
  have k1 := forall₂_map_x (lst_sameX g2)
  have k2 : s0.cells.map (·.t.x) = cells'.map (·.t.x) := by
    unfold applyRates at g6
    simp only at g6
    split at g6
    · cases g6
    · cases g6
      apply forall₂_map_x
      apply forall₂_mapIdx'
      intro i c; rfl
  have k3 := forall₂_map_x (repair_rel (sameX_repair pp) h1)
  have k4 := forall₂_map_x (breach_rel (sameX_breach pp) h2)
  have k5 : s3.cells.map (·.t.x) = s2.cells.map (·.t.x) := by
    rw [(finish_inv h3).1]
    apply forall₂_map_x
    refine forall₂_modify' (R := SameX) (fun _ => rfl) (fun c => ?_) _ _
    unfold SameX keepCell
    split <;> rfl
  have k0 : (a.rows.mapIdx (mkCell pp a)).map (·.t.x) = a.rows.map (·.x) := by
    apply List.ext_getElem?
    intro i
    rw [List.getElem?_map, List.getElem?_mapIdx, List.getElem?_map]
    cases a.rows[i]? <;> rfl
  rw [er, List.map_map]
  show s3.cells.map (·.t.x) = _
  rw [k5, k4, k3, k2, k1, k0]

/-! ## C51 -/

/-- C51: after a step that returns, shoreline, lagoon edge and cliff are defined everywhere, and at the transect in
line with the river the lagoon is at least MinOutletWidth wide. -/
theorem C51_lagoon {pp : PhysPars K} {j1 j2 : ℕ → Bool} {a : MorIn K} {o : MorOut K} (h : updateMorphology pp j1 j2 a = .ok o) :
    (∀ r ∈ o.rows, r.y0 ≠ nan ∧ r.y3 ≠ nan ∧ r.y4 ≠ nan) ∧
    ∃ (i : ℕ) (r : Transect K), o.rows[i]? = some r ∧ r.x = 0 ∧ (∀ (j : ℕ) r', j < i → o.rows[j]? = some r' → r'.x ≠ 0) ∧
      ∀ y3 y4, r.y3 = fin y3 → r.y4 = fin y4 → pp.MinOutletWidth ≤ y3 - y4 := by
  have hxs := C72_positions h
  obtain ⟨X0, s0, s1, s2, s3, h0, h1, h2, h3, er, _⟩ := update_inv h
  obtain ⟨rb, cells', R, R', rate, g1, _⟩ := force_inv h0
  obtain ⟨hX0, _, _⟩ := precalc_rb g1
  obtain ⟨⟨r0, hr0, hx0⟩, hfirst⟩ := firstIx_ok.mp hX0
  obtain ⟨ef, hfin⟩ := finish_inv h3
  have hx : ∀ i : ℕ, (o.rows[i]?).map (·.x) = (a.rows[i]?).map (·.x) := by
    intro i
    rw [← List.getElem?_map, ← List.getElem?_map, hxs]
  constructor
  · intro r hr
    rw [er] at hr
    obtain ⟨c, hc, rfl⟩ := List.mem_map.mp hr
    exact hfin c hc
  · have h1 := hx X0
    rw [hr0] at h1
    obtain ⟨r, hr, hrx⟩ := Option.map_eq_some_iff.mp h1
    refine ⟨X0, r, hr, ?_, ?_, ?_⟩
    · rw [hrx]; simpa using hx0
    · intro j r' hj hr' he
      have h2 := hx j
      rw [hr'] at h2
      obtain ⟨q, hq, hqx⟩ := Option.map_eq_some_iff.mp h2.symm
      have := hfirst j hj q hq
      simp only at hqx
      rw [hqx, he] at this
      simp at this
    · intro y3 y4 e3 e4
      rw [er, List.getElem?_map] at hr
      obtain ⟨c, hc, rfl⟩ := Option.map_eq_some_iff.mp hr
      rw [ef] at hc
      simp only [List.getElem?_modify, Option.map_eq_map] at hc
      obtain ⟨c2, _, rfl⟩ := Option.map_eq_some_iff.mp hc
      simp only [if_true] at e3 e4
      unfold keepCell at e3 e4
      split at e3
      · rename_i hlt
        rw [if_pos hlt] at e4
        simp only at e3 e4
        rw [e3] at e4
        simp only [sub_fin, Fl.fin.injEq] at e4
        have hpos : (0 : K) < 1 / 1000 := by norm_num
        linarith
      · rename_i hlt
        rw [if_neg hlt] at e4
        rw [e3, e4] at hlt
        simp only [sub_fin, blt_fin, decide_eq_true_eq, not_lt] at hlt
        exact hlt

/-- A step in which the lagoon at the river has to be kept open. -/
example : okAnd (updateMorphology moPP cleanMem cleanMem { brIn with rows := brIn.rows.set 4 { brRow 0 with y4 := fin 18, y3 := fin (181/10) } })
    (fun o => (o.rows[4]?).any (fun r => r.y4 <? fin 18)) = true := by decide +kernel

end Verif.Props
