import Verif.Model.Bedload
import Verif.Spec.Bedload
import Verif.Lemmas.Coast

set_option autoImplicit false

set_option linter.unusedSectionVars false

namespace Verif.Model
open Verif Fl Real Spec

/-- The parameters carry the sediment properties `s`. -/
def SedPars (s : Sediment) (P : PhysPars ℝ) : Prop :=
  P.RhoRiv = s.rhoW ∧ P.RhoSed = s.rhoS ∧ P.Gravity = s.g ∧ P.GrainSize = s.D ∧ P.GrainRoughness = s.n ∧
  P.CritShieldsStress = s.crit ∧ P.MPM_coef = s.coef ∧ P.MPM_exp = s.exp ∧ P.VoidRatio = s.voids

theorem nodeBedload_eq (s : Sediment) (hs : s.Valid) (P : PhysPars ℝ) (hP : SedPars s P) (c : Section) (hh : 0 < c.h) :
    nodeBedload P (((P.RhoSed / P.RhoRiv - 1) * P.Gravity * P.GrainSize ^ 3) ^ (0.5 : ℝ)) (fin c.B) (fin c.h)
      (fin c.V) = fin (capacity s c) := by
  obtain ⟨h1, h2, h3, h4, h5, h6, h7⟩ := hs
  obtain ⟨e1, e2, e3, e4, e5, e6, e7, e8, e9⟩ := hP
  unfold nodeBedload
  have hd : (s.rhoS - s.rhoW) * s.g * s.D ≠ 0 := by
    have : 0 < s.rhoS - s.rhoW := by linarith
    positivity
  have hp : 0 < c.h ^ (4/3 : ℝ) := Real.rpow_pos_of_pos hh _
  simp only [mul_fin, npPow_pos hh, div_fin _ _ hp.ne', sub_fin, e1, e2, e3, e4, e5, e6, e7, e8, e9,
    div_fin _ _ hd, npmax_fin]
  rw [npPow_nonneg (le_max_right _ _) h6, mul_fin, mul_fin, mul_fin, div_fin _ _ (by linarith)]
  have e : s.rhoW * s.g * c.h * (c.V * c.V * (s.n * s.n) / c.h ^ (4/3 : ℝ)) / ((s.rhoS - s.rhoW) * s.g * s.D) =
      shields s c := by unfold shields; rw [pow_two, pow_two]
  rw [e]
  unfold capacity
  rw [Real.sqrt_eq_rpow, show (1/2 : ℝ) = 0.5 by norm_num]
  simp only [blt_fin, decide_eq_true_eq]
  split
  · rw [mul_fin]; congr 1; ring
  · rw [one_mul]

theorem calcBedload_eq (s : Sediment) (hs : s.Valid) (P : PhysPars ℝ) (hP : SedPars s P) (cs : List Section)
    (hh : ∀ c ∈ cs, 0 < c.h) (Psi : ℝ) :
    calcBedload (cs.map (fun c => fin c.B)) (cs.map (fun c => fin c.h)) (cs.map (fun c => fin c.V)) P Psi =
      .ok ((cs.zip cs.tail).map (fun r => fin ((1 - Psi) * capacity s r.1 + Psi * capacity s r.2))) := by
  have hs' := hs
  obtain ⟨h1, h2, h3, h4, h5, h6, h7⟩ := hs'
  have hP' := hP
  obtain ⟨e1, e2, e3, e4, e5, e6, e7, e8, e9⟩ := hP'
  unfold calcBedload
  rw [if_neg (by rw [e1]; exact h1.ne')]
  have hbase : ¬ (P.RhoSed / P.RhoRiv - 1) * P.Gravity * P.GrainSize ^ 3 < 0 := by
    rw [e1, e2, e3, e4, not_lt]
    have : 0 ≤ s.rhoS / s.rhoW - 1 := by
      rw [sub_nonneg, le_div_iff₀ h1]; linarith
    positivity
  simp only [if_neg hbase]
  congr 1
  have hz : ((cs.map (fun c => fin c.B)).zip ((cs.map (fun c => fin c.h)).zip (cs.map (fun c => fin c.V)))) =
      cs.map (fun c => ((fin c.B : Fl ℝ), ((fin c.h : Fl ℝ), (fin c.V : Fl ℝ)))) := by
    rw [List.zip_map', List.zip_map']
  rw [hz, List.map_map, dropLast_zip_tail]
  have hm : List.map ((fun q => nodeBedload P (((P.RhoSed / P.RhoRiv - 1) * P.Gravity * P.GrainSize ^ 3) ^ (0.5 : ℝ))
      q.1 q.2.1 q.2.2) ∘ fun c : Section => ((fin c.B : Fl ℝ), ((fin c.h : Fl ℝ), (fin c.V : Fl ℝ)))) cs
      = cs.map (fun c => fin (capacity s c)) := by
    apply List.map_congr_left
    intro c hc
    exact nodeBedload_eq s hs P hP c (hh c hc)
  rw [hm, ← List.map_tail, List.zip_map, List.map_map]
  apply List.map_congr_left
  intro r _
  simp

theorem capacity_nonneg (s : Sediment) (hs : s.Valid) (c : Section) (hB : 0 < c.B) (hV : 0 ≤ c.V) :
    0 ≤ capacity s c := by
  obtain ⟨h1, h2, h3, h4, h5, h6, h7⟩ := hs
  unfold capacity
  rw [if_neg (not_lt.mpr hV), one_mul]
  have : 0 < 1 - s.voids := by linarith
  have : 0 ≤ (max (shields s c - s.crit) 0) ^ s.exp := Real.rpow_nonneg (le_max_right _ _) _
  positivity

theorem shields_neg (s : Sediment) (c : Section) : shields s { c with V := -c.V } = shields s c := by
  unfold shields; simp

theorem capacity_zero (s : Sediment) (hs : s.Valid) (c : Section) (h : shields s c ≤ s.crit) : capacity s c = 0 := by
  unfold capacity
  rw [max_eq_right (by linarith), Real.zero_rpow hs.2.2.2.2.2.1.ne']
  simp

theorem capacity_odd (s : Sediment) (hcrit : 0 ≤ s.crit) (hs : s.Valid) (c : Section) :
    capacity s { c with V := -c.V } = -(capacity s c) := by
  rcases lt_trichotomy c.V 0 with h | h | h
  · unfold capacity
    rw [shields_neg]
    simp [h, h.not_gt]
  · have e : capacity s c = 0 := by
      apply capacity_zero s hs
      have : shields s c = 0 := by unfold shields; simp [h]
      linarith
    have e' : capacity s { c with V := -c.V } = 0 := by
      apply capacity_zero s hs
      rw [shields_neg]
      have : shields s c = 0 := by unfold shields; simp [h]
      linarith
    rw [e, e', neg_zero]
  · unfold capacity
    rw [shields_neg]
    simp [h, h.not_gt]

theorem capacity_nonpos (s : Sediment) (hcrit : 0 ≤ s.crit) (hs : s.Valid) (c : Section) (hB : 0 < c.B) (hV : c.V ≤ 0) :
    capacity s c ≤ 0 := by
  have h := capacity_nonneg s hs { c with V := -c.V } hB (by simpa using hV)
  rw [capacity_odd s hcrit hs] at h
  linarith

theorem capacity_pos (s : Sediment) (hs : s.Valid) (c : Section) (hB : 0 < c.B) (hV : 0 ≤ c.V)
    (h : s.crit < shields s c) : 0 < capacity s c := by
  obtain ⟨h1, h2, h3, h4, h5, h6, h7⟩ := hs
  unfold capacity
  rw [if_neg (not_lt.mpr hV), one_mul]
  have : 0 < 1 - s.voids := by linarith
  have : 0 < (max (shields s c - s.crit) 0) ^ s.exp := Real.rpow_pos_of_pos (lt_max_of_lt_left (by linarith)) _
  have h8 : 0 < s.rhoS / s.rhoW - 1 := by rw [sub_pos, lt_div_iff₀ h1]; linarith
  have : 0 < Real.sqrt ((s.rhoS / s.rhoW - 1) * s.g * s.D ^ 3) := Real.sqrt_pos.mpr (by positivity)
  positivity

end Verif.Model
