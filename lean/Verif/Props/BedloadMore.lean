import Verif.Props.Bedload
import Verif.Spec.BedloadMore

set_option autoImplicit false
set_option linter.unusedSectionVars false

/-! # Properties C165 and C166: how bedload depends on flow and on grain size -/

namespace Verif.Props
open Verif Verif.Model Verif.Spec Fl Real

theorem shields_eq (s : Sediment) (c : Section) (hh : 0 < c.h) : shields s c = s.rhoW * s.g * s.n ^ 2 / ((s.rhoS - s.rhoW) * s.g * s.D) * (c.V ^ 2 / c.h ^ (1/3 : ℝ)) := by
  have e : c.h ^ (4/3 : ℝ) = c.h * c.h ^ (1/3 : ℝ) := by
    rw [show (4/3 : ℝ) = 1 + 1/3 by norm_num, Real.rpow_add hh, Real.rpow_one]
  have h1 : 0 < c.h ^ (1/3 : ℝ) := Real.rpow_pos_of_pos hh _
  unfold shields
  rw [e]
  field_simp

theorem shields_mono (s : Sediment) (hs : s.Valid) {a b : Section} (ha : 0 < a.h) (hb : 0 < b.h) (hV : |a.V| ≤ |b.V|) (hh : b.h ≤ a.h) : shields s a ≤ shields s b := by
  obtain ⟨h1, h2, h3, h4, h5, h6, h7⟩ := hs
  rw [shields_eq s a ha, shields_eq s b hb]
  have hd : 0 < s.rhoS - s.rhoW := by linarith
  refine mul_le_mul_of_nonneg_left ?_ (by positivity)
  have hp := Real.rpow_pos_of_pos hb (1/3 : ℝ)
  exact div_le_div₀ (sq_nonneg _) (sq_le_sq.mpr hV) hp (Real.rpow_le_rpow hb.le hh (by norm_num))

/-- The amount carried, without direction. -/
noncomputable def amount (s : Sediment) (B th : ℝ) : ℝ := s.coef * (max (th - s.crit) 0) ^ s.exp * B * Real.sqrt ((s.rhoS / s.rhoW - 1) * s.g * s.D ^ 3) / (1 - s.voids)

theorem amount_mono (s : Sediment) (hs : s.Valid) {B x y : ℝ} (hB : 0 ≤ B) (h : x ≤ y) : amount s B x ≤ amount s B y := by
  obtain ⟨h1, h2, h3, h4, h5, h6, h7⟩ := hs
  unfold amount
  have hv : 0 < 1 - s.voids := by linarith
  have hp : (max (x - s.crit) 0) ^ s.exp ≤ (max (y - s.crit) 0) ^ s.exp := Real.rpow_le_rpow (le_max_right _ _) (max_le_max (by linarith) le_rfl) h6.le
  refine div_le_div_of_nonneg_right ?_ hv.le
  refine mul_le_mul_of_nonneg_right ?_ (Real.sqrt_nonneg _)
  refine mul_le_mul_of_nonneg_right ?_ hB
  exact mul_le_mul_of_nonneg_left hp h5.le

theorem capacity_mono (s : Sediment) (hs : s.Valid) (hcrit : 0 ≤ s.crit) {a b : Section} (ha : 0 < a.h) (hb : 0 < b.h) (hB : 0 < a.B) (h : MoreFlow a b) :
    capacity s a ≤ capacity s b := by
  obtain ⟨w, sp, dn, up⟩ := h
  rcases lt_or_ge b.V 0 with hbV | hbV
  · have haV : a.V < 0 := lt_of_le_of_lt sp hbV
    have hm := amount_mono s hs hB.le (shields_mono s hs hb ha (by rw [abs_of_neg hbV, abs_of_neg haV]; linarith) (up hbV.le))
    unfold capacity
    rw [if_pos haV, if_pos hbV, w]
    unfold amount at hm
    linarith
  · rcases lt_or_ge a.V 0 with haV | haV
    · exact (capacity_nonpos s hcrit hs a hB haV.le).trans (capacity_nonneg s hs b (by rw [w]; exact hB) hbV)
    · have hm := amount_mono s hs hB.le (shields_mono s hs ha hb (by rw [abs_of_nonneg hbV, abs_of_nonneg haV]; exact sp) (dn haV))
      unfold capacity
      rw [if_neg (not_lt.mpr haV), if_neg (not_lt.mpr hbV), w]
      unfold amount at hm
      linarith

theorem reach_mono {f g : Section → ℝ} {Psi : ℝ} (h0 : 0 ≤ Psi) (h1 : Psi ≤ 1) {cs ds : List Section} (h : List.Forall₂ (fun a b => f a ≤ g b) cs ds) :
    List.Forall₂ (· ≤ ·) ((cs.zip cs.tail).map fun r => (1 - Psi) * f r.1 + Psi * f r.2) ((ds.zip ds.tail).map fun r => (1 - Psi) * g r.1 + Psi * g r.2) := by
  induction h with
  | nil => exact List.Forall₂.nil
  | @cons a b l m hab hlm ih =>
    cases hlm with
    | nil => exact List.Forall₂.nil
    | @cons c d l' m' hcd hl =>
      simp only [List.tail_cons, List.zip_cons_cons, List.map_cons] at ih ⊢
      refine List.Forall₂.cons ?_ ih
      have := mul_le_mul_of_nonneg_left hab (by linarith : 0 ≤ 1 - Psi)
      have := mul_le_mul_of_nonneg_left hcd h0
      linarith

/-- C165: with more flow at every section, no reach carries less sediment downstream. -/
theorem C165_more_flow (s : Sediment) (hs : s.Valid) (hcrit : 0 ≤ s.crit) (P : PhysPars ℝ) (hP : SedPars s P) (cs ds : List Section) (hc : ∀ c ∈ cs, 0 < c.h ∧ 0 < c.B)
    (hd : ∀ c ∈ ds, 0 < c.h) (h : List.Forall₂ MoreFlow cs ds) (Psi : ℝ) (h0 : 0 ≤ Psi) (h1 : Psi ≤ 1) :
    ∃ q q' : List ℝ, bedload cs P Psi = .ok (q.map fin) ∧ bedload ds P Psi = .ok (q'.map fin) ∧ List.Forall₂ (· ≤ ·) q q' := by
  refine ⟨_, _, ?_, ?_, reach_mono (f := capacity s) (g := capacity s) (cs := cs) (ds := ds) h0 h1 ?_⟩
  · rw [bedload, calcBedload_eq s hs P hP cs (fun c hh => (hc c hh).1) Psi, List.map_map]; rfl
  · rw [bedload, calcBedload_eq s hs P hP ds hd Psi, List.map_map]; rfl
  · rw [List.forall₂_iff_get] at h ⊢
    refine ⟨h.1, fun i hi hi' => ?_⟩
    exact capacity_mono s hs hcrit (hc _ (List.get_mem _ _)).1 (hd _ (List.get_mem _ _)) (hc _ (List.get_mem _ _)).2 (h.2 i hi hi')

/-- The hypotheses of C165, with bedload 3 growing to 8. -/
example : List.Forall₂ MoreFlow [⟨1, 1, 2⟩, ⟨1, 1, 2⟩] [⟨1, 1, 3⟩, ⟨1, 1, 2⟩] ∧ capacity demoSed ⟨1, 1, 2⟩ = 3 ∧ capacity demoSed ⟨1, 1, 3⟩ = 8 := by
  refine ⟨.cons ⟨rfl, by norm_num, fun _ => le_rfl, fun _ => le_rfl⟩ (.cons ⟨rfl, by norm_num, fun _ => le_rfl, fun _ => le_rfl⟩ .nil), ?_, ?_⟩ <;> rw [demoSed_capacity] <;> norm_num

/-! ## C166 -/

/-- The amount carried in terms of the drag `c`, for an exponent of three halves or more. -/
theorem coarser_amount {c crit e D D' : ℝ} (hc : 0 ≤ c) (hcrit : 0 ≤ crit) (he : 3/2 ≤ e) (hD : 0 < D) (h : D ≤ D') :
    (max (c / D' - crit) 0) ^ e * Real.sqrt (D' ^ 3) ≤ (max (c / D - crit) 0) ^ e * Real.sqrt (D ^ 3) := by
  have hD' : 0 < D' := lt_of_lt_of_le hD h
  have hx : ∀ {x : ℝ}, 0 < x → (max (c / x - crit) 0) ^ e * Real.sqrt (x ^ 3) = (max (c - crit * x) 0) ^ (3/2 : ℝ) * (max (c / x - crit) 0) ^ (e - 3/2) := by
    intro x hx
    have e1 : max (c - crit * x) 0 = x * max (c / x - crit) 0 := by
      rw [mul_max_of_nonneg _ _ hx.le, mul_zero]; congr 1; field_simp
    have e2 : Real.sqrt (x ^ 3) = x ^ (3/2 : ℝ) := by
      rw [Real.sqrt_eq_rpow, ← Real.rpow_natCast, ← Real.rpow_mul hx.le]; norm_num
    have hm : 0 ≤ max (c / x - crit) 0 := le_max_right _ _
    rw [e1, e2, Real.mul_rpow hx.le hm]
    rcases hm.eq_or_lt with h0 | hpos
    · rw [← h0, Real.zero_rpow (by linarith), Real.zero_rpow (by norm_num)]; ring
    · have : (max (c / x - crit) 0) ^ e = (max (c / x - crit) 0) ^ (3/2 : ℝ) * (max (c / x - crit) 0) ^ (e - 3/2) := by
        rw [← Real.rpow_add hpos]; congr 1; ring
      rw [this]; ring
  rw [hx hD', hx hD]
  refine mul_le_mul ?_ ?_ (Real.rpow_nonneg (le_max_right _ _) _) (Real.rpow_nonneg (le_max_right _ _) _)
  · exact Real.rpow_le_rpow (le_max_right _ _) (max_le_max (by nlinarith) le_rfl) (by norm_num)
  · exact Real.rpow_le_rpow (le_max_right _ _) (max_le_max (by have := div_le_div_of_nonneg_left hc hD h; linarith) le_rfl) (by linarith)

theorem capacity_coarser (s : Sediment) (hs : s.Valid) (hcrit : 0 ≤ s.crit) (he : 3/2 ≤ s.exp) {D' : ℝ} (hD : s.D ≤ D') (a : Section) (ha : 0 < a.h) (hB : 0 < a.B) :
    |capacity { s with D := D' } a| ≤ |capacity s a| := by
  obtain ⟨h1, h2, h3, h4, h5, h6, h7⟩ := hs
  have hd : 0 < s.rhoS - s.rhoW := by linarith
  have hv : 0 < 1 - s.voids := by linarith
  have hr : 0 ≤ s.rhoS / s.rhoW - 1 := by rw [sub_nonneg, le_div_iff₀ h1]; linarith
  have hp := Real.rpow_pos_of_pos ha (1/3 : ℝ)
  set c := s.rhoW * s.n ^ 2 / (s.rhoS - s.rhoW) * (a.V ^ 2 / a.h ^ (1/3 : ℝ)) with hc
  have c0 : 0 ≤ c := by positivity
  have hsh : ∀ x, 0 < x → shields { s with D := x } a = c / x := by
    intro x hx
    rw [shields_eq _ a ha, hc]
    simp only
    field_simp
  have key := coarser_amount c0 hcrit he h4 hD
  have hcap : ∀ x, 0 < x → |capacity { s with D := x } a| = s.coef * a.B * Real.sqrt ((s.rhoS / s.rhoW - 1) * s.g) / (1 - s.voids) * ((max (c / x - s.crit) 0) ^ s.exp * Real.sqrt (x ^ 3)) := by
    intro x hx
    unfold capacity
    rw [hsh x hx]
    simp only
    rw [Real.sqrt_mul (by positivity)]
    have hn : 0 ≤ s.coef * (max (c / x - s.crit) 0) ^ s.exp * a.B * (Real.sqrt ((s.rhoS / s.rhoW - 1) * s.g) * Real.sqrt (x ^ 3)) / (1 - s.voids) := by
      have := Real.rpow_nonneg (le_max_right (c / x - s.crit) 0) s.exp
      positivity
    rw [abs_mul, abs_of_nonneg hn]
    have : |(if a.V < 0 then (-1 : ℝ) else 1)| = 1 := by split <;> simp
    rw [this]
    ring
  have e0 : ({ s with D := s.D } : Sediment) = s := rfl
  rw [hcap D' (lt_of_lt_of_le h4 hD)]
  have := hcap s.D h4
  rw [e0] at this
  rw [this]
  refine mul_le_mul_of_nonneg_left key ?_
  positivity

/-- C166, partial: with an exponent of the transport formula of three halves or more (the default is three halves), a coarser bed is not moved more, in water running one way.
Missing: smaller exponents, for which it is false. -/
theorem C166_partial (s : Sediment) (hs : s.Valid) (hcrit : 0 ≤ s.crit) (he : 3/2 ≤ s.exp) (D' : ℝ) (hD : s.D ≤ D') (P P' : PhysPars ℝ) (hP : SedPars s P)
    (hP' : SedPars { s with D := D' } P') (cs : List Section) (hc : ∀ c ∈ cs, 0 < c.h ∧ 0 < c.B ∧ 0 ≤ c.V) (Psi : ℝ) (h0 : 0 ≤ Psi) (h1 : Psi ≤ 1) :
    ∃ q q' : List ℝ, bedload cs P Psi = .ok (q.map fin) ∧ bedload cs P' Psi = .ok (q'.map fin) ∧ List.Forall₂ (· ≤ ·) q' q := by
  have hs' : ({ s with D := D' } : Sediment).Valid := by
    obtain ⟨h1, h2, h3, h4, h5, h6, h7⟩ := hs
    exact ⟨h1, h2, h3, lt_of_lt_of_le h4 hD, h5, h6, h7⟩
  refine ⟨(cs.zip cs.tail).map fun r => (1 - Psi) * capacity s r.1 + Psi * capacity s r.2, (cs.zip cs.tail).map fun r => (1 - Psi) * capacity { s with D := D' } r.1 + Psi * capacity { s with D := D' } r.2, ?_, ?_, reach_mono (f := capacity { s with D := D' }) (g := capacity s) h0 h1 ?_⟩
  · rw [bedload, calcBedload_eq s hs P hP cs (fun c hh => (hc c hh).1) Psi, List.map_map]; rfl
  · rw [bedload, calcBedload_eq _ hs' P' hP' cs (fun c hh => (hc c hh).1) Psi, List.map_map]; rfl
  · rw [List.forall₂_iff_get]
    refine ⟨rfl, fun i hi hi' => ?_⟩
    obtain ⟨c1, c2, c3⟩ := hc _ (List.get_mem cs ⟨i, hi⟩)
    have := capacity_coarser s hs hcrit he hD _ c1 c2
    rwa [abs_of_nonneg (capacity_nonneg _ hs' _ c2 c3), abs_of_nonneg (capacity_nonneg s hs _ c2 c3)] at this

/-- Sediment with the exponent one, which the configuration accepts. -/
noncomputable def linSed (D : ℝ) : Sediment := { demoSed with crit := 0, D := D }

noncomputable def linPars (D : ℝ) : PhysPars ℝ := { demoSedPars with CritShieldsStress := 0, GrainSize := D }

/-- The hypotheses of C166: the default exponent and grains of 1 and 2. -/
example : ({ demoSed with exp := 3/2 } : Sediment).Valid ∧ SedPars { demoSed with exp := 3/2 } { demoSedPars with MPM_exp := 3/2 } ∧
    SedPars { { demoSed with exp := 3/2 } with D := 2 } { demoSedPars with MPM_exp := 3/2, GrainSize := 2 } := by
  refine ⟨?_, ⟨rfl, rfl, rfl, rfl, rfl, rfl, rfl, rfl, rfl⟩, ⟨rfl, rfl, rfl, rfl, rfl, rfl, rfl, rfl, rfl⟩⟩
  refine ⟨?_, ?_, ?_, ?_, ?_, ?_, ?_⟩ <;> norm_num [demoSed]

theorem lin_capacity {D : ℝ} (hD : 0 < D) : capacity (linSed D) ⟨1, 1, 1⟩ = 1 / D * Real.sqrt (D ^ 3) := by
  have : shields (linSed D) ⟨1, 1, 1⟩ = 1 / D := by
    norm_num [shields, linSed, demoSed]
    field_simp
  have h : 0 < 1 / D := by positivity
  simp only [capacity, this]
  norm_num [linSed, demoSed]
  exact Or.inl hD.le

/-- C166 is false of the code with an exponent of one: grains of four times the size are moved twice as much. -/
theorem C166_refuted : ∃ (P P' : PhysPars ℝ) (cs : List Section), P' = { P with GrainSize := 4 * P.GrainSize } ∧ 0 < P.GrainSize ∧ P.MPM_exp = 1 ∧
    bedload cs P 0 = .ok [fin 1] ∧ bedload cs P' 0 = .ok [fin 2] := by
  have hv : ∀ D : ℝ, 0 < D → (linSed D).Valid := by
    intro D hD
    refine ⟨?_, ?_, ?_, hD, ?_, ?_, ?_⟩ <;> norm_num [demoSed, linSed]
  have hp : ∀ D : ℝ, SedPars (linSed D) (linPars D) := fun D => ⟨rfl, rfl, rfl, rfl, rfl, rfl, rfl, rfl, rfl⟩
  refine ⟨linPars 1, linPars 4, [⟨1, 1, 1⟩, ⟨1, 1, 1⟩], ?_, ?_, ?_, ?_, ?_⟩
  · norm_num [linPars]
  · norm_num [linPars]
  · norm_num [linPars, demoSedPars]
  · rw [bedload, calcBedload_eq (linSed 1) (hv 1 one_pos) _ (hp 1) _ (by simp) 0]
    simp [lin_capacity one_pos]
  · rw [bedload, calcBedload_eq (linSed 4) (hv 4 (by norm_num)) _ (hp 4) _ (by simp) 0]
    have : Real.sqrt (4 ^ 3) = 8 := by rw [show (4 : ℝ) ^ 3 = 8 ^ 2 by norm_num]; exact Real.sqrt_sq (by norm_num)
    simp [lin_capacity (show (0 : ℝ) < 4 by norm_num), this]
    norm_num

end Verif.Props
