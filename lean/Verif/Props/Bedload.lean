import Verif.Lemmas.Bedload
import Verif.Props.Coast

set_option autoImplicit false

set_option linter.unusedSectionVars false

/-! # Properties C12-C14: bedload transport -/

namespace Verif.Props
open Verif Verif.Model Verif.Spec Fl Real

/-- A channel of finite cross-sections run through the modelled function. -/
noncomputable abbrev bedload (cs : List Section) (P : PhysPars ℝ) (Psi : ℝ) : Except PyErr (List (Fl ℝ)) :=
  calcBedload (cs.map (fun c => fin c.B)) (cs.map (fun c => fin c.h)) (cs.map (fun c => fin c.V)) P Psi

/-- C12: one number per reach; zero when both end sections are at or below the critical
Shields stress; non-negative when both end velocities are; non-positive when both end
velocities are; and strictly positive when the flow is downstream and the upstream section
is above threshold. -/
theorem C12_bedload (s : Sediment) (hs : s.Valid) (hcrit : 0 ≤ s.crit) (P : PhysPars ℝ) (hP : SedPars s P)
    (cs : List Section) (hc : ∀ c ∈ cs, 0 < c.h ∧ 0 < c.B) (Psi : ℝ) (h0 : 0 ≤ Psi) (h1 : Psi < 1) :
    ∃ qs, bedload cs P Psi = .ok qs ∧ qs.length = cs.length - 1 ∧
      ∀ i a b, cs[i]? = some a → cs[i+1]? = some b → ∃ q, qs[i]? = some (fin q) ∧
        (shields s a ≤ s.crit → shields s b ≤ s.crit → q = 0) ∧
        (0 ≤ a.V → 0 ≤ b.V → 0 ≤ q) ∧ (a.V ≤ 0 → b.V ≤ 0 → q ≤ 0) ∧
        (0 ≤ a.V → 0 ≤ b.V → s.crit < shields s a → 0 < q) := by
  refine ⟨_, calcBedload_eq s hs P hP cs (fun c h => (hc c h).1) Psi, by simp, ?_⟩
  intro i a b ha hb
  have ha' := hc a (List.mem_of_getElem? ha)
  have hb' := hc b (List.mem_of_getElem? hb)
  refine ⟨(1 - Psi) * capacity s a + Psi * capacity s b, ?_, ?_, ?_, ?_, ?_⟩
  · rw [List.getElem?_map]
    have : (cs.zip cs.tail)[i]? = some (a, b) := by
      rw [List.getElem?_zip_eq_some, List.getElem?_tail]; exact ⟨ha, hb⟩
    rw [this]; rfl
  · intro x y
    rw [capacity_zero s hs a x, capacity_zero s hs b y]; simp
  · intro x y
    have := capacity_nonneg s hs a ha'.2 x
    have := capacity_nonneg s hs b hb'.2 y
    have : 0 ≤ 1 - Psi := by linarith
    positivity
  · intro x y
    have p1 := capacity_nonpos s hcrit hs a ha'.2 x
    have p2 := capacity_nonpos s hcrit hs b hb'.2 y
    have p3 := mul_nonpos_of_nonneg_of_nonpos (by linarith : 0 ≤ 1 - Psi) p1
    have p4 := mul_nonpos_of_nonneg_of_nonpos h0 p2
    linarith
  · intro x y z
    have p1 := capacity_pos s hs a ha'.2 x z
    have p2 := capacity_nonneg s hs b hb'.2 y
    have : 0 < 1 - Psi := by linarith
    positivity

/-- C13: reversing every velocity negates every value. -/
theorem C13_odd (s : Sediment) (hs : s.Valid) (hcrit : 0 ≤ s.crit) (P : PhysPars ℝ) (hP : SedPars s P)
    (cs : List Section) (hc : ∀ c ∈ cs, 0 < c.h) (Psi : ℝ) :
    ∃ qs : List ℝ, bedload cs P Psi = .ok (qs.map fin) ∧
      bedload (cs.map (fun c => { c with V := -c.V })) P Psi = .ok (qs.map (fun q => fin (-q))) := by
  refine ⟨(cs.zip cs.tail).map (fun r => (1 - Psi) * capacity s r.1 + Psi * capacity s r.2), ?_, ?_⟩
  · rw [bedload, calcBedload_eq s hs P hP cs hc Psi, List.map_map]; rfl
  · rw [bedload, calcBedload_eq s hs P hP _ (by
      intro c h; obtain ⟨c', h', rfl⟩ := List.mem_map.mp h; exact hc c' h') Psi]
    rw [← List.map_tail, List.zip_map, List.map_map, List.map_map]
    congr 1
    apply List.map_congr_left
    intro r _
    simp only [Function.comp, Prod.map, capacity_odd s hcrit hs]
    congr 1; ring

/-- C13: each reach value lies between the Meyer-Peter-Müller capacities of its two end
sections, with weight `Psi` on the downstream section. -/
theorem C13_between (s : Sediment) (hs : s.Valid) (P : PhysPars ℝ) (hP : SedPars s P)
    (cs : List Section) (hc : ∀ c ∈ cs, 0 < c.h) (Psi : ℝ) (h0 : 0 ≤ Psi) (h1 : Psi ≤ 1) :
    ∃ qs, bedload cs P Psi = .ok qs ∧
      ∀ i a b, cs[i]? = some a → cs[i+1]? = some b → ∃ q, qs[i]? = some (fin q) ∧
        q = (1 - Psi) * capacity s a + Psi * capacity s b ∧
        min (capacity s a) (capacity s b) ≤ q ∧ q ≤ max (capacity s a) (capacity s b) := by
  refine ⟨_, calcBedload_eq s hs P hP cs hc Psi, ?_⟩
  intro i a b ha hb
  refine ⟨(1 - Psi) * capacity s a + Psi * capacity s b, ?_, rfl, ?_, ?_⟩
  · rw [List.getElem?_map]
    have : (cs.zip cs.tail)[i]? = some (a, b) := by
      rw [List.getElem?_zip_eq_some, List.getElem?_tail]; exact ⟨ha, hb⟩
    rw [this]; rfl
  · nlinarith [min_le_left (capacity s a) (capacity s b), min_le_right (capacity s a) (capacity s b)]
  · nlinarith [le_max_left (capacity s a) (capacity s b), le_max_right (capacity s a) (capacity s b)]

/-- The upwinding requirement: with the flow going from section `src` to section `dst`, the reach value
is a weighted mean with at least half the weight on `src`. -/
def Upwinded (s : Sediment) (src dst : Section) (q : ℝ) : Prop :=
  ∃ w, 1/2 ≤ w ∧ w ≤ 1 ∧ q = w * capacity s src + (1 - w) * capacity s dst

/-- C14, the part that holds: upwinding is right for every reach when flow is downstream
(water comes from section `i`).  Missing: reversed flow, refuted below. -/
theorem C14_partial (s : Sediment) (hs : s.Valid) (P : PhysPars ℝ) (hP : SedPars s P)
    (cs : List Section) (hc : ∀ c ∈ cs, 0 < c.h) (Psi : ℝ) (h0 : 0 ≤ Psi) (h1 : Psi ≤ 1/2) :
    ∃ qs, bedload cs P Psi = .ok qs ∧
      ∀ i a b, cs[i]? = some a → cs[i+1]? = some b → ∃ q, qs[i]? = some (fin q) ∧ Upwinded s a b q := by
  obtain ⟨qs, e, h⟩ := C13_between s hs P hP cs hc Psi h0 (by linarith)
  refine ⟨qs, e, fun i a b ha hb => ?_⟩
  obtain ⟨q, hq, he, _⟩ := h i a b ha hb
  exact ⟨q, hq, 1 - Psi, by linarith, by linarith, by rw [he]; ring⟩

/-- C14 is false for reversed flow: with both velocities negative the water comes from the
downstream section `b`, but whenever the two capacities differ and `Psi < 1/2` the value
puts more than half the weight on `a`. -/
theorem C14_refuted_reversed (s : Sediment) (hs : s.Valid) (P : PhysPars ℝ) (hP : SedPars s P)
    (a b : Section) (ha : 0 < a.h) (hb : 0 < b.h) (Psi : ℝ) (h1 : Psi < 1/2)
    (hne : capacity s a ≠ capacity s b) :
    ∃ q, bedload [a, b] P Psi = .ok [fin q] ∧ ¬ Upwinded s b a q := by
  refine ⟨(1 - Psi) * capacity s a + Psi * capacity s b, ?_, ?_⟩
  · rw [bedload, calcBedload_eq s hs P hP [a, b] (by simp [ha, hb]) Psi]; rfl
  · rintro ⟨w, hw, _, he⟩
    have : (w - Psi) * (capacity s a - capacity s b) = 0 := by linear_combination he
    rcases mul_eq_zero.mp this with h | h
    · linarith
    · exact hne (by linarith)

/-- Sediment used as a concrete case. -/
noncomputable def demoSed : Sediment :=
  { rhoW := 1000, rhoS := 2000, g := 1, D := 1, n := 1, crit := 1, coef := 1, exp := 1, voids := 0 }

theorem demoSed_valid : demoSed.Valid := by
  refine ⟨?_, ?_, ?_, ?_, ?_, ?_, ?_⟩ <;> norm_num [demoSed]

/-- Model parameters carrying `demoSed`. -/
noncomputable def demoSedPars : PhysPars ℝ :=
  { demoPars with
    RhoRiv := 1000, RhoSed := 2000, Gravity := 1, GrainSize := 1, GrainRoughness := 1,
    CritShieldsStress := 1, MPM_coef := 1, MPM_exp := 1, VoidRatio := 0 }

theorem demoSedPars_ok : SedPars demoSed demoSedPars := ⟨rfl, rfl, rfl, rfl, rfl, rfl, rfl, rfl, rfl⟩

/-- Capacity of a 1 m deep section of `demoSed`: `±(V^2 - 1) B` above threshold. -/
theorem demoSed_capacity (B V : ℝ) :
    capacity demoSed ⟨B, 1, V⟩ = (if V < 0 then -1 else 1) * (max (V ^ 2 - 1) 0 * B) := by
  have : shields demoSed ⟨B, 1, V⟩ = V ^ 2 := by norm_num [shields, demoSed]
  simp only [capacity, this]
  norm_num [demoSed]

/-- Witness for C14: reversed flow (2 m/s upstream-ward) from a 3 m wide section into a 1 m wide one;
the capacities differ, so the hypotheses of `C14_refuted_reversed` are met. -/
theorem C14_refuted_witness :
    ∃ q, bedload [⟨1, 1, -2⟩, ⟨3, 1, -2⟩] demoSedPars 0 = .ok [fin q] ∧ ¬ Upwinded demoSed ⟨3, 1, -2⟩ ⟨1, 1, -2⟩ q := by
  apply C14_refuted_reversed demoSed demoSed_valid _ demoSedPars_ok _ _ (by norm_num) (by norm_num) 0 (by norm_num)
  rw [demoSed_capacity, demoSed_capacity]
  norm_num

/-- Concrete case for C12, C13: a section above threshold carries a non-zero bedload. -/
example : capacity demoSed ⟨1, 1, 2⟩ = 3 ∧ capacity demoSed ⟨1, 1, 1⟩ = 0 ∧ capacity demoSed ⟨1, 1, -2⟩ = -3 := by
  refine ⟨?_, ?_, ?_⟩ <;> rw [demoSed_capacity] <;> norm_num

end Verif.Props
