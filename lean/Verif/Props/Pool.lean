import Verif.Props.Steady
import Verif.Spec.Pool

set_option autoImplicit false
set_option linter.unusedSectionVars false

/-! # Property C164: without river flow the water stands at sea level -/

namespace Verif.Props
open Verif Verif.Model Verif.Spec Fl Real

theorem critR_zero {p : SteadyPars} (hQ : p.Q = 0) (b : ℝ) : critR p b = 0 := by
  unfold critR
  rw [hQ]
  simp

theorem errNoFlow {p : SteadyPars} (hQ : p.Q = 0) {b : ℝ} (hb : 0 < b) : fin p.Beta * (fin p.Q * fin p.Q / (fin 2 * fin gravSteady * (fin b * fin b))) = fin (0 : ℝ) ∧
    ∀ dx : ℝ, fin dx * (fin p.Q * fin p.Q) * fin (p.n ^ 2) / (fin 2 * (fin b * fin b)) = fin (0 : ℝ) := by
  have hg := grav_pos
  constructor
  · simp only [mul_fin]
    rw [div_fin _ _ (by positivity), mul_fin, hQ]
    simp
  · intro dx
    simp only [mul_fin]
    rw [div_fin _ _ (by positivity), hQ]
    simp

/-- A section under sea level with still water below it. -/
theorem depth_wet {p : SteadyPars} (hQ : p.Q = 0) (hT : 0 ≤ p.Tol) {dx z b z1 : ℝ} (hb : 0 < b) (hz : z < p.DsWL) :
    steadyDepth p (fin dx) (fin z) (fin b) (fin z1) (fin (p.DsWL - z1)) (fin p.DsWL) (fin 0) = .ok (fin (p.DsWL - z)) := by
  unfold steadyDepth
  rw [(errNoFlow hQ hb).1, (errNoFlow hQ hb).2 dx]
  have eC : (fin z - fin 0 * fin dx / fin 2 - fin p.DsWL : Fl ℝ) = fin (z - p.DsWL) := by
    simp only [mul_fin]
    rw [div_fin _ _ (by norm_num)]; simp
  have e0 : (fin (p.DsWL - z1) + fin z1 - fin z + fin 0 * fin dx : Fl ℝ) = fin (p.DsWL - z) := by
    simp only [mul_fin, add_fin, sub_fin]; congr 1; ring
  simp only [eC, e0]
  rw [depErr_pos _ _ _ (by linarith : 0 < p.DsWL - z)]
  have hE : errR 0 0 (z - p.DsWL) (p.DsWL - z) = 0 := by unfold errR; ring
  rw [hE]
  have hN : ∀ fuel, steadyNewton (fin 0) (fin 0) (fin (z - p.DsWL)) p.Tol fuel (fin (p.DsWL - z)) (fin 0) = .ok (fin (p.DsWL - z)) := by
    intro fuel
    unfold steadyNewton
    rw [if_neg (by simp only [abs_fin, blt_fin, abs_zero, decide_eq_true_eq, not_lt]; exact hT)]
  rw [hN, critDep_fin p hb, critR_zero hQ]
  have hc : ¬ (fin (p.DsWL - z) <? (fin 0 : Fl ℝ)) = true := by simp only [blt_fin, decide_eq_true_eq, not_lt]; linarith
  simp only [bind, Except.bind, pure, Except.pure]
  rw [if_neg hc]

/-- A section at or above sea level. -/
theorem depth_dry {p : SteadyPars} (hQ : p.Q = 0) {dx z b z1 : ℝ} (hb : 0 < b) (hz : p.DsWL ≤ z) :
    steadyDepth p (fin dx) (fin z) (fin b) (fin z1) (fin (p.DsWL - z1)) (fin p.DsWL) (fin 0) = .ok (fin 0) := by
  unfold steadyDepth
  rw [(errNoFlow hQ hb).1, (errNoFlow hQ hb).2 dx]
  have eC : (fin z - fin 0 * fin dx / fin 2 - fin p.DsWL : Fl ℝ) = fin (z - p.DsWL) := by
    simp only [mul_fin]
    rw [div_fin _ _ (by norm_num)]; simp
  have e0 : (fin (p.DsWL - z1) + fin z1 - fin z + fin 0 * fin dx : Fl ℝ) = fin (p.DsWL - z) := by
    simp only [mul_fin, add_fin, sub_fin]; congr 1; ring
  simp only [eC, e0]
  have hE : depErr (fin 0) (fin 0) (fin (z - p.DsWL)) (fin (p.DsWL - z)) = (nan : Fl ℝ) := by
    unfold depErr
    rcases hz.eq_or_lt with h | h
    · have e : p.DsWL - z = 0 := by linarith
      have e1 : npPow (fin (p.DsWL - z)) (-2) = pinf := by
        rw [e]; simp [npPow]
      rw [e1]
      have : (fin 0 * pinf : Fl ℝ) = nan := by
        show infOfSign (0 : ℝ) = nan
        simp [infOfSign]
      rw [this]
      simp
    · rw [npPow_neg (x := p.DsWL - z) (b := -10/3) (by linarith) (by norm_num) (by
        rintro ⟨n, hn⟩
        have : (-10 : ℝ) = 3 * n := by linarith
        have h3 : (-10 : ℤ) = 3 * n := by exact_mod_cast this
        omega)]
      simp
  have hN : ∀ fuel, steadyNewton (fin 0) (fin 0) (fin (z - p.DsWL)) p.Tol fuel (fin (p.DsWL - z)) nan = .ok (fin (p.DsWL - z)) := by
    intro fuel
    unfold steadyNewton
    simp
  rw [hE, hN, critDep_fin p hb, critR_zero hQ]
  simp only [bind, Except.bind, pure, Except.pure]
  rcases hz.eq_or_lt with h | h
  · have hc : ¬ (fin (p.DsWL - z) <? (fin 0 : Fl ℝ)) = true := by simp only [blt_fin, decide_eq_true_eq, not_lt]; linarith
    rw [if_neg hc, h, sub_self]
  · have hc : (fin (p.DsWL - z) <? (fin 0 : Fl ℝ)) = true := by simp only [blt_fin, decide_eq_true_eq]; linarith
    rw [if_pos hc]

theorem pt_wet {p : SteadyPars} (hQ : p.Q = 0) {z b : ℝ} (hb : 0 < b) (hz : z < p.DsWL) :
    mkPt p (fin z) (fin b) (fin (p.DsWL - z)) = { dep := fin (p.DsWL - z), vel := fin 0, en := fin p.DsWL, sf := fin 0 } := by
  obtain ⟨e1, e2, e3⟩ := mkPt_pos p z hb (by linarith : 0 < p.DsWL - z)
  rw [hQ] at e1 e2 e3
  have h0 : (mkPt p (fin z) (fin b) (fin (p.DsWL - z))).dep = fin (p.DsWL - z) := rfl
  revert e1 e2 e3 h0
  generalize mkPt p (fin z) (fin b) (fin (p.DsWL - z)) = q
  intro e1 e2 e3 h0
  cases q
  simp only at e1 e2 e3 h0
  subst e1 e2 e3 h0
  simp

theorem pt_dry {p : SteadyPars} (hQ : p.Q = 0) {z b : ℝ} (hb : 0 < b) : (mkPt p (fin z) (fin b) (fin 0)).vel = nan ∧ (mkPt p (fin z) (fin b) (fin 0)).sf = nan := by
  refine ⟨?_, mkPt_sf_nan p z hb _ (Or.inr ⟨hQ, rfl⟩)⟩
  show steadyVel p _ _ = _
  simp [steadyVel, hQ, div_fin_def, infOfSign]

/-- The profile below sea level. -/
theorem prof_wet {p : SteadyPars} (hQ : p.Q = 0) (hT : 0 ≤ p.Tol) : ∀ (dx z B : List ℝ), z ≠ [] → B.length = z.length → dx.length = z.length - 1 → (∀ b ∈ B, 0 < b) →
    (∀ y ∈ z, y < p.DsWL) → steadyProf p (dx.map fin) (z.map fin) (B.map fin) =
      .ok (z.map fun y => { dep := fin (p.DsWL - y), vel := fin 0, en := fin p.DsWL, sf := fin 0 })
  | _, [], _, h, _, _, _, _ => absurd rfl h
  | _, [z], [b], _, _, _, hb, hz => by
    have hb := hb b (by simp)
    have hz := hz z (by simp)
    have : npmax (fin p.DsWL - fin z) (critDep p (fin b)) = fin (p.DsWL - z) := by
      rw [critDep_fin p hb, critR_zero hQ, sub_fin, npmax_fin, max_eq_left (by linarith)]
    simp only [List.map_cons, List.map_nil, steadyProf, this, pt_wet hQ hb hz]
  | x :: dx, z :: z1 :: zs, b :: B, _, hl, hd, hb, hz => by
    have ih := prof_wet hQ hT dx (z1 :: zs) B (by simp) (by simpa using hl) (by simpa using hd) (fun y hy => hb y (List.mem_cons_of_mem _ hy)) (fun y hy => hz y (List.mem_cons_of_mem _ hy))
    have hb := hb b (by simp)
    have hz := hz z (by simp)
    simp only [List.map_cons] at ih ⊢
    simp only [steadyProf, ih, bind, Except.bind, depth_wet hQ hT hb hz, pt_wet hQ hb hz, pure, Except.pure]
  | [], z :: z1 :: zs, _, _, _, hd, _, _ => by simp at hd
  | _, z :: zs, [], _, hl, _, _, _ => by simp at hl
  | _, [z], b :: b1 :: B, _, hl, _, _, _ => by simp at hl

/-- C164, partial: without river flow, in a channel that is below sea level all along, the water stands at sea level and does not move, whatever widths, spacings and roughness.
Missing: channels that rise above sea level, for which it is false. -/
theorem C164_partial (p : SteadyPars) (hQ : p.Q = 0) (hT : 0 ≤ p.Tol) (dx z B : List ℝ) (c : IsChannel dx z B) (hz : ∀ y ∈ z, y < p.DsWL) :
    steady p dx z B = .ok (z.map fun y => fin (restDepth p.DsWL y), z.map fun _ => fin 0) := by
  rw [steady, solveSteady_eq p _ _ _ (by simpa using c.ne) (by simpa using c.hB) (by simpa using c.hdx), prof_wet hQ hT dx z B c.ne c.hB c.hdx c.pos hz]
  simp only [Except.map, List.map_map, Function.comp_def]
  congr 2
  refine List.map_congr_left fun y hy => ?_
  have := hz y hy
  rw [restDepth, max_eq_left (by linarith)]

/-- The hypotheses of C164: a lagoon and its outlet below a sea level of 1 m. -/
example : ∃ p : SteadyPars, p.Q = 0 ∧ 0 ≤ p.Tol ∧ IsChannel [20, 20] [0.5, -1, -2] [100, 300, 40] ∧ ∀ y ∈ ([0.5, -1, -2] : List ℝ), y < p.DsWL :=
  ⟨{ n := 0.04, Q := 0, DsWL := 1, Beta := 1.05, Tol := 0.001, MaxIt := 30 }, rfl, by norm_num, ⟨by simp, rfl, rfl, by intro b hb; simp at hb; rcases hb with rfl | rfl | rfl <;> norm_num⟩, by
    intro y hy; simp at hy; rcases hy with rfl | rfl | rfl <;> norm_num⟩

/-- The profile when `z` is the first section from the sea that is not below sea level. -/
theorem prof_dry {p : SteadyPars} (hQ : p.Q = 0) (hT : 0 ≤ p.Tol) (dx B zd : List ℝ) (z : ℝ) (hl : B.length = zd.length + 1) (hd : dx.length = zd.length) (hb : ∀ b ∈ B, 0 < b)
    (hz : p.DsWL ≤ z) (hzd : ∀ y ∈ zd, y < p.DsWL) : ∃ q, steadyProf p (dx.map fin) ((z :: zd).map fin) (B.map fin) =
      .ok (q :: zd.map fun y => { dep := fin (p.DsWL - y), vel := fin 0, en := fin p.DsWL, sf := fin 0 }) ∧ q.dep = fin 0 ∧ q.vel = nan ∧ q.sf = nan := by
  match dx, B, zd, hl, hd with
  | _, [b], [], _, _ =>
    have hb := hb b (by simp)
    have : npmax (fin p.DsWL - fin z) (critDep p (fin b)) = fin 0 := by
      rw [critDep_fin p hb, critR_zero hQ, sub_fin, npmax_fin, max_eq_right (by linarith)]
    refine ⟨_, ?_, ?_, (pt_dry hQ (z := z) hb).1, (pt_dry hQ (z := z) hb).2⟩
    · simp only [List.map_cons, List.map_nil, steadyProf, this]
    · rfl
  | x :: dx, b :: B, z1 :: zd, hl, hd =>
    have ih := prof_wet hQ hT dx (z1 :: zd) B (by simp) (by simpa using hl) (by simpa using hd) (fun y hy => hb y (List.mem_cons_of_mem _ hy)) hzd
    have hb := hb b (by simp)
    refine ⟨_, ?_, ?_, (pt_dry hQ (z := z) hb).1, (pt_dry hQ (z := z) hb).2⟩
    · simp only [List.map_cons] at ih ⊢
      simp only [steadyProf, ih, bind, Except.bind, depth_dry hQ hb hz, pure, Except.pure]
    · rfl
  | [], _, _ :: _, _, hd => simp at hd
  | _, _ :: _ :: _, [], hl, _ => simp at hl

/-- Above a section without a friction slope there are no numbers. -/
theorem prof_nan {p : SteadyPars} (dx z B : List (Fl ℝ)) {q : SteadyPt} {rest : List SteadyPt} (hp : steadyProf p dx z B = .ok (q :: rest)) (hq : q.sf = nan) : 
    ∀ (dxu zu Bu : List ℝ), dxu.length = zu.length → Bu.length = zu.length → (∀ b ∈ Bu, 0 < b) →
      ∃ pts, steadyProf p (dxu.map fin ++ dx) (zu.map fin ++ z) (Bu.map fin ++ B) = .ok (pts ++ q :: rest) ∧ pts.map (·.dep) = zu.map (fun _ => nan) ∧
        pts.map (·.vel) = zu.map (fun _ => nan) ∧ ∀ y ∈ pts, y.sf = nan
  | [], [], [], _, _, _ => ⟨[], hp, rfl, rfl, by simp⟩
  | x :: dxu, y :: zu, b :: Bu, h1, h2, h3 => by
    obtain ⟨pts, e, e1, e2, e3⟩ := prof_nan dx z B hp hq dxu zu Bu (by simpa using h1) (by simpa using h2) (fun b hb => h3 b (List.mem_cons_of_mem _ hb))
    have hb := h3 b (by simp)
    obtain ⟨d, ds, hds, hsf⟩ : ∃ d ds, pts ++ q :: rest = d :: ds ∧ d.sf = nan := by
      cases pts with
      | nil => exact ⟨q, rest, rfl, hq⟩
      | cons a t => exact ⟨a, t ++ q :: rest, rfl, e3 a (by simp)⟩
    obtain ⟨z1, zs, hzs⟩ : ∃ z1 zs, zu.map fin ++ z = z1 :: zs := by
      cases hz : zu.map fin ++ z with
      | nil =>
        rw [hz] at e
        cases hB : Bu.map fin ++ B <;> rw [hB] at e <;> simp [steadyProf] at e
      | cons a t => exact ⟨a, t, rfl⟩
    refine ⟨mkPt p (fin y) (fin b) nan :: pts, ?_, ?_, ?_, ?_⟩
    · simp only [List.map_cons, List.cons_append]
      rw [hzs, steadyProf, ← hzs, e, hds]
      simp only [bind, Except.bind, hsf, steadyDepth_nan, pure, Except.pure]
    · simp only [List.map_cons, e1]; rfl
    · simp only [List.map_cons, e2]
      have : (mkPt p (fin y) (fin b) nan).vel = nan := by
        show steadyVel p _ _ = _
        simp [steadyVel]
      rw [this]
    · intro w hw
      rcases List.mem_cons.mp hw with rfl | hw
      · exact mkPt_sf_nan p y hb _ (Or.inl rfl)
      · exact e3 w hw

/-- C164 is false of the code for every channel that rises to sea level somewhere: there the velocity is nan, and above there is no number at all, neither depth nor velocity. -/
theorem C164_refuted (p : SteadyPars) (hQ : p.Q = 0) (hT : 0 ≤ p.Tol) (dx B zu zd : List ℝ) (z : ℝ) (c : IsChannel dx (zu ++ z :: zd) B) (hz : p.DsWL ≤ z)
    (hzd : ∀ y ∈ zd, y < p.DsWL) : steady p dx (zu ++ z :: zd) B =
      .ok (zu.map (fun _ => nan) ++ fin 0 :: zd.map (fun y => fin (restDepth p.DsWL y)), zu.map (fun _ => nan) ++ nan :: zd.map (fun _ => fin 0)) := by
  have hlB := c.hB
  have hld := c.hdx
  simp only [List.length_append, List.length_cons] at hlB hld
  have hB : B = B.take zu.length ++ B.drop zu.length := (List.take_append_drop _ _).symm
  have hdx : dx = dx.take zu.length ++ dx.drop zu.length := (List.take_append_drop _ _).symm
  obtain ⟨q, e, q1, q2, q3⟩ := prof_dry hQ hT (dx.drop zu.length) (B.drop zu.length) zd z (by simp; omega) (by simp; omega) (fun b hb => c.pos b (List.mem_of_mem_drop hb)) hz hzd
  obtain ⟨pts, e', e1, e2, -⟩ := prof_nan _ _ _ e q3 (dx.take zu.length) zu (B.take zu.length) (by simp; omega) (by simp; omega) (fun b hb => c.pos b (List.mem_of_mem_take hb))
  rw [← List.map_append, ← List.map_append, ← List.map_append, ← hdx, ← hB] at e'
  rw [steady, solveSteady_eq p _ _ _ (by simp) (by simpa using c.hB) (by simpa using c.hdx), e']
  simp only [Except.map, List.map_append, List.map_cons, e1, e2, q1, q2, List.map_map, Function.comp_def]
  congr 4
  refine List.map_congr_left fun y hy => ?_
  have := hzd y hy
  rw [restDepth, max_eq_left (by linarith)]

/-- The hypotheses of the refutation: a river that comes down from 2 m above the sea. -/
example : ∃ p : SteadyPars, p.Q = 0 ∧ 0 ≤ p.Tol ∧ IsChannel [20, 20] ([2] ++ 1 :: [-1]) [100, 100, 100] ∧ p.DsWL ≤ 1 ∧ ∀ y ∈ ([-1] : List ℝ), y < p.DsWL :=
  ⟨{ n := 0.04, Q := 0, DsWL := 0, Beta := 1.05, Tol := 0.001, MaxIt := 30 }, rfl, by norm_num, ⟨by simp, rfl, rfl, by intro b hb; simp at hb; subst hb; norm_num⟩, by norm_num, by simp⟩

end Verif.Props
