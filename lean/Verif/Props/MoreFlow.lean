import Verif.Props.Backwater

set_option autoImplicit false
set_option linter.unusedSectionVars false

/-! # C172: more flow in the river -/

namespace Verif.Props
open Verif Verif.Model Verif.Spec Fl Real

theorem head_flow {g beta Q Q' : ℝ} (z b h : ℝ) (hg : 0 < g) (hbeta : 0 ≤ beta) (hQ : Q ^ 2 ≤ Q' ^ 2) : headAt g beta Q z b h ≤ headAt g beta Q' z b h := by
  unfold headAt energyLevel
  rw [div_pow, div_pow]
  have h1 := div_le_div_of_nonneg_right hQ (sq_nonneg (b * h))
  have h2 := div_le_div_of_nonneg_right (mul_le_mul_of_nonneg_left h1 hbeta) (show 0 ≤ 2 * g by linarith)
  linarith

theorem slope_flow {Q Q' : ℝ} (n b : ℝ) {h : ℝ} (hh : 0 < h) (hQ : Q ^ 2 ≤ Q' ^ 2) : slopeAt n Q b h ≤ slopeAt n Q' b h := by
  rw [slopeAt_eq n Q b hh, slopeAt_eq n Q' b hh, div_pow, div_pow]
  have h1 := div_le_div_of_nonneg_right hQ (sq_nonneg b)
  exact div_le_div_of_nonneg_right (mul_le_mul_of_nonneg_left h1 (sq_nonneg n)) (Real.rpow_pos_of_pos hh _).le

/-- One reach: what the energy levels of two profiles, the second with more flow, say downstream about those upstream. -/
theorem reach_flow {g beta n Q Q' dx x0 z0 b0 h0 k0 z1 b1 h1 k1 t s e : ℝ} (hg : 0 < g) (hbeta : 0 ≤ beta) (hdx : 0 ≤ dx) (hx0 : 0 ≤ x0) (hQ : Q ^ 2 ≤ Q' ^ 2)
    (p0 : 0 < h0) (q0 : 0 < k0) (p1 : 0 < h1) (q1 : 0 < k1) (th0 : Tranquil g beta n Q x0 b0 h0) (th1 : Tranquil g beta n Q dx b1 h1)
    (bh : |headAt g beta Q z0 b0 h0 - headAt g beta Q z1 b1 h1 - dx / 2 * (slopeAt n Q b0 h0 + slopeAt n Q b1 h1)| ≤ t)
    (bk : |headAt g beta Q' z0 b0 k0 - headAt g beta Q' z1 b1 k1 - dx / 2 * (slopeAt n Q' b0 k0 + slopeAt n Q' b1 k1)| ≤ s) (he : 0 ≤ e)
    (h : headAt g beta Q z1 b1 h1 - e ≤ headAt g beta Q' z1 b1 k1) : headAt g beta Q z0 b0 h0 - (e + (t + s)) ≤ headAt g beta Q' z0 b0 k0 := by
  rw [abs_le] at bh bk
  have f0 := head_flow z0 b0 k0 hg hbeta hQ
  have f1 := head_flow z1 b1 k1 hg hbeta hQ
  have s0 := slope_flow n b0 q0 hQ
  have s1 := slope_flow n b1 q1 hQ
  have d2 : 0 ≤ dx / 2 := by linarith
  by_cases hc : h0 ≤ k0
  · have := head_mono (z := z0) hg hbeta hx0 p0 hc th0
    linarith
  · have a0 := (slopeAt_anti n Q b0 q0 (not_le.mp hc).le).trans s0
    have down : headAt g beta Q z1 b1 h1 + dx / 2 * slopeAt n Q b1 h1 - e ≤ headAt g beta Q' z1 b1 k1 + dx / 2 * slopeAt n Q' b1 k1 := by
      by_cases h1c : h1 ≤ k1
      · have := head_slope_mono (z := z1) hg hbeta hdx p1 h1c th1
        have := mul_le_mul_of_nonneg_left s1 d2
        linarith
      · have a1 := (slopeAt_anti n Q b1 q1 (not_le.mp h1c).le).trans s1
        have := mul_le_mul_of_nonneg_left a1 d2
        linarith
    have := mul_le_mul_of_nonneg_left a0 d2
    linarith [bh.1, bh.2, bk.1, bk.2]

/-- A whole channel: of two profiles, the second with more flow and no lower water at the downstream end, the second has the higher energy level everywhere, to within both accuracies for each
reach below. Only the first has to be tranquil. -/
theorem profile_flow {g beta n Q Q' t s : ℝ} (hg : 0 < g) (hbeta : 0 ≤ beta) (ht : 0 ≤ t) (hs : 0 ≤ s) (hQ : Q ^ 2 ≤ Q' ^ 2) : ∀ (dx z B h k : List ℝ), B.length = z.length →
    h.length = z.length → k.length = z.length → dx.length + 1 = z.length → (∀ x ∈ dx, 0 ≤ x) → (∀ y ∈ k, 0 < y) → Balanced g beta n Q t dx z B h → Balanced g beta n Q' s dx z B k →
    ∀ x0, 0 ≤ x0 → (∀ (i : ℕ) x b y, (x0 :: dx)[i]? = some x → B[i]? = some b → h[i]? = some y → 0 < y ∧ Tranquil g beta n Q x b y) →
    (∀ y w, h.getLast? = some y → k.getLast? = some w → y ≤ w) →
    ∀ (i : ℕ) zi b y w, z[i]? = some zi → B[i]? = some b → h[i]? = some y → k[i]? = some w →
      headAt g beta Q zi b y - (dx.length - i) * (t + s) ≤ headAt g beta Q' zi b w := by
  intro dx
  induction dx with
  | nil =>
    intro z B h k lB lh lk ld _ hk _ _ x0 hx0 hT hlast i zi b y w hz hb hy hw
    have hzl : z.length = 1 := by simpa using ld.symm
    have hi : i = 0 := by have := (List.getElem?_eq_some_iff.mp hz).1; omega
    subst hi
    obtain ⟨hy0, hyT⟩ := hT 0 x0 b y rfl hb hy
    have : y ≤ w := by
      refine hlast y w ?_ ?_
      · rw [List.getLast?_eq_getElem?, lh, hzl]; exact hy
      · rw [List.getLast?_eq_getElem?, lk, hzl]; exact hw
    have := (head_mono (z := zi) hg hbeta hx0 hy0 this hyT).trans (head_flow zi b w hg hbeta hQ)
    simpa using this
  | cons dx0 dx ih =>
    intro z B h k lB lh lk ld hdx hk bh bk x0 hx0 hT hlast i zi b y w hz hb hy hw
    obtain ⟨z0, z1, zs, rfl⟩ : ∃ z0 z1 zs, z = z0 :: z1 :: zs := by
      match z, ld with
      | [], ld => simp at ld
      | [_], ld => simp at ld
      | z0 :: z1 :: zs, _ => exact ⟨z0, z1, zs, rfl⟩
    obtain ⟨b0, b1, bs, rfl⟩ : ∃ z0 z1 zs, B = z0 :: z1 :: zs := by
      match B, lB with
      | [], ld => simp at ld
      | [_], ld => simp at ld
      | z0 :: z1 :: zs, _ => exact ⟨z0, z1, zs, rfl⟩
    obtain ⟨h0, h1, hs', rfl⟩ : ∃ z0 z1 zs, h = z0 :: z1 :: zs := by
      match h, lh with
      | [], ld => simp at ld
      | [_], ld => simp at ld
      | z0 :: z1 :: zs, _ => exact ⟨z0, z1, zs, rfl⟩
    obtain ⟨k0, k1, ks, rfl⟩ : ∃ z0 z1 zs, k = z0 :: z1 :: zs := by
      match k, lk with
      | [], ld => simp at ld
      | [_], ld => simp at ld
      | z0 :: z1 :: zs, _ => exact ⟨z0, z1, zs, rfl⟩
    have hd0 : 0 ≤ dx0 := hdx dx0 List.mem_cons_self
    have rest := ih (z1 :: zs) (b1 :: bs) (h1 :: hs') (k1 :: ks) (by simpa using lB) (by simpa using lh) (by simpa using lk) (by simpa using ld)
      (fun x hx => hdx x (List.mem_cons_of_mem _ hx)) (fun y hy => hk y (List.mem_cons_of_mem _ hy))
      (fun i a1 a2 a3 a4 a5 a6 a7 e1 e2 e3 e4 e5 e6 e7 => bh (i+1) a1 a2 a3 a4 a5 a6 a7 e1 e2 e3 e4 e5 e6 e7)
      (fun i a1 a2 a3 a4 a5 a6 a7 e1 e2 e3 e4 e5 e6 e7 => bk (i+1) a1 a2 a3 a4 a5 a6 a7 e1 e2 e3 e4 e5 e6 e7) dx0 hd0
      (fun i x b y e1 e2 e3 => hT (i+1) x b y e1 e2 e3)
      (fun y w e1 e2 => hlast y w (by rw [List.getLast?_cons_cons]; exact e1) (by rw [List.getLast?_cons_cons]; exact e2))
    cases i with
    | succ i =>
      have := rest i zi b y w hz hb hy hw
      push_cast [List.length_cons]
      have e : ((dx.length : ℝ) + 1 - (i + 1)) = dx.length - i := by ring
      rw [e]
      exact this
    | zero =>
      simp only [List.getElem?_cons_zero, Option.some.injEq] at hz hb hy hw
      subst hz hb hy hw
      have r0 := rest 0 z1 b1 h1 k1 rfl rfl rfl rfl
      obtain ⟨p0, T0⟩ := hT 0 x0 b0 h0 rfl rfl rfl
      obtain ⟨p1, T1⟩ := hT 1 dx0 b1 h1 rfl rfl rfl
      have := reach_flow (e := (dx.length - (0 : ℕ)) * (t + s)) hg hbeta hd0 hx0 hQ p0 (hk k0 (by simp)) p1 (hk k1 (by simp)) T0 T1
        (bh 0 dx0 z0 b0 h0 z1 b1 h1 rfl rfl rfl rfl rfl rfl rfl) (bk 0 dx0 z0 b0 k0 z1 b1 k1 rfl rfl rfl rfl rfl rfl rfl)
        (by simp only [Nat.cast_zero, sub_zero]; positivity) r0
      push_cast [List.length_cons] at this ⊢
      linarith

/-- **C172** (partial: the flow is tranquil at all sections with the smaller flow, and with the larger one nowhere critical above the outlet).  With a larger flow, and a sea that is not lower, the energy level
is nowhere lower, to within twice the tolerance of the solver for each reach between the section and the sea.
Missing: rapid flow (nearly critical, or with much friction between two sections), for which it is false. -/
theorem C172_partial (p p' : SteadyPars) (hp : p' = { p with DsWL := p'.DsWL, Q := p'.Q }) (hS : p.DsWL ≤ p'.DsWL) (hQ : 0 < p.Q) (hQ' : p.Q ≤ p'.Q) (hbeta : 1 ≤ p.Beta) (hTol : 0 ≤ p.Tol)
    (dx z B d d' : List ℝ) (vs vs' : List (Fl ℝ)) (c : IsChannel dx z B) (hdx : ∀ x ∈ dx, 0 ≤ x)
    (h : steady p dx z B = .ok (d.map fin, vs)) (h' : steady p' dx z B = .ok (d'.map fin, vs'))
    (hT : TranquilAll 9.81 p.Beta p.n p.Q dx B d) (hT' : ∀ (i : ℕ) b y, B[i]? = some b → d'[i]? = some y → i + 1 < z.length → ¬ Critical 9.81 p'.Q b y)
    (i : ℕ) (zi b y y' : ℝ) (hz : z[i]? = some zi) (hb : B[i]? = some b) (hy : d[i]? = some y) (hy' : d'[i]? = some y') :
    headAt 9.81 p.Beta p.Q zi b y - (z.length - 1 - i) * (2 * p.Tol) ≤ headAt 9.81 p.Beta p'.Q zi b y' := by
  have eb : p'.Beta = p.Beta := by rw [hp]
  have en : p'.n = p.n := by rw [hp]
  have et : p'.Tol = p.Tol := by rw [hp]
  have hq0 : 0 < p'.Q := lt_of_lt_of_le hQ hQ'
  have hsq : p.Q ^ 2 ≤ p'.Q ^ 2 := pow_le_pow_left₀ hQ.le hQ' 2
  have hl := steady_lengths c h
  have hl' := steady_lengths c h'
  have hlz : dx.length + 1 = z.length := by
    have := c.hdx
    have := List.length_pos_iff.mpr c.ne
    omega
  have hcr : ∀ (i : ℕ) b y, B[i]? = some b → d[i]? = some y → i + 1 < z.length → ¬ Critical 9.81 p.Q b y := by
    intro i b y hb hy hi
    have hx : i < (0 :: dx).length := by simp only [List.length_cons]; omega
    obtain ⟨y0, hyT⟩ := hT i _ b y (List.getElem?_eq_getElem hx) hb hy
    have hx0 : 0 ≤ (0 :: dx)[i] := by
      rcases List.mem_cons.mp (List.getElem_mem hx) with hm | hm
      · rw [hm]
      · exact hdx _ hm
    exact tranquil_not_critical (by norm_num) hbeta hx0 (c.pos b (List.mem_of_getElem? hb)) y0 hyT
  have b1 := steady_balanced hQ.ne' c h hcr
  have b2 := steady_balanced (p := p') hq0.ne' c h' hT'
  rw [eb, en, et] at b2
  have hz0 : z ≠ [] := c.ne
  have hBne : B ≠ [] := by
    intro hB
    have := c.hB
    rw [hB] at this
    exact hz0 (List.length_eq_zero_iff.mp this.symm)
  obtain ⟨hc, hc0, hcc, hlst⟩ := (C17_partial p hQ.ne' dx z B c _ _ h).1 _ _ (List.getLast?_eq_some_getLast hz0) (List.getLast?_eq_some_getLast hBne)
  obtain ⟨hc', hc0', hcc', hlst'⟩ := (C17_partial p' hq0.ne' dx z B c _ _ h').1 _ _ (List.getLast?_eq_some_getLast hz0) (List.getLast?_eq_some_getLast hBne)
  have ec : hc ≤ hc' := by
    unfold Critical at hcc hcc'
    have hb0 := c.pos _ (List.getLast_mem hBne)
    have e3 : hc ^ 3 ≤ hc' ^ 3 := by
      have hpos : 0 < (9.81 : ℝ) * (B.getLast hBne) ^ 2 := by positivity
      refine le_of_mul_le_mul_left ?_ hpos
      rw [← hcc, ← hcc']
      exact hsq
    exact (pow_le_pow_iff_left₀ hc0.le hc0'.le (by norm_num)).mp e3
  have := profile_flow (g := 9.81) (by norm_num) (by linarith) hTol hTol hsq dx z B d d' c.hB hl hl' hlz hdx
    (steady_positive (p := p') hq0.ne' c h') b1 b2 0 le_rfl hT ?_ i zi b y y' hz hb hy hy'
  · have e : ((dx.length : ℝ) - i) * (p.Tol + p.Tol) = (z.length - 1 - i) * (2 * p.Tol) := by
      rw [← hlz]
      push_cast
      ring
    rw [← e]
    exact this
  · intro y w hy hw
    rw [List.getLast?_map, hy] at hlst
    rw [List.getLast?_map, hw] at hlst'
    simp only [Option.map_some, Option.some.injEq, fin.injEq] at hlst hlst'
    rw [hlst, hlst']
    exact max_le_max (by linarith) ec

/-- A lagoon 1 km wide and at least 2 m deep whose outlet, 10 m wide and 42 m away, falls freely into the sea at the critical depth `y`. The other values are the defaults, but Manning's n 0.05. -/
noncomputable def plungePars (y : ℝ) : SteadyPars := { n := 1 / 20, Q := √(981 * y ^ 3), DsWL := -1, Beta := 1.05, Tol := 1 / 1000, MaxIt := 30 }

theorem plunge_sq {y : ℝ} (hy : 0 < y) : (plungePars y).Q * (plungePars y).Q = 981 * y ^ 3 := by
  show √(981 * y ^ 3) * √(981 * y ^ 3) = _
  exact mul_self_sqrt (by positivity)

theorem plunge_crit {y b : ℝ} (hy : 0 < y) (hb : 0 < b) (h10 : 10 ≤ b) : critR (plungePars y) b ≤ y := by
  unfold critR
  rw [show (plungePars y).Q * (plungePars y).Q = 981 * y ^ 3 from plunge_sq hy]
  have h1 : 981 * y ^ 3 / (b * b * gravSteady) ≤ y ^ 3 := by
    unfold gravSteady
    rw [div_le_iff₀ (by positivity)]
    have : 981 ≤ b * b * 9.81 := by nlinarith
    have hy3 : 0 < y ^ 3 := by positivity
    nlinarith
  refine (Real.rpow_le_rpow (by unfold gravSteady; positivity) h1 (by norm_num)).trans ?_
  rw [← Real.rpow_natCast, ← Real.rpow_mul hy.le]
  norm_num

theorem plunge_crit10 {y : ℝ} (hy : 0 < y) : critR (plungePars y) 10 = y := by
  unfold critR
  rw [show (plungePars y).Q * (plungePars y).Q = 981 * y ^ 3 from plunge_sq hy]
  have h1 : 981 * y ^ 3 / (10 * 10 * gravSteady) = y ^ 3 := by
    unfold gravSteady
    rw [show (10 * 10 * 9.81 : ℝ) = 981 by norm_num]
    field_simp
  rw [h1, ← Real.rpow_natCast, ← Real.rpow_mul hy.le]
  norm_num

theorem plunge_run {r : ℝ} (hr : 1/2 ≤ r) (hr1 : r ≤ 6/10) (hd : |0.024525 / r * 21 - 0.525 * r ^ 3| ≤ 1) :
    ∃ x vs, 1 ≤ x ∧ steady (plungePars (r ^ 3)) [42] [-2, 0] [1000, 10] = .ok ([x, r ^ 3].map fin, vs) ∧ |x - (2 + 1.525 * r ^ 3 + 0.024525 / r * 21)| ≤ 1 / 1000 + 1 / 10000 := by
  have r0 : 0 < r := by linarith
  have y0 : 0 < r ^ 3 := by positivity
  have y1 : r ^ 3 ≤ 216 / 1000 := by
    have := pow_le_pow_left₀ r0.le hr1 3
    norm_num at this ⊢
    linarith
  have hs : slopeAt (plungePars (r ^ 3)).n (plungePars (r ^ 3)).Q 10 (r ^ 3) = 0.024525 / r := by
    rw [slopeAt_eq _ _ _ y0, ← Real.rpow_natCast r 3, ← Real.rpow_mul r0.le, show (((3 : ℕ) : ℝ) * (10/3)) = ((10 : ℕ) : ℝ) by norm_num, Real.rpow_natCast, div_pow,
      sq (plungePars _).Q, Real.rpow_natCast, plunge_sq y0]
    show (1/20 : ℝ) ^ 2 * _ / _ = _
    field_simp
    norm_num
  have hE : headAt 9.81 (plungePars (r ^ 3)).Beta (plungePars (r ^ 3)).Q 0 10 (r ^ 3) = 1.525 * r ^ 3 := by
    unfold headAt energyLevel
    rw [div_pow, sq (plungePars _).Q, plunge_sq y0]
    show 0 + r ^ 3 + 1.05 * _ / _ = _
    field_simp
    norm_num
    ring
  have q981 : 981 * (r ^ 3) ^ 3 ≤ 10 := by
    have := pow_le_pow_left₀ y0.le y1 3
    norm_num at this ⊢
    linarith
  have hA : Ar (plungePars (r ^ 3)) 1000 = 1.05 * (981 * (r ^ 3) ^ 3 / (2 * 9.81 * (1000 * 1000))) := by
    rw [← plunge_sq y0]; rfl
  have hB : Br (plungePars (r ^ 3)) 42 1000 = 42 * (981 * (r ^ 3) ^ 3) * (1/20) ^ 2 / (2 * (1000 * 1000)) := by
    rw [← plunge_sq y0]; rfl
  have i1 : 0.024525 / r ≤ 0.04905 := by
    rw [div_le_iff₀ r0]; linarith
  have i2 : 0.040875 ≤ 0.024525 / r := by
    rw [le_div_iff₀ r0]; linarith
  obtain ⟨x, vs, x1, hrun, hx⟩ := wide_run (plungePars (r ^ 3)) (dx := 42) (z0 := -2) (z1 := 0) (b0 := 1000) (b1 := 10) (D := r ^ 3) (ε := 1 / 10000) (by norm_num) (by norm_num) y0
    (by
      rw [plunge_crit10 y0, max_eq_right]
      show (-1 : ℝ) - 0 ≤ _
      linarith)
    (by rw [hA]; positivity)
    (by
      rw [hA]
      have := div_le_div_of_nonneg_right q981 (show (0:ℝ) ≤ 2 * 9.81 * (1000 * 1000) by norm_num)
      norm_num at this ⊢
      linarith)
    (by rw [hB]; positivity)
    (by
      rw [hB]
      rw [div_le_iff₀ (by norm_num)]
      norm_num at q981 ⊢
      linarith)
    (by norm_num) (by simp only [plungePars]; norm_num) (by simp only [plungePars]; norm_num)
    ((plunge_crit y0 (by norm_num) (by norm_num)).trans (by linarith)) (by rw [hs]; linarith) (by rw [hs, hE]; linarith)
    (by
      rw [hs, hE]
      convert hd using 2
      ring)
  refine ⟨x, vs, x1, hrun, ?_⟩
  rw [hs, hE] at hx
  have eT : (plungePars (r ^ 3)).Tol = 1 / 1000 := rfl
  rw [eT] at hx
  convert hx using 2
  ring

/-- C172 is false of the code: with more than twice the flow over a free fall the lagoon is 3 cm lower. The friction between two sections is taken from the values at both (riv.py 52), and that at the
critical depth of the outlet falls faster than the depth grows. -/
theorem C172_refuted : ∃ (p : SteadyPars) (Q' : ℝ) (dx z B : List ℝ) (y y' D D' : ℝ) (vs vs' : List (Fl ℝ)), IsChannel dx z B ∧ (∀ x ∈ dx, 0 ≤ x) ∧ 0 < p.Q ∧ p.Tol = 1 / 1000 ∧
    2 * p.Q < Q' ∧ steady p dx z B = .ok ([y, D].map fin, vs) ∧ steady { p with Q := Q' } dx z B = .ok ([y', D'].map fin, vs') ∧ y' < y - 3 / 100 := by
  obtain ⟨x, vs, -, hr, hx⟩ := plunge_run (r := 1/2) le_rfl (by norm_num) (by rw [abs_le]; constructor <;> norm_num)
  obtain ⟨x', vs', -, hr', hx'⟩ := plunge_run (r := 6/10) (by norm_num) le_rfl (by rw [abs_le]; constructor <;> norm_num)
  refine ⟨plungePars ((1/2) ^ 3), (plungePars ((6/10) ^ 3)).Q, [42], [-2, 0], [1000, 10], x, x', (1/2) ^ 3, (6/10) ^ 3, vs, vs', ⟨by simp, rfl, rfl, by simp⟩, by simp,
    sqrt_pos.mpr (by norm_num), rfl, ?_, hr, hr', ?_⟩
  · show 2 * √(981 * ((1/2) ^ 3) ^ 3) < √(981 * ((6/10) ^ 3) ^ 3)
    rw [lt_sqrt (by positivity), mul_pow, sq_sqrt (by norm_num)]
    norm_num
  · rw [abs_le] at hx hx'
    norm_num at hx hx'
    linarith [hx.1, hx'.2]

/-- The hypotheses of C172 are met by a lagoon 1 km wide behind an outlet 10 m wide and 8 m deep, with 31 and 50 m³/s. -/
example : ∃ x x' vs vs', IsChannel [20] [0, 0] [1000, 10] ∧ steady (mouthPars 8) [20] [0, 0] [1000, 10] = .ok ([x, 8].map fin, vs) ∧
    steady { mouthPars 8 with Q := 50 } [20] [0, 0] [1000, 10] = .ok ([x', 8].map fin, vs') ∧
    TranquilAll 9.81 (mouthPars 8).Beta (mouthPars 8).n (mouthPars 8).Q [20] [1000, 10] [x, 8] ∧
    (∀ (i : ℕ) b y, ([1000, 10] : List ℝ)[i]? = some b → [x', 8][i]? = some y → i + 1 < 2 → ¬ Critical 9.81 50 b y) := by
  have r8 : (8 : ℝ) ^ (10/3 : ℝ) = 2 ^ 10 := by
    rw [show (8 : ℝ) = 2 ^ (3 : ℝ) by norm_num, ← Real.rpow_mul (by norm_num), show (3 * (10/3) : ℝ) = (10 : ℕ) by norm_num, Real.rpow_natCast]
  have e8 : slopeAt (1/20) 31 10 8 = (1/20) ^ 2 * (31 / 10) ^ 2 / 2 ^ 10 := by
    rw [slopeAt_eq _ _ _ (by norm_num), r8]
  have e8' : slopeAt (1/20) 50 10 8 = (1/20) ^ 2 * (50 / 10) ^ 2 / 2 ^ 10 := by
    rw [slopeAt_eq _ _ _ (by norm_num), r8]
  obtain ⟨x, vs, x1, hr, -⟩ := mouth_run (S := 8) (by norm_num) rfl e8 (by positivity) (by unfold headAt energyLevel; norm_num)
    (by unfold headAt energyLevel; rw [abs_le]; constructor <;> norm_num)
  have hp : { mouthPars 8 with Q := 50 } = ({ n := 1 / 20, Q := 50, DsWL := 8, Beta := 1.05, Tol := 1 / 1000, MaxIt := 30 } : SteadyPars) := rfl
  generalize hP : ({ n := 1 / 20, Q := 50, DsWL := 8, Beta := 1.05, Tol := 1 / 1000, MaxIt := 30 } : SteadyPars) = P at hp
  have es : slopeAt P.n P.Q 10 8 = (1/20) ^ 2 * (50 / 10) ^ 2 / 2 ^ 10 := by rw [← hP]; exact e8'
  have eE : headAt 9.81 P.Beta P.Q 0 10 8 = headAt 9.81 1.05 50 0 10 8 := by rw [← hP]
  have hA : Ar P 1000 = 1.05 * (50 * 50 / (2 * 9.81 * (1000 * 1000))) := by rw [← hP]; rfl
  have hB : Br P 20 1000 = 20 * (50 * 50) * (1/20) ^ 2 / (2 * (1000 * 1000)) := by rw [← hP]; rfl
  obtain ⟨x', vs', x1', hr', -⟩ := wide_run P (dx := 20) (z0 := 0) (z1 := 0) (b0 := 1000) (b1 := 10) (D := 8) (ε := 3 / 20000) (by norm_num) (by norm_num) (by norm_num)
    (by
      rw [max_eq_left]
      · rw [← hP]; norm_num
      · unfold critR
        rw [show P.DsWL - 0 = ((8 : ℝ) ^ (3 : ℕ)) ^ ((1 : ℝ) / 3) by
          rw [← Real.rpow_natCast, ← Real.rpow_mul (by norm_num), ← hP]; norm_num]
        rw [← hP]
        refine Real.rpow_le_rpow ?_ ?_ (by norm_num) <;> simp only [gravSteady] <;> norm_num)
    (by rw [hA]; norm_num) (by rw [hA]; norm_num) (by rw [hB]; norm_num) (by rw [hB]; norm_num) (by norm_num) (by rw [← hP]; norm_num)
    (by rw [← hP]; norm_num)
    (by
      unfold critR
      rw [← hP]
      refine Real.rpow_le_one ?_ ?_ (by norm_num) <;> simp only [gravSteady] <;> norm_num)
    (by rw [es]; norm_num) (by rw [es, eE]; unfold headAt energyLevel; norm_num)
    (by
      rw [es, eE]
      unfold headAt energyLevel
      rw [abs_le]
      constructor <;> norm_num)
  rw [hp]
  refine ⟨x, x', vs, vs', ⟨by simp, rfl, rfl, by simp⟩, hr, hr', mouth_tranquil x1, ?_⟩
  intro i b y hb hy hi hc
  have : i = 0 := by omega
  subst this
  simp only [List.getElem?_cons_zero, Option.some.injEq] at hb hy
  subst hb hy
  unfold Critical at hc
  nlinarith [one_le_pow₀ x1' (n := 3)]

end Verif.Props
