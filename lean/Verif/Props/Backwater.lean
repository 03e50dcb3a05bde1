import Verif.Props.Steady
import Verif.Spec.Backwater
import Mathlib.Analysis.Convex.SpecificFunctions.Basic

set_option autoImplicit false

set_option linter.unusedSectionVars false

/-! # Properties C160 and C161: the water level behind the sea, and how exact the steady solution is -/

namespace Verif.Props
open Verif Verif.Model Verif.Spec Fl Real

theorem bern {x q : ℝ} (hx : 0 < x) (hx1 : x ≤ 1) (hq : 1 ≤ q) : 1 - q * (1 / x - 1) ≤ x ^ q := by
  have h := one_add_mul_self_le_rpow_one_add (s := x - 1) (by linarith) hq
  rw [add_sub_cancel] at h
  have h2 : 1 - x ≤ 1 / x - 1 := by
    rw [div_sub_one hx.ne', le_div_iff₀ hx]
    nlinarith
  nlinarith

theorem rpow_split {h : ℝ} (hh : 0 < h) : h ^ 2 * h ^ (4/3 : ℝ) = h ^ (10/3 : ℝ) := by
  rw [show (10/3 : ℝ) = 2 + 4/3 by norm_num, Real.rpow_add hh]
  norm_num

theorem slopeAt_eq (n Q b : ℝ) {h : ℝ} (hh : 0 < h) : slopeAt n Q b h = n ^ 2 * (Q / b) ^ 2 / h ^ (10/3 : ℝ) := by
  unfold slopeAt frictionSlope
  rw [← rpow_split hh, ← div_div Q b h, div_pow]
  have : h ^ (4/3 : ℝ) ≠ 0 := (Real.rpow_pos_of_pos hh _).ne'
  field_simp

theorem slopeAt_nonneg (n Q b : ℝ) {h : ℝ} (hh : 0 < h) : 0 ≤ slopeAt n Q b h := by
  rw [slopeAt_eq n Q b hh]
  positivity

/-- A power of a larger depth, from below. -/
theorem inv_rpow_ge {h h' q : ℝ} (hh : 0 < h) (hle : h ≤ h') (hq : 1 ≤ q) : 1 / h ^ q - q / h ^ q / h * (h' - h) ≤ 1 / h' ^ q := by
  have hh' := lt_of_lt_of_le hh hle
  have hb := bern (x := h / h') (div_pos hh hh') ((div_le_one hh').mpr hle) hq
  rw [Real.div_rpow hh.le hh'.le, one_div_div] at hb
  have hp : 0 < h ^ q := Real.rpow_pos_of_pos hh _
  have hp' : 0 < h' ^ q := Real.rpow_pos_of_pos hh' _
  have := div_le_div_of_nonneg_right hb hp.le
  calc 1 / h ^ q - q / h ^ q / h * (h' - h) = (1 - q * (h' / h - 1)) / h ^ q := by field_simp
    _ ≤ h ^ q / h' ^ q / h ^ q := this
    _ = 1 / h' ^ q := by field_simp

theorem slopeAt_anti (n Q b : ℝ) {h h' : ℝ} (hh : 0 < h) (hle : h ≤ h') : slopeAt n Q b h' ≤ slopeAt n Q b h := by
  rw [slopeAt_eq n Q b hh, slopeAt_eq n Q b (lt_of_lt_of_le hh hle)]
  exact div_le_div_of_nonneg_left (by positivity) (Real.rpow_pos_of_pos hh _) (Real.rpow_le_rpow hh.le hle (by norm_num))

/-- In tranquil flow energy level and friction downstream together rise with the depth. -/
theorem head_slope_mono {g beta n Q dx z b h h' : ℝ} (hg : 0 < g) (hbeta : 0 ≤ beta) (hdx : 0 ≤ dx) (hh : 0 < h) (hle : h ≤ h') (ht : Tranquil g beta n Q dx b h) :
    headAt g beta Q z b h + dx / 2 * slopeAt n Q b h ≤ headAt g beta Q z b h' + dx / 2 * slopeAt n Q b h' := by
  have hh' := lt_of_lt_of_le hh hle
  unfold Tranquil at ht
  rw [slopeAt_eq n Q b hh] at ht ⊢
  rw [slopeAt_eq n Q b hh']
  have k1 := inv_rpow_ge hh hle (q := 10/3) (by norm_num)
  have k2 := inv_rpow_ge hh hle (q := 2) (by norm_num)
  simp only [Real.rpow_two] at k2
  have hw : ∀ y : ℝ, 0 < y → (Q / (b * y)) ^ 2 = (Q / b) ^ 2 * (1 / y ^ 2) := by
    intro y hy
    rw [← div_div Q b y, div_pow]
    ring
  unfold headAt energyLevel
  rw [hw h hh] at ht ⊢
  rw [hw h' hh']
  have hp : 0 < h ^ (10/3 : ℝ) := Real.rpow_pos_of_pos hh _
  have hW : 0 ≤ (Q / b) ^ 2 := sq_nonneg _
  generalize (Q / b) ^ 2 = W at *
  have m1 := mul_le_mul_of_nonneg_left k1 (show 0 ≤ dx / 2 * (n ^ 2 * W) by positivity)
  have m2 := mul_le_mul_of_nonneg_left k2 (show 0 ≤ beta * W / (2 * g) by positivity)
  have m3 := mul_le_mul_of_nonneg_right ht.le (sub_nonneg.mpr hle)
  have e3 : (beta * (W * (1 / h ^ 2)) / (g * h) + 5 / 3 * dx * (n ^ 2 * W / h ^ (10/3 : ℝ)) / h) * (h' - h) =
      beta * W / (2 * g) * (2 / h ^ 2 / h * (h' - h)) + dx / 2 * (n ^ 2 * W) * (10/3 / h ^ (10/3 : ℝ) / h * (h' - h)) := by
    field_simp
    ring
  rw [e3] at m3
  have e1 : beta * (W * (1 / h ^ 2)) / (2 * g) = beta * W / (2 * g) * (1 / h ^ 2) := by ring
  have e2 : beta * (W * (1 / h' ^ 2)) / (2 * g) = beta * W / (2 * g) * (1 / h' ^ 2) := by ring
  have e4 : dx / 2 * (n ^ 2 * W / h ^ (10/3 : ℝ)) = dx / 2 * (n ^ 2 * W) * (1 / h ^ (10/3 : ℝ)) := by ring
  have e5 : dx / 2 * (n ^ 2 * W / h' ^ (10/3 : ℝ)) = dx / 2 * (n ^ 2 * W) * (1 / h' ^ (10/3 : ℝ)) := by ring
  rw [e1, e2, e4, e5]
  linarith [m1, m2, m3]

/-- The energy level alone as well. -/
theorem head_mono {g beta n Q dx z b h h' : ℝ} (hg : 0 < g) (hbeta : 0 ≤ beta) (hdx : 0 ≤ dx) (hh : 0 < h) (hle : h ≤ h') (ht : Tranquil g beta n Q dx b h) :
    headAt g beta Q z b h ≤ headAt g beta Q z b h' := by
  have ht0 : Tranquil g beta n Q 0 b h := by
    unfold Tranquil at ht ⊢
    have : 0 ≤ 5 / 3 * dx * slopeAt n Q b h / h := by
      have := slopeAt_nonneg n Q b hh
      positivity
    rw [mul_zero, zero_mul, zero_div]
    linarith
  have := head_slope_mono (z := z) hg hbeta le_rfl hh hle ht0
  linarith

/-- One reach: what the energy levels of two profiles downstream say about those upstream. -/
theorem reach_compare {g beta n Q dx x0 z0 b0 h0 k0 z1 b1 h1 k1 t s e : ℝ} (hg : 0 < g) (hbeta : 0 ≤ beta) (hdx : 0 ≤ dx) (hx0 : 0 ≤ x0)
    (p0 : 0 < h0) (q0 : 0 < k0) (p1 : 0 < h1) (q1 : 0 < k1) (th0 : Tranquil g beta n Q x0 b0 h0) (th1 : Tranquil g beta n Q dx b1 h1)
    (bh : |headAt g beta Q z0 b0 h0 - headAt g beta Q z1 b1 h1 - dx / 2 * (slopeAt n Q b0 h0 + slopeAt n Q b1 h1)| ≤ t)
    (bk : |headAt g beta Q z0 b0 k0 - headAt g beta Q z1 b1 k1 - dx / 2 * (slopeAt n Q b0 k0 + slopeAt n Q b1 k1)| ≤ s) (he : 0 ≤ e)
    (h : headAt g beta Q z1 b1 h1 - e ≤ headAt g beta Q z1 b1 k1) : headAt g beta Q z0 b0 h0 - (e + (t + s)) ≤ headAt g beta Q z0 b0 k0 := by
  rw [abs_le] at bh bk
  by_cases hc : h0 ≤ k0
  · have := head_mono (z := z0) hg hbeta hx0 p0 hc th0
    linarith
  · have a0 := slopeAt_anti n Q b0 q0 (not_le.mp hc).le
    have down : headAt g beta Q z1 b1 h1 + dx / 2 * slopeAt n Q b1 h1 - e ≤ headAt g beta Q z1 b1 k1 + dx / 2 * slopeAt n Q b1 k1 := by
      by_cases h1c : h1 ≤ k1
      · have := head_slope_mono (z := z1) hg hbeta hdx p1 h1c th1
        linarith
      · have a1 := slopeAt_anti n Q b1 q1 (not_le.mp h1c).le
        have := mul_le_mul_of_nonneg_left a1 (show 0 ≤ dx / 2 by linarith)
        linarith
    have := mul_le_mul_of_nonneg_left a0 (show 0 ≤ dx / 2 by linarith)
    linarith [bh.1, bh.2, bk.1, bk.2]

/-- A whole channel: of two profiles of the same flow, each balanced to its own accuracy, the one with the higher water at the downstream end has the higher energy level everywhere, to
within both accuracies for each reach below. Only the lower profile has to be tranquil. -/
theorem profile_compare {g beta n Q t s : ℝ} (hg : 0 < g) (hbeta : 0 ≤ beta) (ht : 0 ≤ t) (hs : 0 ≤ s) : ∀ (dx z B h k : List ℝ), B.length = z.length → h.length = z.length →
    k.length = z.length → dx.length + 1 = z.length → (∀ x ∈ dx, 0 ≤ x) → (∀ y ∈ k, 0 < y) → Balanced g beta n Q t dx z B h → Balanced g beta n Q s dx z B k →
    ∀ x0, 0 ≤ x0 → (∀ (i : ℕ) x b y, (x0 :: dx)[i]? = some x → B[i]? = some b → h[i]? = some y → 0 < y ∧ Tranquil g beta n Q x b y) →
    (∀ y w, h.getLast? = some y → k.getLast? = some w → y ≤ w) →
    ∀ (i : ℕ) zi b y w, z[i]? = some zi → B[i]? = some b → h[i]? = some y → k[i]? = some w →
      headAt g beta Q zi b y - (dx.length - i) * (t + s) ≤ headAt g beta Q zi b w := by
  intro dx
  induction dx with
  | nil =>
    intro z B h k lB lh lk ld _ hk _ _ x0 hx0 hT hlast i zi b y w hz hb hy hw
    have hzl : z.length = 1 := by simpa using ld.symm
    have hi : i = 0 := by have := (List.getElem?_eq_some_iff.mp hz).1; omega
    subst hi
    obtain ⟨hy0, hyT⟩ := hT 0 x0 b y rfl hb hy
    have : y ≤ w := by
      refine hlast y w ?_ ?_
      · rw [List.getLast?_eq_getElem?, lh, hzl]; exact hy
      · rw [List.getLast?_eq_getElem?, lk, hzl]; exact hw
    have := head_mono (z := zi) hg hbeta hx0 hy0 this hyT
    simpa using this
  | cons dx0 dx ih =>
    intro z B h k lB lh lk ld hdx hk bh bk x0 hx0 hT hlast i zi b y w hz hb hy hw
    obtain ⟨z0, z1, zs, rfl⟩ : ∃ z0 z1 zs, z = z0 :: z1 :: zs := by
      match z, ld with
      | [], ld => simp at ld
      | [_], ld => simp at ld
      | z0 :: z1 :: zs, _ => exact ⟨z0, z1, zs, rfl⟩
    obtain ⟨b0, b1, bs, rfl⟩ : ∃ z0 z1 zs, B = z0 :: z1 :: zs := by
      match B, lB with
      | [], ld => simp at ld
      | [_], ld => simp at ld
      | z0 :: z1 :: zs, _ => exact ⟨z0, z1, zs, rfl⟩
    obtain ⟨h0, h1, hs', rfl⟩ : ∃ z0 z1 zs, h = z0 :: z1 :: zs := by
      match h, lh with
      | [], ld => simp at ld
      | [_], ld => simp at ld
      | z0 :: z1 :: zs, _ => exact ⟨z0, z1, zs, rfl⟩
    obtain ⟨k0, k1, ks, rfl⟩ : ∃ z0 z1 zs, k = z0 :: z1 :: zs := by
      match k, lk with
      | [], ld => simp at ld
      | [_], ld => simp at ld
      | z0 :: z1 :: zs, _ => exact ⟨z0, z1, zs, rfl⟩
    have hd0 : 0 ≤ dx0 := hdx dx0 List.mem_cons_self
    have rest := ih (z1 :: zs) (b1 :: bs) (h1 :: hs') (k1 :: ks) (by simpa using lB) (by simpa using lh) (by simpa using lk) (by simpa using ld)
      (fun x hx => hdx x (List.mem_cons_of_mem _ hx)) (fun y hy => hk y (List.mem_cons_of_mem _ hy))
      (fun i a1 a2 a3 a4 a5 a6 a7 e1 e2 e3 e4 e5 e6 e7 => bh (i+1) a1 a2 a3 a4 a5 a6 a7 e1 e2 e3 e4 e5 e6 e7)
      (fun i a1 a2 a3 a4 a5 a6 a7 e1 e2 e3 e4 e5 e6 e7 => bk (i+1) a1 a2 a3 a4 a5 a6 a7 e1 e2 e3 e4 e5 e6 e7) dx0 hd0
      (fun i x b y e1 e2 e3 => hT (i+1) x b y e1 e2 e3)
      (fun y w e1 e2 => hlast y w (by rw [List.getLast?_cons_cons]; exact e1) (by rw [List.getLast?_cons_cons]; exact e2))
    cases i with
    | succ i =>
      have := rest i zi b y w hz hb hy hw
      push_cast [List.length_cons]
      have e : ((dx.length : ℝ) + 1 - (i + 1)) = dx.length - i := by ring
      rw [e]
      exact this
    | zero =>
      simp only [List.getElem?_cons_zero, Option.some.injEq] at hz hb hy hw
      subst hz hb hy hw
      have r0 := rest 0 z1 b1 h1 k1 rfl rfl rfl rfl
      obtain ⟨p0, T0⟩ := hT 0 x0 b0 h0 rfl rfl rfl
      obtain ⟨p1, T1⟩ := hT 1 dx0 b1 h1 rfl rfl rfl
      have := reach_compare (e := (dx.length - (0 : ℕ)) * (t + s)) hg hbeta hd0 hx0 p0 (hk k0 (by simp)) p1 (hk k1 (by simp)) T0 T1
        (bh 0 dx0 z0 b0 h0 z1 b1 h1 rfl rfl rfl rfl rfl rfl rfl) (bk 0 dx0 z0 b0 k0 z1 b1 k1 rfl rfl rfl rfl rfl rfl rfl)
        (by simp only [Nat.cast_zero, sub_zero]; positivity) r0
      push_cast [List.length_cons] at this ⊢
      linarith

/-- What C17 says of depths that are numbers and nowhere critical. -/
theorem steady_balanced {p : SteadyPars} (hQ : p.Q ≠ 0) {dx z B d : List ℝ} {vs : List (Fl ℝ)} (c : IsChannel dx z B) (h : steady p dx z B = .ok (d.map fin, vs))
    (hcr : ∀ (i : ℕ) b y, B[i]? = some b → d[i]? = some y → i + 1 < z.length → ¬ Critical 9.81 p.Q b y) : Balanced 9.81 p.Beta p.n p.Q p.Tol dx z B d := by
  intro i dxi z0 b0 d0 z1 b1 d1 hdx hz0 hb0 hd0 hz1 hb1 hd1
  obtain ⟨-, -, h15⟩ := C15_continuity p dx z B c _ _ h
  have m0 : (d.map fin : List (Fl ℝ))[i]? = some (fin d0) := by rw [List.getElem?_map, hd0]; rfl
  have m1 : (d.map fin : List (Fl ℝ))[i+1]? = some (fin d1) := by rw [List.getElem?_map, hd1]; rfl
  rcases (C17_partial p hQ dx z B c _ _ h).2 i z0 b0 z1 dxi hz0 hb0 hz1 hdx with hn | ⟨e0, e1, v0, v1, g0, g1, w0, w1, p0, p1, hk⟩
  · rw [m0] at hn
    cases hn
  · have k0 := h15 i b0 e0 v0 hb0 g0 w0
    have k1 := h15 (i+1) b1 e1 v1 hb1 g1 w1
    rw [m0] at g0
    rw [m1] at g1
    simp only [Option.some.injEq, fin.injEq] at g0 g1
    subst g0 g1
    have q0 := c.pos b0 (List.mem_of_getElem? hb0)
    have q1 := c.pos b1 (List.mem_of_getElem? hb1)
    have f0 : v0 = p.Q / (b0 * d0) := by rw [eq_div_iff (mul_pos q0 p0).ne']; linarith
    have f1 : v1 = p.Q / (b1 * d1) := by rw [eq_div_iff (mul_pos q1 p1).ne']; linarith
    rcases hk with hk | hk
    · exact absurd hk (hcr i b0 d0 hb0 hd0 (List.getElem?_eq_some_iff.mp hz1).1)
    · unfold headAt slopeAt
      rw [← f0, ← f1]
      exact hk

theorem tranquil_not_critical {g beta n Q dx b h : ℝ} (hg : 0 < g) (hbeta : 1 ≤ beta) (hdx : 0 ≤ dx) (hb : 0 < b) (hh : 0 < h) (ht : Tranquil g beta n Q dx b h) :
    ¬ Critical g Q b h := by
  intro hc
  unfold Tranquil at ht
  unfold Critical at hc
  have : 0 ≤ 5 / 3 * dx * slopeAt n Q b h / h := by
    have := slopeAt_nonneg n Q b hh
    positivity
  have e : beta * (Q / (b * h)) ^ 2 / (g * h) = beta := by
    rw [div_pow, hc]
    field_simp
  rw [e] at ht
  linarith

/-- The depths returned by a run of the solver, where they are numbers. -/
theorem steady_lengths {p : SteadyPars} {dx z B d : List ℝ} {vs : List (Fl ℝ)} (c : IsChannel dx z B) (h : steady p dx z B = .ok (d.map fin, vs)) : d.length = z.length := by
  have := (C15_continuity p dx z B c _ _ h).1
  simpa using this

theorem steady_positive {p : SteadyPars} (hQ : p.Q ≠ 0) {dx z B d : List ℝ} {vs : List (Fl ℝ)} (c : IsChannel dx z B) (h : steady p dx z B = .ok (d.map fin, vs)) : ∀ y ∈ d, 0 < y := by
  intro y hy
  obtain ⟨i, hi, rfl⟩ := List.getElem_of_mem hy
  have hl := steady_lengths c h
  by_cases hlast : i + 1 < z.length
  · have hB : i < B.length := by rw [c.hB]; omega
    have hdx : i < dx.length := by rw [c.hdx]; omega
    rcases (C17_partial p hQ dx z B c _ _ h).2 i z[i] B[i] z[i+1] dx[i] (List.getElem?_eq_getElem _) (List.getElem?_eq_getElem hB) (List.getElem?_eq_getElem hlast)
        (List.getElem?_eq_getElem hdx) with hn | ⟨e0, e1, v0, v1, g0, g1, w0, w1, p0, p1, hk⟩
    · rw [List.getElem?_map, List.getElem?_eq_getElem hi] at hn
      cases hn
    · rw [List.getElem?_map, List.getElem?_eq_getElem hi] at g0
      simp only [Option.map_some, Option.some.injEq, fin.injEq] at g0
      rw [g0]
      exact p0
  · have hz : z ≠ [] := c.ne
    have hBne : B ≠ [] := by
      intro hB
      have := c.hB
      rw [hB] at this
      exact hz (List.length_eq_zero_iff.mp this.symm)
    obtain ⟨hc, hc0, -, hlst⟩ := (C17_partial p hQ dx z B c _ _ h).1 _ _ (List.getLast?_eq_some_getLast hz) (List.getLast?_eq_some_getLast hBne)
    rw [List.getLast?_map, List.getLast?_eq_getElem?, hl, show z.length - 1 = i by omega, List.getElem?_eq_getElem hi] at hlst
    simp only [Option.map_some, Option.some.injEq, fin.injEq] at hlst
    rw [hlst]
    exact lt_of_lt_of_le hc0 (le_max_right _ _)

/-- C160, partial: if the flow is tranquil at all sections with the lower sea level, and with the higher one nowhere critical, then the energy level of the higher one is nowhere lower than
that of the lower one, to within twice the tolerance of the solver for each reach between the section and the sea.
Missing: rapid flow (nearly critical, or with much friction between two sections), for which it is false. -/
theorem C160_partial (p p' : SteadyPars) (hp : p' = { p with DsWL := p'.DsWL }) (hS : p.DsWL ≤ p'.DsWL) (hQ : p.Q ≠ 0) (hbeta : 1 ≤ p.Beta) (hTol : 0 ≤ p.Tol)
    (dx z B d d' : List ℝ) (vs vs' : List (Fl ℝ)) (c : IsChannel dx z B) (hdx : ∀ x ∈ dx, 0 ≤ x)
    (h : steady p dx z B = .ok (d.map fin, vs)) (h' : steady p' dx z B = .ok (d'.map fin, vs'))
    (hT : TranquilAll 9.81 p.Beta p.n p.Q dx B d) (hT' : ∀ (i : ℕ) b y, B[i]? = some b → d'[i]? = some y → i + 1 < z.length → ¬ Critical 9.81 p.Q b y)
    (i : ℕ) (zi b y y' : ℝ) (hz : z[i]? = some zi) (hb : B[i]? = some b) (hy : d[i]? = some y) (hy' : d'[i]? = some y') :
    headAt 9.81 p.Beta p.Q zi b y - (z.length - 1 - i) * (2 * p.Tol) ≤ headAt 9.81 p.Beta p.Q zi b y' := by
  have eQ : p'.Q = p.Q := by rw [hp]
  have eb : p'.Beta = p.Beta := by rw [hp]
  have en : p'.n = p.n := by rw [hp]
  have et : p'.Tol = p.Tol := by rw [hp]
  have hl := steady_lengths c h
  have hl' := steady_lengths c h'
  have hlz : dx.length + 1 = z.length := by
    have := c.hdx
    have := List.length_pos_iff.mpr c.ne
    omega
  have hcr : ∀ (i : ℕ) b y, B[i]? = some b → d[i]? = some y → i + 1 < z.length → ¬ Critical 9.81 p.Q b y := by
    intro i b y hb hy hi
    have hx : i < (0 :: dx).length := by simp only [List.length_cons]; omega
    obtain ⟨y0, hyT⟩ := hT i _ b y (List.getElem?_eq_getElem hx) hb hy
    have hx0 : 0 ≤ (0 :: dx)[i] := by
      rcases List.mem_cons.mp (List.getElem_mem hx) with hm | hm
      · rw [hm]
      · exact hdx _ hm
    exact tranquil_not_critical (by norm_num) hbeta hx0 (c.pos b (List.mem_of_getElem? hb)) y0 hyT
  have b1 := steady_balanced hQ c h hcr
  have b2 := steady_balanced (p := p') (by rw [eQ]; exact hQ) c h' (by rw [eQ]; exact hT')
  rw [eQ, eb, en, et] at b2
  have hz0 : z ≠ [] := c.ne
  have hBne : B ≠ [] := by
    intro hB
    have := c.hB
    rw [hB] at this
    exact hz0 (List.length_eq_zero_iff.mp this.symm)
  obtain ⟨hc, hc0, hcc, hlst⟩ := (C17_partial p hQ dx z B c _ _ h).1 _ _ (List.getLast?_eq_some_getLast hz0) (List.getLast?_eq_some_getLast hBne)
  obtain ⟨hc', hc0', hcc', hlst'⟩ := (C17_partial p' (by rw [eQ]; exact hQ) dx z B c _ _ h').1 _ _ (List.getLast?_eq_some_getLast hz0) (List.getLast?_eq_some_getLast hBne)
  rw [eQ] at hcc'
  have ec : hc' = hc := by
    unfold Critical at hcc hcc'
    have hb0 := c.pos _ (List.getLast_mem hBne)
    have e3 : hc' ^ 3 = hc ^ 3 := by
      have : (9.81 : ℝ) * (B.getLast hBne) ^ 2 ≠ 0 := by positivity
      exact mul_left_cancel₀ this (hcc'.symm.trans hcc)
    exact (pow_left_inj₀ hc0'.le hc0.le (by norm_num)).mp e3
  have := profile_compare (g := 9.81) (by norm_num) (by linarith) hTol hTol dx z B d d' c.hB hl hl' hlz hdx
    (steady_positive (p := p') (by rw [eQ]; exact hQ) c h') b1 b2 0 le_rfl hT ?_ i zi b y y' hz hb hy hy'
  · have e : ((dx.length : ℝ) - i) * (p.Tol + p.Tol) = (z.length - 1 - i) * (2 * p.Tol) := by
      rw [← hlz]
      push_cast
      ring
    rw [← e]
    exact this
  · intro y w hy hw
    rw [List.getLast?_map, hy] at hlst
    rw [List.getLast?_map, hw] at hlst'
    simp only [Option.map_some, Option.some.injEq, fin.injEq] at hlst hlst'
    rw [hlst, hlst', ec]
    exact max_le_max (by linarith) le_rfl

/-- Newton's iteration at a wide section, where velocity and friction hardly matter: one step is enough. -/
theorem newton_wide {A Bc C Tol h0 ε : ℝ} (hA : 0 ≤ A) (hA' : A ≤ ε) (hB : 0 ≤ Bc) (hB' : Bc ≤ ε) (hε : ε ≤ 1 / 100) (h1 : 1 ≤ h0) (hC : C ≤ -1 - 5 * ε) (hd : |h0 + C| ≤ 1)
    (hT : 6 * ε ≤ Tol) (fuel : ℕ) : ∃ x, 1 ≤ x ∧ steadyNewton (fin A) (fin Bc) (fin C) Tol (fuel + 1) (fin h0) (depErr (fin A) (fin Bc) (fin C) (fin h0)) = .ok (fin x) ∧
      |x + C| ≤ Tol + ε := by
  have hu : ∀ y : ℝ, 1 ≤ y → |A * y ^ (-2 : ℝ) - Bc * y ^ (-10/3 : ℝ)| ≤ ε := by
    intro y hy
    have a1 : y ^ (-2 : ℝ) ≤ 1 := Real.rpow_le_one_of_one_le_of_nonpos hy (by norm_num)
    have a2 : y ^ (-10/3 : ℝ) ≤ 1 := Real.rpow_le_one_of_one_le_of_nonpos hy (by norm_num)
    have a3 : 0 ≤ y ^ (-2 : ℝ) := Real.rpow_nonneg (by linarith) _
    have a4 : 0 ≤ y ^ (-10/3 : ℝ) := Real.rpow_nonneg (by linarith) _
    rw [abs_le]
    constructor <;> nlinarith [mul_nonneg hA a3, mul_nonneg hB a4, mul_le_mul_of_nonneg_left a1 hA, mul_le_mul_of_nonneg_left a2 hB]
  have hp0 : 0 < h0 := by linarith
  have e0 := hu h0 h1
  rw [abs_le] at e0 hd
  rw [depErr_pos _ _ _ hp0, steadyNewton_succ]
  by_cases hx : Tol < |errR A Bc C h0|
  · rw [if_pos (by simpa using hx)]
    have g1 : h0 ^ (-3 : ℝ) ≤ 1 := Real.rpow_le_one_of_one_le_of_nonpos h1 (by norm_num)
    have g2 : h0 ^ (-13/3 : ℝ) ≤ 1 := Real.rpow_le_one_of_one_le_of_nonpos h1 (by norm_num)
    have g3 : 0 ≤ h0 ^ (-3 : ℝ) := Real.rpow_nonneg hp0.le _
    have g4 : 0 ≤ h0 ^ (-13/3 : ℝ) := Real.rpow_nonneg hp0.le _
    have eg : depGrad (fin A) (fin Bc) (fin h0) = fin (1 - 2 * A * h0 ^ (-3 : ℝ) + 10/3 * Bc * h0 ^ (-13/3 : ℝ)) := by
      unfold depGrad
      rw [npPow_pos hp0, npPow_pos hp0]
      simp only [mul_fin, sub_fin, add_fin]
    set G := 1 - 2 * A * h0 ^ (-3 : ℝ) + 10/3 * Bc * h0 ^ (-13/3 : ℝ) with hG
    have G1 : -(10/3 * ε) ≤ G - 1 := by nlinarith [mul_le_mul_of_nonneg_left g1 hA, mul_nonneg hB g4]
    have G2 : G - 1 ≤ 10/3 * ε := by nlinarith [mul_le_mul_of_nonneg_left g2 hB, mul_nonneg hA g3]
    have Gp : 24/25 ≤ G := by linarith
    rw [eg, div_fin _ _ (by linarith), sub_fin]
    set x := h0 - errR A Bc C h0 / G with hxd
    have ex : x + C + (A * h0 ^ (-2 : ℝ) - Bc * h0 ^ (-10/3 : ℝ)) = errR A Bc C h0 * ((G - 1) / G) := by
      have : G ≠ 0 := by linarith
      rw [hxd]
      field_simp
      unfold errR
      ring
    have er : |errR A Bc C h0| ≤ 101/100 := by
      unfold errR
      rw [abs_le]
      constructor <;> linarith
    have eq : |(G - 1) / G| ≤ 7/2 * ε := by
      have hGpos : 0 < G := by linarith
      rw [abs_le]
      constructor
      · rw [le_div_iff₀ hGpos]; nlinarith
      · rw [div_le_iff₀ hGpos]; nlinarith
    have es : |errR A Bc C h0 * ((G - 1) / G)| ≤ 18/5 * ε := by
      rw [abs_mul]
      have := mul_le_mul er eq (abs_nonneg _) (by norm_num)
      nlinarith
    rw [← ex, abs_le] at es
    have x1 : 1 ≤ x := by linarith
    have ux := hu x x1
    rw [abs_le] at ux
    refine ⟨x, x1, ?_, ?_⟩
    · rw [depErr_pos _ _ _ (by linarith)]
      have hno : ¬ ((fin Tol <? (fin (errR A Bc C x)).abs) = true) := by
        simp only [abs_fin, blt_fin, decide_eq_true_eq, not_lt]
        unfold errR
        rw [abs_le]
        constructor <;> linarith
      cases fuel with
      | zero => rw [steadyNewton_zero, if_neg hno]
      | succ k => rw [steadyNewton_succ, if_neg hno]
    · rw [abs_le]
      constructor <;> linarith
  · rw [if_neg (by simpa using hx)]
    refine ⟨h0, h1, rfl, ?_⟩
    rw [not_lt] at hx
    unfold errR at hx
    rw [abs_le] at hx ⊢
    constructor <;> linarith

/-- A wide section (a lagoon) upstream of a narrow one (its outlet): the solver finds a level, the one the energy downstream and the friction say. -/
theorem wide_run (p : SteadyPars) {dx z0 z1 b0 b1 D ε : ℝ} (hb0 : 0 < b0) (hb1 : 0 < b1) (hD : 0 < D) (hDs : max (p.DsWL - z1) (critR p b1) = D)
    (hA : 0 ≤ Ar p b0) (hA' : Ar p b0 ≤ ε) (hB : 0 ≤ Br p dx b0) (hB' : Br p dx b0 ≤ ε) (hε : ε ≤ 1 / 100) (hT : 6 * ε ≤ p.Tol) (hM : 2 ≤ p.MaxIt) (hc : critR p b0 ≤ 1)
    (h1 : 1 ≤ D + z1 - z0 + slopeAt p.n p.Q b1 D * dx)
    (hC : z0 - slopeAt p.n p.Q b1 D * dx / 2 - headAt 9.81 p.Beta p.Q z1 b1 D ≤ -1 - 5 * ε)
    (hd : |D + z1 - z0 + slopeAt p.n p.Q b1 D * dx + (z0 - slopeAt p.n p.Q b1 D * dx / 2 - headAt 9.81 p.Beta p.Q z1 b1 D)| ≤ 1) :
    ∃ x vs, 1 ≤ x ∧ steady p [dx] [z0, z1] [b0, b1] = .ok ([x, D].map fin, vs) ∧
      |z0 + x - (headAt 9.81 p.Beta p.Q z1 b1 D + slopeAt p.n p.Q b1 D * dx / 2)| ≤ p.Tol + ε := by
  rw [steady, solveSteady_eq _ _ _ _ (by simp) (by simp) (by simp)]
  have hN : npmax (fin p.DsWL - fin z1) (critDep p (fin b1)) = fin D := by
    rw [critDep_fin _ hb1]; simp only [sub_fin, npmax_fin, hDs]
  obtain ⟨-, ee, es⟩ := mkPt_pos p z1 hb1 hD
  have ee' : (mkPt p (fin z1) (fin b1) (fin D)).en = fin (headAt 9.81 p.Beta p.Q z1 b1 D) := by
    rw [ee]; unfold headAt energyLevel gravSteady; congr 2; ring
  have es' : (mkPt p (fin z1) (fin b1) (fin D)).sf = fin (slopeAt p.n p.Q b1 D) := by
    rw [es]; unfold slopeAt frictionSlope; congr 1; ring
  obtain ⟨k, hk⟩ : ∃ k, p.MaxIt - 1 = k + 1 := ⟨p.MaxIt - 2, by omega⟩
  obtain ⟨x, x1, hx, hxe⟩ := newton_wide hA hA' hB hB' hε h1 hC hd hT k
  have hdep : steadyDepth p (fin dx) (fin z0) (fin b0) (fin z1) (fin D) (fin (headAt 9.81 p.Beta p.Q z1 b1 D)) (fin (slopeAt p.n p.Q b1 D)) = .ok (fin x) := by
    have hg := grav_pos
    unfold steadyDepth
    have eA : fin p.Beta * (fin p.Q * fin p.Q / (fin 2 * fin gravSteady * (fin b0 * fin b0))) = fin (Ar p b0) := by
      simp only [mul_fin]
      rw [div_fin _ _ (by positivity)]; rfl
    have eB : fin dx * (fin p.Q * fin p.Q) * fin (p.n ^ 2) / (fin 2 * (fin b0 * fin b0)) = fin (Br p dx b0) := by
      simp only [mul_fin]
      rw [div_fin _ _ (by positivity)]; rfl
    have eC : (fin z0 - fin (slopeAt p.n p.Q b1 D) * fin dx / fin 2 - fin (headAt 9.81 p.Beta p.Q z1 b1 D) : Fl ℝ) =
        fin (z0 - slopeAt p.n p.Q b1 D * dx / 2 - headAt 9.81 p.Beta p.Q z1 b1 D) := by
      simp only [mul_fin]
      rw [div_fin _ _ (by norm_num)]; simp
    have e0 : (fin D + fin z1 - fin z0 + fin (slopeAt p.n p.Q b1 D) * fin dx : Fl ℝ) = fin (D + z1 - z0 + slopeAt p.n p.Q b1 D * dx) := by
      simp only [mul_fin, add_fin, sub_fin]
    simp only [eA, eB, eC, e0, hk, hx, bind, Except.bind, pure, Except.pure, critDep_fin p hb0, blt_fin]
    rw [if_neg (by simp only [decide_eq_true_eq, not_lt]; linarith)]
  refine ⟨x, [(mkPt p (fin z0) (fin b0) (fin x)).vel, (mkPt p (fin z1) (fin b1) (fin D)).vel], x1, ?_, ?_⟩
  · simp only [List.map_cons, List.map_nil, steadyProf]
    simp only [bind, Except.bind, pure, Except.pure, ee', es', hN]
    rw [show (mkPt p (fin z1) (fin b1) (fin D)).dep = fin D from rfl, hdep]
    simp only [Except.map, List.map_cons, List.map_nil]
    rfl
  · convert hxe using 2
    ring

/-- An outlet 10 m wide with 31 m³/s out of a lagoon 1 km wide; sea level `S` above the bed. The other values are the defaults, but Manning's n 0.05. -/
noncomputable def mouthPars (S : ℝ) : SteadyPars := { n := 1 / 20, Q := 31, DsWL := S, Beta := 1.05, Tol := 1 / 1000, MaxIt := 30 }

theorem mouth_crit (S : ℝ) {b : ℝ} (hb : 10 ≤ b) : critR (mouthPars S) b ≤ 1 := by
  unfold critR
  refine Real.rpow_le_one ?_ ?_ (by norm_num)
  · simp only [mouthPars, gravSteady]
    positivity
  · rw [div_le_one (by simp only [gravSteady]; nlinarith)]
    simp only [mouthPars, gravSteady]
    nlinarith

theorem mouth_run {S E s : ℝ} (hS : 1 ≤ S) (hE : headAt 9.81 1.05 31 0 10 S = E) (hs : slopeAt (1/20) 31 10 S = s) (h0 : 0 ≤ s) (h1 : 1.001 ≤ s * 10 + E)
    (hd : |S + s * 10 - E| ≤ 1) :
    ∃ x vs, 1 ≤ x ∧ steady (mouthPars S) [20] [0, 0] [1000, 10] = .ok ([x, S].map fin, vs) ∧ |x - (E + s * 10)| ≤ 1 / 1000 + 1 / 10000 := by
  have eE : headAt 9.81 (mouthPars S).Beta (mouthPars S).Q 0 10 S = E := hE
  have es : slopeAt (mouthPars S).n (mouthPars S).Q 10 S = s := hs
  have hA : Ar (mouthPars S) 1000 = 1.05 * (31 * 31 / (2 * 9.81 * (1000 * 1000))) := rfl
  have hB : Br (mouthPars S) 20 1000 = 20 * (31 * 31) * (1/20) ^ 2 / (2 * (1000 * 1000)) := rfl
  obtain ⟨x, vs, x1, hr, hx⟩ := wide_run (mouthPars S) (dx := 20) (z0 := 0) (z1 := 0) (b0 := 1000) (b1 := 10) (D := S) (ε := 1 / 10000) (by norm_num) (by norm_num) (by linarith)
    (by
      have := mouth_crit S (le_refl (10 : ℝ))
      rw [max_eq_left]
      · simp only [mouthPars, sub_zero]
      · simp only [mouthPars, sub_zero] at this ⊢
        linarith)
    (by rw [hA]; norm_num) (by rw [hA]; norm_num) (by rw [hB]; norm_num) (by rw [hB]; norm_num) (by norm_num) (by simp only [mouthPars]; norm_num)
    (by simp only [mouthPars]; norm_num) (mouth_crit S (by norm_num)) (by rw [es]; linarith) (by rw [es, eE]; linarith)
    (by
      rw [es, eE]
      convert hd using 2
      ring)
  refine ⟨x, vs, x1, hr, ?_⟩
  rw [es, eE] at hx
  have eT : (mouthPars S).Tol = 1 / 1000 := rfl
  rw [eT] at hx
  convert hx using 2
  ring

/-- C160 is false of the code: with nearly critical flow through a rough outlet a sea 33 cm higher gives a lagoon 3 cm lower. The friction between two sections is taken from the values at
both (riv.py 52), and that at the outlet falls faster than the level rises. -/
theorem C160_refuted : ∃ (p : SteadyPars) (S' : ℝ) (dx z B : List ℝ) (y y' D D' : ℝ) (vs vs' : List (Fl ℝ)), IsChannel dx z B ∧ (∀ x ∈ dx, 0 ≤ x) ∧ 0 < p.Q ∧ p.Tol = 1 / 1000 ∧
    p.DsWL < S' ∧ steady p dx z B = .ok ([y, D].map fin, vs) ∧ steady { p with DsWL := S' } dx z B = .ok ([y', D'].map fin, vs') ∧ y' < y - 3 / 100 := by
  have e1 : slopeAt (1/20) 31 10 1 = 0.024025 := by
    rw [slopeAt_eq _ _ _ one_pos, Real.one_rpow]
    norm_num
  have e2 : slopeAt (1/20) 31 10 1.331 = (1/20) ^ 2 * (31 / 10) ^ 2 / 1.1 ^ 10 := by
    rw [slopeAt_eq _ _ _ (by norm_num)]
    congr 1
    rw [show (1.331 : ℝ) = 1.1 ^ (3 : ℝ) by norm_num, ← Real.rpow_mul (by norm_num), show (3 * (10/3) : ℝ) = (10 : ℕ) by norm_num, Real.rpow_natCast]
  obtain ⟨x, vs, -, hr, hx⟩ := mouth_run (S := 1) le_rfl rfl e1 (by norm_num) (by unfold headAt energyLevel; norm_num)
    (by unfold headAt energyLevel; rw [abs_le]; constructor <;> norm_num)
  obtain ⟨x', vs', -, hr', hx'⟩ := mouth_run (S := 1.331) (by norm_num) rfl e2 (by positivity) (by unfold headAt energyLevel; norm_num)
    (by unfold headAt energyLevel; rw [abs_le]; constructor <;> norm_num)
  refine ⟨mouthPars 1, 1.331, [20], [0, 0], [1000, 10], x, x', 1, 1.331, vs, vs', ⟨by simp, rfl, rfl, by simp⟩, by simp, by norm_num [mouthPars], rfl,
    by norm_num [mouthPars], hr, hr', ?_⟩
  unfold headAt energyLevel at hx hx'
  rw [abs_le] at hx hx'
  norm_num at hx hx'
  linarith [hx.1, hx'.2]

theorem mouth_tranquil {x : ℝ} (hx : 1 ≤ x) : TranquilAll 9.81 1.05 (1/20) 31 [20] [1000, 10] [x, 8] := by
  intro i y b h hy hb hh
  match i with
  | 0 =>
    simp only [List.getElem?_cons_zero, Option.some.injEq] at hy hb hh
    subst hy hb hh
    refine ⟨by linarith, ?_⟩
    unfold Tranquil
    rw [mul_zero, zero_mul, zero_div, add_zero, div_lt_one (by linarith), div_pow]
    have : (31 : ℝ) ^ 2 / (1000 * x) ^ 2 ≤ 1 := by
      rw [div_le_one (by positivity)]
      nlinarith
    nlinarith
  | 1 =>
    simp only [List.getElem?_cons_zero, List.getElem?_cons_succ, Option.some.injEq] at hy hb hh
    subst hy hb hh
    refine ⟨by norm_num, ?_⟩
    unfold Tranquil
    rw [slopeAt_eq _ _ _ (by norm_num), show (8 : ℝ) ^ (10/3 : ℝ) = 2 ^ 10 by
      rw [show (8 : ℝ) = 2 ^ (3 : ℝ) by norm_num, ← Real.rpow_mul (by norm_num), show (3 * (10/3) : ℝ) = (10 : ℕ) by norm_num, Real.rpow_natCast]]
    norm_num
  | i + 2 => simp at hb

/-- The hypotheses of C160 are met by the lagoon of the refutation with the sea 8 m and 27 m above the bed of the outlet. -/
example : ∃ x x' vs vs', IsChannel [20] [0, 0] [1000, 10] ∧ steady (mouthPars 8) [20] [0, 0] [1000, 10] = .ok ([x, 8].map fin, vs) ∧
    steady (mouthPars 27) [20] [0, 0] [1000, 10] = .ok ([x', 27].map fin, vs') ∧ TranquilAll 9.81 (mouthPars 8).Beta (mouthPars 8).n (mouthPars 8).Q [20] [1000, 10] [x, 8] ∧
    (∀ (i : ℕ) b y, ([1000, 10] : List ℝ)[i]? = some b → [x', 27][i]? = some y → i + 1 < 2 → ¬ Critical 9.81 (mouthPars 8).Q b y) := by
  have e8 : slopeAt (1/20) 31 10 8 = (1/20) ^ 2 * (31 / 10) ^ 2 / 2 ^ 10 := by
    rw [slopeAt_eq _ _ _ (by norm_num)]
    congr 1
    rw [show (8 : ℝ) = 2 ^ (3 : ℝ) by norm_num, ← Real.rpow_mul (by norm_num), show (3 * (10/3) : ℝ) = (10 : ℕ) by norm_num, Real.rpow_natCast]
  have e27 : slopeAt (1/20) 31 10 27 = (1/20) ^ 2 * (31 / 10) ^ 2 / 3 ^ 10 := by
    rw [slopeAt_eq _ _ _ (by norm_num)]
    congr 1
    rw [show (27 : ℝ) = 3 ^ (3 : ℝ) by norm_num, ← Real.rpow_mul (by norm_num), show (3 * (10/3) : ℝ) = (10 : ℕ) by norm_num, Real.rpow_natCast]
  obtain ⟨x, vs, x1, hr, -⟩ := mouth_run (S := 8) (by norm_num) rfl e8 (by positivity) (by unfold headAt energyLevel; norm_num)
    (by unfold headAt energyLevel; rw [abs_le]; constructor <;> norm_num)
  obtain ⟨x', vs', x1', hr', -⟩ := mouth_run (S := 27) (by norm_num) rfl e27 (by positivity) (by unfold headAt energyLevel; norm_num)
    (by unfold headAt energyLevel; rw [abs_le]; constructor <;> norm_num)
  refine ⟨x, x', vs, vs', ⟨by simp, rfl, rfl, by simp⟩, hr, hr', mouth_tranquil x1, ?_⟩
  intro i b y hb hy hi hc
  have : i = 0 := by omega
  subst this
  simp only [List.getElem?_cons_zero, Option.some.injEq] at hb hy
  subst hb hy
  unfold Critical at hc
  simp only [mouthPars] at hc
  nlinarith [one_le_pow₀ x1' (n := 3)]

/-- The tranquil flow found by the solver is balanced to the tolerance. -/
theorem tranquil_balanced {p : SteadyPars} (hQ : p.Q ≠ 0) (hbeta : 1 ≤ p.Beta) {dx z B d : List ℝ} {vs : List (Fl ℝ)} (c : IsChannel dx z B) (hdx : ∀ x ∈ dx, 0 ≤ x)
    (h : steady p dx z B = .ok (d.map fin, vs)) (hT : TranquilAll 9.81 p.Beta p.n p.Q dx B d) : Balanced 9.81 p.Beta p.n p.Q p.Tol dx z B d := by
  refine steady_balanced hQ c h ?_
  intro i b y hb hy hi
  have hx : i < (0 :: dx).length := by simp only [List.length_cons]; have := c.hdx; omega
  obtain ⟨y0, hyT⟩ := hT i _ b y (List.getElem?_eq_getElem hx) hb hy
  have hx0 : 0 ≤ (0 :: dx)[i] := by
    rcases List.mem_cons.mp (List.getElem_mem hx) with hm | hm
    · rw [hm]
    · exact hdx _ hm
  exact tranquil_not_critical (by norm_num) hbeta hx0 (c.pos b (List.mem_of_getElem? hb)) y0 hyT

/-- C161: where the flow is tranquil, the energy level found by the solver differs from that of the exact steady flow with the same depth at the downstream end by no more than the
tolerance for each reach between the section and the sea. -/
theorem C161_energy (p : SteadyPars) (hQ : p.Q ≠ 0) (hbeta : 1 ≤ p.Beta) (hTol : 0 ≤ p.Tol) (dx z B d e : List ℝ) (vs : List (Fl ℝ)) (c : IsChannel dx z B)
    (hdx : ∀ x ∈ dx, 0 ≤ x) (h : steady p dx z B = .ok (d.map fin, vs)) (hT : TranquilAll 9.81 p.Beta p.n p.Q dx B d) (hl : e.length = z.length)
    (he : Balanced 9.81 p.Beta p.n p.Q 0 dx z B e) (heT : TranquilAll 9.81 p.Beta p.n p.Q dx B e) (hend : e.getLast? = d.getLast?)
    (i : ℕ) (zi b y w : ℝ) (hz : z[i]? = some zi) (hb : B[i]? = some b) (hy : d[i]? = some y) (hw : e[i]? = some w) :
    |headAt 9.81 p.Beta p.Q zi b y - headAt 9.81 p.Beta p.Q zi b w| ≤ (z.length - 1 - i) * p.Tol := by
  have hld := steady_lengths c h
  have hlz : dx.length + 1 = z.length := by
    have := c.hdx
    have := List.length_pos_iff.mpr c.ne
    omega
  have hb' := tranquil_balanced hQ hbeta c hdx h hT
  have hepos : ∀ y ∈ e, 0 < y := by
    intro y hy
    obtain ⟨j, hj, rfl⟩ := List.getElem_of_mem hy
    have hx : j < (0 :: dx).length := by simp only [List.length_cons]; omega
    have hB : j < B.length := by rw [c.hB]; omega
    exact (heT j _ _ _ (List.getElem?_eq_getElem hx) (List.getElem?_eq_getElem hB) (List.getElem?_eq_getElem hj)).1
  have k1 := profile_compare (g := 9.81) (by norm_num) (by linarith) hTol le_rfl dx z B d e c.hB hld hl hlz hdx hepos hb' he 0 le_rfl hT
    (fun a b ha hb => by rw [hend, ha] at hb; cases hb; exact le_rfl) i zi b y w hz hb hy hw
  have k2 := profile_compare (g := 9.81) (by norm_num) (by linarith) le_rfl hTol dx z B e d c.hB hl hld hlz hdx (steady_positive hQ c h) he hb' 0 le_rfl heT
    (fun a b ha hb => by rw [hend, hb] at ha; cases ha; exact le_rfl) i zi b w y hz hb hw hy
  have e1 : ((dx.length : ℝ) - i) = z.length - 1 - i := by
    rw [← hlz]
    push_cast
    ring
  rw [e1] at k1 k2
  rw [abs_le]
  constructor <;> linarith

/-- How much the energy level rises with the depth. -/
theorem head_gain {g beta Q z b h h' c : ℝ} (hg : 0 < g) (hbeta : 0 ≤ beta) (hh : 0 < h) (hle : h ≤ h') (hc : beta * (Q / (b * h)) ^ 2 / (g * h) ≤ c) :
    (1 - c) * (h' - h) ≤ headAt g beta Q z b h' - headAt g beta Q z b h := by
  have hh' := lt_of_lt_of_le hh hle
  have k2 := inv_rpow_ge hh hle (q := 2) (by norm_num)
  simp only [Real.rpow_two] at k2
  have hw : ∀ y : ℝ, 0 < y → (Q / (b * y)) ^ 2 = (Q / b) ^ 2 * (1 / y ^ 2) := by
    intro y hy
    rw [← div_div Q b y, div_pow]
    ring
  unfold headAt energyLevel
  rw [hw h hh] at hc ⊢
  rw [hw h' hh']
  have hW : 0 ≤ (Q / b) ^ 2 := sq_nonneg _
  generalize (Q / b) ^ 2 = W at *
  have m2 := mul_le_mul_of_nonneg_left k2 (show 0 ≤ beta * W / (2 * g) by positivity)
  have m3 := mul_le_mul_of_nonneg_right hc (sub_nonneg.mpr hle)
  have e3 : (beta * (W * (1 / h ^ 2)) / (g * h)) * (h' - h) = beta * W / (2 * g) * (2 / h ^ 2 / h * (h' - h)) := by
    field_simp
  rw [e3] at m3
  have e1 : beta * (W * (1 / h ^ 2)) / (2 * g) = beta * W / (2 * g) * (1 / h ^ 2) := by ring
  have e2 : beta * (W * (1 / h' ^ 2)) / (2 * g) = beta * W / (2 * g) * (1 / h' ^ 2) := by ring
  rw [e1, e2]
  linarith

/-- C161, the water level: it is as exact, but for the factor 1 - c, where c bounds Beta times the square of the Froude number at the section. -/
theorem C161_level (p : SteadyPars) (hQ : p.Q ≠ 0) (hbeta : 1 ≤ p.Beta) (hTol : 0 ≤ p.Tol) (dx z B d e : List ℝ) (vs : List (Fl ℝ)) (c : IsChannel dx z B)
    (hdx : ∀ x ∈ dx, 0 ≤ x) (h : steady p dx z B = .ok (d.map fin, vs)) (hT : TranquilAll 9.81 p.Beta p.n p.Q dx B d) (hl : e.length = z.length)
    (he : Balanced 9.81 p.Beta p.n p.Q 0 dx z B e) (heT : TranquilAll 9.81 p.Beta p.n p.Q dx B e) (hend : e.getLast? = d.getLast?)
    (i : ℕ) (zi b y w fr : ℝ) (hz : z[i]? = some zi) (hb : B[i]? = some b) (hy : d[i]? = some y) (hw : e[i]? = some w) (hfr : fr < 1)
    (hfy : p.Beta * (p.Q / (b * y)) ^ 2 / (9.81 * y) ≤ fr) (hfw : p.Beta * (p.Q / (b * w)) ^ 2 / (9.81 * w) ≤ fr) :
    |(zi + y) - (zi + w)| ≤ (z.length - 1 - i) * p.Tol / (1 - fr) := by
  have hE := C161_energy p hQ hbeta hTol dx z B d e vs c hdx h hT hl he heT hend i zi b y w hz hb hy hw
  have hy0 := steady_positive hQ c h y (List.mem_of_getElem? hy)
  have hx : i < (0 :: dx).length := by
    have := (List.getElem?_eq_some_iff.mp hz).1
    have := c.hdx
    simp only [List.length_cons]
    omega
  have hw0 := (heT i _ b w (List.getElem?_eq_getElem hx) hb hw).1
  rw [le_div_iff₀ (by linarith), abs_le] at *
  rw [← abs_of_pos (show 0 < 1 - fr by linarith), ← abs_mul, abs_le]
  rcases le_total y w with hle | hle
  · have := head_gain (z := zi) (by norm_num : (0:ℝ) < 9.81) (by linarith) hy0 hle hfy
    constructor <;> nlinarith
  · have := head_gain (z := zi) (by norm_num : (0:ℝ) < 9.81) (by linarith) hw0 hle hfw
    constructor <;> nlinarith

/-- The hypotheses of C161 are met by a flat frictionless channel. -/
example : IsChannel [10] [0, 0] [1, 1] ∧ (∃ vs, steady nanPars [10] [0, 0] [1, 1] = .ok ([2 * 9.81, 2 * 9.81].map fin, vs)) ∧
    TranquilAll 9.81 nanPars.Beta nanPars.n nanPars.Q [10] [1, 1] [2 * 9.81, 2 * 9.81] ∧ Balanced 9.81 nanPars.Beta nanPars.n nanPars.Q 0 [10] [0, 0] [1, 1] [2 * 9.81, 2 * 9.81] := by
  have hs : slopeAt 0 (9.81 ^ 2) 1 (2 * 9.81) = 0 := by
    rw [slopeAt_eq _ _ _ (by norm_num)]
    norm_num
  have key : ∀ x, Tranquil 9.81 1 0 (9.81 ^ 2) x 1 (2 * 9.81) := by
    intro x
    unfold Tranquil
    rw [hs]
    norm_num
  refine ⟨⟨by simp, rfl, rfl, by simp⟩, ⟨_, flat_run⟩, ?_, ?_⟩
  · intro i x b h _ hb hh
    have e1 : b = 1 := by simpa using List.mem_of_getElem? hb
    have e2 : h = 2 * 9.81 := by simpa using List.mem_of_getElem? hh
    subst e1 e2
    exact ⟨by norm_num, key x⟩
  · intro i dxi z0 b0 d0 z1 b1 d1 hdx hz0 hb0 hd0 hz1 hb1 hd1
    have a1 : z0 = 0 := by simpa using List.mem_of_getElem? hz0
    have a2 : b0 = 1 := by simpa using List.mem_of_getElem? hb0
    have a3 : d0 = 2 * 9.81 := by simpa using List.mem_of_getElem? hd0
    have a4 : z1 = 0 := by simpa using List.mem_of_getElem? hz1
    have a5 : b1 = 1 := by simpa using List.mem_of_getElem? hb1
    have a6 : d1 = 2 * 9.81 := by simpa using List.mem_of_getElem? hd1
    subst a1 a2 a3 a4 a5 a6
    have : slopeAt nanPars.n nanPars.Q 1 (2 * 9.81) = 0 := hs
    rw [this]
    simp

end Verif.Props
