import Verif.Props.MoreFlow
import Verif.Spec.Hinder

set_option autoImplicit false
set_option linter.unusedSectionVars false

/-! # C177: a channel that is harder to flow through -/

namespace Verif.Props
open Verif Verif.Model Verif.Spec Fl Real

theorem unit_sq (Q b h : ℝ) : (Q / (b * h)) ^ 2 = (Q / b) ^ 2 / h ^ 2 := by
  rw [← div_div Q b h, div_pow]

theorem head_harder {g beta Q Q' z z' b b' : ℝ} (h : ℝ) (hg : 0 < g) (hbeta : 0 ≤ beta) (hz : z ≤ z') (hq : (Q / b) ^ 2 ≤ (Q' / b') ^ 2) :
    headAt g beta Q z b h ≤ headAt g beta Q' z' b' h := by
  unfold headAt energyLevel
  rw [unit_sq, unit_sq]
  have h1 := div_le_div_of_nonneg_right hq (sq_nonneg h)
  have h2 := div_le_div_of_nonneg_right (mul_le_mul_of_nonneg_left h1 hbeta) (show 0 ≤ 2 * g by linarith)
  linarith

theorem slope_harder {n n' Q Q' b b' h : ℝ} (hh : 0 < h) (hn : n ^ 2 ≤ n' ^ 2) (hq : (Q / b) ^ 2 ≤ (Q' / b') ^ 2) : slopeAt n Q b h ≤ slopeAt n' Q' b' h := by
  rw [slopeAt_eq n Q b hh, slopeAt_eq n' Q' b' hh]
  exact div_le_div_of_nonneg_right (mul_le_mul hn hq (sq_nonneg _) (sq_nonneg _)) (Real.rpow_pos_of_pos hh _).le

/-- One reach: what the energy levels of two profiles, the second in the harder channel, say downstream about those upstream. -/
theorem reach_harder {g beta n n' Q Q' dx dx' x0 z0 z0' b0 b0' h0 k0 z1 z1' b1 b1' h1 k1 t s e : ℝ} (hg : 0 < g) (hbeta : 0 ≤ beta) (hdx : 0 ≤ dx) (hx0 : 0 ≤ x0) (hdx' : dx ≤ dx')
    (hn : n ^ 2 ≤ n' ^ 2) (hz0 : z0 ≤ z0') (hz1 : z1 ≤ z1') (hq0 : (Q / b0) ^ 2 ≤ (Q' / b0') ^ 2) (hq1 : (Q / b1) ^ 2 ≤ (Q' / b1') ^ 2)
    (p0 : 0 < h0) (q0 : 0 < k0) (p1 : 0 < h1) (q1 : 0 < k1) (th0 : Tranquil g beta n Q x0 b0 h0) (th1 : Tranquil g beta n Q dx b1 h1)
    (bh : |headAt g beta Q z0 b0 h0 - headAt g beta Q z1 b1 h1 - dx / 2 * (slopeAt n Q b0 h0 + slopeAt n Q b1 h1)| ≤ t)
    (bk : |headAt g beta Q' z0' b0' k0 - headAt g beta Q' z1' b1' k1 - dx' / 2 * (slopeAt n' Q' b0' k0 + slopeAt n' Q' b1' k1)| ≤ s) (he : 0 ≤ e)
    (h : headAt g beta Q z1 b1 h1 - e ≤ headAt g beta Q' z1' b1' k1) : headAt g beta Q z0 b0 h0 - (e + (t + s)) ≤ headAt g beta Q' z0' b0' k0 := by
  rw [abs_le] at bh bk
  have f0 := head_harder k0 hg hbeta hz0 hq0
  have f1 := head_harder k1 hg hbeta hz1 hq1
  have s0 := slope_harder q0 hn hq0
  have s1 := slope_harder q1 hn hq1
  have d2 : 0 ≤ dx / 2 := by linarith
  have dd : dx / 2 * (slopeAt n' Q' b0' k0 + slopeAt n' Q' b1' k1) ≤ dx' / 2 * (slopeAt n' Q' b0' k0 + slopeAt n' Q' b1' k1) :=
    mul_le_mul_of_nonneg_right (by linarith) (add_nonneg (slopeAt_nonneg n' Q' b0' q0) (slopeAt_nonneg n' Q' b1' q1))
  by_cases hc : h0 ≤ k0
  · have := head_mono (z := z0) hg hbeta hx0 p0 hc th0
    linarith
  · have a0 := (slopeAt_anti n Q b0 q0 (not_le.mp hc).le).trans s0
    have down : headAt g beta Q z1 b1 h1 + dx / 2 * slopeAt n Q b1 h1 - e ≤ headAt g beta Q' z1' b1' k1 + dx / 2 * slopeAt n' Q' b1' k1 := by
      by_cases h1c : h1 ≤ k1
      · have := head_slope_mono (z := z1) hg hbeta hdx p1 h1c th1
        have := mul_le_mul_of_nonneg_left s1 d2
        linarith
      · have a1 := (slopeAt_anti n Q b1 q1 (not_le.mp h1c).le).trans s1
        have := mul_le_mul_of_nonneg_left a1 d2
        linarith
    have := mul_le_mul_of_nonneg_left a0 d2
    linarith [bh.1, bh.2, bk.1, bk.2]

theorem harder_tail {x z0 b0 x' z0' b0' : ℝ} {dx z B dx' z' B' : List ℝ} (h : Harder (x :: dx) (z0 :: z) (b0 :: B) (x' :: dx') (z0' :: z') (b0' :: B')) : Harder dx z B dx' z' B' :=
  ⟨fun i => h.length (i+1), fun i => h.bed (i+1), fun i => h.width (i+1)⟩

theorem two_cons {n : ℕ} {l : List ℝ} (h : l.length = n + 2) : ∃ a b c, l = a :: b :: c := by
  match l, h with
  | [], h => simp at h
  | [_], h => simp at h
  | a :: b :: c, _ => exact ⟨a, b, c, rfl⟩

/-- A whole channel: of two profiles, the second in the harder channel and with no lower energy level at the downstream end, the second has the higher energy level everywhere, to within both accuracies
for each reach below. Only the first has to be tranquil. -/
theorem profile_harder {g beta n n' Q Q' t s : ℝ} (hg : 0 < g) (hbeta : 0 ≤ beta) (ht : 0 ≤ t) (hs : 0 ≤ s) (hn : n ^ 2 ≤ n' ^ 2) (hQ : 0 ≤ Q) (hQ' : Q ≤ Q') :
    ∀ (dx dx' z z' B B' h k : List ℝ), B.length = z.length → h.length = z.length → dx.length + 1 = z.length → z'.length = z.length → B'.length = z.length → k.length = z.length → dx'.length + 1 = z.length →
    Harder dx z B dx' z' B' → (∀ b ∈ B', 0 < b) → (∀ x ∈ dx, 0 ≤ x) → (∀ y ∈ k, 0 < y) → Balanced g beta n Q t dx z B h → Balanced g beta n' Q' s dx' z' B' k →
    ∀ x0, 0 ≤ x0 → (∀ (i : ℕ) x b y, (x0 :: dx)[i]? = some x → B[i]? = some b → h[i]? = some y → 0 < y ∧ Tranquil g beta n Q x b y) →
    (∀ a a' b b' y w, z.getLast? = some a → z'.getLast? = some a' → B.getLast? = some b → B'.getLast? = some b' → h.getLast? = some y → k.getLast? = some w →
      headAt g beta Q a b y ≤ headAt g beta Q' a' b' w) →
    ∀ (i : ℕ) a a' b b' y w, z[i]? = some a → z'[i]? = some a' → B[i]? = some b → B'[i]? = some b' → h[i]? = some y → k[i]? = some w →
      headAt g beta Q a b y - (dx.length - i) * (t + s) ≤ headAt g beta Q' a' b' w := by
  have unit : ∀ b b' : ℝ, 0 < b' → b' ≤ b → (Q / b) ^ 2 ≤ (Q' / b') ^ 2 := by
    intro b b' h1 h2
    have : Q / b ≤ Q' / b' := div_le_div₀ (hQ.trans hQ') hQ' h1 h2
    exact pow_le_pow_left₀ (div_nonneg hQ (h1.le.trans h2)) this 2
  intro dx
  induction dx with
  | nil =>
    intro dx' z z' B B' h k lB lh ld lz' lB' lk ld' hH hB hdx hk bh bk x0 hx0 hT hlast i a a' b b' y w ha ha' hb hb' hy hw
    have hzl : z.length = 1 := by simpa using ld.symm
    have hi : i = 0 := by have := (List.getElem?_eq_some_iff.mp ha).1; omega
    subst hi
    have := hlast a a' b b' y w (by rw [List.getLast?_eq_getElem?, hzl]; exact ha) (by rw [List.getLast?_eq_getElem?, lz', hzl]; exact ha')
      (by rw [List.getLast?_eq_getElem?, lB, hzl]; exact hb) (by rw [List.getLast?_eq_getElem?, lB', hzl]; exact hb')
      (by rw [List.getLast?_eq_getElem?, lh, hzl]; exact hy) (by rw [List.getLast?_eq_getElem?, lk, hzl]; exact hw)
    simpa using this
  | cons dx0 dx ih =>
    intro dx' z z' B B' h k lB lh ld lz' lB' lk ld' hH hB hdx hk bh bk x0 hx0 hT hlast i a a' b b' y w ha ha' hb hb' hy hw
    rw [List.length_cons] at ld
    obtain ⟨z0, z1, zs, rfl⟩ := two_cons (n := dx.length) (l := z) (by omega)
    obtain ⟨z0', z1', zs', rfl⟩ := two_cons (n := dx.length) (l := z') (by omega)
    obtain ⟨b0, b1, bs, rfl⟩ := two_cons (n := dx.length) (l := B) (by omega)
    obtain ⟨b0', b1', bs', rfl⟩ := two_cons (n := dx.length) (l := B') (by omega)
    obtain ⟨h0, h1, hs', rfl⟩ := two_cons (n := dx.length) (l := h) (by omega)
    obtain ⟨k0, k1, ks, rfl⟩ := two_cons (n := dx.length) (l := k) (by omega)
    obtain ⟨dx0', dxs', rfl⟩ : ∃ x l, dx' = x :: l := by
      match dx', ld' with
      | [], ld' => simp at ld'
      | x :: l, _ => exact ⟨x, l, rfl⟩
    have hd0 : 0 ≤ dx0 := hdx dx0 List.mem_cons_self
    have rest := ih dxs' (z1 :: zs) (z1' :: zs') (b1 :: bs) (b1' :: bs') (h1 :: hs') (k1 :: ks) (by simpa using lB) (by simpa using lh) (by simpa using ld)
      (by simpa using lz') (by simpa using lB') (by simpa using lk) (by simpa using ld') (harder_tail hH)
      (fun b hb => hB b (List.mem_cons_of_mem _ hb)) (fun x hx => hdx x (List.mem_cons_of_mem _ hx)) (fun y hy => hk y (List.mem_cons_of_mem _ hy))
      (fun i a1 a2 a3 a4 a5 a6 a7 e1 e2 e3 e4 e5 e6 e7 => bh (i+1) a1 a2 a3 a4 a5 a6 a7 e1 e2 e3 e4 e5 e6 e7)
      (fun i a1 a2 a3 a4 a5 a6 a7 e1 e2 e3 e4 e5 e6 e7 => bk (i+1) a1 a2 a3 a4 a5 a6 a7 e1 e2 e3 e4 e5 e6 e7) dx0 hd0
      (fun i x b y e1 e2 e3 => hT (i+1) x b y e1 e2 e3)
      (fun a a' b b' y w e1 e2 e3 e4 e5 e6 => hlast a a' b b' y w (by rw [List.getLast?_cons_cons]; exact e1) (by rw [List.getLast?_cons_cons]; exact e2)
        (by rw [List.getLast?_cons_cons]; exact e3) (by rw [List.getLast?_cons_cons]; exact e4) (by rw [List.getLast?_cons_cons]; exact e5) (by rw [List.getLast?_cons_cons]; exact e6))
    cases i with
    | succ i =>
      have := rest i a a' b b' y w ha ha' hb hb' hy hw
      push_cast [List.length_cons]
      have e : ((dx.length : ℝ) + 1 - (i + 1)) = dx.length - i := by ring
      rw [e]
      exact this
    | zero =>
      simp only [List.getElem?_cons_zero, Option.some.injEq] at ha ha' hb hb' hy hw
      subst ha ha' hb hb' hy hw
      have r0 := rest 0 z1 z1' b1 b1' h1 k1 rfl rfl rfl rfl rfl rfl
      obtain ⟨p0, T0⟩ := hT 0 x0 b0 h0 rfl rfl rfl
      obtain ⟨p1, T1⟩ := hT 1 dx0 b1 h1 rfl rfl rfl
      have := reach_harder (e := (dx.length - (0 : ℕ)) * (t + s)) hg hbeta hd0 hx0 (hH.length 0 dx0 dx0' rfl rfl) hn (hH.bed 0 _ _ rfl rfl) (hH.bed 1 _ _ rfl rfl)
        (unit _ _ (hB b0' (by simp)) (hH.width 0 _ _ rfl rfl)) (unit _ _ (hB b1' (by simp)) (hH.width 1 _ _ rfl rfl)) p0 (hk k0 (by simp)) p1 (hk k1 (by simp)) T0 T1
        (bh 0 dx0 z0 b0 h0 z1 b1 h1 rfl rfl rfl rfl rfl rfl rfl) (bk 0 dx0' z0' b0' k0 z1' b1' k1 rfl rfl rfl rfl rfl rfl rfl)
        (by simp only [Nat.cast_zero, sub_zero]; positivity) r0
      push_cast [List.length_cons] at this ⊢
      linarith

/-- The outlet: its level is that of the sea or that of the critical depth. -/
theorem outlet_harder {g beta n Q Q' S S' z z' b b' c c' x0 : ℝ} (hg : 0 < g) (hbeta : 0 ≤ beta) (hx0 : 0 ≤ x0) (hS : S ≤ S') (hz : z ≤ z') (hq : (Q / b) ^ 2 ≤ (Q' / b') ^ 2) (hc0 : 0 < c) (hc : c ≤ c')
    (hT : Tranquil g beta n Q x0 b (max (S - z) c)) : headAt g beta Q z b (max (S - z) c) ≤ headAt g beta Q' z' b' (max (S' - z') c') := by
  have p1 : 0 < max (S - z) c := lt_max_of_lt_right hc0
  have p2 : 0 < max (S' - z') c' := lt_max_of_lt_right (hc0.trans_le hc)
  by_cases h : max (S - z) c ≤ max (S' - z') c'
  · exact (head_mono (z := z) hg hbeta hx0 p1 h hT).trans (head_harder _ hg hbeta hz hq)
  · push Not at h
    have lev : z + max (S - z) c ≤ z' + max (S' - z') c' := by
      rcases max_cases (S - z) c with ⟨e, -⟩ | ⟨e, -⟩
      · rw [e]; linarith [le_max_left (S' - z') c']
      · rw [e]; linarith [le_max_right (S' - z') c']
    unfold headAt energyLevel
    rw [unit_sq, unit_sq]
    have h1 : (Q / b) ^ 2 / max (S - z) c ^ 2 ≤ (Q' / b') ^ 2 / max (S' - z') c' ^ 2 :=
      div_le_div₀ (sq_nonneg _) hq (by positivity) (pow_le_pow_left₀ p2.le h.le 2)
    have h2 := div_le_div_of_nonneg_right (mul_le_mul_of_nonneg_left h1 hbeta) (show 0 ≤ 2 * g by linarith)
    linarith

/-- **C177** (partial: the flow is tranquil at all sections of the first channel, and nowhere critical above the outlet of the second).  In a channel that is rougher and nowhere shorter, lower or wider, with no
less flow and no lower sea, the energy level is nowhere lower, to within twice the tolerance of the solver for each reach between the section and the sea.
Missing: rapid flow (nearly critical, or with much friction between two sections), for which it is false (`C177_refuted`). -/
theorem C177_partial (p p' : SteadyPars) (hp : p' = { p with DsWL := p'.DsWL, Q := p'.Q, n := p'.n }) (hS : p.DsWL ≤ p'.DsWL) (hQ : 0 < p.Q) (hQ' : p.Q ≤ p'.Q) (hn : p.n ^ 2 ≤ p'.n ^ 2)
    (hbeta : 1 ≤ p.Beta) (hTol : 0 ≤ p.Tol) (dx z B dx' z' B' d d' : List ℝ) (vs vs' : List (Fl ℝ)) (c : IsChannel dx z B) (c' : IsChannel dx' z' B') (hlen : z'.length = z.length)
    (hH : Harder dx z B dx' z' B') (hdx : ∀ x ∈ dx, 0 ≤ x) (h : steady p dx z B = .ok (d.map fin, vs)) (h' : steady p' dx' z' B' = .ok (d'.map fin, vs'))
    (hT : TranquilAll 9.81 p.Beta p.n p.Q dx B d) (hT' : ∀ (i : ℕ) b y, B'[i]? = some b → d'[i]? = some y → i + 1 < z.length → ¬ Critical 9.81 p'.Q b y)
    (i : ℕ) (a a' b b' y y' : ℝ) (ha : z[i]? = some a) (ha' : z'[i]? = some a') (hb : B[i]? = some b) (hb' : B'[i]? = some b') (hy : d[i]? = some y) (hy' : d'[i]? = some y') :
    headAt 9.81 p.Beta p.Q a b y - (z.length - 1 - i) * (2 * p.Tol) ≤ headAt 9.81 p.Beta p'.Q a' b' y' := by
  have eb : p'.Beta = p.Beta := by rw [hp]
  have et : p'.Tol = p.Tol := by rw [hp]
  have hq0 : 0 < p'.Q := lt_of_lt_of_le hQ hQ'
  have hl := steady_lengths c h
  have hl' := steady_lengths c' h'
  have hzp := List.length_pos_iff.mpr c.ne
  have hlz : dx.length + 1 = z.length := by
    have := c.hdx
    omega
  have hlz' : dx'.length + 1 = z.length := by
    have := c'.hdx
    omega
  have hcr : ∀ (i : ℕ) b y, B[i]? = some b → d[i]? = some y → i + 1 < z.length → ¬ Critical 9.81 p.Q b y := by
    intro i b y hb hy hi
    have hx : i < (0 :: dx).length := by simp only [List.length_cons]; omega
    obtain ⟨y0, hyT⟩ := hT i _ b y (List.getElem?_eq_getElem hx) hb hy
    have hx0 : 0 ≤ (0 :: dx)[i] := by
      rcases List.mem_cons.mp (List.getElem_mem hx) with hm | hm
      · rw [hm]
      · exact hdx _ hm
    exact tranquil_not_critical (by norm_num) hbeta hx0 (c.pos b (List.mem_of_getElem? hb)) y0 hyT
  have b1 := steady_balanced hQ.ne' c h hcr
  have b2 := steady_balanced (p := p') hq0.ne' c' h' (fun i b y e1 e2 e3 => hT' i b y e1 e2 (by omega))
  rw [eb, et] at b2
  have := profile_harder (g := 9.81) (by norm_num) (by linarith) hTol hTol hn hQ.le hQ' dx dx' z z' B B' d d' c.hB hl hlz hlen (by rw [c'.hB, hlen]) (by rw [hl', hlen]) hlz' hH c'.pos hdx
    (steady_positive (p := p') hq0.ne' c' h') b1 b2 0 le_rfl hT ?_ i a a' b b' y y' ha ha' hb hb' hy hy'
  · have e : ((dx.length : ℝ) - i) * (p.Tol + p.Tol) = (z.length - 1 - i) * (2 * p.Tol) := by
      rw [← hlz]
      push_cast
      ring
    rw [← e]
    exact this
  · intro a a' b b' y w ha ha' hb hb' hy hw
    obtain ⟨hc, hc0, hcc, hlst⟩ := (C17_partial p hQ.ne' dx z B c _ _ h).1 _ _ ha hb
    obtain ⟨hc', hc0', hcc', hlst'⟩ := (C17_partial p' hq0.ne' dx' z' B' c' _ _ h').1 _ _ ha' hb'
    rw [List.getLast?_map, hy] at hlst
    rw [List.getLast?_map, hw] at hlst'
    simp only [Option.map_some, Option.some.injEq, fin.injEq] at hlst hlst'
    rw [List.getLast?_eq_getElem?] at ha ha' hb hb' hy
    rw [hlen] at ha'
    rw [c.hB] at hb
    rw [c'.hB, hlen] at hb'
    rw [hl] at hy
    have hbp := c.pos b (List.mem_of_getElem? hb)
    have hbp' := c'.pos b' (List.mem_of_getElem? hb')
    have hw' := hH.width _ _ _ hb hb'
    have hqq : (p.Q / b) ^ 2 ≤ (p'.Q / b') ^ 2 := pow_le_pow_left₀ (div_nonneg hQ.le hbp.le) (div_le_div₀ hq0.le hQ' hbp' hw') 2
    have ec : hc ≤ hc' := by
      unfold Critical at hcc hcc'
      have e1 : (p.Q / b) ^ 2 = 9.81 * hc ^ 3 := by rw [div_pow, hcc]; field_simp
      have e2 : (p'.Q / b') ^ 2 = 9.81 * hc' ^ 3 := by rw [div_pow, hcc']; field_simp
      rw [e1, e2] at hqq
      exact (pow_le_pow_iff_left₀ hc0.le hc0'.le (by norm_num : (3:ℕ) ≠ 0)).mp (by linarith)
    have hx : z.length - 1 < (0 :: dx).length := by simp only [List.length_cons]; omega
    obtain ⟨y0, hyT⟩ := hT (z.length - 1) _ b y (List.getElem?_eq_getElem hx) hb hy
    have hx0 : 0 ≤ (0 :: dx)[z.length - 1] := by
      rcases List.mem_cons.mp (List.getElem_mem hx) with hm | hm
      · rw [hm]
      · exact hdx _ hm
    rw [hlst] at hyT ⊢
    rw [hlst']
    exact outlet_harder (by norm_num) (by linarith) hx0 hS (hH.bed _ _ _ ha ha') hqq hc0 ec hyT

/-! ## Where it is false -/

/-- The free fall of C172 at a flow of about 1.4 m³/s, through an outlet of width `b` with critical depth `r ^ 3`. -/
theorem narrow_run {r b : ℝ} (hr : 1/2 ≤ r) (hr1 : r ≤ 6/10) (hb0 : 0 < b) (hb : 981 * (1/8) ^ 3 = 9.81 * b ^ 2 * r ^ 9) (hd : |0.024525 / r * 21 - 0.525 * r ^ 3| ≤ 1) :
    ∃ x vs, 1 ≤ x ∧ steady (plungePars (1/8)) [42] [-2, 0] [1000, b] = .ok ([x, r ^ 3].map fin, vs) ∧ |x - (2 + 1.525 * r ^ 3 + 0.024525 / r * 21)| ≤ 1 / 1000 + 1 / 10000 := by
  have r0 : 0 < r := by linarith
  have y0 : 0 < r ^ 3 := by positivity
  have y1 : r ^ 3 ≤ 216 / 1000 := by
    have := pow_le_pow_left₀ r0.le hr1 3
    norm_num at this ⊢
    linarith
  have hQ := plunge_sq (y := 1/8) (by norm_num)
  have hQ2 : (plungePars (1/8)).Q ^ 2 = 9.81 * b ^ 2 * r ^ 9 := by rw [sq, hQ, hb]
  have hq : ((plungePars (1/8)).Q / b) ^ 2 = 9.81 * r ^ 9 := by
    rw [div_pow, hQ2]
    field_simp
  have hs : slopeAt (plungePars (1/8)).n (plungePars (1/8)).Q b (r ^ 3) = 0.024525 / r := by
    rw [slopeAt_eq _ _ _ y0, hq, ← Real.rpow_natCast r 3, ← Real.rpow_mul r0.le, show (((3 : ℕ) : ℝ) * (10/3)) = ((10 : ℕ) : ℝ) by norm_num, Real.rpow_natCast]
    show (1/20 : ℝ) ^ 2 * _ / _ = _
    field_simp
    norm_num
  have hE : headAt 9.81 (plungePars (1/8)).Beta (plungePars (1/8)).Q 0 b (r ^ 3) = 1.525 * r ^ 3 := by
    unfold headAt energyLevel
    rw [unit_sq, hq]
    show 0 + r ^ 3 + 1.05 * _ / _ = _
    field_simp
    norm_num
    ring
  have hcr : critR (plungePars (1/8)) b = r ^ 3 := by
    unfold critR
    have h1 : (plungePars (1/8)).Q * (plungePars (1/8)).Q / (b * b * gravSteady) = (r ^ 3) ^ 3 := by
      rw [hQ, hb]
      unfold gravSteady
      field_simp
    rw [h1, ← Real.rpow_natCast, ← Real.rpow_mul y0.le]
    norm_num
  have hA : Ar (plungePars (1/8)) 1000 = 1.05 * (981 * (1/8) ^ 3 / (2 * 9.81 * (1000 * 1000))) := by
    rw [← plunge_sq (y := 1/8) (by norm_num)]; rfl
  have hB : Br (plungePars (1/8)) 42 1000 = 42 * (981 * (1/8) ^ 3) * (1/20) ^ 2 / (2 * (1000 * 1000)) := by
    rw [← plunge_sq (y := 1/8) (by norm_num)]; rfl
  have i1 : 0.024525 / r ≤ 0.04905 := by
    rw [div_le_iff₀ r0]; linarith
  have i2 : 0.040875 ≤ 0.024525 / r := by
    rw [le_div_iff₀ r0]; linarith
  obtain ⟨x, vs, x1, hrun, hx⟩ := wide_run (plungePars (1/8)) (dx := 42) (z0 := -2) (z1 := 0) (b0 := 1000) (b1 := b) (D := r ^ 3) (ε := 1 / 10000) (by norm_num) hb0 y0
    (by
      rw [hcr, max_eq_right]
      show (-1 : ℝ) - 0 ≤ _
      linarith)
    (by rw [hA]; positivity) (by rw [hA]; norm_num) (by rw [hB]; positivity) (by rw [hB]; norm_num)
    (by norm_num) (by simp only [plungePars]; norm_num) (by simp only [plungePars]; norm_num)
    ((plunge_crit (by norm_num) (by norm_num) (by norm_num)).trans (by norm_num)) (by rw [hs]; linarith) (by rw [hs, hE]; linarith)
    (by
      rw [hs, hE]
      convert hd using 2
      ring)
  refine ⟨x, vs, x1, hrun, ?_⟩
  rw [hs, hE] at hx
  have eT : (plungePars (1/8)).Tol = 1 / 1000 := rfl
  rw [eT] at hx
  convert hx using 2
  ring

/-- C177 is false of the code: an outlet less than half as wide, with a free fall into the sea, gives a lagoon 3 cm lower. As in C172, the friction between two sections is taken from the values at both, and that
at the critical depth of the outlet falls faster than the depth grows. -/
theorem C177_refuted : ∃ (p : SteadyPars) (b' y y' D D' : ℝ) (vs vs' : List (Fl ℝ)), IsChannel [42] [-2, 0] [1000, 10] ∧ IsChannel [42] [-2, 0] [1000, b'] ∧ 0 < p.Q ∧ p.Tol = 1 / 1000 ∧
    2 * b' < 10 ∧ Harder [42] [-2, 0] [1000, 10] [42] [-2, 0] [1000, b'] ∧
    steady p [42] [-2, 0] [1000, 10] = .ok ([y, D].map fin, vs) ∧ steady p [42] [-2, 0] [1000, b'] = .ok ([y', D'].map fin, vs') ∧ y' < y - 3 / 100 := by
  have hw : 0 < √(100 * (5/6 : ℝ) ^ 9) := sqrt_pos.mpr (by norm_num)
  have hw5 : √(100 * (5/6 : ℝ) ^ 9) < 5 := by
    rw [sqrt_lt' (by norm_num)]
    norm_num
  obtain ⟨x, vs, -, hr, hx⟩ := narrow_run (r := 1/2) (b := 10) le_rfl (by norm_num) (by norm_num) (by norm_num) (by rw [abs_le]; constructor <;> norm_num)
  obtain ⟨x', vs', -, hr', hx'⟩ := narrow_run (r := 6/10) (b := √(100 * (5/6 : ℝ) ^ 9)) (by norm_num) le_rfl hw (by rw [sq_sqrt (by norm_num)]; norm_num) (by rw [abs_le]; constructor <;> norm_num)
  refine ⟨plungePars (1/8), √(100 * (5/6 : ℝ) ^ 9), x, x', (1/2) ^ 3, (6/10) ^ 3, vs, vs', ⟨by simp, rfl, rfl, by simp⟩, ⟨by simp, rfl, rfl, by simpa using hw⟩,
    sqrt_pos.mpr (by norm_num), rfl, by linarith, ⟨?_, ?_, ?_⟩, hr, hr', ?_⟩
  · intro i a b ha hb
    rw [ha] at hb
    exact (Option.some.inj hb).le
  · intro i a b ha hb
    rw [ha] at hb
    exact (Option.some.inj hb).le
  · intro i a b ha hb
    match i with
    | 0 =>
      simp only [List.getElem?_cons_zero, Option.some.injEq] at ha hb
      linarith
    | 1 =>
      simp only [List.getElem?_cons_succ, List.getElem?_cons_zero, Option.some.injEq] at ha hb
      linarith
    | i + 2 => simp at ha
  · rw [abs_le] at hx hx'
    norm_num at hx hx'
    linarith [hx.1, hx'.2]

/-- The outlet of C160, twice as rough. -/
noncomputable def roughPars : SteadyPars := { n := 1 / 10, Q := 31, DsWL := 8, Beta := 1.05, Tol := 1 / 1000, MaxIt := 30 }

/-- The hypotheses of C177 are met by a lagoon 1 km wide behind an outlet 10 m wide and 8 m deep, and by one half as far again from an outlet twice as rough and half as wide, with its bed 1 m higher. -/
example : ∃ x x' vs vs', IsChannel [20] [0, 0] [1000, 10] ∧ IsChannel [30] [1, 0] [1000, 5] ∧ Harder [20] [0, 0] [1000, 10] [30] [1, 0] [1000, 5] ∧
    roughPars = { mouthPars 8 with n := 1 / 10 } ∧ steady (mouthPars 8) [20] [0, 0] [1000, 10] = .ok ([x, 8].map fin, vs) ∧
    steady roughPars [30] [1, 0] [1000, 5] = .ok ([x', 8].map fin, vs') ∧
    TranquilAll 9.81 (mouthPars 8).Beta (mouthPars 8).n (mouthPars 8).Q [20] [1000, 10] [x, 8] ∧
    (∀ (i : ℕ) b y, ([1000, 5] : List ℝ)[i]? = some b → [x', 8][i]? = some y → i + 1 < 2 → ¬ Critical 9.81 31 b y) := by
  have r8 : (8 : ℝ) ^ (10/3 : ℝ) = 2 ^ 10 := by
    rw [show (8 : ℝ) = 2 ^ (3 : ℝ) by norm_num, ← Real.rpow_mul (by norm_num), show (3 * (10/3) : ℝ) = (10 : ℕ) by norm_num, Real.rpow_natCast]
  have e8 : slopeAt (1/20) 31 10 8 = (1/20) ^ 2 * (31 / 10) ^ 2 / 2 ^ 10 := by
    rw [slopeAt_eq _ _ _ (by norm_num), r8]
  obtain ⟨x, vs, x1, hr, -⟩ := mouth_run (S := 8) (by norm_num) rfl e8 (by positivity) (by unfold headAt energyLevel; norm_num)
    (by unfold headAt energyLevel; rw [abs_le]; constructor <;> norm_num)
  have es : slopeAt roughPars.n roughPars.Q 5 8 = (1/10) ^ 2 * (31 / 5) ^ 2 / 2 ^ 10 := by
    show slopeAt (1/10) 31 5 8 = _
    rw [slopeAt_eq _ _ _ (by norm_num), r8]
  have eE : headAt 9.81 roughPars.Beta roughPars.Q 0 5 8 = headAt 9.81 1.05 31 0 5 8 := rfl
  have hA : Ar roughPars 1000 = 1.05 * (31 * 31 / (2 * 9.81 * (1000 * 1000))) := rfl
  have hB : Br roughPars 30 1000 = 30 * (31 * 31) * (1/10) ^ 2 / (2 * (1000 * 1000)) := rfl
  obtain ⟨x', vs', x1', hr', -⟩ := wide_run roughPars (dx := 30) (z0 := 1) (z1 := 0) (b0 := 1000) (b1 := 5) (D := 8) (ε := 3 / 20000) (by norm_num) (by norm_num) (by norm_num)
    (by
      rw [max_eq_left]
      · simp only [roughPars]; norm_num
      · unfold critR
        rw [show roughPars.DsWL - 0 = ((8 : ℝ) ^ (3 : ℕ)) ^ ((1 : ℝ) / 3) by
          rw [← Real.rpow_natCast, ← Real.rpow_mul (by norm_num)]; simp only [roughPars]; norm_num]
        refine Real.rpow_le_rpow ?_ ?_ (by norm_num) <;> simp only [roughPars, gravSteady] <;> norm_num)
    (by rw [hA]; norm_num) (by rw [hA]; norm_num) (by rw [hB]; norm_num) (by rw [hB]; norm_num) (by norm_num) (by simp only [roughPars]; norm_num)
    (by simp only [roughPars]; norm_num)
    (by
      unfold critR
      refine Real.rpow_le_one ?_ ?_ (by norm_num) <;> simp only [roughPars, gravSteady] <;> norm_num)
    (by rw [es]; norm_num) (by rw [es, eE]; unfold headAt energyLevel; norm_num)
    (by
      rw [es, eE]
      unfold headAt energyLevel
      rw [abs_le]
      constructor <;> norm_num)
  refine ⟨x, x', vs, vs', ⟨by simp, rfl, rfl, by simp⟩, ⟨by simp, rfl, rfl, by simp⟩, ⟨?_, ?_, ?_⟩, rfl, hr, hr', mouth_tranquil x1, ?_⟩
  · intro i a b ha hb
    match i with
    | 0 =>
      simp only [List.getElem?_cons_zero, Option.some.injEq] at ha hb
      linarith
    | i + 1 => simp at ha
  · intro i a b ha hb
    match i with
    | 0 =>
      simp only [List.getElem?_cons_zero, Option.some.injEq] at ha hb
      linarith
    | 1 =>
      simp only [List.getElem?_cons_succ, List.getElem?_cons_zero, Option.some.injEq] at ha hb
      linarith
    | i + 2 => simp at ha
  · intro i a b ha hb
    match i with
    | 0 =>
      simp only [List.getElem?_cons_zero, Option.some.injEq] at ha hb
      linarith
    | 1 =>
      simp only [List.getElem?_cons_succ, List.getElem?_cons_zero, Option.some.injEq] at ha hb
      linarith
    | i + 2 => simp at ha
  · intro i b y hb hy hi hc
    have : i = 0 := by omega
    subst this
    simp only [List.getElem?_cons_zero, Option.some.injEq] at hb hy
    subst hb hy
    unfold Critical at hc
    nlinarith [one_le_pow₀ x1' (n := 3)]

end Verif.Props
