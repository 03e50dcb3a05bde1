import Verif.Lemmas.PreissmannRun
import Verif.Spec.Calm
import Mathlib.LinearAlgebra.Matrix.ToLin
import Mathlib.LinearAlgebra.FiniteDimensional.Basic

set_option autoImplicit false
set_option linter.unusedSectionVars false

/-! # Helper lemmas: the linear systems of the unsteady solver

In terms of the corrections of depth and discharge, the homogeneous equations of a reach carry pairs of opposite sign
to pairs of opposite sign. -/

namespace Verif.Model
open Verif Fl Real Verif.Spec Finset

theorem cone_step {a0 a1 k m0 m1 n0 n1 h0 Q0 h1 Q1 : ℝ} (ha0 : 0 < a0) (ha1 : 0 < a1) (hk : 0 < k) (hm0 : 0 < m0) (hm1 : 0 < m1)
    (hn0 : n0 < 0) (hn1 : 0 < n1) (e1 : a0 * h0 + a1 * h1 + k * (Q1 - Q0) = 0) (e2 : n0 * h0 + n1 * h1 + m0 * Q0 + m1 * Q1 = 0)
    (hc : (h0 = 0 ∧ Q0 = 0) ∨ (h0 ≠ 0 ∧ h0 * Q0 ≤ 0)) :
    ((h0 = 0 ∧ Q0 = 0) ∧ h1 = 0 ∧ Q1 = 0) ∨ h1 * Q1 < 0 := by
  rcases hc with ⟨rfl, rfl⟩ | ⟨hne, hc⟩
  · by_cases h : h1 = 0
    · left
      subst h
      refine ⟨⟨rfl, rfl⟩, rfl, ?_⟩
      have : k * Q1 = 0 := by linarith
      rcases mul_eq_zero.mp this with h | h
      · exact absurd h hk.ne'
      · exact h
    · right
      have hq : Q1 = -(a1 / k) * h1 := by
        field_simp
        linarith
      rw [hq]
      have : 0 < h1 ^ 2 := by positivity
      have : 0 < a1 / k * h1 ^ 2 := by positivity
      linarith [show h1 * (-(a1 / k) * h1) = -(a1 / k * h1 ^ 2) by ring]
  · right
    by_contra hcon
    rw [not_lt] at hcon
    rcases lt_or_gt_of_ne hne with hneg | hpos
    · have hQ : 0 ≤ Q0 := by
        by_contra hq
        rw [not_le] at hq
        linarith [mul_pos_of_neg_of_neg hneg hq]
      have t1 : a0 * h0 < 0 := mul_neg_of_pos_of_neg ha0 hneg
      have t2 : 0 ≤ k * Q0 := by positivity
      have t3 : 0 < n0 * h0 := mul_pos_of_neg_of_neg hn0 hneg
      have t4 : 0 ≤ m0 * Q0 := by positivity
      rcases mul_nonneg_iff.mp hcon with ⟨p, q⟩ | ⟨p, q⟩
      · have : 0 ≤ n1 * h1 := by positivity
        have : 0 ≤ m1 * Q1 := by positivity
        linarith
      · have : a1 * h1 ≤ 0 := mul_nonpos_of_nonneg_of_nonpos ha1.le p
        have : k * Q1 ≤ 0 := mul_nonpos_of_nonneg_of_nonpos hk.le q
        linarith
    · have hQ : Q0 ≤ 0 := by
        by_contra hq
        rw [not_le] at hq
        linarith [mul_pos hpos hq]
      have t1 : 0 < a0 * h0 := mul_pos ha0 hpos
      have t2 : k * Q0 ≤ 0 := mul_nonpos_of_nonneg_of_nonpos hk.le hQ
      have t3 : n0 * h0 < 0 := mul_neg_of_neg_of_pos hn0 hpos
      have t4 : m0 * Q0 ≤ 0 := mul_nonpos_of_nonneg_of_nonpos hm0.le hQ
      rcases mul_nonneg_iff.mp hcon with ⟨p, q⟩ | ⟨p, q⟩
      · have : 0 ≤ a1 * h1 := by positivity
        have : 0 ≤ k * Q1 := by positivity
        linarith
      · have : n1 * h1 ≤ 0 := mul_nonpos_of_nonneg_of_nonpos hn1.le p
        have : m1 * Q1 ≤ 0 := mul_nonpos_of_nonneg_of_nonpos hm1.le q
        linarith

/-- Coefficients of the homogeneous equations of a reach with the signs of `cone_step`. -/
structure Coefs where
  a0 : ℝ
  a1 : ℝ
  k : ℝ
  m0 : ℝ
  m1 : ℝ
  n0 : ℝ
  n1 : ℝ

structure Coefs.Good (c : Coefs) : Prop where
  a0 : 0 < c.a0
  a1 : 0 < c.a1
  k : 0 < c.k
  m0 : 0 < c.m0
  m1 : 0 < c.m1
  n0 : c.n0 < 0
  n1 : 0 < c.n1

theorem cone_chain (c : ℕ → Coefs) (h Q : ℕ → ℝ) (hQ : Q 0 = 0) (n : ℕ) (hg : ∀ r < n + 1, (c r).Good)
    (e1 : ∀ r < n + 1, (c r).a0 * h r + (c r).a1 * h (r+1) + (c r).k * (Q (r+1) - Q r) = 0)
    (e2 : ∀ r < n + 1, (c r).n0 * h r + (c r).n1 * h (r+1) + (c r).m0 * Q r + (c r).m1 * Q (r+1) = 0) :
    (∀ i ≤ n + 1, h i = 0 ∧ Q i = 0) ∨ h (n+1) * Q (n+1) < 0 := by
  induction n with
  | zero =>
    obtain ⟨g1, g2, g3, g4, g5, g6, g7⟩ := hg 0 (by omega)
    have start : (h 0 = 0 ∧ Q 0 = 0) ∨ (h 0 ≠ 0 ∧ h 0 * Q 0 ≤ 0) := by
      by_cases h0 : h 0 = 0
      · exact Or.inl ⟨h0, hQ⟩
      · exact Or.inr ⟨h0, by rw [hQ, mul_zero]⟩
    rcases cone_step g1 g2 g3 g4 g5 g6 g7 (e1 0 (by omega)) (e2 0 (by omega)) start with ⟨a, b⟩ | b
    · left
      intro i hi
      have : i = 0 ∨ i = 1 := by omega
      rcases this with rfl | rfl
      · exact a
      · exact b
    · exact Or.inr b
  | succ n ih =>
    obtain ⟨g1, g2, g3, g4, g5, g6, g7⟩ := hg (n+1) (by omega)
    have s := cone_step g1 g2 g3 g4 g5 g6 g7 (e1 (n+1) (by omega)) (e2 (n+1) (by omega))
    rcases ih (fun r hr => hg r (by omega)) (fun r hr => e1 r (by omega)) (fun r hr => e2 r (by omega)) with hz | hc
    · rcases s (Or.inl (hz (n+1) le_rfl)) with ⟨-, b⟩ | b
      · left
        intro i hi
        by_cases hi' : i ≤ n + 1
        · exact hz i hi'
        · have : i = n + 1 + 1 := by omega
          subst this
          exact b
      · exact Or.inr b
    · have hne : h (n+1) ≠ 0 := by
        intro h0
        rw [h0, zero_mul] at hc
        exact lt_irrefl _ hc
      rcases s (Or.inr ⟨hne, hc.le⟩) with ⟨⟨a, -⟩, -⟩ | b
      · exact absurd a hne
      · exact Or.inr b

/-! ## Rows of the matrix -/

theorem place4 (s : ℕ) (a b c d : ℝ) (j : ℕ) :
    place 0 s [a, b, c, d] j = (if j = s then a else 0) + (if j = s + 1 then b else 0) + (if j = s + 2 then c else 0) + (if j = s + 3 then d else 0) := by
  unfold place
  by_cases h : s ≤ j
  · obtain ⟨k, rfl⟩ := Nat.exists_eq_add_of_le h
    rw [if_pos h, show s + k - s = k by omega]
    match k with
    | 0 => simp
    | 1 => simp
    | 2 => simp
    | 3 => simp
    | k + 4 => simp
  · rw [if_neg h, if_neg (by omega), if_neg (by omega), if_neg (by omega), if_neg (by omega)]
    simp

theorem place2 (s : ℕ) (a b : ℝ) (j : ℕ) : place 0 s [a, b] j = (if j = s then a else 0) + (if j = s + 1 then b else 0) := by
  unfold place
  by_cases h : s ≤ j
  · obtain ⟨k, rfl⟩ := Nat.exists_eq_add_of_le h
    rw [if_pos h, show s + k - s = k by omega]
    match k with
    | 0 => simp
    | 1 => simp
    | k + 2 => simp
  · rw [if_neg h, if_neg (by omega), if_neg (by omega)]
    simp

theorem sum_single (n s : ℕ) (hs : s < n) (a : ℝ) (y : ℕ → ℝ) : ∑ j ∈ range n, (if j = s then a else 0) * y j = a * y s := by
  simp only [ite_mul, zero_mul]
  rw [Finset.sum_ite_eq' (range n) s (fun j => a * y j), if_pos (Finset.mem_range.mpr hs)]

theorem sum_place4 (n s : ℕ) (hs : s + 3 < n) (a b c d : ℝ) (y : ℕ → ℝ) :
    ∑ j ∈ range n, place 0 s [a, b, c, d] j * y j = a * y s + b * y (s+1) + c * y (s+2) + d * y (s+3) := by
  simp only [place4, add_mul, Finset.sum_add_distrib]
  rw [sum_single n s (by omega), sum_single n (s+1) (by omega), sum_single n (s+2) (by omega), sum_single n (s+3) (by omega)]

theorem sum_place2 (n s : ℕ) (hs : s + 1 < n) (a b : ℝ) (y : ℕ → ℝ) : ∑ j ∈ range n, place 0 s [a, b] j * y j = a * y s + b * y (s+1) := by
  simp only [place2, add_mul, Finset.sum_add_distrib]
  rw [sum_single n s (by omega), sum_single n (s+1) (by omega)]

variable (p : PrePars) (st : PreStat) (N : ℕ) (Closed : Bool) (x : ℕ → ℝ)

theorem row_us (hN : 2 ≤ N) (y : ℕ → ℝ) :
    ∑ j ∈ range (2*N), jacR p st N Closed x (fun v => v) 0 j * y j = x 1 * st.B 0 * y 0 + x 0 * st.B 0 * y 1 := by
  unfold jacR systemMatrix
  simp only [if_true]
  exact sum_place2 _ 0 (by omega) _ _ y

theorem row_ds (hN : 2 ≤ N) (y : ℕ → ℝ) :
    ∑ j ∈ range (2*N), jacR p st N Closed x (fun v => v) (2*N-1) j * y j =
      (if Closed then x (2*N-1) else 1) * y (2*N-2) + (if Closed then x (2*N-2) else 0) * y (2*N-1) := by
  unfold jacR systemMatrix
  simp only [if_neg (show ¬ 2*N-1 = 0 by omega), if_true]
  rw [sum_place2 _ (2*N-2) (by omega), show 2*N-2+1 = 2*N-1 by omega]

theorem row_cont (r : ℕ) (hr : r < N - 1) (y : ℕ → ℝ) :
    ∑ j ∈ range (2*N), jacR p st N Closed x (fun v => v) (2*r+1) j * y j =
      (derivR p st x (fun v => v) r).ch0 * y (2*r) + (derivR p st x (fun v => v) r).cv0 * y (2*r+1)
        + (derivR p st x (fun v => v) r).ch1 * y (2*r+2) + (derivR p st x (fun v => v) r).cv1 * y (2*r+3) := by
  unfold jacR systemMatrix
  simp only [if_neg (show ¬ 2*r+1 = 0 by omega), if_neg (show ¬ 2*r+1 = 2*N-1 by omega), if_pos (show (2*r+1) % 2 = 1 by omega),
    show 2*r+1-1 = 2*r by omega, show 2*r/2 = r by omega]
  exact sum_place4 _ (2*r) (by omega) _ _ _ _ y

theorem row_mom (r : ℕ) (hr : r < N - 1) (y : ℕ → ℝ) :
    ∑ j ∈ range (2*N), jacR p st N Closed x (fun v => v) (2*r+2) j * y j =
      (derivR p st x (fun v => v) r).mh0 * y (2*r) + (derivR p st x (fun v => v) r).mv0 * y (2*r+1)
        + (derivR p st x (fun v => v) r).mh1 * y (2*r+2) + (derivR p st x (fun v => v) r).mv1 * y (2*r+3) := by
  unfold jacR systemMatrix
  simp only [if_neg (show ¬ 2*r+2 = 0 by omega), if_neg (show ¬ 2*r+2 = 2*N-1 by omega), if_neg (show ¬ (2*r+2) % 2 = 1 by omega),
    show 2*r+2-2 = 2*r by omega, show 2*r/2 = r by omega]
  exact sum_place4 _ (2*r) (by omega) _ _ _ _ y

/-- The coefficients in terms of the corrections of depth and discharge. -/
noncomputable def coefs (r : ℕ) : Coefs :=
  let d := derivR p st x (fun v => v) r
  let m0 := 1 - 4 * p.Beta * st.dtdx r * p.Theta * x (2*r+1) + 2 * (p.g * p.dt * p.Theta) * sfR p (x (2*r)) (x (2*r+1)) / x (2*r+1)
  let m1 := 1 + 4 * p.Beta * st.dtdx r * p.Theta * x (2*r+3) + 2 * (p.g * p.dt * p.Theta) * sfR p (x (2*r+2)) (x (2*r+3)) / x (2*r+3)
  { a0 := st.Be r + st.SeepLen r * (p.dt * p.P * p.Theta)
    a1 := st.Be (r+1) + st.SeepLen r * (p.dt * p.P * p.Theta)
    k := 2 * st.dtdx r * p.Theta
    m0 := m0
    m1 := m1
    n0 := d.mh0 - m0 * (x (2*r+1) * st.B r)
    n1 := d.mh1 - m1 * (x (2*r+3) * st.B (r+1)) }

/-- Correction of the discharge. -/
def dQ (y : ℕ → ℝ) (k : ℕ) : ℝ := x (2*k+1) * st.B k * y (2*k) + x (2*k) * st.B k * y (2*k+1)

theorem cont_coefs (r : ℕ) (y : ℕ → ℝ) :
    (derivR p st x (fun v => v) r).ch0 * y (2*r) + (derivR p st x (fun v => v) r).cv0 * y (2*r+1)
        + (derivR p st x (fun v => v) r).ch1 * y (2*r+2) + (derivR p st x (fun v => v) r).cv1 * y (2*r+3) =
    (coefs p st x r).a0 * y (2*r) + (coefs p st x r).a1 * y (2*(r+1)) + (coefs p st x r).k * (dQ st x y (r+1) - dQ st x y r) := by
  simp only [derivR, coefs, dQ, show 2*(r+1) = 2*r+2 by ring, show 2*r+2+1 = 2*r+3 by ring]
  ring

theorem mom_coefs (r : ℕ) (y : ℕ → ℝ) :
    (derivR p st x (fun v => v) r).mh0 * y (2*r) + (derivR p st x (fun v => v) r).mv0 * y (2*r+1)
        + (derivR p st x (fun v => v) r).mh1 * y (2*r+2) + (derivR p st x (fun v => v) r).mv1 * y (2*r+3) =
    (coefs p st x r).n0 * y (2*r) + (coefs p st x r).n1 * y (2*(r+1)) + (coefs p st x r).m0 * dQ st x y r
      + (coefs p st x r).m1 * dQ st x y (r+1) := by
  simp only [coefs, dQ, show 2*(r+1) = 2*r+2 by ring, show 2*r+2+1 = 2*r+3 by ring]
  simp only [derivR]
  ring

/-- The depths and velocities as the vector of unknowns. -/
def interleave (h V : ℕ → ℝ) (i : ℕ) : ℝ := if i % 2 = 0 then h (i/2) else V (i/2)

theorem interleave_h (h V : ℕ → ℝ) (k : ℕ) : interleave h V (2*k) = h k := by
  unfold interleave
  rw [if_pos (by omega), show 2*k/2 = k by omega]

theorem interleave_V (h V : ℕ → ℝ) (k : ℕ) : interleave h V (2*k+1) = V k := by
  unfold interleave
  rw [if_neg (by omega), show (2*k+1)/2 = k by omega]

theorem sf_div {h V : ℝ} (hh : 0 < h) (hV : V ≠ 0) : 0 ≤ sfR p h V / V := by
  unfold sfR
  have e : V * |V| * p.n ^ 2 / h ^ (4/3 : ℝ) / V = |V| * p.n ^ 2 / h ^ (4/3 : ℝ) := by
    field_simp
  rw [e]
  have := Real.rpow_pos_of_pos hh (4/3)
  positivity

theorem dx2_pos (hN : 2 ≤ N) (dx : ℕ → ℝ) (hdx : ∀ r < N - 1, 0 < dx r) (k : ℕ) (hk : k < N) : 0 < dx2R N dx k := by
  unfold dx2R
  split
  · exact hdx 0 (by omega)
  split
  · exact hdx _ (by omega)
  · have a := hdx (k-1) (by omega)
    have b := hdx k (by omega)
    linarith

theorem coefs_good (hN : 2 ≤ N) (c : ℕ → ChanNode ℝ) (dx : ℕ → ℝ) (hdx : ∀ r < N - 1, 0 < dx r) (C1 C2 : ℕ → ℝ)
    (hB : ∀ k < N, 0 < (c k).B) (hA : ∀ k < N, 0 ≤ (c k).LagArea) (hL : ∀ k < N, 0 ≤ (c k).LagLen)
    (hg : 0 ≤ p.g) (hth : 0 < p.Theta) (hdt : 0 < p.dt) (hP : 0 ≤ p.P) (h V : ℕ → ℝ) (hh : ∀ k < N, 0 < h k)
    (hV : ∀ k < N, V k ≠ 0) (r : ℕ) (hr : r < N - 1)
    (hc : Calm p.g p.n p.Beta p.Theta p.dt ⟨fun k => (c k).z, fun k => (c k).B, fun k => (c k).LagLen, h, V, dx⟩ r) :
    (coefs p (statOf p N c dx C1 C2) (interleave h V) r).Good := by
  have hd := hdx r hr
  have e2 : interleave h V (2*r+2) = h (r+1) := interleave_h h V (r+1)
  have e3 : interleave h V (2*r+3) = V (r+1) := interleave_V h V (r+1)
  have hq : 0 < p.dt / dx r * p.Theta := by positivity
  have hs : 0 ≤ ((c r).LagLen + (c (r+1)).LagLen) / (2 * dx r) * (p.dt * p.P * p.Theta) := by
    have := hL r (by omega)
    have := hL (r+1) (by omega)
    positivity
  have hBe : ∀ k < N, 0 < (c k).B + (c k).LagArea / dx2R N dx k := by
    intro k hk
    have := hB k hk
    have := hA k hk
    have := dx2_pos N hN dx hdx k hk
    positivity
  have s0 : 0 ≤ 2 * (p.g * p.dt * p.Theta) * sfR p (h r) (V r) / V r := by
    rw [mul_div_assoc]
    have := sf_div p (hh r (by omega)) (hV r (by omega))
    positivity
  have s1 : 0 ≤ 2 * (p.g * p.dt * p.Theta) * sfR p (h (r+1)) (V (r+1)) / V (r+1) := by
    rw [mul_div_assoc]
    have := sf_div p (hh (r+1) (by omega)) (hV (r+1) (by omega))
    positivity
  have f0 : V r * (2 * (p.g * p.dt * p.Theta) * sfR p (h r) (V r) / V r) = 2 * (p.g * p.dt * p.Theta) * sfR p (h r) (V r) := by
    have := hV r (by omega)
    field_simp
  have f1 : V (r+1) * (2 * (p.g * p.dt * p.Theta) * sfR p (h (r+1)) (V (r+1)) / V (r+1)) =
      2 * (p.g * p.dt * p.Theta) * sfR p (h (r+1)) (V (r+1)) := by
    have := hV (r+1) (by omega)
    field_simp
  obtain ⟨c1, c2, c3, c4⟩ := hc
  simp only [Flow.area, Flow.friction] at c1 c2 c3 c4
  have t1 : 4 * p.Beta * (p.dt / dx r) * p.Theta * V r < 1 := by
    have : 4 * p.Beta * (p.dt / dx r) * p.Theta * V r = 4 * p.Beta * (p.Theta * p.dt) * V r / dx r := by ring
    rw [this, div_lt_one hd]
    exact c1
  have t2 : -(4 * p.Beta * (p.dt / dx r) * p.Theta * V (r+1)) < 1 := by
    have : -(4 * p.Beta * (p.dt / dx r) * p.Theta * V (r+1)) = 4 * p.Beta * (p.Theta * p.dt) * (-V (r+1)) / dx r := by ring
    rw [this, div_lt_one hd]
    exact c2
  refine ⟨?_, ?_, ?_, ?_, ?_, ?_, ?_⟩
  · simp only [coefs, statOf]
    linarith [hBe r (by omega)]
  · simp only [coefs, statOf]
    linarith [hBe (r+1) (by omega)]
  · simp only [coefs, statOf]
    linarith
  · simp only [coefs, statOf, interleave_h, interleave_V]
    linarith
  · simp only [coefs, statOf, e2, e3]
    linarith
  · simp only [coefs, derivR, statOf, interleave_h, interleave_V, e2]
    generalize hX : 2 * (p.g * p.dt * p.Theta) * sfR p (h r) (V r) / V r = X at f0
    have hz : p.g * p.dt * p.Theta * (c r).B * (((c r).z - (c (r+1)).z) / dx r + 1/3 * sfR p (h r) (V r)) =
        p.dt / dx r * p.Theta * (p.g * ((c r).B * ((c r).z - (c (r+1)).z + dx r * (1/3 * sfR p (h r) (V r))))) := by
      field_simp
    have hw : 2 * (p.g * p.dt * p.Theta) * sfR p (h r) (V r) = p.dt / dx r * p.Theta * (p.g * (dx r * (2 * sfR p (h r) (V r)))) := by
      field_simp
    have hsf : p.n ^ 2 * (V r * |V r|) / h r ^ (4/3 : ℝ) = sfR p (h r) (V r) := by unfold sfR; ring
    rw [hsf] at c3
    have key := mul_lt_mul_of_pos_left c3 hq
    rw [hz]
    have := f0.trans hw
    linear_combination key - (c r).B * this
  · simp only [coefs, derivR, statOf, interleave_h, e2, e3]
    generalize hX : 2 * (p.g * p.dt * p.Theta) * sfR p (h (r+1)) (V (r+1)) / V (r+1) = X at f1
    have hz : p.g * p.dt * p.Theta * (c (r+1)).B * (((c r).z - (c (r+1)).z) / dx r + 1/3 * sfR p (h (r+1)) (V (r+1))) =
        p.dt / dx r * p.Theta * (p.g * ((c (r+1)).B * ((c r).z - (c (r+1)).z + dx r * (1/3 * sfR p (h (r+1)) (V (r+1)))))) := by
      field_simp
    have hw : 2 * (p.g * p.dt * p.Theta) * sfR p (h (r+1)) (V (r+1)) =
        p.dt / dx r * p.Theta * (p.g * (dx r * (2 * sfR p (h (r+1)) (V (r+1))))) := by
      field_simp
    have hsf : p.n ^ 2 * (V (r+1) * |V (r+1)|) / h (r+1) ^ (4/3 : ℝ) = sfR p (h (r+1)) (V (r+1)) := by unfold sfR; ring
    rw [hsf] at c4
    have key := mul_lt_mul_of_pos_left c4 hq
    rw [hz]
    have := f1.trans hw
    linear_combination key + (c (r+1)).B * this

/-- Only zero corrections leave all residuals as they are. -/
theorem kernel_zero (hN : 2 ≤ N) (hx : ∀ k < N, 0 < x (2*k)) (hB : ∀ k < N, 0 < st.B k) (hg : ∀ r < N - 1, (coefs p st x r).Good) (y : ℕ → ℝ)
    (h : ∀ i < 2 * N, ∑ j ∈ range (2*N), jacR p st N Closed x (fun v => v) i j * y j = 0) : ∀ j < 2 * N, y j = 0 := by
  obtain ⟨n, rfl⟩ : ∃ n, N = n + 2 := ⟨N - 2, by omega⟩
  have hus := h 0 (by omega)
  rw [row_us p st (n+2) Closed x hN y] at hus
  have hds := h (2*(n+2)-1) (by omega)
  rw [row_ds p st (n+2) Closed x hN y, show 2*(n+2)-1 = 2*(n+1)+1 by omega, show 2*(n+2)-2 = 2*(n+1) by omega] at hds
  have key := cone_chain (coefs p st x) (fun k => y (2*k)) (dQ st x y) (by unfold dQ; simpa using hus) n (fun r hr => hg r (by omega))
    (fun r hr => by
      have := h (2*r+1) (by omega)
      rw [row_cont p st (n+2) Closed x r (by omega), cont_coefs] at this
      exact this)
    (fun r hr => by
      have := h (2*r+2) (by omega)
      rw [row_mom p st (n+2) Closed x r (by omega), mom_coefs] at this
      exact this)
  have hz : ∀ i ≤ n + 1, y (2*i) = 0 ∧ dQ st x y i = 0 := by
    rcases key with hz | hc
    · exact hz
    · exfalso
      cases Closed with
      | false =>
        simp only [Bool.false_eq_true, if_false, one_mul, zero_mul, add_zero] at hds
        rw [hds, zero_mul] at hc
        exact lt_irrefl _ hc
      | true =>
        simp only [if_true] at hds
        have : dQ st x y (n+1) = 0 := by
          have e : dQ st x y (n+1) = st.B (n+1) * (x (2*(n+1)+1) * y (2*(n+1)) + x (2*(n+1)) * y (2*(n+1)+1)) := by
            unfold dQ; ring
          rw [e, hds, mul_zero]
        rw [this, mul_zero] at hc
        exact lt_irrefl _ hc
  intro j hj
  obtain ⟨k, hk⟩ : ∃ k, j = 2*k ∨ j = 2*k+1 := ⟨j/2, by omega⟩
  have hk' : k ≤ n + 1 := by omega
  obtain ⟨z1, z2⟩ := hz k hk'
  rcases hk with rfl | rfl
  · exact z1
  · unfold dQ at z2
    rw [z1, mul_zero, zero_add] at z2
    have h1 := hx k (by omega)
    have h2 := hB k (by omega)
    rcases mul_eq_zero.mp z2 with h3 | h3
    · exact absurd h3 (by positivity)
    · exact h3

/-- A square system whose homogeneous form has only the zero solution has exactly one solution for every right-hand
side. -/
theorem solvable (n : ℕ) (J : ℕ → ℕ → ℝ) (hJ : ∀ y : ℕ → ℝ, (∀ i < n, ∑ j ∈ range n, J i j * y j = 0) → ∀ j < n, y j = 0) (b : ℕ → ℝ) :
    ∃ y : ℕ → ℝ, ∀ i < n, ∑ j ∈ range n, J i j * y j = b i := by
  let A : Matrix (Fin n) (Fin n) ℝ := fun i j => J i j
  have inj : Function.Injective A.mulVecLin := by
    rw [injective_iff_map_eq_zero]
    intro v hv
    have := hJ (fun j => if h : j < n then v ⟨j, h⟩ else 0) (by
      intro i hi
      rw [Finset.sum_range]
      have := congrFun hv ⟨i, hi⟩
      rw [Matrix.mulVecLin_apply] at this
      simpa [A, Matrix.mulVec, dotProduct] using this)
    funext j
    simpa using this j j.2
  obtain ⟨v, hv⟩ := (LinearMap.injective_iff_surjective.mp inj) (fun i => b i)
  refine ⟨fun j => if h : j < n then v ⟨j, h⟩ else 0, fun i hi => ?_⟩
  rw [Finset.sum_range]
  have := congrFun hv ⟨i, hi⟩
  rw [Matrix.mulVecLin_apply] at this
  simpa [A, Matrix.mulVec, dotProduct] using this

end Verif.Model
