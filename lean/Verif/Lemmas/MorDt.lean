import Verif.Model.MorRepair
import Verif.Lemmas.Py

set_option autoImplicit false
set_option linter.unusedSectionVars false

/-! # Lemmas on the adaptive timestep -/

namespace Verif.Model
open Verif Fl

variable {K : Type} [Field K] [LinearOrder K] [IsStrictOrderedRing K]

/-- `n` whole seconds in nanoseconds. -/
abbrev sec (n : ℕ) : ℤ := (n : ℤ) * 1000000000

theorem secs_sec {n : ℕ} (h : n < 86400) : secs (sec n) = n := by
  unfold secs sec
  rw [Int.mul_ediv_cancel _ (by norm_num)]
  exact Int.emod_eq_of_lt (by omega) (by omega)

theorem tdiv_sec (n : ℕ) : (sec (2 * n)).tdiv 2 = sec n := by
  unfold sec
  have : ((2 * n : ℕ) : ℤ) * 1000000000 = 2 * (n * 1000000000) := by push_cast; ring
  rw [this, Int.mul_tdiv_cancel_left _ (by norm_num)]

theorem two_sec (n : ℕ) : 2 * sec n = sec (2 * n) := by
  unfold sec; push_cast; ring

/-- Halving from `m * 2^k` seconds stops at some `m * 2^i` with `i ≤ k` where the condition fails,
if it fails at `m`. -/
theorem halve_pow (cond : ℤ → Bool) (m : ℕ) (h0 : cond (sec m) = false) :
    ∀ (k f : ℕ), k < f → ∃ i ≤ k, halve cond f (sec (m * 2 ^ k)) = .ok (sec (m * 2 ^ i)) ∧ cond (sec (m * 2 ^ i)) = false := by
  intro k
  induction k with
  | zero =>
    intro f hf
    obtain ⟨g, rfl⟩ : ∃ g, f = g + 1 := ⟨f - 1, by omega⟩
    refine ⟨0, le_refl _, ?_, by simpa using h0⟩
    simp only [halve, pow_zero, mul_one, h0, Bool.false_eq_true, if_false]
  | succ k ih =>
    intro f hf
    obtain ⟨g, rfl⟩ : ∃ g, f = g + 1 := ⟨f - 1, by omega⟩
    have e : m * 2 ^ (k + 1) = 2 * (m * 2 ^ k) := by rw [pow_succ]; ring
    cases hc : cond (sec (m * 2 ^ (k + 1))) with
    | false =>
      refine ⟨k + 1, le_refl _, ?_, hc⟩
      rw [halve, hc]; rfl
    | true =>
      obtain ⟨i, hi, h1, h2⟩ := ih g (by omega)
      refine ⟨i, by omega, ?_, h2⟩
      rw [halve, hc, if_pos rfl, e, tdiv_sec, h1]

/-- Doubling from `m * 2^k` seconds stops at some `m * 2^i`, `k ≤ i ≤ j`, where the condition fails, if it fails
at `m * 2^j`; every step passed satisfied the condition. -/
theorem grow_pow (cond : ℤ → Bool) (m j : ℕ) (hj : m * 2 ^ j < 86400) (h0 : cond (sec (m * 2 ^ j)) = false) :
    ∀ (d k f : ℕ), k + d = j → d < f → ∃ i, k ≤ i ∧ i ≤ j ∧ grow cond f (sec (m * 2 ^ k)) = .ok (sec (m * 2 ^ i)) ∧
      cond (sec (m * 2 ^ i)) = false ∧ (k < i → cond (sec (m * 2 ^ (i - 1))) = true) := by
  intro d
  induction d with
  | zero =>
    intro k f hk hf
    obtain ⟨g, rfl⟩ : ∃ g, f = g + 1 := ⟨f - 1, by omega⟩
    have : k = j := by omega
    subst this
    refine ⟨k, le_refl _, le_refl _, ?_, h0, fun h => absurd h (lt_irrefl _)⟩
    rw [grow, h0]; rfl
  | succ d ih =>
    intro k f hk hf
    obtain ⟨g, rfl⟩ : ∃ g, f = g + 1 := ⟨f - 1, by omega⟩
    cases hc : cond (sec (m * 2 ^ k)) with
    | false =>
      refine ⟨k, le_refl _, by omega, ?_, hc, fun h => absurd h (lt_irrefl _)⟩
      rw [grow, hc]; rfl
    | true =>
      obtain ⟨i, h1, h2, h3, h4, h5⟩ := ih (k + 1) g (by omega) (by omega)
      refine ⟨i, by omega, h2, ?_, h4, ?_⟩
      · have e : 2 * (m * 2 ^ k) = m * 2 ^ (k + 1) := by rw [pow_succ]; ring
        have hle : m * 2 ^ (k + 1) ≤ m * 2 ^ j := Nat.mul_le_mul_left _ (Nat.pow_le_pow_right (by norm_num) (by omega))
        have hno : ¬ (2 : ℤ) ^ 63 ≤ |2 * sec (m * 2 ^ k)| := by
          rw [two_sec, e]
          unfold sec
          rw [abs_of_nonneg (by positivity)]
          have : ((m * 2 ^ (k + 1) : ℕ) : ℤ) < 86400 := by exact_mod_cast lt_of_le_of_lt hle hj
          have : (2 : ℤ) ^ 63 = 9223372036854775808 := by norm_num
          omega
        rw [grow, hc, if_pos rfl, if_neg hno, two_sec, e, h3]
      · intro _
        rcases Nat.lt_or_ge (k + 1) i with h | h
        · exact h5 h
        · have : i = k + 1 := by omega
          subst this
          simpa using hc

/-- Twice a value below half the limit is not above the limit. -/
theorem double_not_gt (rate : Fl K) (lim : K) (s : ℕ) (h : (rate * fin (s : K) <? fin (lim / 2)) = true) :
    (fin lim <? rate * fin ((2 * s : ℕ) : K)) = false := by
  have e : ((2 * s : ℕ) : K) = 2 * (s : K) := by push_cast; ring
  rw [e]
  rcases rate with _ | _ | _ | r
  · simp at h
  · rcases Nat.eq_zero_or_pos s with rfl | hs
    · simp only [Nat.cast_zero, mul_zero]
      show (fin lim <? infOfSign (-(0 : K))) = false
      simp [infOfSign]
    · have hs' : (0 : K) < s := by exact_mod_cast hs
      show (fin lim <? infOfSign (-(2 * (s : K)))) = false
      have : ¬ (0 : K) < -(2 * s) := by linarith
      have hne : -(2 * (s : K)) ≠ 0 := by intro h; linarith
      simp only [infOfSign, if_neg hne, if_neg this]
      rfl
  · rcases Nat.eq_zero_or_pos s with rfl | hs
    · simp only [Nat.cast_zero, mul_zero]
      show (fin lim <? infOfSign (0 : K)) = false
      simp [infOfSign]
    · exfalso
      have hs' : (0 : K) < s := by exact_mod_cast hs
      have : (pinf * fin (s : K) : Fl K) = pinf := by
        show infOfSign (s : K) = _
        simp only [infOfSign, if_neg (ne_of_gt hs'), if_pos hs']
      rw [this] at h
      cases h
  · simp only [mul_fin, blt_fin, decide_eq_true_eq, decide_eq_false_iff_not, not_lt] at h ⊢
    linarith

/-- The adaptation for steps that are `m` seconds times powers of two. -/
theorem adapt_pow (rate : Fl K) (lim : K) (m j k : ℕ) (hm : 0 < m) (hkj : k ≤ j) (hj : m * 2 ^ j < 86400) :
    ∃ i ≤ j, adaptDt rate lim (sec m) (sec (m * 2 ^ j)) (sec (m * 2 ^ k)) = .ok (sec (m * 2 ^ i)) ∧
      ((fin lim <? rate * fin ((m * 2 ^ i : ℕ) : K)) = true → i = 0) := by
  have hj17 : j < 17 := by
    by_contra h
    have : 2 ^ 17 ≤ 2 ^ j := Nat.pow_le_pow_right (by norm_num) (by omega)
    have : 2 ^ j ≤ m * 2 ^ j := Nat.le_mul_of_pos_left _ hm
    have : (2:ℕ) ^ 17 = 131072 := by norm_num
    omega
  have hlt : ∀ i ≤ j, m * 2 ^ i < 86400 := fun i hi =>
    lt_of_le_of_lt (Nat.mul_le_mul_left _ (Nat.pow_le_pow_right (by norm_num) hi)) hj
  have hs : ∀ i ≤ j, secs (sec (m * 2 ^ i)) = ((m * 2 ^ i : ℕ) : ℤ) := fun i hi => secs_sec (hlt i hi)
  have hsm : secs (sec m) = (m : ℤ) := by have := hs 0 (by omega); simpa using this
  unfold adaptDt
  set c1 : ℤ → Bool := fun dt => decide (secs (sec m) < secs dt) && (fin lim <? rate * fin (secs dt : K)) with hc1
  set c2 : ℤ → Bool := fun dt => decide (secs dt < secs (sec (m * 2 ^ j))) && (rate * fin (secs dt : K) <? fin (lim / 2)) with hc2
  obtain ⟨a, ha, h1, h2⟩ := halve_pow c1 m (by simp [hc1]) k 65 (by omega)
  obtain ⟨i, h3, h4, h5, h6, h7⟩ := grow_pow c2 m j hj (by simp [hc2]) (j - a) a 65 (by omega) (by omega)
  refine ⟨i, h4, ?_, ?_⟩
  · exact bind_ok.mpr ⟨_, h1, h5⟩
  · intro hgt
    rcases Nat.lt_or_ge a i with hai | hai
    · exfalso
      have h8 := h7 hai
      simp only [hc2, Bool.and_eq_true] at h8
      have h9 := h8.2
      rw [hs (i - 1) (by omega), Int.cast_natCast] at h9
      have := double_not_gt rate lim _ h9
      have e : 2 * (m * 2 ^ (i - 1)) = m * 2 ^ i := by
        obtain ⟨q, rfl⟩ : ∃ q, i = q + 1 := ⟨i - 1, by omega⟩
        rw [pow_succ]; simp; ring
      rw [e] at this
      rw [this] at hgt; cases hgt
    · have : i = a := by omega
      subst this
      simp only [hc1, hs i h4, hsm, Int.cast_natCast, hgt, Bool.and_true, decide_eq_false_iff_not, not_lt] at h2
      by_contra hi0
      have : 2 ≤ 2 ^ i := by
        calc 2 = 2 ^ 1 := by norm_num
          _ ≤ 2 ^ i := Nat.pow_le_pow_right (by norm_num) (by omega)
      have h2' : m * 2 ^ i ≤ m := by exact_mod_cast h2
      have : m * 2 ≤ m * 2 ^ i := Nat.mul_le_mul_left _ this
      omega

theorem secs_lt_of {a b : ℤ} (ha : 0 ≤ a) (hb : 0 ≤ b) (ha2 : a < sec 86400) (hb2 : b < sec 86400) (h : secs a < secs b) : a < b := by
  unfold secs sec at *
  have h1 : a / 1000000000 % 86400 = a / 1000000000 := Int.emod_eq_of_lt (by omega) (by omega)
  have h2 : b / 1000000000 % 86400 = b / 1000000000 := Int.emod_eq_of_lt (by omega) (by omega)
  rw [h1, h2] at h
  omega

theorem halve_bounds (cond : ℤ → Bool) (dtMin : ℤ) (h0 : 0 < dtMin) (hmin : dtMin < sec 86400)
    (hc : ∀ dt, cond dt = true → secs dtMin < secs dt) :
    ∀ (f : ℕ) (dt : ℤ), 0 < dt → dt < sec 86400 → dt < 2 ^ f → dtMin ≤ 2 * dt →
      ∃ dt', halve cond (f + 1) dt = .ok dt' ∧ 0 < dt' ∧ dt' ≤ dt ∧ dtMin ≤ 2 * dt' := by
  intro f
  induction f with
  | zero => intro dt h1 _ h2 _; exfalso; simp at h2; omega
  | succ f ih =>
    intro dt h1 h2 h3 h4
    rw [halve]
    cases hcd : cond dt with
    | false => exact ⟨dt, by simp, h1, le_refl _, h4⟩
    | true =>
      have hlt := secs_lt_of (le_of_lt h0) (le_of_lt h1) hmin h2 (hc dt hcd)
      have e : dt.tdiv 2 = dt / 2 := Int.tdiv_eq_ediv_of_nonneg (le_of_lt h1)
      rw [if_pos rfl, e]
      have hp : (2 : ℤ) ^ (f + 1) = 2 * 2 ^ f := by rw [pow_succ]; ring
      obtain ⟨dt', g1, g2, g3, g4⟩ := ih (dt / 2) (by omega) (by omega) (by omega) (by omega)
      exact ⟨dt', g1, g2, by omega, g4⟩

theorem grow_bounds (cond : ℤ → Bool) (dtMax : ℤ) (hmax : dtMax ≤ sec 43200)
    (hc : ∀ dt, cond dt = true → secs dt < secs dtMax) :
    ∀ (f : ℕ) (dt : ℤ), 0 < dt → dt < 2 * dtMax → 2 ^ 64 ≤ dt * 2 ^ f →
      ∃ dt', grow cond (f + 1) dt = .ok dt' ∧ dt ≤ dt' ∧ dt' < 2 * dtMax := by
  intro f
  induction f with
  | zero => intro dt h1 h2 h3; exfalso; unfold sec at hmax; simp at h3; omega
  | succ f ih =>
    intro dt h1 h2 h3
    rw [grow]
    cases hcd : cond dt with
    | false => exact ⟨dt, by simp, le_refl _, h2⟩
    | true =>
      unfold sec at hmax
      have hlt := secs_lt_of (le_of_lt h1) (by omega) (by unfold sec; omega) (by unfold sec; omega) (hc dt hcd)
      have hno : ¬ (2 : ℤ) ^ 63 ≤ |2 * dt| := by rw [abs_of_nonneg (by omega)]; omega
      rw [if_pos rfl, if_neg hno]
      have hp : dt * (2 : ℤ) ^ (f + 1) = 2 * dt * 2 ^ f := by rw [pow_succ]; ring
      obtain ⟨dt', g1, g2, g3⟩ := ih (2 * dt) (by omega) (by omega) (by rw [← hp]; exact h3)
      exact ⟨dt', g1, by omega, g3⟩

theorem adapt_bounds (rate : Fl K) (lim : K) (dtMin dtMax dt : ℤ) (h0 : 0 < dtMin) (h1 : dtMin ≤ dt) (h2 : dt ≤ dtMax)
    (h3 : dtMax ≤ sec 43200) :
    ∃ dt', adaptDt rate lim dtMin dtMax dt = .ok dt' ∧ dtMin ≤ 2 * dt' ∧ dt' < 2 * dtMax := by
  have h3' := h3
  unfold sec at h3'
  have hp : (2 : ℤ) ^ 64 = 18446744073709551616 := by norm_num
  obtain ⟨d1, g1, g2, g3, g4⟩ := halve_bounds (fun dt => decide (secs dtMin < secs dt) && (fin lim <? rate * fin (secs dt : K))) dtMin h0
    (by unfold sec; omega) (by intro dt h; simp only [Bool.and_eq_true, decide_eq_true_eq] at h; exact h.1) 64 dt (by omega)
    (by unfold sec; omega) (by omega) (by omega)
  obtain ⟨d2, k1, k2, k3⟩ := grow_bounds (fun dt => decide (secs dt < secs dtMax) && (rate * fin (secs dt : K) <? fin (lim / 2))) dtMax h3
    (by intro dt h; simp only [Bool.and_eq_true, decide_eq_true_eq] at h; exact h.1) 64 d1 g2 (by omega) (by omega)
  exact ⟨d2, bind_ok.mpr ⟨d1, g1, k1⟩, by omega, k3⟩

/-- A successful call returns the step computed by the adaptation from the largest rate. -/
theorem update_dt {pp : PhysPars K} {j1 j2 : ℕ → Bool} {a : MorIn K} {o : MorOut K} (h : updateMorphology pp j1 j2 a = .ok o) :
    ∃ (rate : Fl K) (R R' : Rates K), adaptDt rate a.MaxMorChange a.MorDtMin a.MorDtMax a.MorDt = .ok o.MorDt ∧
      maxRate R = .ok rate ∧ limitRates rate a.MaxMorChange a.MorDtMin o.MorDt R = .ok R' := by
  unfold updateMorphology at h
  simp only [bind_ok, pure_ok] at h
  obtain ⟨⟨dt, X0Ix, st⟩, hf, st1, _, ⟨b, st2⟩, _, st3, _, rfl⟩ := h
  unfold forceStage at hf
  simp only [bind_ok, pure_ok] at hf
  obtain ⟨⟨cells, x, rb⟩, _, ⟨R, cells'⟩, _, rate, hr, dt', hd, R', hl, st', _, he⟩ := hf
  cases he
  exact ⟨rate, R, R', hd, hr, hl⟩

end Verif.Model
