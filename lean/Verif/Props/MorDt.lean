import Verif.Lemmas.MorDt
import Verif.Props.MorSample

set_option autoImplicit false
set_option linter.unusedSectionVars false

/-! # Properties C32 and C33: the adaptive timestep -/

namespace Verif.Props
open Verif Verif.Model Fl

variable {K : Type} [Field K] [LinearOrder K] [IsStrictOrderedRing K]

/-- C32: with MorDtMin = `m` s, MorDtMax = `m * 2^j` s below one day and a step of `m * 2^k` s between them, the
adaptation terminates with a step `m * 2^i` s between them, and the limiter that follows, with its
assertion, does not fail, whatever the rates and the limit. -/
theorem C32_adaptive (rate : Fl K) (lim : K) (m j k : ℕ) (hm : 0 < m) (hkj : k ≤ j) (hj : m * 2 ^ j < 86400) :
    ∃ i ≤ j, adaptDt rate lim (sec m) (sec (m * 2 ^ j)) (sec (m * 2 ^ k)) = .ok (sec (m * 2 ^ i)) ∧
      (sec m ≤ sec (m * 2 ^ i) ∧ sec (m * 2 ^ i) ≤ sec (m * 2 ^ j)) ∧
      ∀ R : Rates K, ∃ R', limitRates rate lim (sec m) (sec (m * 2 ^ i)) R = .ok R' := by
  obtain ⟨i, hi, h1, h2⟩ := adapt_pow rate lim m j k hm hkj hj
  have hle : m * 2 ^ i ≤ m * 2 ^ j := Nat.mul_le_mul_left _ (Nat.pow_le_pow_right (by norm_num) hi)
  have hge : m ≤ m * 2 ^ i := Nat.le_mul_of_pos_right _ (by positivity)
  refine ⟨i, hi, h1, ⟨?_, ?_⟩, ?_⟩
  · unfold sec
    have : (m : ℤ) ≤ ((m * 2 ^ i : ℕ) : ℤ) := by exact_mod_cast hge
    omega
  · unfold sec
    have : ((m * 2 ^ i : ℕ) : ℤ) ≤ ((m * 2 ^ j : ℕ) : ℤ) := by exact_mod_cast hle
    omega
  · intro R
    unfold limitRates
    rw [secs_sec (by omega : m * 2 ^ i < 86400), secs_sec (by omega : m < 86400), Int.cast_natCast]
    cases hc : (fin lim <? rate * fin ((m * 2 ^ i : ℕ) : K)) with
    | false => exact ⟨R, rfl⟩
    | true =>
      have := h2 hc
      subst this
      have hne : ¬ ((m * 2 ^ 0 : ℕ) : ℤ) = 0 := by
        simp; omega
      simp only [if_true, bind_ok, pyAssert_ok, if_neg hne]
      exact ⟨_, (), by simp, rfl⟩

/-- C32 for the whole function: whenever it returns, the step it returns is of that form. -/
theorem C32_whole (pp : PhysPars K) (j1 j2 : ℕ → Bool) (a : MorIn K) (o : MorOut K) (m j k : ℕ) (hm : 0 < m) (hkj : k ≤ j)
    (hj : m * 2 ^ j < 86400) (hmin : a.MorDtMin = sec m) (hmax : a.MorDtMax = sec (m * 2 ^ j)) (hdt : a.MorDt = sec (m * 2 ^ k))
    (h : updateMorphology pp j1 j2 a = .ok o) : ∃ i ≤ j, o.MorDt = sec (m * 2 ^ i) := by
  obtain ⟨rate, R, R', hd, _, _⟩ := update_dt h
  obtain ⟨i, hi, h1, _⟩ := C32_adaptive rate a.MaxMorChange m j k hm hkj hj
  rw [hmin, hmax, hdt, h1] at hd
  exact ⟨i, hi, (ok_inj.mp hd).symm⟩

/-- Concrete case: 30 s, 60 s, 240 s; a low rate gives 240 s, a high one 30 s. -/
example : moIn.MorDtMin = sec 30 ∧ moIn.MorDtMax = sec (30 * 2 ^ 3) ∧ moIn.MorDt = sec (30 * 2 ^ 1) := by decide
example : adaptDt (fin (1/1000000) : Fl ℚ) (1/4) (sec 30) (sec 240) (sec 60) = .ok (sec 240) := by decide +kernel
example : adaptDt (fin 1 : Fl ℚ) (1/4) (sec 30) (sec 240) (sec 60) = .ok (sec 30) := by decide +kernel

/-- C33 is false: MorDtMin 10 s, MorDtMax 15 s and a step of 10 s, with slow change, gives a step of
20 s, above MorDtMax. -/
theorem C33_refuted_above :
    ∃ o, updateMorphology moPP cleanMem cleanMem
        { moIn with MorDtMin := sec 10, MorDtMax := sec 15, MorDt := sec 10 } = .ok o ∧ sec 15 < o.MorDt :=
  ok_witness (fun o : MorOut ℚ => sec 15 < o.MorDt) (by decide +kernel)

/-- C33 is false: MorDtMin 10 s and a step of 15 s, with fast change, gives a step of 7.5 s, below
MorDtMin. -/
theorem C33_refuted_below :
    ∃ o, updateMorphology moPP cleanMem cleanMem
        { moIn with MorDtMin := sec 10, MorDtMax := sec 15, MorDt := sec 15, MaxMorChange := 1/1000 } = .ok o ∧ o.MorDt < sec 10 :=
  ok_witness (fun o : MorOut ℚ => o.MorDt < sec 10) (by decide +kernel)

/-- C33, the part that holds: with MorDtMax at most 12 hours the adaptation terminates, and the step is at
least half MorDtMin and less than twice MorDtMax.  Missing: the bounds themselves, refuted above. -/
theorem C33_partial (rate : Fl K) (lim : K) (dtMin dtMax dt : ℤ) (h0 : 0 < dtMin) (h1 : dtMin ≤ dt) (h2 : dt ≤ dtMax)
    (h3 : dtMax ≤ sec 43200) :
    ∃ dt', adaptDt rate lim dtMin dtMax dt = .ok dt' ∧ dtMin ≤ 2 * dt' ∧ dt' < 2 * dtMax :=
  adapt_bounds rate lim dtMin dtMax dt h0 h1 h2 h3

/-- Concrete case: the two refutations meet the hypotheses, with steps of 20 s and 7.5 s. -/
example : adaptDt (fin (1/1000000) : Fl ℚ) (1/4) (sec 10) (sec 15) (sec 10) = .ok (sec 20) ∧
    adaptDt (fin 1 : Fl ℚ) (1/4) (sec 10) (sec 15) (sec 15) = .ok 7500000000 := by decide +kernel

end Verif.Props
