import Verif.Spec.Trade
import Verif.Lemmas.Scale
import Verif.Props.Budget

set_option autoImplicit false
set_option linter.unusedSectionVars false

/-! # C171: a slower transport for a longer time -/

namespace Verif.Props
open Verif Verif.Model Verif.Spec Fl

variable {K : Type} [Field K] [LinearOrder K] [IsStrictOrderedRing K]

theorem over_eq (c : ℕ) (hc : 0 < c) (v : Fl K) : v / fin (c : K) = sc (1 / (c : K)) v := by
  have h : (0 : K) < c := by exact_mod_cast hc
  cases v with
  | nan => rfl
  | ninf =>
    show (if (0:K) ≤ c then ninf else pinf : Fl K) = ninf
    rw [if_pos h.le]
  | pinf =>
    show (if (0:K) ≤ c then pinf else ninf : Fl K) = pinf
    rw [if_pos h.le]
  | fin x => rw [div_fin _ _ h.ne', sc_fin]; congr 1; ring

/-- **C171** (partial: a closed lagoon, or no transport to the left at the outlet end; timesteps as in C32 that are less than a day also when `c` times as long).  A morphological step with a
`c`-th of all transport and `c` times the timesteps does to the coast what the step does, and its timestep is `c` times the other; if the one raises an error, so does the other.
No assumption is made on the numbers: some may be infinite or nan. -/
theorem C171_partial (pp : PhysPars K) (j1 j2 : ℕ → Bool) (a : MorIn K) (c m j k : ℕ) (hc : 0 < c) (hm : 0 < m) (hkj : k ≤ j) (hj : c * m * 2 ^ j < 86400)
    (hmin : a.MorDtMin = Model.sec m) (hmax : a.MorDtMax = Model.sec (m * 2 ^ j)) (hdt : a.MorDt = Model.sec (m * 2 ^ k)) (hn : a.Closed = false → NoneToTheLeft a) :
    updateMorphology (SlowedPars c pp) j1 j2 (Slowed c a) = (updateMorphology pp j1 j2 a).map (fun o => { o with MorDt := c * o.MorDt }) := by
  have hcK : (0 : K) < c := by exact_mod_cast hc
  have e1 : SlowedPars c pp = slowPars (1 / (c : K)) pp := by
    unfold SlowedPars slowPars
    congr 1
    ring
  have e2 : Slowed c a = slow (1 / (c : K)) a (Model.sec (c * m)) (Model.sec (c * m * 2 ^ j)) (Model.sec (c * m * 2 ^ k)) := by
    unfold Slowed slow
    have hf : (fun v : Fl K => v / fin (c : K)) = sc (1 / (c : K)) := funext (over_eq c hc)
    have t : ∀ n : ℕ, (c : ℤ) * Model.sec n = Model.sec (c * n) := by intro n; unfold Model.sec; push_cast; ring
    rw [hf, hmin, hmax, hdt, t, t, t, mul_assoc c m, mul_assoc c m]
  rw [e1, e2]
  refine update_slow (1 / (c : K)) (by positivity) pp a j1 j2 m j k c hm hc (by field_simp) hkj hj hmin hmax hdt ?_
  intro hcl rb hrb l hl
  obtain ⟨⟨r, h1, h2⟩, h3⟩ := firstIx_ok.mp hrb
  exact hn hcl rb r h1 h2 h3 l hl

/-- Concrete case: the open lagoon of `brIn` with the transport and retreat a third as fast, for three times as long. -/
example : brIn.MorDtMin = Model.sec 30 ∧ brIn.MorDtMax = Model.sec (30 * 2 ^ 3) ∧ brIn.MorDt = Model.sec (30 * 2 ^ 1) ∧ NoneToTheLeft brIn := by
  refine ⟨by decide, by decide, by decide, ?_⟩
  intro i r _ _ _ l hl
  have : ∀ v ∈ brIn.LST, (v <? fin 0) = false := by decide +kernel
  exact this l (List.mem_of_getElem? hl)
example : okAnd (updateMorphology moPP cleanMem cleanMem brIn) (fun o => okAnd (updateMorphology (SlowedPars 3 moPP) cleanMem cleanMem (Slowed 3 brIn)) (fun o' =>
    decide (o.rows = o'.rows ∧ o.EndX1 = o'.EndX1 ∧ o'.MorDt = 3 * o.MorDt ∧ o.rows ≠ brIn.rows))) = true := by decide +kernel

/-- `brIn` with transport to the left. -/
def tradeIn : MorIn ℚ := { brIn with LST := List.replicate 8 (fin (-1/100)) }

/-- C171 is false of the code for an open lagoon with transport to the left at the outlet end: what mor.py 152 takes off the beach it takes off `ShoreY` at once, however long the step is
(the line lacks both the rate array and the timestep), so the beach left of the outlet is not where it should be after the slower step. -/
theorem C171_refuted : tradeIn.MorDtMin = Model.sec 30 ∧ tradeIn.MorDtMax = Model.sec (30 * 2 ^ 3) ∧ tradeIn.MorDt = Model.sec (30 * 2 ^ 1) ∧
    ∃ o o', updateMorphology moPP cleanMem cleanMem tradeIn = .ok o ∧ updateMorphology (SlowedPars 3 moPP) cleanMem cleanMem (Slowed 3 tradeIn) = .ok o' ∧ o'.MorDt = 3 * o.MorDt ∧ o.rows ≠ o'.rows := by
  refine ⟨by decide, by decide, by decide, ?_⟩
  have : okAnd (updateMorphology moPP cleanMem cleanMem tradeIn) (fun o => okAnd (updateMorphology (SlowedPars 3 moPP) cleanMem cleanMem (Slowed 3 tradeIn)) (fun o' =>
    decide (o'.MorDt = 3 * o.MorDt ∧ o.rows ≠ o'.rows))) = true := by decide +kernel
  obtain ⟨o, ho, h⟩ := okAnd_iff.mp this
  obtain ⟨o', ho', h⟩ := okAnd_iff.mp h
  exact ⟨o, o', ho, ho', of_decide_eq_true h⟩

end Verif.Props
