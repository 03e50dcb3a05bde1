import Mathlib.Analysis.SpecialFunctions.Log.Basic

set_option autoImplicit false

/-! # Specification: shot noise -/

namespace Verif.Spec

/-- Days from the time `T` to the time `t`, both in nanoseconds. -/
noncomputable def daysFrom (T t : ℤ) : ℝ := ((t - T : ℤ) : ℝ) / (86400 * 10 ^ 9)

/-- Events that follow one another at the gaps drawn, with the sizes drawn: times and sizes.  Gaps and sizes have exponential distributions. -/
noncomputable def drawnEvents (toNs : ℝ → ℤ) (rate mean : ℝ) : ℤ → List (ℝ × ℝ) → List (ℤ × ℝ)
  | _, [] => []
  | T, (u, v) :: rest => (T + toNs (-Real.log u / rate), -mean * Real.log (1 - v)) :: drawnEvents toNs rate mean (T + toNs (-Real.log u / rate)) rest

/-- What is left at the time `t` of a store with `q` at the time `T` into which the fraction `P` of each event goes, if it empties at the rate `k` per day. -/
noncomputable def store (k P : ℝ) (T : ℤ) (q : ℝ) (ev : List (ℤ × ℝ)) (t : ℤ) : ℝ :=
  q * Real.exp (-k * daysFrom T t) + (ev.map fun e => e.2 * P * Real.exp (-k * daysFrom e.1 t)).sum

end Verif.Spec
