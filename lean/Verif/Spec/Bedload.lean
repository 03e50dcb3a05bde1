import Mathlib.Analysis.SpecialFunctions.Pow.Real

set_option autoImplicit false

/-! # Meyer-Peter-Müller bedload, as in the literature (independent of the model) -/

namespace Verif.Spec

/-- Sediment and water properties. -/
structure Sediment where
  rhoW : ℝ      -- density of water
  rhoS : ℝ      -- density of sediment
  g : ℝ
  D : ℝ         -- grain size
  n : ℝ         -- grain roughness (Manning)
  crit : ℝ      -- critical Shields stress
  coef : ℝ
  exp : ℝ
  voids : ℝ     -- void ratio

/-- Physically meaningful sediment properties. -/
def Sediment.Valid (s : Sediment) : Prop :=
  0 < s.rhoW ∧ s.rhoW < s.rhoS ∧ 0 < s.g ∧ 0 < s.D ∧ 0 < s.coef ∧ 0 < s.exp ∧ s.voids < 1

/-- One channel cross-section: width, depth, velocity. -/
structure Section where
  B : ℝ
  h : ℝ
  V : ℝ

/-- Dimensionless bed shear stress from the friction slope `V^2 n^2 / h^(4/3)`. -/
noncomputable def shields (s : Sediment) (c : Section) : ℝ :=
  s.rhoW * s.g * c.h * (c.V ^ 2 * s.n ^ 2 / c.h ^ (4/3 : ℝ)) / ((s.rhoS - s.rhoW) * s.g * s.D)

/-- Bulk bedload capacity of a section in the direction of flow. -/
noncomputable def capacity (s : Sediment) (c : Section) : ℝ :=
  (if c.V < 0 then -1 else 1) * (s.coef * (max (shields s c - s.crit) 0) ^ s.exp * c.B *
    Real.sqrt ((s.rhoS / s.rhoW - 1) * s.g * s.D ^ 3) / (1 - s.voids))

end Verif.Spec
