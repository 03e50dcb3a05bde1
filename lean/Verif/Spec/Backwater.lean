import Verif.Spec.Steady

set_option autoImplicit false

/-! # Steady flow in a channel, for C160 and C161 -/

namespace Verif.Spec

/-- Energy level of a section of bed level `z` and width `b` that carries the flow `Q` at the depth `h`. -/
noncomputable def headAt (g beta Q z b h : ℝ) : ℝ := energyLevel g beta z h (Q / (b * h))

/-- Friction slope of a section of width `b` that carries the flow `Q` at the depth `h`. -/
noncomputable def slopeAt (n Q b h : ℝ) : ℝ := frictionSlope n h (Q / (b * h))

/-- Tranquil flow at the downstream end of a reach of length `dx`: the flow is subcritical, and friction takes little of the depth along the reach. -/
noncomputable def Tranquil (g beta n Q dx b h : ℝ) : Prop :=
  beta * (Q / (b * h)) ^ 2 / (g * h) + 5 / 3 * dx * slopeAt n Q b h / h < 1

/-- The depths `d` have the energy balance of steady flow between all neighbouring sections, to within `tol`. Sections are listed from upstream to downstream. -/
def Balanced (g beta n Q tol : ℝ) (dx z B d : List ℝ) : Prop :=
  ∀ (i : ℕ) dxi z0 b0 d0 z1 b1 d1, dx[i]? = some dxi → z[i]? = some z0 → B[i]? = some b0 → d[i]? = some d0 → z[i+1]? = some z1 → B[i+1]? = some b1 → d[i+1]? = some d1 →
    |headAt g beta Q z0 b0 d0 - headAt g beta Q z1 b1 d1 - dxi / 2 * (slopeAt n Q b0 d0 + slopeAt n Q b1 d1)| ≤ tol

/-- Tranquil flow at all sections: each at the end of the reach above it (the first has none). -/
def TranquilAll (g beta n Q : ℝ) (dx B d : List ℝ) : Prop :=
  ∀ (i : ℕ) x b h, (0 :: dx)[i]? = some x → B[i]? = some b → d[i]? = some h → 0 < h ∧ Tranquil g beta n Q x b h

end Verif.Spec
