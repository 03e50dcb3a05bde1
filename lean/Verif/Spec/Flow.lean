import Mathlib.Analysis.SpecialFunctions.Pow.Real

set_option autoImplicit false

/-! # Specification: steady flow along a channel

A channel of `N` rectangular cross-sections, listed from upstream to downstream: bed levels `z`,
widths `B`, barrier lengths `len` through which water seeps to the sea, depths `h`, velocities
`V`, and the lengths `dx` of the reaches between neighbouring sections. -/

namespace Verif.Spec

structure Flow where
  z : ℕ → ℝ
  B : ℕ → ℝ
  len : ℕ → ℝ
  h : ℕ → ℝ
  V : ℕ → ℝ
  dx : ℕ → ℝ

namespace Flow

def area (f : Flow) (k : ℕ) : ℝ := f.B k * f.h k
def discharge (f : Flow) (k : ℕ) : ℝ := f.V k * f.area k
def level (f : Flow) (k : ℕ) : ℝ := f.z k + f.h k

/-- Manning's friction slope of a wide channel; it opposes the flow. -/
noncomputable def friction (f : Flow) (n : ℝ) (k : ℕ) : ℝ := n ^ 2 * (f.V k * |f.V k|) / f.h k ^ (4/3 : ℝ)

/-- Momentum flux through a section: discharge times velocity. It does not depend on the
direction of the flow. -/
def momentum (f : Flow) (k : ℕ) : ℝ := f.discharge k * f.V k

end Flow

/-- The flow satisfies the steady Saint-Venant equations between its sections: the inflow is `Q`;
along each reach the discharge falls by the seepage through the barrier, which is the
permeability `P` times the length of barrier times the head over the sea; momentum flux, pressure
and weight, and friction balance over each reach; and the last section is at sea level. -/
structure SteadyFlow (g n beta P : ℝ) (N : ℕ) (f : Flow) (Q sea : ℝ) : Prop where
  inflow : f.discharge 0 = Q
  water : ∀ r < N - 1, f.discharge (r+1) - f.discharge r =
    -(P * ((f.len r + f.len (r+1)) / 2) * ((f.level r + f.level (r+1)) / 2 - sea))
  force : ∀ r < N - 1, beta * (f.momentum (r+1) - f.momentum r)
    + g * ((f.area r + f.area (r+1)) / 2) * (f.level (r+1) - f.level r)
    + g * f.dx r * ((f.area r * f.friction n r + f.area (r+1) * f.friction n (r+1)) / 2) = 0
  outflow : f.level (N-1) = sea

/-- Uniform flow: the same width, depth and velocity everywhere, and a bed that falls by the
friction slope. -/
structure UniformFlow (n : ℝ) (N : ℕ) (f : Flow) (B h V : ℝ) : Prop where
  width : ∀ k < N, f.B k = B
  depth : ∀ k < N, f.h k = h
  vel : ∀ k < N, f.V k = V
  bed : ∀ r < N - 1, f.z r - f.z (r+1) = f.dx r * (n ^ 2 * (V * |V|) / h ^ (4/3 : ℝ))

end Verif.Spec
