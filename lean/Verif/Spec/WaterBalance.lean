import Verif.Spec.Preissmann

set_option autoImplicit false

/-! # Specification: the water balance of a timestep -/

namespace Verif.Spec

/-- A channel of `N` sections: bed level, width, attached lagoon area and barrier length of each section, and the lengths of the reaches
between them. -/
structure Basin where
  N : ℕ
  z : ℕ → ℝ
  B : ℕ → ℝ
  area : ℕ → ℝ
  len : ℕ → ℝ
  dx : ℕ → ℝ

/-- Water stored in channel and lagoon; lagoon areas attached to the first and the last section count half (C20). -/
noncomputable def Basin.stored (b : Basin) (h : ℕ → ℝ) : ℝ :=
  channelVolume b.N b.dx b.B h + lagoonVolume b.N (fun k => (if k = 0 ∨ k = b.N - 1 then 1/2 else 1) * b.area k) h

/-- Discharge through section `k`. -/
def Basin.flow (b : Basin) (h V : ℕ → ℝ) (k : ℕ) : ℝ := V k * (h k * b.B k)

/-- Loss through the barrier per second for a coefficient `P`. -/
noncomputable def Basin.seepage (b : Basin) (P : ℝ) (h : ℕ → ℝ) (sea : ℝ) : ℝ := P * seepHead b.N b.len (fun k => b.z k + h k) sea

/-- The water balance over a timestep of `dt` seconds, weighting its end with `theta` and its start with `1 - theta`, for the river flow `Q` and the sea level
`sea` given for its end: what is stored changes by inflow less outflow less seepage.  The inflow at the end is exactly the river
flow; the outflow is that through the last section, up to `tol ^ 2` times its width, and exactly nothing if the outlet is closed. -/
structure StepBalance (b : Basin) (dt theta P tol : ℝ) (closed : Bool) (Q sea seaOld : ℝ) (h V h' V' : ℕ → ℝ) : Prop where
  balance : ∃ out, |out - b.flow h' V' (b.N - 1)| ≤ b.B (b.N - 1) * tol ^ 2 ∧ (closed = true → out = 0) ∧
    b.stored h' - b.stored h = dt * (theta * (Q - out) + (1 - theta) * (b.flow h V 0 - b.flow h V (b.N - 1)))
      - dt * (theta * b.seepage P h' sea + (1 - theta) * b.seepage P h seaOld)
  inflow : |b.flow h' V' 0 - Q| ≤ b.B 0 * tol ^ 2
  level : closed = false → b.z (b.N - 1) + h' (b.N - 1) = sea

/-- Only the values at the sections matter. -/
theorem StepBalance.congr {b : Basin} {dt theta P tol : ℝ} {closed : Bool} {Q sea seaOld : ℝ} {h V h' V' h'' V'' : ℕ → ℝ}
    (s : StepBalance b dt theta P tol closed Q sea seaOld h V h' V') (hN : 2 ≤ b.N) (eh : ∀ k < b.N, h' k = h'' k) (eV : ∀ k < b.N, V' k = V'' k) :
    StepBalance b dt theta P tol closed Q sea seaOld h V h'' V'' := by
  have f : ∀ k < b.N, b.flow h' V' k = b.flow h'' V'' k := fun k hk => by unfold Basin.flow; rw [eh k hk, eV k hk]
  have st : b.stored h' = b.stored h'' := by
    unfold Basin.stored channelVolume lagoonVolume
    congr 1
    · exact Finset.sum_congr rfl (fun r hr => by rw [Finset.mem_range] at hr; rw [eh r (by omega), eh (r+1) (by omega)])
    · exact Finset.sum_congr rfl (fun k hk => by rw [Finset.mem_range] at hk; rw [eh k hk])
  have se : b.seepage P h' sea = b.seepage P h'' sea := by
    unfold Basin.seepage seepHead
    congr 1
    exact Finset.sum_congr rfl (fun r hr => by rw [Finset.mem_range] at hr; simp only [eh r (by omega), eh (r+1) (by omega)])
  obtain ⟨a, i, l⟩ := s
  rw [f _ (by omega), st, se] at a
  rw [f _ (by omega)] at i
  exact ⟨a, i, fun hc => by rw [← eh _ (by omega)]; exact l hc⟩

end Verif.Spec
