import Mathlib.Algebra.BigOperators.Group.Finset.Basic
import Mathlib.Analysis.SpecialFunctions.Pow.Real

set_option autoImplicit false

/-! # Specification: banded systems and water balance of a channel -/

namespace Verif.Spec

/-- A matrix row that has `vals` from column `start` on and `zero` elsewhere. -/
def place {α : Type} (zero : α) (start : ℕ) (vals : List α) (j : ℕ) : α :=
  if start ≤ j then (vals[j - start]?).getD zero else zero

/-- The system for `N` cross-sections with unknowns `h₀ V₀ h₁ V₁ …` (two columns per
section): first row the upstream boundary (columns of section 0); then for each reach `r`
(between sections `r` and `r+1`) its continuity row and its momentum row (columns of the two
sections); last row the downstream boundary (columns of the last section). -/
def systemMatrix {α : Type} (zero : α) (N : ℕ) (us : List α) (cont mom : ℕ → List α) (ds : List α) (i j : ℕ) : α :=
  if i = 0 then place zero 0 us j
  else if i = 2 * N - 1 then place zero (2 * N - 2) ds j
  else if i % 2 = 1 then place zero (i - 1) (cont ((i - 1) / 2)) j
  else place zero (i - 2) (mom ((i - 2) / 2)) j

/-- The right-hand side in the same row order as `systemMatrix`. -/
def systemVector {α : Type} (N : ℕ) (us : α) (cont mom : ℕ → Option α) (ds : α) (i : ℕ) : Option α :=
  if i = 0 then some us
  else if i = 2 * N - 1 then some ds
  else if i % 2 = 1 then cont ((i - 1) / 2)
  else mom ((i - 2) / 2)

/-- scipy's `solve_banded((2, 2), ab, b)` convention: `ab[2 + i - j, j]` holds entry `(i, j)`. -/
def banded {α : Type} (ab : ℕ → ℕ → α) (i j : ℕ) : α := ab (2 + i - j) j

open Finset in
/-- Water stored between `N` cross-sections of widths `B` and depths `h`: per reach, length times
the mean of the two wetted areas. -/
noncomputable def channelVolume (N : ℕ) (dx B h : ℕ → ℝ) : ℝ :=
  ∑ r ∈ range (N - 1), dx r * ((B r * h r + B (r+1) * h (r+1)) / 2)

open Finset in
/-- Water stored in the lagoon areas attached to the cross-sections. -/
def lagoonVolume (N : ℕ) (area h : ℕ → ℝ) : ℝ := ∑ k ∈ range N, area k * h k

open Finset in
/-- Length of barrier times head of the water over the sea, summed over the reaches: each reach
has the mean attached length and the mean water level of its ends. -/
noncomputable def seepHead (N : ℕ) (len level : ℕ → ℝ) (sea : ℝ) : ℝ :=
  ∑ r ∈ range (N - 1), (len r + len (r+1)) / 2 * ((level r + level (r+1)) / 2 - sea)

end Verif.Spec
