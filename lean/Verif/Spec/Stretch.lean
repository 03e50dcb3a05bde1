import Verif.Spec.ScaleModel
import Verif.Spec.Preissmann
import Verif.Model.Preissmann

set_option autoImplicit false

/-! # A river of other length and width (for C176)

Lengths are `l` times and widths `b` times those of the given river; heights stay. -/

namespace Verif.Spec
open Verif Fl Verif.Model Real

/-- The systems of `n` banded equations `(band, err)` and `(band', err')` differ by positive factors in front of the equations. -/
def SameEquations (n : ℕ) (band : ℕ → ℕ → Fl ℝ) (err : List (Fl ℝ)) (band' : ℕ → ℕ → Fl ℝ) (err' : List (Fl ℝ)) : Prop :=
  err.length = n ∧ err'.length = n ∧ ∃ D : ℕ → ℝ, (∀ i, 0 < D i) ∧ (∀ i < n, err'[i]? = (err[i]?).map (times (D i))) ∧
    ∀ i j, i < n → j < n → i ≤ j + 2 → j ≤ i + 2 → banded band' i j = times (D i) (banded band i j)

/-- A linear solver whose answer does not depend on factors in front of the equations. -/
def FactorBlind (solver : Solver) : Prop :=
  ∀ n band err band' err', SameEquations n band err band' err' → solver band' err' = solver band err

/-- Time goes with length; roughness and permeability such that friction and seepage go along. -/
noncomputable def stretchPars (l b : ℝ) (p : PrePars) : PrePars := { p with n := p.n / √l, P := p.P * b / l, dt := l * p.dt }

/-- A section of the longer and wider river. -/
def stretchNode (l b : ℝ) (c : ChanNode (Fl ℝ)) : ChanNode (Fl ℝ) := { c with B := times b c.B, LagArea := times (l * b) c.LagArea, LagLen := times l c.LagLen }

end Verif.Spec
