import Verif.Num

set_option autoImplicit false

/-! # Specifications for the morphology properties -/

namespace Verif.Spec
open Verif Fl

variable {K : Type} [Field K] [LinearOrder K] [IsStrictOrderedRing K]

/-- `b` is `a` moved by at most `m`; a missing value stays missing. -/
def Moved (m : K) (a b : Fl K) : Prop := (a = nan ∧ b = nan) ∨ ∃ x y, a = fin x ∧ b = fin y ∧ |y - x| ≤ m

/-- A number or missing, not infinite. -/
def Plain (a : Fl K) : Prop := a = nan ∨ ∃ x, a = fin x

/-- Rate at which a section of length `len` gains sediment when its bed of width `width` rises at rate `rise`
and its two banks, of heights `h1` and `h2`, retreat at rates `r1` and `r2`. -/
def gain (rise width r1 h1 r2 h2 len : K) : K := (rise * width - r1 * h1 - r2 * h2) * len

/-- What a section eroding or accreting may do: it does not both deepen and widen, and it never narrows. -/
def OneWay (rise r1 r2 : K) : Prop := 0 ≤ r1 ∧ 0 ≤ r2 ∧ (rise < 0 → r1 = 0 ∧ r2 = 0) ∧ (0 < r1 ∨ 0 < r2 → rise = 0)

/-- Place `i` along the coast is linked to the river at `r`: every place from next to the river up to and
including `i` is open. -/
def Linked (isOpen : ℕ → Prop) (r i : ℕ) : Prop := ∀ j, (r < j ∧ j ≤ i) ∨ (i ≤ j ∧ j < r) → isOpen j

/-- A height over which water has to flow: of two barriers if there is a channel between them. -/
def Crest (channel : Bool) (outer inner : Fl K) (h : K) : Prop :=
  if channel then ∃ a b, outer = fin a ∧ inner = fin b ∧ h = max a b else outer = fin h

end Verif.Spec
