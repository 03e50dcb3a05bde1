import Verif.Num
import Verif.Model.MorRates

set_option autoImplicit false

/-! # The sediment of a closed coast (for C152) -/

namespace Verif.Spec
open Verif Fl Verif.Model

variable {K : Type} [Field K] [LinearOrder K] [IsStrictOrderedRing K]

/-- A transect without a channel: shoreline, back of the barrier, cliff, crest and lagoon bed. -/
structure Shape (K : Type) where
  y0 : K
  y3 : K
  y4 : K
  z0 : K
  z3 : K

/-- Transect `r` has shape `s`. -/
def HasShape (r : Transect K) (s : Shape K) : Prop :=
  r.y0 = fin s.y0 ∧ r.y1 = nan ∧ r.y2 = nan ∧ r.y3 = fin s.y3 ∧ r.y4 = fin s.y4 ∧ r.z0 = fin s.z0 ∧ r.z3 = fin s.z3

/-- Volume gained by a strip of coast `Dx` wide when its shape changes from `s` to `s'`, over a seabed at `-cd` with cliffs up to `bs`, counted
over the faces of `s`: the shoreface, the crest, the back of the barrier, the cliff and the lagoon bed. -/
def stripGain (cd bs Dx : K) (s s' : Shape K) : K :=
  Dx * ((s'.y0 - s.y0) * (s.z0 + cd) + (s'.z0 - s.z0) * (s.y0 - s.y3) - (s'.y3 - s.y3) * (s.z0 - s.z3) + (s'.y4 - s.y4) * (bs - s.z3) +
    (s'.z3 - s.z3) * (s.y3 - s.y4))

/-- No feature has moved by `lim` or more. -/
def MovedLess (lim : K) (s s' : Shape K) : Prop :=
  |s'.y0 - s.y0| < lim ∧ |s'.y3 - s.y3| < lim ∧ |s'.y4 - s.y4| < lim ∧ |s'.z0 - s.z0| < lim ∧ |s'.z3 - s.z3| < lim

/-- The bedload that stays at transect `i`, for bedload `b` in `nr` reaches of the river followed by the lagoon reaches through the transects `online`; none
leaves the last of them. -/
def settles (b : List K) (nr : ℕ) (online : List ℕ) (i : ℕ) : K :=
  if i ∈ online then b.getD (nr + online.idxOf i) 0 - b.getD (nr + online.idxOf i + 1) 0 else 0

end Verif.Spec
