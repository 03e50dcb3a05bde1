import Verif.Num
import Verif.Model.MorRates
import Verif.Spec.Total

set_option autoImplicit false

/-! # The spit and the outlet channel behind it (for C155) -/

namespace Verif.Spec
open Verif Fl Verif.Model

variable {K : Type} [Field K] [LinearOrder K] [IsStrictOrderedRing K]

/-- A transect with a channel, from the sea: shoreline `y0`, channel from `y1` to `y2`, lagoon from `y3` to the cliff `y4`; crest of the spit, channel bed, inner
crest and lagoon bed. -/
structure SpitShape (K : Type) where
  y0 : K
  y1 : K
  y2 : K
  y3 : K
  y4 : K
  z0 : K
  z1 : K
  z2 : K
  z3 : K

/-- Transect `r` has shape `s`. -/
def HasSpit (r : Transect K) (s : SpitShape K) : Prop :=
  r.y0 = fin s.y0 ∧ r.y1 = fin s.y1 ∧ r.y2 = fin s.y2 ∧ r.y3 = fin s.y3 ∧ r.y4 = fin s.y4 ∧
    r.z0 = fin s.z0 ∧ r.z1 = fin s.z1 ∧ r.z2 = fin s.z2 ∧ r.z3 = fin s.z3

/-- Volume gained by the channel, over a strip `Dx` wide, when its shape changes from `s` to `s'`, counted over the faces of `s`: the bed and its
two banks. -/
def channelGain (Dx : K) (s s' : SpitShape K) : K :=
  Dx * ((s'.z1 - s.z1) * (s.y1 - s.y2) - (s'.y1 - s.y1) * (s.z0 - s.z1) + (s'.y2 - s.y2) * (s.z2 - s.z1))

/-- Volume gained by the whole strip over a seabed at `-cd` with cliffs up to `bs`: shoreface, crest, channel, and the lagoon behind with its bed, its
seaward bank (up to the inner crest) and the cliff. -/
def spitGain (cd bs Dx : K) (s s' : SpitShape K) : K :=
  Dx * ((s'.y0 - s.y0) * (s.z0 + cd) + (s'.z0 - s.z0) * (s.y0 - s.y1)) + channelGain Dx s s' +
    Dx * ((s'.z3 - s.z3) * (s.y3 - s.y4) - (s'.y3 - s.y3) * (s.z2 - s.z3) + (s'.y4 - s.y4) * (bs - s.z3))

/-- Neither the bed nor the banks of the channel have moved by `lim` or more. -/
def ChannelMoved (lim : K) (s s' : SpitShape K) : Prop :=
  |s'.y1 - s.y1| < lim ∧ |s'.y2 - s.y2| < lim ∧ |s'.z1 - s.z1| < lim

/-- No feature has moved by `lim` or more. -/
def SpitMoved (lim : K) (s s' : SpitShape K) : Prop :=
  ChannelMoved lim s s' ∧ |s'.y0 - s.y0| < lim ∧ |s'.y3 - s.y3| < lim ∧ |s'.y4 - s.y4| < lim ∧ |s'.z0 - s.z0| < lim ∧ |s'.z3 - s.z3| < lim

/-- Spit, channel and inner barrier are wider than `2 * lim`, and the cliff is as far from the sea; `d` more where the shoreline counts. -/
def WideSpit (lim d : K) (s : SpitShape K) : Prop :=
  2 * lim + d < s.y0 - s.y1 ∧ 2 * lim < s.y1 - s.y2 ∧ 2 * lim < s.y2 - s.y3 ∧ 2 * lim + d < s.y0 - s.y4

/-- The outlet channel ends well inside the domain, and its end is more than `MaxMorChange` from the transects next to the last one it crosses. -/
def EndBetween (a : MorIn K) : Prop :=
  ∃ l p q e, a.outlet.getLast? = some l ∧ 2 ≤ l ∧ l + 2 < a.rows.length ∧ a.rows[l - 1]? = some p ∧ a.rows[l + 1]? = some q ∧ a.EndX1 = fin e ∧
    p.x + a.MaxMorChange < e ∧ e + a.MaxMorChange < q.x

end Verif.Spec
