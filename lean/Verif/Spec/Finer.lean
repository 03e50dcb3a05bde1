import Verif.Model.Types

set_option autoImplicit false

/-! # The same coast on two grids (for C173) -/

namespace Verif.Spec
open Verif Verif.Model

/-- Two transects at the same place with the same features: shoreline, channel banks (or no channel), lagoon edge and cliff, crests and lagoon bed. The bed of the channel is left out: it is graded over the
transects that the channel crosses, and a finer grid has more of them. -/
def SameFeatures {K : Type} (t t' : Transect K) : Prop :=
  t'.x = t.x ∧ t'.y0 = t.y0 ∧ t'.y1 = t.y1 ∧ t'.y2 = t.y2 ∧ t'.y3 = t.y3 ∧ t'.y4 = t.y4 ∧ t'.z0 = t.z0 ∧ t'.z2 = t.z2 ∧ t'.z3 = t.z3

end Verif.Spec
