
import Verif.Model.Types

set_option autoImplicit false

/-! # Order of the features across the shore -/

namespace Verif.Spec
open Verif Verif.Model Fl

variable {K : Type} [Field K] [LinearOrder K] [IsStrictOrderedRing K]

/-- From the land to the sea: cliff, lagoon, landward and seaward bank of the channel if there is one, shoreline. -/
def InOrder (r : Transect K) : Prop :=
  ∃ y0 y3 y4, r.y0 = fin y0 ∧ r.y3 = fin y3 ∧ r.y4 = fin y4 ∧ y4 ≤ y3 ∧ y3 < y0 ∧
    (r.y1 = nan ∧ r.y2 = nan ∨ ∃ y1 y2, r.y1 = fin y1 ∧ r.y2 = fin y2 ∧ y3 < y2 ∧ y2 ≤ y1 ∧ y1 < y0)

end Verif.Spec
