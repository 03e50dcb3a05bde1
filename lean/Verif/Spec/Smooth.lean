import Verif.Spec.Coast

set_option autoImplicit false

/-! # Vocabulary for C168 and C169: headlands, bays and waves that come in from the front -/

namespace Verif.Spec
open Real

/-- The waves reach the segment between shoreline positions `ya` and `yb`, `dx` apart, within 45 degrees of its normal. -/
def Frontal (dx dir ya yb : ℝ) : Prop := |waveAngle dx dir ya yb| ≤ π / 4

/-- Twice the largest rate at which waves `w` move sediment along the shore (at 45 degrees). -/
noncomputable def Waves.drift (w : Waves) : ℝ :=
  w.k2 * w.power * (shallowSpeed w.g w.breakDepth / waveSpeed w.g w.period w.length w.depth)

end Verif.Spec
