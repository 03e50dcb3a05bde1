import Verif.Spec.Bedload

set_option autoImplicit false

/-! # Specification: more flow, and coarser sediment -/

namespace Verif.Spec

/-- The second section has at least as much flow downstream as the first one on the same width: it is not slower, and for water running the same way it is not deeper (shallower water of the
same velocity drags the bed more). For water that runs upstream the drag is the other way round. -/
structure MoreFlow (a b : Section) : Prop where
  width : b.B = a.B
  speed : a.V ≤ b.V
  down : 0 ≤ a.V → b.h ≤ a.h
  up : b.V ≤ 0 → a.h ≤ b.h

end Verif.Spec
