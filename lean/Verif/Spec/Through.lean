import Verif.Num

set_option autoImplicit false

/-! # Specification: the flow carried by a channel -/

namespace Verif.Spec
open Verif Fl

/-- Width, depth and velocity make up the flow `q` at every section where they are numbers, and there are as many depths and velocities as
sections. -/
def Carries {K : Type} [Field K] (width dep vel : List (Fl K)) (q : K) : Prop :=
  dep.length = width.length ∧ vel.length = width.length ∧
    ∀ (i : ℕ) (b d v : K), width[i]? = some (fin b) → dep[i]? = some (fin d) → vel[i]? = some (fin v) → b * d * v = q

end Verif.Spec
