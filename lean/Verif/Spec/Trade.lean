import Verif.Num
import Verif.Model.MorRates

set_option autoImplicit false

/-! # Vocabulary for C171: slower transport for a longer time -/

namespace Verif.Spec
open Verif Fl Verif.Model

variable {K : Type} [Field K] [LinearOrder K] [IsStrictOrderedRing K]

/-- The same coast and water with a `c`-th of the transport along the river, along the shore and over the barrier, and `c` times the timesteps. -/
def Slowed (c : ℕ) (a : MorIn K) : MorIn K :=
  { a with
    Bedload := a.Bedload.map (fun v => v / fin (c : K)), LST := a.LST.map (fun v => v / fin (c : K)), CST := a.CST.map (fun v => v / fin (c : K))
    MorDt := c * a.MorDt, MorDtMin := c * a.MorDtMin, MorDtMax := c * a.MorDtMax }

/-- The same parameters with a `c`-th of the retreat imposed at the ends. -/
def SlowedPars (c : ℕ) (pp : PhysPars K) : PhysPars K := { pp with ShorelineErosionRate := pp.ShorelineErosionRate / (c : K) }

/-- The transport along the shore just left of the first transect right of the outlet end is not to the left (the transport array is
indexed with -1 there if that is the leftmost transect). -/
def NoneToTheLeft (a : MorIn K) : Prop :=
  ∀ (i : ℕ) r, a.rows[i]? = some r → (a.EndX1 <? fin r.x) = true → (∀ k < i, ∀ r', a.rows[k]? = some r' → (a.EndX1 <? fin r'.x) = false) →
    ∀ l, a.LST[if i = 0 then a.LST.length - 1 else i - 1]? = some l → (l <? fin 0) = false

end Verif.Spec
