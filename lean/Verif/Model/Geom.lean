import Verif.Py
import Mathlib.Analysis.SpecialFunctions.Complex.Arg

set_option autoImplicit false

/-! # Model of `hapuamod/geom.py` -/

namespace Verif.Model
open Verif Fl Real

/-- `np.arctan2(y, x)` for finite arguments (0 at the origin). -/
noncomputable def arctan2 (y x : ℝ) : ℝ := Complex.arg ⟨x, y⟩

/-- geom.py 13-24, `mod2real`.  Finite real inputs. -/
noncomputable def mod2real (Xmod Ymod : ℝ) (Origin : ℝ × ℝ) (ShoreNormalDir : ℝ) : ℝ × ℝ :=
  let Xreal := Origin.1 + Xmod * sin (ShoreNormalDir + π/2) - Ymod * cos (ShoreNormalDir + π/2)
  let Yreal := Origin.2 + Xmod * cos (ShoreNormalDir + π/2) + Ymod * sin (ShoreNormalDir + π/2)
  (Xreal, Yreal)

/-- geom.py 26-37, `real2mod`.  Finite real inputs. -/
noncomputable def real2mod (Xreal Yreal : ℝ) (Origin : ℝ × ℝ) (ShoreNormalDir : ℝ) : ℝ × ℝ :=
  let Xrelative := Xreal - Origin.1
  let Yrelative := Yreal - Origin.2
  let Dist := sqrt (Xrelative^2 + Yrelative^2)
  let Dir := arctan2 Xrelative Yrelative
  let Xmod := Dist * cos (ShoreNormalDir - Dir + π/2)
  let Ymod := Dist * sin (ShoreNormalDir - Dir + π/2)
  (Xmod, Ymod)

section poly
variable {K : Type} [Field K] [LinearOrder K]

/-- geom.py 39-69, `intersectPolyline`.  Finite coordinates.  The index `i` comes
from a mask of length `n-1`, so `i` and `i+1` are always valid (the `filterMap`
never drops anything). -/
def intersectPolyline (Polyline : List (K × K)) (Xcoord : K) : List (Fl K) :=
  -- 56
  let LeftOfX := Polyline.map (fun p => decide (p.1 < Xcoord))
  -- 59
  let IntPoints := whereIx (fun (a : Bool × Bool) => a.1 != a.2) (LeftOfX.dropLast.zip LeftOfX.tail)
  -- 62-67
  IntPoints.filterMap (fun i => do
    let p ← Polyline[i]?
    let q ← Polyline[i+1]?
    some (fin p.2 + (fin Xcoord - fin p.1) * (fin q.2 - fin p.2) / (fin q.1 - fin p.1)))

end poly
end Verif.Model
