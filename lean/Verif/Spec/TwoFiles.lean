import Verif.Num

set_option autoImplicit false

/-! # Specification: the mean of the numbers in an array with missing values -/

namespace Verif.Spec
open Verif Fl

/-- `m` is the mean of the entries of `l` that are not missing (all of these being ordinary numbers), missing if there are none. -/
def MeanOf {K : Type} [Field K] [LinearOrder K] (l : List (Fl K)) (m : Fl K) : Prop :=
  ∀ xs : List K, l.filter (fun a => !a.isnan) = xs.map fin →
    (xs = [] → m = nan) ∧ (xs ≠ [] → ∃ x : K, m = fin x ∧ x * (xs.length : K) = xs.sum)

end Verif.Spec
