import Verif.Model.Config

set_option autoImplicit false

/-! # Specification: what the default of a key is, and when a text states it -/

namespace Verif.Spec
open Verif Verif.Model

/-- The text states the default of the check, which is a number, a truth value or a text. -/
def StatesDefault {K : Type} [Field K] (r : Raw K) : Check → Prop
  | .float _ _ (some (some q)) => r.flt = some (.fin (q : K))
  | .integer _ (some (some n)) => r.int = some n
  | .boolean (some (some b)) => r.bool = some b
  | .string (some (some t)) => r.str = some t
  | _ => False

/-- What Python makes of the text `None`. -/
def rNone {K : Type} : Raw K := { str := some "None", flt := none, int := none, bool := none }

/-- The default is None. -/
def NoneDefault : Check → Prop
  | .float _ _ (some none) => True
  | .integer _ (some none) => True
  | .boolean (some none) => True
  | .string (some none) => True
  | _ => False

/-- The key has no default: it has to be in the file. -/
def Required : Check → Prop
  | .float _ _ none => True
  | .integer _ none => True
  | .boolean none => True
  | .string none => True
  | _ => False

end Verif.Spec
