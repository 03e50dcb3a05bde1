import Mathlib.Algebra.Order.Field.Basic
import Mathlib.Algebra.Order.Group.Abs
import Mathlib.Algebra.BigOperators.Group.List.Basic
import Mathlib.Tactic.Linarith
import Mathlib.Tactic.Ring
import Mathlib.Tactic.FieldSimp
import Mathlib.Tactic.NormNum
import Mathlib.Tactic.Positivity

set_option autoImplicit false

/-!
# IEEE values without rounding

`Fl K` is the set of float64 values the code computes with, except that finite
values are exact elements of an ordered field `K` (no rounding, no overflow) and
there is a single zero, treated as `+0`.  Special values follow IEEE 754 as used
by numpy: comparisons with `nan` are false, `x/0` is infinite or `nan`.
-/

set_option linter.unusedSectionVars false

namespace Verif

/-- A float64 value with exact finite part. -/
inductive Fl (K : Type) where
  | nan : Fl K
  | ninf : Fl K
  | pinf : Fl K
  | fin : K → Fl K
  deriving DecidableEq, Repr

namespace Fl

variable {K : Type}

/-- `np.isnan`. -/
def isnan : Fl K → Bool
  | nan => true
  | _ => false

/-- The finite value, if there is one. -/
def val? : Fl K → Option K
  | fin x => some x
  | _ => none

section ops
variable [Field K] [LinearOrder K]

protected def neg : Fl K → Fl K
  | nan => nan
  | ninf => pinf
  | pinf => ninf
  | fin x => fin (-x)

protected def add : Fl K → Fl K → Fl K
  | nan, _ => nan
  | _, nan => nan
  | fin x, fin y => fin (x + y)
  | pinf, ninf => nan
  | ninf, pinf => nan
  | pinf, _ => pinf
  | _, pinf => pinf
  | ninf, _ => ninf
  | _, ninf => ninf

/-- An infinity with the sign of `x` (nan for zero): the result of `x * inf`. -/
def infOfSign (x : K) : Fl K := if x = 0 then nan else if 0 < x then pinf else ninf

protected def mul : Fl K → Fl K → Fl K
  | nan, _ => nan
  | _, nan => nan
  | fin x, fin y => fin (x * y)
  | fin x, pinf => infOfSign x
  | pinf, fin x => infOfSign x
  | fin x, ninf => infOfSign (-x)
  | ninf, fin x => infOfSign (-x)
  | pinf, pinf => pinf
  | ninf, ninf => pinf
  | pinf, ninf => ninf
  | ninf, pinf => ninf

/-- IEEE division; a zero divisor counts as `+0`. -/
protected def div : Fl K → Fl K → Fl K
  | nan, _ => nan
  | _, nan => nan
  | fin x, fin y => if y = 0 then infOfSign x else fin (x / y)
  | fin _, pinf => fin 0
  | fin _, ninf => fin 0
  | pinf, fin y => if 0 ≤ y then pinf else ninf
  | ninf, fin y => if 0 ≤ y then ninf else pinf
  | _, _ => nan

instance : Neg (Fl K) := ⟨Fl.neg⟩
instance : Add (Fl K) := ⟨Fl.add⟩
instance : Sub (Fl K) := ⟨fun a b => Fl.add a (Fl.neg b)⟩
instance : Mul (Fl K) := ⟨Fl.mul⟩
instance : Div (Fl K) := ⟨Fl.div⟩

/-- `a < b`; false if either is nan. -/
def blt : Fl K → Fl K → Bool
  | fin x, fin y => decide (x < y)
  | ninf, fin _ => true
  | ninf, pinf => true
  | fin _, pinf => true
  | _, _ => false

/-- `a <= b`; false if either is nan. -/
def ble : Fl K → Fl K → Bool
  | fin x, fin y => decide (x ≤ y)
  | ninf, fin _ => true
  | ninf, pinf => true
  | ninf, ninf => true
  | fin _, pinf => true
  | pinf, pinf => true
  | _, _ => false

/-- `a == b`; false if either is nan. -/
def beq : Fl K → Fl K → Bool
  | fin x, fin y => decide (x = y)
  | ninf, ninf => true
  | pinf, pinf => true
  | _, _ => false

@[inherit_doc] infix:50 " <? " => Fl.blt
@[inherit_doc] infix:50 " ≤? " => Fl.ble
@[inherit_doc] infix:50 " ==? " => Fl.beq

/-- `np.abs`. -/
def abs : Fl K → Fl K
  | nan => nan
  | ninf => pinf
  | pinf => pinf
  | fin x => fin |x|

/-- `np.maximum` (nan if either argument is nan). -/
def npmax (a b : Fl K) : Fl K := if a.isnan then a else if b.isnan then b else if a <? b then b else a

/-- `np.minimum` (nan if either argument is nan). -/
def npmin (a b : Fl K) : Fl K := if a.isnan then a else if b.isnan then b else if b <? a then b else a

/-- Python's `max(a, b)`: `b` replaces `a` only if `b > a` holds. -/
def pymax (a b : Fl K) : Fl K := if a <? b then b else a

/-- Python's `min(a, b)`: `b` replaces `a` only if `b < a` holds. -/
def pymin (a b : Fl K) : Fl K := if b <? a then b else a

/-- `np.sum`. -/
def sum (l : List (Fl K)) : Fl K := l.foldr (· + ·) (fin 0)

/-- `np.nansum`. -/
def nansum (l : List (Fl K)) : Fl K := sum (l.filter (fun a => !a.isnan))

@[simp] theorem neg_fin (x : K) : -(fin x : Fl K) = fin (-x) := rfl
@[simp] theorem add_fin (x y : K) : (fin x + fin y : Fl K) = fin (x + y) := rfl
@[simp] theorem sub_fin (x y : K) : (fin x - fin y : Fl K) = fin (x - y) := by
  show fin (x + -y) = _; rw [sub_eq_add_neg]
@[simp] theorem mul_fin (x y : K) : (fin x * fin y : Fl K) = fin (x * y) := rfl
theorem div_fin_def (x y : K) :
    (fin x / fin y : Fl K) = if y = 0 then infOfSign x else fin (x / y) := rfl
@[simp] theorem div_fin (x y : K) (h : y ≠ 0) : (fin x / fin y : Fl K) = fin (x / y) := by
  rw [div_fin_def, if_neg h]
@[simp] theorem abs_fin (x : K) : (fin x : Fl K).abs = fin |x| := rfl

@[simp] theorem nan_add (a : Fl K) : (nan + a : Fl K) = nan := by cases a <;> rfl
@[simp] theorem add_nan (a : Fl K) : (a + nan : Fl K) = nan := by cases a <;> rfl
@[simp] theorem neg_nan : (-nan : Fl K) = nan := rfl
@[simp] theorem nan_sub (a : Fl K) : (nan - a : Fl K) = nan := by cases a <;> rfl
@[simp] theorem sub_nan (a : Fl K) : (a - nan : Fl K) = nan := by cases a <;> rfl
@[simp] theorem nan_mul (a : Fl K) : (nan * a : Fl K) = nan := by cases a <;> rfl
@[simp] theorem mul_nan (a : Fl K) : (a * nan : Fl K) = nan := by cases a <;> rfl
@[simp] theorem nan_div (a : Fl K) : (nan / a : Fl K) = nan := by cases a <;> rfl
@[simp] theorem div_nan (a : Fl K) : (a / nan : Fl K) = nan := by cases a <;> rfl
@[simp] theorem abs_nan : (nan : Fl K).abs = nan := rfl

@[simp] theorem blt_fin (x y : K) : ((fin x : Fl K) <? fin y) = decide (x < y) := rfl
@[simp] theorem ble_fin (x y : K) : ((fin x : Fl K) ≤? fin y) = decide (x ≤ y) := rfl
@[simp] theorem beq_fin (x y : K) : ((fin x : Fl K) ==? fin y) = decide (x = y) := rfl
@[simp] theorem nan_blt (a : Fl K) : (nan <? a) = false := by cases a <;> rfl
@[simp] theorem blt_nan (a : Fl K) : (a <? nan) = false := by cases a <;> rfl
@[simp] theorem nan_ble (a : Fl K) : (nan ≤? a) = false := by cases a <;> rfl
@[simp] theorem ble_nan (a : Fl K) : (a ≤? nan) = false := by cases a <;> rfl
@[simp] theorem nan_beq (a : Fl K) : (nan ==? a) = false := by cases a <;> rfl
@[simp] theorem beq_nan (a : Fl K) : (a ==? nan) = false := by cases a <;> rfl

@[simp] theorem isnan_fin (x : K) : (fin x : Fl K).isnan = false := rfl
@[simp] theorem isnan_nan : (nan : Fl K).isnan = true := rfl
@[simp] theorem isnan_pinf : (pinf : Fl K).isnan = false := rfl
@[simp] theorem isnan_ninf : (ninf : Fl K).isnan = false := rfl
@[simp] theorem val?_fin (x : K) : (fin x : Fl K).val? = some x := rfl
@[simp] theorem val?_nan : (nan : Fl K).val? = none := rfl

theorem isnan_iff (a : Fl K) : a.isnan = true ↔ a = nan := by cases a <;> simp [isnan]
theorem not_isnan_iff (a : Fl K) : a.isnan = false ↔ a ≠ nan := by cases a <;> simp [isnan]

@[simp] theorem npmax_fin (x y : K) : npmax (fin x) (fin y) = fin (max x y) := by
  simp only [npmax, isnan_fin, blt_fin, decide_eq_true_eq, Bool.false_eq_true, if_false]
  split
  · rw [max_eq_right (le_of_lt ‹_›)]
  · rw [max_eq_left (not_lt.mp ‹_›)]
@[simp] theorem npmin_fin (x y : K) : npmin (fin x) (fin y) = fin (min x y) := by
  simp only [npmin, isnan_fin, blt_fin, decide_eq_true_eq, Bool.false_eq_true, if_false]
  split
  · rw [min_eq_right (le_of_lt ‹_›)]
  · rw [min_eq_left (not_lt.mp ‹_›)]
@[simp] theorem pymax_fin (x y : K) : pymax (fin x) (fin y) = fin (max x y) := by
  simp only [pymax, blt_fin, decide_eq_true_eq]
  split
  · rw [max_eq_right (le_of_lt ‹_›)]
  · rw [max_eq_left (not_lt.mp ‹_›)]
@[simp] theorem pymin_fin (x y : K) : pymin (fin x) (fin y) = fin (min x y) := by
  simp only [pymin, blt_fin, decide_eq_true_eq]
  split
  · rw [min_eq_right (le_of_lt ‹_›)]
  · rw [min_eq_left (not_lt.mp ‹_›)]

@[simp] theorem sum_nil : sum ([] : List (Fl K)) = fin 0 := rfl
@[simp] theorem sum_cons (a : Fl K) (l : List (Fl K)) : sum (a :: l) = a + sum l := rfl
theorem sum_map_fin (l : List K) : sum (l.map fin) = fin l.sum := by
  induction l with
  | nil => rfl
  | cons a l ih => simp [ih]

end ops
end Fl

end Verif
