import Verif.Num

set_option autoImplicit false

/-!
# Python / numpy primitives used by the model
-/

set_option linter.unusedSectionVars false

namespace Verif

/-- Exceptions raised by the modelled code. -/
inductive PyErr where
  | assertion      -- AssertionError
  | index          -- IndexError
  | value          -- ValueError
  | zeroDiv        -- ZeroDivisionError (Python numbers only; numpy returns inf/nan)
  | type           -- TypeError
  | unbound        -- UnboundLocalError
  | other          -- any other exception
  deriving DecidableEq, Repr

/-- `assert b`. -/
def pyAssert (b : Bool) : Except PyErr Unit := if b then .ok () else .error .assertion

/-- `l[i]` for a non-negative index. -/
def ixGet {α : Type} (l : List α) (i : Nat) : Except PyErr α :=
  match l[i]? with
  | some a => .ok a
  | none => .error .index

/-- `l[i]` with Python's negative indices. -/
def pyGet {α : Type} (l : List α) (i : Int) : Except PyErr α :=
  if 0 ≤ i then ixGet l i.toNat
  else if -(l.length : Int) ≤ i then ixGet l ((l.length : Int) + i).toNat
  else .error .index

/-- `np.where(mask)[0]`: the indices at which `p` holds, increasing. -/
def whereIx {α : Type} (p : α → Bool) (l : List α) : List Nat :=
  (List.range l.length).filter (fun i => (l[i]?).any p)

/-- `np.where(mask)[0][0]`: IndexError if the mask is empty. -/
def firstIx {α : Type} (p : α → Bool) (l : List α) : Except PyErr Nat :=
  match whereIx p l with
  | [] => .error .index
  | i :: _ => .ok i

/-- `np.where(mask)[0][-1]`: IndexError if the mask is empty. -/
def lastIx {α : Type} (p : α → Bool) (l : List α) : Except PyErr Nat :=
  match (whereIx p l).getLast? with
  | none => .error .index
  | some i => .ok i

/-- `l[ixs]`: fancy indexing with non-negative integers. -/
def gather {α : Type} (l : List α) (ixs : List Nat) : Except PyErr (List α) :=
  ixs.mapM (ixGet l)

/-- Apply `f` to the elements whose index satisfies `p`. -/
def modifyIf {α : Type} (p : Nat → Bool) (f : Nat → α → α) (l : List α) : List α :=
  l.mapIdx (fun i a => if p i then f i a else a)

/-- `np.arange(a, b)` for naturals. -/
def arangeUp (a b : Nat) : List Nat := (List.range (b - a)).map (a + ·)

/-- `np.arange(a, b - 1, -1)` for naturals: `a, a-1, ..., b` (empty if `a < b`). -/
def arangeDown (a b : Nat) : List Nat := (List.range (a + 1 - b)).map (a - ·)

theorem whereIx_sorted {α : Type} (p : α → Bool) (l : List α) :
    (whereIx p l).Pairwise (· < ·) :=
  List.Pairwise.filter _ List.pairwise_lt_range

theorem mem_whereIx {α : Type} {p : α → Bool} {l : List α} {i : Nat} :
    i ∈ whereIx p l ↔ ∃ a, l[i]? = some a ∧ p a = true := by
  unfold whereIx
  rw [List.mem_filter, List.mem_range]
  constructor
  · rintro ⟨h, hp⟩
    rw [List.getElem?_eq_getElem h] at hp ⊢
    exact ⟨_, rfl, by simpa using hp⟩
  · rintro ⟨a, ha, hp⟩
    refine ⟨(List.getElem?_eq_some_iff.mp ha).1, by rw [ha]; simpa using hp⟩

end Verif
