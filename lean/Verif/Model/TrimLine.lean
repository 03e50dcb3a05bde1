import Verif.Py

set_option autoImplicit false

/-! # Model of `trimLine` in `hapuamod/geom.py`

`trimLine` changes its arguments in place; here the new coordinates are returned.  Arrays hold floats. -/

namespace Verif.Model
open Verif Fl

variable {K : Type} [Field K] [LinearOrder K]

/-- geom.py 92-93 and 125-126: denominator of the intersection of the lines through `p`, `q` and `s`, `t`. -/
def meetDen (p q s t : Fl K × Fl K) : Fl K := (p.1 - q.1) * (s.2 - t.2) - (p.2 - q.2) * (s.1 - t.1)

/-- geom.py 96-100 and 129-133. -/
def meetX (p q s t : Fl K × Fl K) : Fl K :=
  ((p.1 * q.2 - p.2 * q.1) * (s.1 - t.1) - (p.1 - q.1) * (s.1 * t.2 - s.2 * t.1)) / meetDen p q s t

/-- geom.py 110-114 and 143-147. -/
def meetY (p q s t : Fl K × Fl K) : Fl K :=
  ((p.1 * q.2 - p.2 * q.1) * (s.2 - t.2) - (p.2 - q.2) * (s.1 * t.2 - s.2 * t.1)) / meetDen p q s t

/-- geom.py 90-107 and 123-140: the search for the segment of the trim line, at most `fuel` rounds of the loop (`none`:
still searching).  `seg` may become negative, and then counts from the end. -/
def trimSearch (p q : Fl K × Fl K) (tx ty : List (Fl K)) : ℕ → ℤ → Except PyErr (Option (Fl K × Fl K))
  | 0, _ => .ok none
  | fuel + 1, seg => do
    let x0 ← pyGet tx seg
    let y0 ← pyGet ty seg
    let x1 ← pyGet tx (seg + 1)
    let y1 ← pyGet ty (seg + 1)
    let x := meetX p q (x0, y0) (x1, y1)
    if x <? x0 then trimSearch p q tx ty fuel (seg - 1)
    else if x1 <? x then trimSearch p q tx ty fuel (seg + 1)
    else return some (x, meetY p q (x0, y0) (x1, y1))

/-- geom.py 88-89 and 121-122: the first segment tried. -/
def trimStart (x : Fl K) (tx : List (Fl K)) : Except PyErr ℕ :=
  firstIx (fun (a : Fl K × Fl K) => (x ≤? a.2) && (a.1 <? x)) (tx.dropLast.zip tx.tail)

/-- geom.py 71-150, `trimLine`, with at most `fuel` rounds of each search (`none`: still searching). -/
def trimLine (fuel : ℕ) (LineX LineY TrimLineX StartTrimLineY EndTrimLineY : List (Fl K)) :
    Except PyErr (Option (List (Fl K) × List (Fl K))) := do
  let xa ← pyGet LineX 0
  let seg ← trimStart xa TrimLineX
  let xb ← pyGet LineX 1
  let ya ← pyGet LineY 0
  let yb ← pyGet LineY 1
  match ← trimSearch (xa, ya) (xb, yb) TrimLineX StartTrimLineY fuel seg with
  | none => return none
  | some (x, y) => do
    let LineX := LineX.set 0 x
    let LineY := LineY.set 0 y
    let xd ← pyGet LineX (-1)
    let seg ← trimStart xd TrimLineX
    let xc ← pyGet LineX (-2)
    let yc ← pyGet LineY (-2)
    let yd ← pyGet LineY (-1)
    match ← trimSearch (xc, yc) (xd, yd) TrimLineX EndTrimLineY fuel seg with
    | none => return none
    | some (x, y) => return some (LineX.set (LineX.length - 1) x, LineY.set (LineY.length - 1) y)

end Verif.Model
