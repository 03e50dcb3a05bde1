import Verif.Model.View

set_option autoImplicit false

/-! # What the map view should show -/

namespace Verif.Spec
open Verif Verif.Model Fl

variable {K : Type}

/-- The vertices of a line or polygon. -/
def pts (l : Line K) : List (Fl K × Fl K) := l.x.zip l.y

/-- There is a Y coordinate for every X coordinate. -/
def Paired (l : Line K) : Prop := l.x.length = l.y.length

/-- Every line and polygon of the view can be drawn. -/
def Drawable (v : View K) : Prop :=
  Paired v.shore ∧ Paired v.dots ∧ Paired v.outlet ∧ Paired v.lagoon ∧ Paired v.cliff ∧ Paired v.river ∧ Paired v.water ∧ Paired v.hatch

/-- `l` is drawn as `a`, a gap, and `b`. -/
def TwoParts (l a b : Line K) : Prop := Paired a ∧ Paired b ∧ l.x = a.x ++ nan :: b.x ∧ l.y = a.y ++ nan :: b.y

/-- Both lines end at the same vertex (and have one). -/
def EndsMeet (a b : Line K) : Prop := ∃ p, (pts a).getLast? = some p ∧ (pts b).getLast? = some p

/-- The line `a` ends where `b` starts. -/
def EndMeetsStart (a b : Line K) : Prop := ∃ p, (pts a).getLast? = some p ∧ (pts b).head? = some p

/-- Both lines start at the same vertex. -/
def StartsMeet (a b : Line K) : Prop := ∃ p, (pts a).head? = some p ∧ (pts b).head? = some p

/-- The polygon returns to its first vertex. -/
def ClosedPoly (a : Line K) : Prop := ∃ p, (pts a).head? = some p ∧ (pts a).getLast? = some p

/-- The left bank passes through the edges of the channel on the crossed transects `rs` that lie between its ends: through the
seaward edge if it runs from left to right, through the landward edge otherwise. -/
def LeftFollows [Field K] [LinearOrder K] (rs : List (Transect K)) (l : Line K) : Prop :=
  ∀ us ds, l.x.head? = some us → l.x.getLast? = some ds → ∀ r ∈ rs,
    ((us <? ds) = true → (fin r.x <? ds) = true → (fin r.x, r.y1) ∈ pts l) ∧
    ((us <? ds) = false → (fin r.x <? us) = true → (fin r.x, r.y2) ∈ pts l)

/-- The same for the right bank, which is the landward one if it runs from left to right. -/
def RightFollows [Field K] [LinearOrder K] (rs : List (Transect K)) (l : Line K) : Prop :=
  ∀ us ds, l.x.head? = some us → l.x.getLast? = some ds → ∀ r ∈ rs,
    ((us <? ds) = true → (us <? fin r.x) = true → (fin r.x, r.y2) ∈ pts l) ∧
    ((us <? ds) = false → (ds <? fin r.x) = true → (fin r.x, r.y1) ∈ pts l)

end Verif.Spec
