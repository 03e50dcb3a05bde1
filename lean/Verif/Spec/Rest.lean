import Verif.Model.Core

set_option autoImplicit false

/-! # Specification: a coast at rest -/

namespace Verif.Spec
open Verif Fl Model

variable {K : Type} [Field K] [LinearOrder K]

/-- A transect on which nothing has to be repaired: features are in order across the shore, banks are higher than beds, and
the barrier seaward of a channel is at least as high as that landward of it. -/
inductive Tidy (pp : PhysPars K) : Transect K → Prop
  | plain (x y0 y3 y4 z0 z3 : K) (y2 z1 z2 : Fl K) (hy3 : y3 < y0) (hy4 : y4 < y0) (hz3 : z3 < z0) (hb : z3 < pp.BackshoreElev)
      (hs : 0 < pp.ClosureDepth + z0) : Tidy pp ⟨x, fin y0, nan, y2, fin y3, fin y4, fin z0, z1, z2, fin z3⟩
  | channel (x y0 y1 y2 y3 y4 z0 z1 z2 z3 : K) (hy1 : y1 < y0) (hy2 : y2 < y1) (hy3 : y3 < y2) (hy4 : y4 < y0) (hz1 : z1 < z2) (hz2 : z2 ≤ z0)
      (hz3 : z3 < z2) (hb : z3 < pp.BackshoreElev) (hs : 0 < pp.ClosureDepth + z0) :
      Tidy pp ⟨x, fin y0, fin y1, fin y2, fin y3, fin y4, fin z0, fin z1, fin z2, fin z3⟩

/-- A coast on which nothing has to be repaired; `e1`, `w`, `z` are position, width and bed level of the seaward outlet end. -/
structure TidyCoast (pp : PhysPars K) (rows : List (Transect K)) (e1 w z : Fl K) : Prop where
  tidy : ∀ t ∈ rows, Tidy pp t
  pos : ∃ x, e1 = fin x ∧ (∀ t, rows[1]? = some t → t.x ≤ x) ∧ (∀ t, rows[rows.length - 2]? = some t → x ≤ t.x)
  width : ∃ b, w = fin b ∧ 0 < b
  bed : ∃ b, z = fin b ∧ b < pp.BeachTopElev

/-- Parameters by which the step divides are positive, and the shoreline is not made to retreat at the ends. -/
structure RestPars (pp : PhysPars K) (Dx : K) : Prop where
  Dx : 0 < Dx
  river : 0 < pp.RiverWidth
  spread : 0 < pp.OutletSedSpreadDist
  spit : 0 < pp.SpitWidth
  ends : pp.ShorelineErosionRate = 0

/-- No sediment moves, and the water is nowhere above level `L`, which is no higher than any barrier. -/
structure AtRest (a : MorIn K) (L : K) : Prop where
  bed : ∀ q ∈ a.Bedload, q = fin 0
  lst : ∀ q ∈ a.LST, q = fin 0
  cst : ∀ q ∈ a.CST, q = fin 0
  owp : ∀ q ∈ a.OverwashProp, ∃ x, q = fin x
  lagoon : ∀ w ∈ a.LagoonWL, w = nan ∨ (w ≤? fin L) = true
  outlet : ∀ (i : ℕ) t d, a.rows[i]? = some t → a.OutletDep[i]? = some d → d + t.z1 = nan ∨ (d + t.z1 ≤? fin L) = true
  dry : -99999 / 10 ≤ L
  crest : ∀ t ∈ a.rows, (fin L ≤? t.z0) = true

/-- A pass of the loop in which no sediment moves and the water in lagoon and outlet stays no higher than `L`. -/
structure QuietPass (L : K) (s : CoreSt K) (p : PassOut K) : Prop where
  bed : ∀ q ∈ p.bed, q = fin 0
  lst : ∀ q ∈ p.LST, q = fin 0
  cst : ∀ q ∈ p.CST, q = fin 0
  lagoon : ∀ w ∈ p.hyd.LagoonWL, w = nan ∨ (w ≤? fin L) = true
  outlet : ∀ (i : ℕ) t d, s.rows[i]? = some t → p.hyd.OutletDep[i]? = some d → d + t.z1 = nan ∨ (d + t.z1 ≤? fin L) = true

/-- Morphology and outlet of `s'` are those of `s`; a closed lagoon may have lost track of the outlet channel it once had. -/
structure StillCoast (s s' : CoreSt K) : Prop where
  rows : s'.rows = s.rows
  river : s'.RiverElev = s.RiverElev
  pos : s'.EndX1 = s.EndX1
  width : s'.EndWidth = s.EndWidth
  bed : s'.EndElev = s.EndElev
  start : s'.EndX0 = s.EndX0 ∨ s'.Closed = true ∧ s'.EndX0 = nan

end Verif.Spec
