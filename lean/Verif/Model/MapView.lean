import Verif.Model.Geom
import Verif.Model.Core

set_option autoImplicit false

/-! # Model of `mapView` in `hapuamod/visualise.py`

The map in real-world coordinates: the points drawn.  Drawing itself (matplotlib), colours and labels are not modelled. -/

namespace Verif.Model
open Verif Fl Real

/-- geom.py 13-24, `mod2real`, for a finite alongshore and any cross-shore coordinate (nan gives nan). -/
noncomputable def mod2realFl (x : ℝ) (y : Fl ℝ) (o : ℝ × ℝ) (s : ℝ) : Fl ℝ × Fl ℝ :=
  (fin o.1 + fin x * fin (sin (s + π/2)) - y * fin (cos (s + π/2)),
   fin o.2 + fin x * fin (cos (s + π/2)) + y * fin (sin (s + π/2)))

/-- What `mapView` draws (visualise.py 30-58). -/
structure MapFig where
  shore : List (Fl ℝ × Fl ℝ)
  bank : List (Fl ℝ × Fl ℝ)
  lagoon : List (Fl ℝ × Fl ℝ)
  cliff : List (Fl ℝ × Fl ℝ)
  river : (Fl ℝ × Fl ℝ) × (Fl ℝ × Fl ℝ)
  end0 : (Fl ℝ × Fl ℝ) × (Fl ℝ × Fl ℝ)
  end1 : (Fl ℝ × Fl ℝ) × (Fl ℝ × Fl ℝ)
  origin : ℝ × ℝ
  base : ℝ × ℝ
  arrowX : ℝ × ℝ
  arrowY : ℝ × ℝ
  labX : ℝ × ℝ
  labY : ℝ × ℝ

/-- One line of the map: a column of ShoreY in real-world coordinates (visualise.py 19-20, 30-34). -/
noncomputable def mapLine (rows : List (Transect ℝ)) (f : Transect ℝ → Fl ℝ) (o : ℝ × ℝ) (s : ℝ) : List (Fl ℝ × Fl ℝ) :=
  rows.map (fun r => mod2realFl r.x (f r) o s)

/-- `np.min(a)` of numbers: the empty array raises ValueError. -/
noncomputable def minOf : List ℝ → Except PyErr ℝ
  | [] => .error .value
  | a :: l => .ok (l.foldl min a)

/-- `[ShoreX[i], ShoreY[i,[3,4]]]` in real-world coordinates (visualise.py 38-39). -/
noncomputable def mapEnd (r : Transect ℝ) (o : ℝ × ℝ) (s : ℝ) : (Fl ℝ × Fl ℝ) × (Fl ℝ × Fl ℝ) :=
  (mod2realFl r.x r.y3 o s, mod2realFl r.x r.y4 o s)

/-- visualise.py 14-66, `mapView`.  Cliff positions that are not numbers are not modelled (`other`). -/
noncomputable def mapView (rows : List (Transect ℝ)) (o : ℝ × ℝ) (s : ℝ) : Except PyErr MapFig := do
  -- 23-26
  let cl ← rows.mapM (fun r => finOf r.y4)
  let low ← minOf cl
  let cross ← ixGet (intersectPolyline ((rows.map (·.x)).zip cl) 0) 0
  let river := (mod2realFl 0 (fin (low * 3)) o s, mod2realFl 0 cross o s)
  -- 37-39
  let have3 := whereIx (fun r : Transect ℝ => !r.y3.isnan) rows
  let i0 ← ixGet have3 0
  let i1 ← pyGet have3 (-1)
  let r0 ← ixGet rows i0
  let r1 ← ixGet rows i1
  -- 43-47
  let a ← ixGet rows 0
  let b ← pyGet rows (-1)
  let b0 := mod2real a.x 0 o s
  let b1 := mod2real 0 0 o s
  let b2 := mod2real b.x 0 o s
  let ax := (b2.1 - b0.1) / 20
  let ay := (b2.2 - b0.2) / 20
  return { shore := mapLine rows (·.y0) o s, bank := mapLine rows (·.y2) o s, lagoon := mapLine rows (·.y3) o s
           cliff := mapLine rows (·.y4) o s, river := river, end0 := mapEnd r0 o s, end1 := mapEnd r1 o s
           origin := o, base := b1, arrowX := (ax, ay), arrowY := (-ay, ax)
           labX := (b1.1 + ax * 2.4, b1.2 + ay * 2.4), labY := (b1.1 - ay * 2.4, b1.2 + ax * 2.4) }

end Verif.Model
