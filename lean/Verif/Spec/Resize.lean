import Verif.Num
import Verif.Model.MorRepair

set_option autoImplicit false

/-! # Scale models of the coast (for C179)

All lengths and heights are `L` times those of nature, volumes `L³` times; times are as in nature. -/

namespace Verif.Spec
open Verif Fl Verif.Model

variable {K : Type} [Field K] [LinearOrder K] [IsStrictOrderedRing K]

/-- A number times `q`; nan and infinities stay. -/
def resized (q : K) (a : Fl K) : Fl K := match a with | fin x => fin (q * x) | a => a

/-- A transect of the scale model. -/
def resizeRow (L : K) (t : Transect K) : Transect K :=
  { x := L * t.x, y0 := resized L t.y0, y1 := resized L t.y1, y2 := resized L t.y2, y3 := resized L t.y3, y4 := resized L t.y4
    z0 := resized L t.z0, z1 := resized L t.z1, z2 := resized L t.z2, z3 := resized L t.z3 }

/-- The parameters of a morphological step that are lengths, heights or lengths per time. -/
def resizePars (L : K) (pp : PhysPars K) : PhysPars K :=
  { pp with
    ClosureDepth := L * pp.ClosureDepth
    BackshoreElev := L * pp.BackshoreElev
    MaxOutletElev := L * pp.MaxOutletElev
    BeachTopElev := L * pp.BeachTopElev
    MinOutletWidth := L * pp.MinOutletWidth
    RiverWidth := L * pp.RiverWidth
    SpitWidth := L * pp.SpitWidth
    OutletSedSpreadDist := L * pp.OutletSedSpreadDist
    ShorelineErosionRate := L * pp.ShorelineErosionRate }

/-- The arguments of a morphological step for the scale model: bedload and longshore transport are volumes, transport over the
barrier is a volume per length of coast. -/
def resizeIn (L : K) (a : MorIn K) : MorIn K :=
  { a with
    rows := a.rows.map (resizeRow L)
    EndX0 := resized L a.EndX0
    EndX1 := resized L a.EndX1
    EndWidth := resized L a.EndWidth
    EndElev := resized L a.EndElev
    RiverElev := a.RiverElev.map (resized L)
    LagoonWL := a.LagoonWL.map (resized L)
    OutletDep := a.OutletDep.map (resized L)
    ChanWidth := a.ChanWidth.map (resized L)
    ChanDep := a.ChanDep.map (resized L)
    LST := a.LST.map (resized (L ^ 3))
    Bedload := a.Bedload.map (resized (L ^ 3))
    CST := a.CST.map (resized (L ^ 2))
    Dx := L * a.Dx
    MaxMorChange := L * a.MaxMorChange }

/-- The outcome for the scale model. -/
def resizeOut (L : K) (o : MorOut K) : MorOut K :=
  { o with
    rows := o.rows.map (resizeRow L)
    EndX0 := resized L o.EndX0
    EndX1 := resized L o.EndX1
    EndWidth := resized L o.EndWidth
    EndElev := resized L o.EndElev
    RiverElev := o.RiverElev.map (resized L) }

end Verif.Spec
