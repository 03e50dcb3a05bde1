import Verif.Model.Out
import Mathlib.Analysis.SpecialFunctions.Pow.Real
import Mathlib.Analysis.SpecialFunctions.Trigonometric.Basic

set_option autoImplicit false

/-! # Model of parts of `loadModel` in `hapuamod/loadmod.py`: derived parameters, river profile, default shoreline,
wave directions -/

namespace Verif.Model
open Verif Fl

variable {K : Type} [Field K] [LinearOrder K] [IsStrictOrderedRing K]

/-- `np.arange(a, b, d)` for floats, without rounding: as many values `a, a + d, ...` as fit before `b`. -/
def arange [FloorRing K] (a b d : K) : Except PyErr (List K) :=
  if d = 0 then .error .zeroDiv else .ok ((List.range ⌈(b - a) / d⌉.toNat).map (fun i : ℕ => a + (i : K) * d))

/-- loadmod.py 293-299: initial bed levels of the river, upstream end first. -/
def riverElev [FloorRing K] (LagoonBed RiverSlope UpstreamLength Dx : K) : Except PyErr (List (Fl K)) := do
  let up ← arange LagoonBed (LagoonBed + RiverSlope * UpstreamLength) (RiverSlope * Dx)
  return up.reverse.map fin

/-- loadmod.py 280-283: slope and intercept of the target line of barrier height against barrier width. -/
def barRat (TargetBarHeight BeachTopElev TargetBarWidth SpitWidth : K) : Except PyErr (K × K) :=
  if TargetBarWidth - SpitWidth = 0 then .error .zeroDiv
  else
    let slope := (TargetBarHeight - BeachTopElev) / (TargetBarWidth - SpitWidth)
    .ok (slope, BeachTopElev - slope * SpitWidth)

/-- The configuration entries used for the default straight shoreline (loadmod.py 329-370). -/
structure ShoreCfg (K : Type) where
  ShorelineLengthLeft : K
  ShorelineLengthRight : K
  BeachWidth : K
  Dx : K
  SpitWidth : K
  RiverWidth : K
  OutletWidth : K
  OutletBed : K
  LagoonBed : K
  BarrierElev : K
  deriving DecidableEq, Repr

/-- loadmod.py 342-370: one transect of the default straight shoreline. -/
def defaultRow (c : ShoreCfg K) (x : K) : Transect K :=
  if x = 0 then
    { x := x, y0 := fin 0, y1 := fin (-c.SpitWidth), y2 := fin (-c.SpitWidth - c.OutletWidth),
      y3 := fin (-c.SpitWidth - c.OutletWidth - 1 / 1000), y4 := fin (-c.SpitWidth - c.OutletWidth - c.RiverWidth),
      z0 := fin c.BarrierElev, z1 := fin ((c.OutletBed + c.LagoonBed) / 2), z2 := fin c.BarrierElev, z3 := fin c.LagoonBed }
  else
    { x := x, y0 := fin 0, y1 := nan, y2 := nan, y3 := fin (-c.BeachWidth), y4 := fin (-c.BeachWidth),
      z0 := fin c.BarrierElev, z1 := nan, z2 := nan, z3 := fin c.LagoonBed }

/-- loadmod.py 341-370: the transects of the default straight shoreline. -/
def defaultRows [FloorRing K] (c : ShoreCfg K) : Except PyErr (List (Transect K)) :=
  if c.Dx = 0 then .error .zeroDiv   -- 341, floor(-L/Dx)
  else do
    let xs ← arange ((⌊-c.ShorelineLengthLeft / c.Dx⌋ : K) * c.Dx) (c.ShorelineLengthRight + c.Dx) c.Dx
    return xs.map (defaultRow c)

/-- loadmod.py 293-299, 329-370, 570-579: the initial state with the default straight shoreline. -/
def defaultLoad [FloorRing K] (c : ShoreCfg K) (RiverSlope UpstreamLength : K) : Except PyErr (LoadOut K) := do
  let riv ← riverElev c.LagoonBed RiverSlope UpstreamLength c.Dx
  let rows ← defaultRows c
  let zeros := fun n : ℕ => List.replicate n (fin (0 : K))
  return { rows := rows, RiverElev := riv, EndX0 := fin 0, EndX1 := fin 0, EndWidth := fin c.OutletWidth, EndElev := fin c.OutletBed,
           RiverWL := zeros riv.length, RiverVel := zeros riv.length, LagoonWL := zeros rows.length, LagoonVel := zeros rows.length,
           OutletDep := zeros rows.length, OutletVel := zeros rows.length, EndDep := zeros 2, EndVel := zeros 2, Closed := false }

/-- loadmod.py 619-621: a wave direction, given as a bearing in degrees, relative to the shore normal in radians. -/
noncomputable def waveDir (EDir_h : Fl ℝ) (ShoreNormDir : ℝ) : Fl ℝ :=
  flMod (EDir_h * fin (Real.pi / 180) - fin ShoreNormDir + fin Real.pi) (2 * Real.pi) - fin Real.pi

/-- loadmod.py 271-278: coefficients of the longshore transport formula. -/
noncomputable def lstCoefs (Kcoef RhoSed RhoSea Gravity VoidRatio GammaRatio : ℝ) : Except PyErr (ℝ × ℝ) :=
  let gammaLST := (RhoSed - RhoSea) * Gravity * (1 - VoidRatio)
  let d := RhoSea * Gravity ^ (3 / 2 : ℝ) * GammaRatio ^ (2 : ℝ)
  if gammaLST = 0 ∨ d = 0 then .error .zeroDiv else .ok (Kcoef / gammaLST, 8 / d)

end Verif.Model
