import Verif.Model.Types
import Verif.Model.RealFn

set_option autoImplicit false

/-! # Model of `hapuamod/coast.py` -/

namespace Verif.Model
open Verif Fl

/-- coast.py 56, 57: local wave angle of the segment between shoreline positions `ya`, `yb`. -/
noncomputable def localEDir (Dx EDir_h ya yb : Fl ℝ) : Fl ℝ :=
  EDir_h - npArctan ((ya - yb) / Dx)

/-- coast.py 69-73: `C_b / C_h`. -/
noncomputable def celerityRatio (WavePower WavePeriod Wlen_h : Fl ℝ) (P : PhysPars ℝ) : Fl ℝ :=
  let BreakerDepth := npPow (fin P.BreakerCoef * WavePower) 0.4
  let C_b := npPow (fin P.Gravity * BreakerDepth) 0.5
  let C_h := (fin P.Gravity * WavePeriod / (fin 2 * fin Real.pi)) *
    npTanh (fin 2 * fin Real.pi * fin P.WaveDataDepth / Wlen_h)
  C_b / C_h

/-- coast.py 7-80, `longShoreTransport`.  `ShoreY0` is the first column of `ShoreY`.
`LocalWavePower` (60-62) is computed but never used by the code, so it does not appear. -/
noncomputable def longShoreTransport (ShoreY0 : List (Fl ℝ)) (Dx WavePower WavePeriod Wlen_h EDir_h : Fl ℝ)
    (P : PhysPars ℝ) : List (Fl ℝ) :=
  let LocalEDir_h := (ShoreY0.dropLast.zip ShoreY0.tail).map (fun p => localEDir Dx EDir_h p.1 p.2)
  let r := celerityRatio WavePower WavePeriod Wlen_h P
  LocalEDir_h.map (fun a =>
    let BreakerAngle := npArcsin (npSin a * r)
    (-(fin P.K2coef)) * WavePower * npCos a * npSin BreakerAngle)

/-- coast.py 82-99, `runup`. -/
noncomputable def runup (WavePeriod Hs_offshore BeachSlope : Fl ℝ) : Fl ℝ :=
  fin 0.49 * npPow BeachSlope 0.5 * WavePeriod * Hs_offshore

/-- coast.py 119: overtopping potential. -/
def overtopPotential {K : Type} [Field K] [LinearOrder K] (Runup SeaLevel : Fl K) (t : Transect K) : Fl K :=
  npmax (Runup + SeaLevel - t.z0) (fin 0)

/-- coast.py 122: total sediment flux at one transect. -/
noncomputable def cstTot (Runup SeaLevel : Fl ℝ) (P : PhysPars ℝ) (t : Transect ℝ) : Fl ℝ :=
  fin P.OT_coef * npPow (overtopPotential Runup SeaLevel t) P.OT_exp

/-- coast.py 125-140: the overwash flag at one transect. -/
def overwashProp {K : Type} [Field K] [LinearOrder K] (P : PhysPars K) (t : Transect K) : Bool :=
  -- 125
  let OutletPresent := !t.y1.isnan
  -- 128, 129
  let CrestWidth0 := npmax (t.y0 - t.y3) (fin (1/1000))
  let CrestWidth := if OutletPresent then t.y0 - t.y1 else CrestWidth0
  -- 132, 133
  let NoLagoon0 := t.y3 ≤? t.y4
  let NoLagoon := if OutletPresent then false else NoLagoon0
  -- 134, 135
  let OverwashProp0 := (CrestWidth * fin P.BarRatSlope + fin P.BarRatInt) <? t.z0
  let OverwashProp1 := if NoLagoon then false else OverwashProp0
  -- 138-140
  let ZeroWidthOutlet := if OutletPresent then t.y1 ≤? t.y2 else OutletPresent
  if ZeroWidthOutlet then true else OverwashProp1

/-- coast.py 101-146, `overtopping`.  The check on line 143 is about a boolean array and can
never fail; it is omitted. -/
noncomputable def overtopping (Runup SeaLevel : Fl ℝ) (Shore : List (Transect ℝ)) (P : PhysPars ℝ) :
    Except PyErr (List (Fl ℝ) × List Bool) := do
  let CST_tot := Shore.map (cstTot Runup SeaLevel P)
  let OverwashProp := Shore.map (overwashProp P)
  -- 144
  pyAssert (CST_tot.all (fun c => fin 0 ≤? c))
  return (CST_tot, OverwashProp)

end Verif.Model
