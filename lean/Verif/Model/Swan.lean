import Verif.Model.Channel
import Verif.Model.Geom
import Verif.Model.RealFn

set_option autoImplicit false

/-! # Model of `preprocessing/WaveDataFromSwanOutput.py` -/

namespace Verif.Model
open Verif Fl Real

/-- The columns of the wave model output that are used (WaveDataFromSwanOutput.py 8-14).  Numbers are taken to be finite. -/
structure SwanRow where
  year : ℕ
  month : ℕ
  day : ℕ
  hour : ℕ
  min : ℕ
  Hsig : ℝ
  WavePeriod : ℝ
  Dir : ℝ
  Wlen : ℝ
  Depth : ℝ
  X : ℝ
  Y : ℝ

/-- WaveDataFromSwanOutput.py 15: the time of a record from columns 1 to 4; `stamp` makes a time from year, month, day, hour and minute. -/
def swanTime {T : Type} (stamp : ℕ → ℕ → ℕ → ℕ → ℕ → T) (r : SwanRow) : T := stamp r.year r.month r.day r.hour 0

/-- WaveDataFromSwanOutput.py 23-24. -/
noncomputable def swanPower (r : SwanRow) : ℝ := 1025 * (981 / 100) * √(r.X ^ 2 + r.Y ^ 2)

/-- WaveDataFromSwanOutput.py 25-26. -/
noncomputable def swanDir (r : SwanRow) : Fl ℝ := flMod (fin (arctan2 r.X r.Y * (180 / π) - 180)) 360

/-- WaveDataFromSwanOutput.py 31-33: wave angle relative to the beach; `normal` is ShoreNormalDir in degrees. -/
noncomputable def swanAngle (normal : ℝ) (r : SwanRow) : Fl ℝ :=
  flMod (fin (normal * (π / 180) - r.Dir * (π / 180) + π / 2)) (2 * π) - fin (π / 2)

/-- `np.sinh`. -/
noncomputable def npSinh : Fl ℝ → Fl ℝ
  | fin x => fin (sinh x)
  | a => a

/-- WaveDataFromSwanOutput.py 36: are the waves directed onshore? -/
noncomputable def swanOnshore (normal : ℝ) (r : SwanRow) : Bool := (swanAngle normal r).abs <? fin (π / 2)

/-- WaveDataFromSwanOutput.py 37: height after that of offshore directed waves was set to 0. -/
noncomputable def swanHeight (normal : ℝ) (r : SwanRow) : Fl ℝ := if swanOnshore normal r then fin r.Hsig else fin 0

/-- WaveDataFromSwanOutput.py 38: angle after that of offshore directed waves was set to 0. -/
noncomputable def swanTheta (normal : ℝ) (r : SwanRow) : Fl ℝ := if swanOnshore normal r then swanAngle normal r else fin 0

/-- WaveDataFromSwanOutput.py 41. -/
noncomputable def swanK (r : SwanRow) : Fl ℝ := fin (2 * π) / fin r.Wlen

/-- WaveDataFromSwanOutput.py 42-43. -/
noncomputable def swanN (r : SwanRow) : Fl ℝ :=
  fin (1 / 2) * (fin 1 + fin 2 * swanK r * fin r.Depth / npSinh (fin 2 * swanK r * fin r.Depth))

/-- WaveDataFromSwanOutput.py 46-47. -/
noncomputable def swanLoff (r : SwanRow) : Fl ℝ := fin 1 / npTanh (fin (2 * π * r.Depth) / fin r.Wlen)

/-- WaveDataFromSwanOutput.py 49-51. -/
noncomputable def swanThetaOff (normal : ℝ) (r : SwanRow) : Fl ℝ :=
  npArcsin (npmax (npmin (swanLoff r * npSin (swanTheta normal r)) (fin 1)) (fin (-1)))

/-- WaveDataFromSwanOutput.py 52-55: offshore significant wave height. -/
noncomputable def swanHoff (normal : ℝ) (r : SwanRow) : Fl ℝ :=
  swanHeight normal r / npSqrt (fin (1 / 2) * swanN r * swanLoff r * (npCos (swanThetaOff normal r) / npCos (swanTheta normal r)))

end Verif.Model
