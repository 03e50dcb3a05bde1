import Verif.Model.Series
import Mathlib.Analysis.SpecialFunctions.Log.Basic
import Mathlib.Analysis.SpecialFunctions.Trigonometric.Basic

set_option autoImplicit false

/-! # Model of `hapuamod/synth.py`

Times and durations are integers (nanoseconds), values are reals. -/

namespace Verif.Model
open Verif Fl

/-- Nanoseconds in a day. -/
def dayNs : ℤ := 86400 * 10 ^ 9

/-- `pd.date_range(start, end, freq)`: `start`, `start + freq`, ... up to and including `end`; ZeroDivisionError if `freq` is zero.
(A negative `freq` gives times going backwards; not used.) -/
def dateRange (start stop freq : ℤ) : Except PyErr (List ℤ) :=
  if freq = 0 then .error .zeroDiv
  else if stop < start then .ok []
  else .ok ((List.range ((stop - start) / freq + 1).toNat).map (fun i : ℕ => start + (i : ℤ) * freq))

/-- synth.py 196: `(12*60 + 25.2) * 60`, in seconds. -/
noncomputable def tidePeriod : ℝ := (12 * 60 + 252 / 10) * 60

/-- synth.py 164-204, `harmonicTide`. -/
noncomputable def harmonicTide (StartDate EndDate OutputInt : ℤ) (MeanSeaLevel TidalRange : ℝ) : Except PyErr (Series ℝ) := do
  let times ← dateRange StartDate EndDate OutputInt
  return times.map (fun t => (t, fin (MeanSeaLevel + TidalRange / 2 * Real.sin (((t - StartDate : ℤ) : ℝ) / 10 ^ 9 / tidePeriod * 2 * Real.pi))))

/-- `np.interp` on real values with times as abscissae, from the point `(x0, f0)` on. -/
noncomputable def interpR (x0 : ℤ) (f0 : ℝ) : List (ℤ × ℝ) → ℤ → ℝ
  | [], _ => f0
  | (x1, f1) :: rest, x =>
    if x < x1 then (if x ≤ x0 then f0 else (f1 - f0) / ((x1 - x0 : ℤ) : ℝ) * ((x - x0 : ℤ) : ℝ) + f0)
    else interpR x1 f1 rest x

/-- `l[-2:]`. -/
def lastTwo {α : Type} (l : List α) : List α := l.drop (l.length - 2)

/-- `np.interp(t, OutputTs.index[-2:], OutputTs[-2:])`; ValueError if there are no points. -/
noncomputable def interpLast (ts : List (ℤ × ℝ)) (t : ℤ) : Except PyErr ℝ :=
  match lastTwo ts with
  | [] => .error .value
  | (x0, f0) :: rest => .ok (interpR x0 f0 rest t)

/-- Arguments of `shotNoise` (synth.py 11-15), other than the seed. -/
structure ShotPars where
  StartDate : ℤ
  EndDate : ℤ
  OutputInt : ℤ
  MeanTimeBetweenEvents : ℤ
  MeanEventIncrease : ℝ
  DecayRate1 : ℝ
  PropRate1 : ℝ
  DecayRate2 : Option ℝ
  RisingLimbTime : ℤ
  CalcTimeInt : Option ℤ

/-- Variables of the loop of `shotNoise`: the series so far, the last values of the two components and the time of the last
event. -/
structure ShotState where
  ts : List (ℤ × ℝ)
  r1 : ℝ
  r2 : ℝ
  last : ℤ

/-- synth.py 117-153: one pass of the loop, for the gap to the next event and its size.  (`sort_index` is taken to keep the order
of equal times.) -/
noncomputable def shotStep (p : ShotPars) (d2 : ℝ) (calcInt : ℤ) (s : ShotState) (gap : ℤ) (size : ℝ) : Except PyErr ShotState := do
  let (ts, times) ← (do
    if gap < p.RisingLimbTime then
      let t := s.last + gap - p.RisingLimbTime
      let v ← interpLast s.ts t                                                     -- 122-125
      let ts := (s.ts ++ [(t, v)]).insertionSort (fun a b => a.1 ≤ b.1)             -- 126
      let e ← pyGet ts (-1)
      let e' := (e.1, e.2 + interpR t 0 [(s.last + gap, size)] e.1)                 -- 129-131
      return (ts.set (ts.length - 1) e', [s.last + gap])                            -- 134
    else
      let stop := s.last + gap - p.RisingLimbTime
      let r ← dateRange s.last stop calcInt                                         -- 140-143: closed='right' drops the start
      return (s.ts, r.filter (fun t => decide (t ≠ s.last)) ++ [stop, s.last + gap]) : Except PyErr (List (ℤ × ℝ) × List ℤ))
  let days := fun t : ℤ => ((t - s.last : ℤ) : ℝ) / 10 ^ 9 / 86400                  -- 145
  let v1 := times.map (fun t => s.r1 * Real.exp (-p.DecayRate1 * days t))           -- 146
  let v2 := times.map (fun t => s.r2 * Real.exp (-d2 * days t))                     -- 147
  let e1 ← pyGet v1 (-1)
  let e2 ← pyGet v2 (-1)
  let r1 := e1 + size * p.PropRate1                                                 -- 148
  let r2 := e2 + size * (1 - p.PropRate1)                                           -- 149
  let tot := List.zipWith (· + ·) (v1.set (v1.length - 1) r1) (v2.set (v2.length - 1) r2)
  return { ts := ts ++ times.zip tot, r1 := r1, r2 := r2, last := s.last + gap }    -- 150-153

/-- synth.py 111-153: the loop.  `draws` are the pairs of numbers returned by `r.random()`; `toNs` converts a number of days
to a `Timedelta`.  `math.log(0)` is a ValueError.  `.other` if the draws given run out before the loop ends. -/
noncomputable def shotLoop (p : ShotPars) (toNs : ℝ → ℤ) (rate d2 : ℝ) (calcInt : ℤ) : ShotState → List (ℝ × ℝ) → Except PyErr ShotState
  | s, draws =>
    if s.last < p.EndDate then
      match draws with
      | [] => .error .other
      | (u, v) :: rest =>
        if u = 0 ∨ 1 - v = 0 then .error .value
        else do
          let s' ← shotStep p d2 calcInt s (toNs (-Real.log u / rate)) (-p.MeanEventIncrease * Real.log (1 - v))
          shotLoop p toNs rate d2 calcInt s' rest
    else .ok s

/-- `Series.resample(OutputInt).mean()`: regular bins counted from `origin` (the midnight pandas chooses), from the bin of the
first record to that of the last; nan for a bin without records. -/
noncomputable def resampleMean (origin int : ℤ) (ts : List (ℤ × ℝ)) : Series ℝ :=
  match ts with
  | [] => []
  | a :: rest =>
    let bin := fun t : ℤ => (t - origin) / int
    let b0 := bin a.1
    let b1 := bin ((rest.getLast?.getD a).1)
    (List.range (b1 - b0 + 1).toNat).map (fun k : ℕ =>
      let vs := (ts.filter (fun r => decide (bin r.1 = b0 + k))).map (·.2)
      (origin + (b0 + k) * int, if vs.isEmpty then nan else fin (vs.sum / vs.length)))

/-- synth.py 81-98: the checks of the arguments, and the values derived from them: event rate, second decay rate, initial values
of the two components. -/
noncomputable def shotInit (p : ShotPars) : Except PyErr (ℝ × ℝ × ℝ × ℝ) := do
  pyAssert (decide (0 < p.DecayRate1))
  pyAssert (decide (0 ≤ p.PropRate1) && decide (p.PropRate1 ≤ 1))
  if p.PropRate1 < 1 then
    match p.DecayRate2 with
    | none => .error .assertion
    | some d => pyAssert (decide (0 < d))
  pyAssert (decide (0 < p.RisingLimbTime))
  let days := p.MeanTimeBetweenEvents / dayNs               -- `.days`, whole days
  if days = 0 then .error .zeroDiv                          -- 95
  else
    let rate : ℝ := 1 / (days : ℝ)
    match p.DecayRate2 with
    | none => .error .type                                  -- 98: `PropRate2 / None`
    | some d =>
      if d = 0 then .error .zeroDiv
      else return (rate, d, p.MeanEventIncrease * (p.PropRate1 / p.DecayRate1) * rate,
                   p.MeanEventIncrease * ((1 - p.PropRate1) / d) * rate)

/-- synth.py 108-153: the series before resampling. -/
noncomputable def shotRaw (p : ShotPars) (toNs : ℝ → ℤ) (draws : List (ℝ × ℝ)) : Except PyErr ShotState := do
  let (rate, d2, r1, r2) ← shotInit p
  let calcInt := p.CalcTimeInt.getD (p.OutputInt / 4)       -- 88-89
  shotLoop p toNs rate d2 calcInt ⟨[(p.StartDate, r1 + r2)], r1, r2, p.StartDate⟩ draws

/-- synth.py 11-162, `shotNoise`. -/
noncomputable def shotNoise (p : ShotPars) (toNs : ℝ → ℤ) (origin : ℤ) (draws : List (ℝ × ℝ)) : Except PyErr (Series ℝ) := do
  let s ← shotRaw p toNs draws
  return (resampleMean origin p.OutputInt s.ts).filter (fun r => decide (r.1 ≤ p.EndDate))   -- 159-160

end Verif.Model
