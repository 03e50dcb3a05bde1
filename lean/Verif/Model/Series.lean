import Verif.Model.Channel
import Mathlib.Data.List.Dedup
import Mathlib.Data.List.Sort

set_option autoImplicit false

/-! # Time series: `interpolate_at` of `hapuamod/core.py` and the trimming in `hapuamod/loadmod.py` -/

namespace Verif.Model
open Verif Fl

variable {K : Type} [Field K] [LinearOrder K] [IsStrictOrderedRing K]

/-- A pandas series with a datetime index: times in nanoseconds and values.  A data frame is modelled
column by column. -/
abbrev Series (K : Type) := List (ℤ × Fl K)

/-- What `Series.interpolate(method='time')` puts at time `t` when the value there is missing, given the
rows with a value: nan before the first of them, otherwise `np.interp` (the last value is carried
forward). -/
def fillAt (valid : Series K) (t : ℤ) : Fl K :=
  match valid with
  | [] => nan
  | (t0, v0) :: rest => if t < t0 then nan else interpScan (t0 : K) v0 (rest.map (fun r => ((r.1 : K), r.2))) (t : K)

/-- `Series.interpolate(method='time')` (core.py 257). -/
def interpTime (rows : Series K) : Series K :=
  let valid := rows.filter (fun r => !r.2.isnan)
  rows.map (fun r => if r.2.isnan then (r.1, fillAt valid r.1) else r)

/-- core.py 252-256: the selected records, extended by the requested times (without values), in order
of time.  `reindex` raises ValueError if the selected records have a repeated time. -/
def requestRows (sel : Series K) (req : List ℤ) : Except PyErr (Series K) :=
  if (sel.map (·.1)).Nodup then
    .ok ((sel ++ ((req.filter (fun t => decide (t ∉ sel.map Prod.fst))).dedup.map (fun t => (t, (nan : Fl K))))).insertionSort
      (fun (a b : ℤ × Fl K) => a.1 ≤ b.1))
  else .error .value

/-- core.py 237-258, `interpolate_at`, for one column.  (Not modelled: float64 rounding of the times
inside `np.interp`.) -/
def interpolateAt (ts : Series K) (req : List ℤ) : Except PyErr (List (Fl K)) := do
  let r0 ← ixGet req 0
  let fromIx ← lastIx (fun r : ℤ × Fl K => decide (r.1 ≤ r0)) ts               -- 252
  let rN ← pyGet req (-1)
  let toIx ← firstIx (fun r : ℤ × Fl K => decide (rN ≤ r.1)) ts                -- 253
  let rows ← requestRows ((ts.take (toIx + 1)).drop fromIx) req                -- 254-256
  let out := interpTime rows                                                   -- 257
  req.mapM (fun t => match out.lookup t with | some v => .ok v | none => .error .other)  -- 258

/-- loadmod.py 653-655 (and 662-664, 671-673): which records are kept, by position.  The second
assignment overwrites the first one except for the first record. -/
def keepTimes (times : List ℤ) (start stop : ℤ) : List Bool :=
  let first := (times.tail.map (fun t => decide (start < t))) ++ [false]
  first.take 1 ++ times.dropLast.map (fun t => decide (t < stop))

/-- loadmod.py 649-656: coverage check and trimming of one input series; `stop` is
`EndTime + MorDtMax`.  IndexError for an empty series.  A record has a number (flow, sea level) or several (waves). -/
def trimSeries {α : Type} (ts : List (ℤ × α)) (StartTime EndTime stop : ℤ) : Except PyErr (List (ℤ × α)) := do
  let a ← ixGet ts 0
  let b ← pyGet ts (-1)
  pyAssert (decide (a.1 ≤ StartTime) && decide (EndTime ≤ b.1))
  return ((keepTimes (ts.map (·.1)) StartTime stop).zip ts).filterMap (fun (k, r) => if k then some r else none)

end Verif.Model
