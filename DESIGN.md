# Formal model of HapuaMod: design

The model is a Lean 4 transcription of `/repo/hapuamod`, made by reading the
source. Nothing in `/repo` was built or run. A theorem here is about the model;
its only tie to the code is the transcription, so every definition cites the
file and lines it models and says where it simplifies.

## Trusted base

* The Lean 4.33.0 kernel and the Mathlib definitions the statements mention
  (`Real`, `Real.sin`, `Real.rpow`, `Complex.arg`, `List`, `Rat`, ...).
* Axioms: every theorem depends on at most `propext`, `Classical.choice` and
  `Quot.sound`. No axioms of our own, no `sorry`, no `native_decide`, no
  `bv_decide`.
* The transcription of the Python source, and the meaning given below to the
  numpy / pandas / netCDF4 / scipy operations used.

## What is modelled

* Numbers. `Fl K` is the IEEE set of values without rounding: `nan`, `-inf`,
  `+inf` and `fin x` with `x` in an ordered field `K`. Arithmetic, comparisons
  (always false on nan), `np.maximum`, Python `max`, and division by zero follow
  IEEE. So missing values (nan) and divisions by zero behave as in the code.
  `K` is any linearly ordered field for decision logic (run on `Rat` in
  examples) and `Real` where the code uses transcendental functions.
* Exceptions: `Except PyErr`. Each modelled function raises where the code does
  (assertions, index errors, empty reductions, division of Python numbers).
* Arrays: lists; boolean masks, negative indices, in-place updates through views
  and rebinding of local names are modelled where they matter to the result.
  ShoreX, ShoreY and ShoreZ together are a list of `Transect`.
* `pd.Timedelta` / `Timestamp`: whole nanoseconds (`Int`); `.seconds` is the
  seconds component within the day, as in pandas.
* Functions: `geom.mod2real`, `real2mod`, `intersectPolyline`, `trimLine`;
  `coast.longShoreTransport`, `runup`, `overtopping`; `riv.calcBedload`,
  `solveSteady`, `solveFullPreissmann`, `assembleChannel`, `storeHydraulics`,
  `storeBedload`; all of `mor.updateMorphology`; `core.interpolate_at` and the
  whole of `core.main`; `loadmod.loadModel` as a whole (what is read
  from csv files, shapefiles and netCDF files, the parsing of dates and random numbers are
  the fields of the parameter `Sources`), with the validation of the configuration against
  `configspec.cnf`, the choice of inputs, the derived parameters, river
  profile, default shoreline, real-world shoreline (polylines given as point
  lists), hot start, wave directions and trimming of the input series; `synth.harmonicTide` and `shotNoise`; of `out` the creation,
  writing and reading of both output files and `closestTimeIx`; of `visualise`
  the vertices of every line and polygon of the map view (`modelView`,
  `updateModelView`), of the real-world map (`mapView`, cliffs given as numbers),
  of the boundary condition figure, of the transect figure and of the long section with its
  axes, and the calls `core.main` makes to the map view; of `animate` the choice
  of frames and what is drawn in each; the calculations of
  `preprocessing/WaveDataFromSwanOutput.py` per record (finite numbers).

## What is not modelled

* Floating point rounding and overflow, signed zeros (zero is treated as `+0`);
  rounding of times to float64 inside `np.interp`.
* Drawing by matplotlib (including its drawing of the first frame twice and
  animations without frames), colours, titles, quivers,
  logging text, file formats (the configuration enters as keys with values, see Model/Config.lean), shapefile and csv reading (loadmod.py 373-427).
* Of the package `validate` only the checks that `configspec.cnf` uses; nan and
  infinite parameters beyond the validation.
* State left behind by a call that raises (the run is over then), partly
  written output files.

## Parameters standing for the outside

* Banded linear solver of `scipy`: an arbitrary function.
* The straight line `np.polyfit` fits to the shoreline: arbitrary slope and
  intercept.
* Uninitialised memory returned by masked numpy ufuncs: an arbitrary function
  from index to truth value (`junk`).
* `np.interp` on positions that do not increase: an arbitrary function (`free`).
* `np.sqrt` in the long section: an arbitrary function (`root`), the real square
  root where it matters.
* Construction of a time from year, month, day, hour and minute: an arbitrary
  function.
* Random draws: an arbitrary list; conversion of days to a `Timedelta`: an
  arbitrary function (with non-negative values where needed); the origin pandas
  chooses for resampling: an arbitrary integer.
* In the main loop the functions that need real arithmetic are a structure
  `Parts`, arbitrary in the theorems on the loop; `realParts` fills in the
  modelled functions.
* Precision of the output file: an arbitrary rounding function per variable.
* User reply at the overwrite prompt and presence of the file.

## Simplifications

* mor: assigning an array of the wrong length is ValueError even where numpy
  would broadcast a single element; the doubling of a timestep is bounded by 64
  repetitions (2^64 ns exceeds the range of `Timedelta`).
* core: records are collected in a list instead of being written (C91 proves
  that writing them all succeeds); logging has no effect, plotting has none in
  `compute`/`pass` and is modelled beside them in Model/View; nan forcing of the solvers is reported as `.other`.
* out: sizes are checked without broadcasting; `squeeze` and masked arrays are
  not modelled (fill values are nan).
* synth: `sort_index` keeps the order of equal times; `OutputInt/4` is rounded
  down to whole nanoseconds.
* visualise: arrays of different sizes are never broadcast; an axis limit that is
  not a finite number is ValueError.
* loadmod: the length of `np.arange` is the ceiling without rounding.

## Layout

* `Verif/Num.lean`, `Verif/Py.lean`: numbers and Python/numpy primitives.
* `Verif/Model/*.lean`: the model, function by function.
* `Verif/Spec/*.lean`: small specifications that use at most the data types of the model.
* `Verif/Lemmas/*.lean`: helper lemmas.
* `Verif/Props/*.lean`: the property theorems, each with a non-vacuity example
  (`*Sample.lean`: states shared by several examples).
* `seeded/LOG.jsonl`: wrong programs the theorems were tried on.

A property that is false of the code is kept as stated, refuted by a theorem
`Cnn_refuted...` with a concrete witness, and accompanied by a `_partial`
theorem giving the conditions under which it holds.

## How each group is proved

| ids | modelled | proof |
|----|----------|-------|
| C01, C02 | geom.mod2real/real2mod over the reals | trigonometric addition formulas, polar form of a complex number |
| C03, C04 | geom.intersectPolyline | induction over the point list, parity of side changes |
| C98, C99 | geom.trimLine, search bounded by a number of rounds | induction over rounds; signed distance along the trim line |
| C100-C104 | visualise.updateModelView as lists of vertices | totality and inversion per bank; concrete states for the negations |
| C128 | forcing in the records of core.main | times of the interpolation, uniqueness of linear interpolation |
| C129-C132 | visualise.mapView over the reals | sine and cosine of sums, induction over the cliff line |
| C133 | live figure of boundary conditions | invariant over passes |
| C134 | whole loop with shifted levels, all stages and solvers | equations for every function, induction over passes |
| C135-C137 | the whole of `loadModel`: start, trimmed series | inversion of the loader, interpolation in a part of a series; two configurations side by side |
| C138 | names and creation of the output files on a modelled disk | case analysis |
| C139 | validation, loading and `initial` | C62, C137 and totality of `initial` |
| C140 | derived coefficients, with C05 | sign of a quotient |
| C141 | core.py main, riv.py, mor.py | every stage commutes with the mirror (reversed lists, counted-back indices); refutations from the branches that do not |
| C142 | mor.py updateMorphology | erosion rates of the cliff have one sign, crests stay low enough for the repairs to push back; relation on cells through repairs and breach; adds up over the passes of a closed lagoon (Props/CliffRun) |
| C143 | riv.py solveFullPreissmann (the matrix) | in terms of depth and discharge every reach carries corrections of opposite sign to corrections of opposite sign, so only zero meets both boundaries; then finite-dimensional linear algebra |
| C144 | mor.py updateMorphology, core.py main | the imposed rate survives the limiter; an invariant of single transects (no channel, shoreline seaward of the lagoon) shows that no repair or breach touches the shoreline; induction over passes with C32 for the timesteps |
| C145 | mor.py updateMorphology, core.py main | rates of crests are not negative and the limiter keeps the sign; a relation between cells (not below stays not below) for all repairs but the filling of channels, for which the width of the barrier is bounded; induction over passes |
| C146 | mor.py updateMorphology | rates as volumes (C36 to C38) survive the limiter; the invariant of C144 (no channel, shoreline seaward of the lagoon) for every transect that elongation cannot reach; telescoping sum |
| C147 | mor.py updateMorphology, core.py main | rates of C35 through limiter and application; repairs and breaches keep the river bed; telescoping sum over sections, induction over the passes of a run with the sizes of C91 |
| C148 | mor.py updateMorphology | a relation between cells (no channel stays no channel) for every repair and the breach but elongation and createBreach, whose index sets are characterised; the end of the outlet moves by the limited rate |
| C149 | mor.py updateMorphology | the limiter bounds what the forces move; a relation between cells (a channel clear of lagoon and sea is kept) for every repair of a closed lagoon and the breach stage |
| C150 | riv.py solveFullPreissmann | the last Newton iteration solves the linear continuity equations exactly, so what is left is the quadratic part of the residuals; it vanishes between the ends of each reach up to the flow terms, which telescope over the reaches; induction over the boundary conditions |
| C151 | mor.py updateMorphology | what the rates are at a transect without a channel, and that every repair, merge and breach leaves such a transect as it is or makes it fail the final assertions (`Lemmas/Plain.lean`) |
| C152 | mor.py updateMorphology | C35, C146 and C151 at one transect (the limiter changes no rate of a feature that moves by less than MaxMorChange), summed over transects; the bedload over the lagoon reaches telescopes |
| C153 | core.py interpolate_at, main | the value at every time is determined by the lines through the records (C52), which an added record on a line keeps; outside both fail (C53); then `initial`, `pass` and by induction `Run` are the same |
| C154 | loadmod.py loadModel, core.py interpolate_at | C60 gives the wrapped directions, C52 the straight line between them; the mean of two angles in [-π, π) goes the short way iff they are at most π apart; witness 170° and 190° |
| C155 | mor.py updateMorphology | what the rates are at a transect of the outlet (`Lemmas/SpitStep.lean`), that truncation, elongation, merging and breaching leave a wide spit alone (`Lemmas/Spit.lean`); the check for overtopping sets the crest to the larger of the two crests; witness with an inner barrier 10 cm higher |
| C156 | mor.py updateMorphology | C155 for the transects of the outlet, `update_plain` for the others, C147 for the river, `Lemmas/EndKeep.lean` for width and bed of the outlet end; the sums telescope, and the triangle of the delta sums to one for whole grid steps; witness with a spreading distance of one and a half steps |
| C157 | loadmod.py loadModel, geom.py real2mod | the least-squares line (`BestLine` in `Spec/Place.lean`: np.polyfit is assumed to give it) of moved points is the moved line, origin and axes follow; for the refutation the movement that takes the baseline across northing 0 |
| C158 | loadmod.py loadModel, geom.py intersectPolyline | reversing a line reverses its crossings, largest crossing and extent stay; `orderShore` and `orderOutlet` undo the reversal; witness with a level outlet |
| C159 | loadmod.py loadModel, geom.py intersectPolyline | induction over the line: the two parts of a divided piece have together the crossings of the piece (half-open intervals); extent and ends stay; witnesses for shoreline and outlet |
| C160 | riv.py solveSteady | induction up the channel on the difference of energy levels: energy plus friction rises with the depth downstream, energy less friction upstream (Bernoulli's inequality for the powers of the depth); witness: one Newton step at a wide section is enough |
| C161 | riv.py solveSteady | the comparison of C160 both ways, with the exact profile; energy rises with depth by at least 1 - c |
| C162 | configspec.cnf, loadmod.py 237-248 | both files give the same result for every check; text None is never None |
| C163 | configspec.cnf, loadmod.py 237-248 | a misspelt key is a key left out: error without a default, default otherwise |
| C164 | riv.py solveSteady | induction from the sea: residual 0 below sea level; 0/0 at a dry section, then nan all the way up |
| C165 | riv.py calcBedload | the formula of C12 is monotone in velocity and depth, section by section |
| C166 | riv.py calcBedload | (c/D - crit)^e D^(3/2) falls with D for e at least 3/2; witness e = 1 |
| C167 | riv.py solveFullPreissmann | invariant of the iteration: corrections of the right size are at hand; unique solvability of the first system from C143; witness: the channel of C143 |
| C168 | coast.py longShoreTransport, mor.py updateMorphology | transport is -(drift/2) sin 2a; sine is increasing within 45 degrees; C146 for the step; witness with waves along the shore |
| C169 | the same | transport is Lipschitz in the shoreline, so the new shoreline is a convex combination of three old ones; witness step of four minutes, worked out with rational numbers and carried over to the reals (`update_cv`, Lemmas/Transfer.lean) |
| C170 | coast.py longShoreTransport | breaker depth to the power 2/5, speed its square root; witness: 32 times the power |
| C171 | mor.py updateMorphology | every rate of change is linear in the transport (Lemmas/Scale.lean, infinities and nan included); timestep loops run in parallel; refuted by mor.py 152 |
| C172 | riv.py solveSteady | induction up the channel as in C160: energy and friction slope both rise with the flow at a given depth, so only the smaller flow has to be tranquil; critical depth grows with the flow; refuted by a free fall |
| C173 | loadmod.py loadModel | multiples of Dx are multiples of Dx/n, and a row depends on X only; refuted by the straight outlet of C90 and by the ends of the default shoreline |
| C105-C110 | transect figure, long section, frames of animations | inversion, induction over sections and frames |
| C111 | one frame of the long section animation against a hot start | filling of gaps does not depend on what follows a known entry |
| C112-C115 | preprocessing of SWAN output over the reals | closed forms, bounds on sinh, polar form of a complex number |
| C05-C08 | coast.longShoreTransport over `Fl Real` | closed form of each segment |
| C09-C11 | coast.runup, overtopping | monotonicity of products and roots; case analysis per transect |
| C12-C14 | riv.calcBedload | per-section analysis |
| C15-C18 | riv.solveSteady (Newton loop as recursion bounded by MaxIt) | induction from the downstream end |
| C19-C23 | riv.solveFullPreissmann with arbitrary banded solver | invariants over iterations; telescoping; derivatives |
| C119, C120 | both hydraulic solvers on steady and uniform flow | residuals vanish, so corrections do; induction over timesteps and sections |
| C24-C31 | riv.assembleChannel, storeHydraulics, storeBedload | inversion of each stage, case analysis on the branches |
| C32, C33 | timestep adaptation on nanosecond integers | termination measure, invariant |
| C34-C38 | rate computation and limiter of mor.updateMorphology | bounds, telescoping sums |
| C39-C51, C72 | repair and breach stages of mor.updateMorphology | per-transect algebra, decision logic, simulation between two memories (C43) |
| C75-C82 | cross-shore rates, elongation and truncation of the outlet | per-transect algebra; order of transects along the channel |
| C52, C53 | core.interpolate_at | induction over sorted series |
| C54-C58 | core.main as a relation on histories | invariants over histories |
| C91-C97 | whole runs of core.main | sizes as invariant, simulation between two runs by induction over passes |
| C116, C117 | whole runs of core.main with moved coordinates or dates | every function commutes with the move; induction over passes |
| C118 | whole runs of core.main without sediment transport | all rates are zero, every repair and breach rule is shown not to apply; induction over passes |
| C123-C127 | configspec.cnf, loadModel (configuration) | table of checks against independent lists of ranges; inversion of each stage of the loader |
| C121, C122 | updateMorphology | what the second half of a step makes of each transect, case by case; witnesses |
| C59-C63 | parts of loadmod.loadModel | case analysis, floor arithmetic |
| C83, C84 | coordinate system of real-world inputs (loadmod.loadModel) | foot of a perpendicular, sine and cosine of an argument |
| C85-C90 | discretisation of real-world inputs (loadmod.loadModel) | inversion of each stage, floor arithmetic, induction over polylines |
| C64-C67, C73, C74 | synth | induction over draws, invariants on record times |
| C68-C71 | out as an append-only table | round trip, case analysis |
| C174 | mor.py updateMorphology, coast.py longShoreTransport, overtopping | every stage of a closed step as a function of one transect, up to the water level; the limiter leaves rates below the limit alone; induction over steps |
| C175 | riv.py solveSteady, calcBedload | scaling algebra of Fl with powers; every Newton iterate, energy, friction slope and critical depth scales; induction over iterations and sections |
| C176 | riv.py solveFullPreissmann | equations of the wider river are b times those of the river except the last; induction over iterations and timesteps; C175 where the iteration does not converge |
| C177 | riv.py solveSteady | comparison of two balanced profiles reach by reach from the sea; free fall through a narrow outlet as counterexample |
| C178 | riv.py, coast.py | factors of units taken through each formula; powers of lengths and times by the laws of exponents |
| C179 | mor.py updateMorphology | all quantities of the force stage scale (Lemmas/Resize `force_sz`); repairs leave plain transects alone (Lemmas/Plain `update_plain0`) |
| C180 | Props/Hydro `C180_flow`, `C180_tide` | every pass of the loop keeps the proportion (Lemmas/Hydro `shotStep_mv`), induction over the draws, means of intervals |
| C181 | Props/Hydro `C181_flow`, `C181_days`, `C181_intervals`, `C181_tide` | every pass of the loop commutes with a shift of time (Lemmas/Hydro `shotStep_mv`), induction over the draws; bins (`resample_mv`, `resample_origin`) |
| C182 | Props/Hydro `C182_partial`, `C182_refuted` | a pass changes no record more than a rising limb before the last event (Lemmas/Hydro `shotStep_before`), the two loops agree until the shorter ends (`shotLoop_earlier`) |
| C183 | Props/Momentum `C183_partial`, `C183_refuted_flood` | the equations of the reaches added up telescope to the fluxes at the two ends; counter-example: sea water running up a channel |
| C184 | Props/Momentum `C184_still`, `C184_only_level` | every entry of the residual vector is zero; conversely by induction along the channel |
| C185 | Props/Angle `C185_angle`, `C185_largest` | the transport is proportional to the sine of twice the angle; monotonicity of the sine |
| C186 | Props/Angle `C186_gradual` | sine and arctangent change by no more than their argument |
| C187 | Props/TwoFiles `C187_partial` `C187_first` `C187_refuted` | both written lines unfolded from the pass; last section of the assembled channel; sample run in which the outlet narrows |
| C188 | Props/Fallback `C188_fallback` `C188_unsteady` `C188_real_steady` `C188_real_unsteady` | downward induction over the sections of the steady solution; both branches of the try block |
| C189 | Props/Rollover `C189_step` `C189_real_parts` | decision rule of C11 carried through the step to C151 |
| C190 | Props/Gaps `C190_filled` `C190_range` | interpolation scan over the known points by induction; sortedness gives that nothing is known in between |
| C191 | Props/Offline `C191_partial`, `C191_refuted_inline`, `C191_refuted_at_end` | the three parts of the shore (behind the river, online, beyond) as index sums; flags give Dx per online section |
| C192 | Props/Offline `C192_partial`, `C192_refuted_inline`, `C192_refuted_single` | entrywise from the geometry; take/drop of the sorted shore equal filters by position |
| C193 | Props/ClosedFlow `C193_partial`, `C193_real`, `C193_refuted_fallback`, `C193_refuted_start`, `C193_refuted_unsteady`, `C150_call_any` | the line of a pass; water balance of the last converged timestep; Lemmas/SolverLen: only systems of two equations per section are solved |
| C194 | Props/StepRecord `C194_partial`, `C194_refuted_between`, `C194_refuted_long`, `C194_refuted_first` | induction over the run: the schedule never falls more than one interval ahead of the time |
| C195 | Props/Energy `C195_partial`, `C195_refuted` | induction over the reaches with the energy balance of C17; a lagoon that starts exactly at the shallow depth |
| C196 | Props/Remnant `C196_partial`, `C196_exact`, `C196_clear`, `C196_run_partial`, `C196_refuted`, `C196_refuted_crest` | invariant through forcing, repairs, merging and breach of one transect; induction over passes |
| C197 | Props/EndWidth `C197_step_partial`, `C197_run_partial`, `C197_refuted` | width through the stages, width test of the channel assembly, induction over passes |
| C198 | Props/EndBed `C198_step_partial`, `C198_run_partial`, `C198_refuted` | bed level through the stages, induction over passes |
| C199 | Props/Range `C199_records`, `C199_passes` | linear interpolation of C52, times of C128, induction over passes |
| C200 | Props/ClosedSide `C200_partial`, `C200_left_partial`, `C200_right_partial`, `C200_refuted` | direction of C26, inner end of the outlet through the stages, induction over passes |
| C201 | Props/Widen `C201_answers` | rates of the section by its branch, limiting keeps signs, plain transect through the whole step |
| C202 | Props/Drift `C202_drift` | rates of the outlet end (C35, longshore transport), limiter keeps signs, position through repairs and breach stage |
| C203 | Props/WidenOut `C203_answers` | rates of the section by its branch, limiting keeps signs, outlet channel through repairs and breach stage |
| C204 | Props/Mouth `C204_mouth` | rates of the end section by its branch (C35), transport reach from the position of the mouth, limiting keeps signs, width and bed kept by repairs |
| C205 | Props/Calm `C205_step`, `C205_run` | bank erosion is never negative, limiting keeps signs, breach takes a maximum; induction over the run |
| C206 | Props/CalmSea `C206_refuted`, `C206_refuted_step`, `C206_partial` | wave speed ratio evaluated, sum over segments |
| C207 | Props/Missing `C207_step`, `C207_run`, `C207_waves`, `C207_overtopping`, `C207_sea` | rate nan, then a relation kept by every repair and breach (Lemmas/Missing), then the final assertion |
| C208 | Props/Straight `C208_transport`, `C208_step`, `C208_coast` | transport depends on the slope only; budget of C146 |
| C209 | Props/Oblique `C209_step` | sin(2a) strictly falls beyond 45 degrees; budget of C146 |
| C210 | Props/SeaErosion `C210_flux`, `C210_sea` | flux is monotone (C10), budget of C146 in both steps |
| C211 | Props/Stronger `C211_step` | transport scales as c^(6/5) (C170); budget of C146 for both steps |
| C212 | Props/Direction `C212_refuted`, `C212_partial`, `C212_partial_same`, `C212_partial_tells` | sine and cosine change sign together; a flat segment and one at 45 degrees give sin 2d and cos 2d |
| C213 | Props/Control `C213_control`, `C213_sea` | induction over the sections above; critical depth is unique (cube) |
| C214 | Props/Compare `C214_apart` | difference of transports is a bounded positive multiple of the difference of slopes; budget of C146 for both; convex combination |
| C215 | Props/RunupLaw `C215_runup`, `C215_overtopping` | power of a product |
| C216 | Props/WholeTurns `C216_bearing`, `C216_load` | uniqueness of the reduced angle; records induction |
| C217 | Props/Superpose `C217_superpose`, `C217_order` | all columns are the same mean of two records (C52) |
| C218 | Props/TideError `C218_tide`, `C218_quarter` | distance of a chord from the sine, by convexity of sin x + x^2/2; C52 |
| C219 | Props/DataError `C219_interpolated`, `C219_record` | mean of two records, triangle inequality; C52, C128 |
| C220 | Props/Shots `C220_sum`, `C220_falls`, `C220_start` | loop invariant over the draws |
| C221 | Props/DataGaps `C221_partial`, `C221_refuted`, `C221_refuted_after_gap` | false next to a missing record; proved when the records around the requested times have values |

## Results and disagreements with the code

`partial` with a note beginning "False" means the property as stated does not hold of the code.

| id | property | status | note |
|----|----|----|----|
| C01 | Coordinate conversion round trip | proved | Both directions, all finite inputs, exact reals. |
| C02 | Coordinate conversion is a rigid motion with seaward = shore-normal bearing | proved | Isometry, origin, orientation and seaward bearing. |
| C03 | Polyline intersection is exact and complete | proved | Results correspond one to one, in order, to the straddling segments, with unique exact ordinates. |
| C04 | Polyline crossing parity | proved | Parity, closed polygon and non-emptiness. |
| C05 | Longshore transport direction | proved | Sign of transport per segment; segments with no breaking angle give nan. |
| C06 | Longshore transport mirror symmetry | proved | Mirroring the shore and wave angle reverses the list and negates every value. |
| C07 | No longshore transport where waves travel offshore | partial | False of the code: the masked wave power is not used (witness). Partial: transport vanishes only when waves run exactly along the shore-normal or the coast. |
| C08 | Longshore transport magnitude bound | proved | Bound, proportionality to K2, locality, one value per segment. |
| C09 | Runup is non-negative and monotone | proved |  |
| C10 | Overtopping flux is zero below the crest, positive above, and monotone | proved | Including rejection of nan crests. |
| C11 | Overwash decision rule | proved |  |
| C12 | Bedload follows the flow and vanishes below threshold | proved |  |
| C13 | Bedload is odd in velocity and bounded by its end sections | proved |  |
| C14 | Bedload upwinding follows the flow direction | partial | False for reversed flow (weights do not follow flow direction). Partial: holds for downstream flow. |
| C15 | Steady solution carries the inflow everywhere | proved |  |
| C16 | Steady solution is never supercritical | partial | False as stated: a vanishing Newton gradient gives a nan depth (witness). Partial: every depth that is a number is at least critical and Froude <= 1. |
| C17 | Steady solution satisfies the energy equation to tolerance | partial | Residual bound proved for every section whose depth is a number; nan depths can be returned (C16 witness). |
| C18 | Steady solution depends only on downstream sections | proved |  |
| C19 | Unsteady solver keeps depths positive and velocities non-zero | proved | Any numeric solver results, any series; also after the fallback. |
| C20 | Unsteady scheme conserves water | partial | False as stated when lagoon area is attached to the first or last section: it is counted half (witness). Partial: exact balance for zero area at the two ends, and for any areas with the half weights. |
| C21 | Newton matrix is the derivative of the residuals | partial | False for reversed flow: velocity entries of the momentum equation use V where the derivative has |V|. Partial: every other entry at any state, those entries for positive velocity, and zeros outside the band. |
| C22 | Newton matrix layout matches the banded solver convention | proved | All numbers of sections from two upwards. |
| C23 | Non-converged unsteady steps fall back to the steady solution | partial | False: the steady solution is bound to local names, the caller keeps the unconverged iterate (witness with an exact solver). Partial: what the caller gets in general. |
| C24 | Assembled channel is well formed | proved | Any state for which it returns; the shape hypotheses are those of the caller. |
| C25 | When assembleChannel reports the outlet closed | proved | Decision as an equivalence over transects on the lagoon reach and between the outlet ends. |
| C26 | Online lagoon runs contiguously from the river | proved | Also: when open, the online lagoon is the whole reach to the outlet. |
| C27 | Lagoon surface area is accounted for exactly once | partial | False in three special positions (witnesses): outlet starting in line with the river, a transect exactly at the outlet start, a single online transect. Partial: exact identity otherwise. |
| C28 | Storing and re-assembling hydraulics loses nothing | proved | Any assembled channel, any numeric depths and velocities, open or closed, including a closure found in the lagoon. |
| C29 | Offline lagoon takes the nearest online water level | proved |  |
| C30 | Stored bedload keeps every reach value | proved |  |
| C31 | Distance to the outlet end | partial | False for outlets running right to left or straight that end on a transect (general theorem and witness). Partial: all other positions. |
| C32 | Adaptive timestep is well behaved | proved | Whole-second steps doubling between MorDtMin and MorDtMax below one day; also what the step is in general. |
| C33 | Adaptive timestep respects MorDtMin and MorDtMax in general | partial | False as stated: doubling overshoots MorDtMax and halving undershoots MorDtMin unless they are related by powers of two (witnesses). Partial: bounds within a factor of two. |
| C34 | Forced morphological change per step is limited | partial | False for transport from right to left past an open outlet (one transect is moved outside the limiter, witness). Partial: every coordinate moves by at most MaxMorChange otherwise, for regular arguments (finite, nothing divided by is zero). |
| C35 | River, lagoon and outlet bed changes conserve bedload | proved | Per section and in total, open and closed, any number of sections. |
| C36 | Longshore transport conserves shoreline volume | proved | Compared with the same step without longshore transport: pointwise and in total. |
| C37 | Longshore transport into the outlet mouth narrows the outlet and is taken off the beach | partial | False from right to left (general theorem and witness over a step). Partial: exact from left to right for a mouth in the interior. |
| C38 | River sediment delivered to the beach is conserved | partial | False unless the spreading distance is a whole number of transect spacings (witness). Partial: exact then, any number of transects and any mouth position with the kernel inside the domain. |
| C39 | Shoreline-cliff collision repair | proved | Per transect, and for whole repair stages with a closed outlet; cliff top above the sea bed. |
| C40 | Overwash into a closed channel | partial | Volume is false as stated: the crest rise uses the crest width before the step (witness). Partial: zero width or removed, no crest lowered, volume exact at the back or when the crest width has not changed. |
| C41 | Outlet stays inside the domain at the nearest edge | partial | False for the right edge: the outlet end is moved to the left edge (witness). Partial: always inside, left edge right, untouched inside. |
| C42 | Merging an offline channel into the lagoon conserves lagoon area and bed volume | partial | Bed volume is false when channel and lagoon overlap (general theorem and witness). Partial: merge condition, combined width, bed volume when they just touch. |
| C43 | Same state, same result | partial | False: masked comparisons read uninitialised memory, which can make the step fail (witness). Partial: any two runs that return agree, for all states and all memory. |
| C44 | Unbreached eroded barrier is restored with mass balance | partial | Mass conservation is false: both sides gain sediment (general theorem and witness). Partial: 1 mm barrier and equal volumes. |
| C45 | Erosion breach decision | proved | Decision for all states, closed and open, position of the breach, the check never fails, and overtopping does not move the breach. Stage of the step, with the lagoon openness computed at the start of the step as in the code. |
| C46 | Overtopping breach in an open lagoon must be closer to the river | partial | False: the filter is never applied and an unreachable spill is an IndexError (general theorem, whole-step witnesses). Partial: exact condition for breach, no breach and error. |
| C47 | Overtopping breach happens where the spill is deepest | proved | All candidate lists, under numeric crest and water levels. |
| C48 | Checking for overtopping does not change the barrier | partial | False where the inner barrier is higher (general theorem, whole-step witness). Partial: nothing changes otherwise. |
| C49 | Breach on a connected channel re-uses the channel | partial | False for every transect but the first two (general theorem, whole-step witness). Partial: the first two transects. |
| C50 | A new breach is viable | proved | Stage-level with all inequalities, and for whole steps. |
| C51 | There is always a lagoon at the river mouth | proved | Whole step. |
| C52 | Time-series interpolation is linear interpolation of the neighbouring records | proved | Any increasing finite series and any requests inside it; each value independent of the other requests, and between its neighbours. |
| C53 | Interpolation outside the series is an error | proved | Any series, any requests with one outside. |
| C54 | Model time never runs backwards nor past the end | proved | All runs of the loop model, generic in the numerical functions; StartTime <= EndTime and MorDtMin >= 0. |
| C55 | A run finishes | partial | False: no run ever returns (general theorem; witness run ends in IndexError). Partial: with MorDtMin > 0 every run stops within an explicit number of passes, by an exception, and reaches EndTime unless a pass raises before. |
| C56 | Output cadence | proved | Both output files, all runs. |
| C57 | Hydraulics and morphology cover the same time | partial | False: the window uses the step chosen one pass earlier and ignores the clamp at EndTime (general theorem, witness run). Partial: exact condition for agreement, and tiling when it holds in each pass. |
| C58 | Outlet state transitions | proved | All runs. |
| C59 | Trimming input series does not change the forcing | partial | False for series with a single record (general theorem, witness). Partial: all longer series. |
| C60 | Wave directions are normalised | proved | All bearings and shore normals (reals, no rounding); the two conditions determine the value. |
| C61 | Initial river profile | proved | All positive slopes, lengths and spacings; zero slope or spacing is an error. |
| C62 | Default straight shoreline is a valid start | partial | False: the default lagoon is 1 mm narrower than the river, and if that is below MinOutletWidth the first assembleChannel raises (general theorem, witness). Partial: spacing, coverage and river transect for all parameters, and an open channel when RiverWidth is at least MinOutletWidth + 1 mm. |
| C63 | Barrier target line | proved | All parameters; equal widths are an error. |
| C64 | Harmonic tide shape | proved | All dates, positive intervals, means and ranges. |
| C65 | Harmonic tide satisfies the coverage check | partial | False unless the interval divides the length of the simulation (exact condition, witness). Partial: holds then. |
| C66 | First-order shot noise works with the documented defaults | partial | False: TypeError for all other valid arguments and draws. Partial: with any second decay rate given a series is returned, for any draws whose gaps reach the end date. |
| C67 | Shot noise flows are never negative | proved | All parameters and draws, before and after averaging; intervals in which nothing was computed are missing, see C73. |
| C68 | Written state is read back | partial | False: the wave direction is read back as 0 and the wave power as None (general theorem, witness). Partial: every other variable, any number of records, earlier records unchanged, and hot start, with the precision of the storage as a parameter. |
| C69 | Every declared output variable is written | partial | False: outlet_end_bedload is never written (witness). Partial: all other variables. Nothing undeclared is written and no name is declared twice (C69_declared). |
| C70 | Closest output time | partial | False for equally close records: all their indices are returned and reading with them fails (general theorem, witness). Partial: only closest records are returned, at least one, a single one unless tied. |
| C71 | Existing output files are protected | proved | All paths and file systems. |
| C72 | A morphology step keeps the transects | proved | Whole step, all states. |
| C73 | Shot noise hydrographs have no missing values | partial | False for rising limbs longer than the output interval (general theorem, witness). Partial: nothing is missing otherwise. |
| C74 | Shot noise hydrograph satisfies the coverage check | partial | False unless the end date is a whole number of output intervals after midnight (exact condition, witness). Partial: holds then. |
| C75 | Cross-shore transport conserves sediment | proved | All states with positive heights and crest widths; compared with the same step without cross-shore transport. |
| C76 | Elongation gives a channel to exactly the transects passed | proved | All states with increasing transect positions; also that it does not fail away from the edges of the coast. |
| C77 | No seaward truncation of the upstream transect | proved | For transects with the channel bed below the inner crest. |
| C78 | No lagoonward truncation of the downstream transect | proved | For transects with the channel bed below the inner crest and the cliff top. |
| C79 | Filling a channel from the shoreface preserves sediment | partial | False: the sediment changes by (inner crest - outer crest) x (overlap) (exact, general refutation). Partial: preserved if either factor is zero. |
| C80 | Lagoon-end truncation removes every collision | partial | False with two or more collisions: the code moves the end to the first one instead of the last (exact description, general refutation, witness where the outlet is left with a gap). Partial: one collision. |
| C81 | Seaward truncation removes every collision | partial | False for channels to the left with two or more collisions: the code takes the wrong one (general refutation, witness). Partial: channels to the right, or one collision. |
| C82 | Truncation leaves at least one outlet transect | partial | False for channels to the right that meet the sea at the first transect and another (general refutation; witness where that transect becomes the first by truncation at the lagoon end, IndexError). Partial: all other cases. |
| C83 | The river is at model position X = 0 | partial | False for a baseline of slope zero (east-west coast): the origin is nan and loading always fails (general theorem). Partial: all other slopes. |
| C84 | The model's Y axis points out to sea | partial | False: the code compares the northing of the baseline with zero instead of with the northing of the river (witness; exact condition). Partial: the baseline is at Y = 0, and the exact condition for the river to be landward. |
| C85 | Transects of a real-world shoreline | proved | All inputs for which loading succeeds with positive Dx, in model coordinates (conversion of the coordinates: C01, C02). |
| C86 | Cliff and lagoon lines on the transects | proved | All inputs for which loading succeeds with positive Dx; the lagoon edge of a straight outlet transect may be moved landward. |
| C87 | Initial features are in order across the shore | partial | False: lagoon edge and cliff are not compared with the shoreline and with each other, and a straight outlet may overlap the lagoon edge by 1 mm (witnesses). Partial: width of the channel and its place between lagoon edge and shoreline. |
| C88 | Ends and bed profile of the initial outlet channel | proved | All inputs for which loading succeeds with positive Dx, both directions, straight outlets included. |
| C89 | The initial outlet channel has no gaps | partial | False: transects where the channel does not fit are left without channel, so the first assembly closes the outlet (witness; general theorem for the closure). Partial: such transects are the only gaps. |
| C90 | A straight outlet is where it was drawn | partial | False: the mean of the Y coordinates is used for the alongshore position (witness). Partial: one transect, configured width, position from the mean Y. |
| C91 | Array sizes are fixed for the whole simulation | proved | For every hydraulic solver and longshore routine returning arrays of the right size, which the modelled ones do (C91_real_parts); the initial sizes hold for all three loaders. |
| C92 | Output options do not influence the simulation | partial | False for live plots: with an initially closed outlet the simulation fails to start with live plots and starts without (see C100). Partial: same states, same results of every pass, same exception, as far as plotting itself does not fail. |
| C93 | A longer simulation starts with the shorter one | proved | Both directions, up to the original EndTime (the last step is clipped there, see C94). |
| C94 | A step changes the coast by what happens in that step | partial | False: in the last step the clock is advanced only to EndTime while the whole step of erosion and transport is applied (general theorem and witness). Partial: all other steps. |
| C95 | The future does not influence the past | proved | Agreement of the series up to T means: same entries up to T and the same next entry, as linear interpolation needs. |
| C96 | Every record holds the state at its time | partial | False: after a breach of a closed lagoon the record says closed while the model goes on open, and a hot start from it loses the breach (general theorems and witness). Partial: everything else in the record, always; the flag whenever there was no such breach. |
| C97 | A hot start continues the simulation | partial | False: the time step is reset to MorDtMin, which changes the time for which flow and sea level are taken (witness). Partial: for records written when the step is MorDtMin, with a moving lagoon and an unchanged closed flag, the continued run agrees pass for pass. |
| C98 | Trimmed ends lie on the trim lines | proved | All lines of two or more nodes, all trim lines with increasing X. |
| C99 | Trimming a line terminates | partial | False: with a nearly level line and a trim line that rises and falls the search alternates between two segments for ever (witness, for every number of rounds). Partial: lines of at least three nodes whose end segments are steeper than the trim lines and meet them; at most as many rounds as trim points. |
| C100 | Live plotting never aborts a simulation | partial | False: with an initially closed outlet the first map view raises an IndexError, since modelView does not pass on that the outlet is closed (for every such start). Partial: open starts, and the update after every pass of every run. |
| C101 | The lines of the map view fit together | proved | Sizes for all views; meeting ends for views of an open outlet. |
| C102 | The banks in the map view follow the outlet channel | partial | False: for every outlet from left to right, line 347 overwrites the vertex of the left bank at the last crossed transect with a value from the right bank (general theorem, witness). Partial: the right bank; the left bank of outlets from right to left; all but the last transect otherwise. |
| C103 | The cliff area in the map view lies landward of the cliff | partial | False: the vertex at the right edge has its X coordinate as Y (general theorem, witness). Partial: all other vertices. |
| C104 | The map view shows the river mouth where it is | proved | Open and closed outlets. |
| C105 | The transect figure shows the requested transect | proved | Closest transect (first one on a tie), exact range check, contents and drawability. |
| C106 | The ground line of the transect figure never turns back | partial | False: the line starts at 1000 and ends at -1000 whatever the coast, so it turns back if the toe of the beach or the cliff is beyond (general theorem, witness). Partial: all other transects with edges in order. |
| C107 | The long section shows the channel | proved | Froude number over the reals; the other lines over any ordered field. |
| C108 | The axes of the long section cover its lines | partial | False: the bedload axis starts at zero, so bedload directed upstream is off the axis (general theorem, witness). Partial: the flow axis always; the bedload axis if no bedload is negative. |
| C109 | An animation shows the requested records | partial | False: the last record is excluded (general theorem, witness). Partial: exactly the records before it, in order; without an end all records to the end of the file. |
| C110 | Every readable output file can be animated | partial | False: the first figure is drawn as if the outlet was open, so a file starting with a closed outlet fails (general theorem, witness). Partial: files starting with an open outlet, given that open outlets cross a transect. |
| C111 | The long section of a record shows the recorded channel | partial | False: the recorded depth and velocity of the dummy section are not passed on (general theorem, witness), and with a dry outlet end the frame fails though a run can be started (C111_dry, witness). Partial: everything else is the same, the dummy section being drawn with the values of the outlet end; the three parameters kept in the file are enough. |
| C112 | Back-calculation to deep water conserves wave energy | partial | False for every onshore wave: the ratio of group speed to wave speed multiplies where it should divide, so the height is too large by a factor between 1 and 2 (general theorem, witness). Partial: exact relation to the deep water wave, which exists and is unique. |
| C113 | The offshore wave height is a number | partial | False: for onshore waves more oblique than any deep water wave can become at that depth the height is infinite (general theorem, witness; with rounding a huge number). Partial: all other records. |
| C114 | Wave power and its direction give back the energy transport | proved | All finite transports; for zero transport the direction is 180. |
| C115 | SWAN records keep their time | partial | False: minutes are dropped (general theorem, witness). Partial: records on the hour. |
| C116 | The origin of the Y axis does not matter | proved | Runs of any length, equivalence in both directions, exceptions alike; for the modelled coast.py functions and for any others that do not depend on the origin. Exact arithmetic. |
| C117 | The calendar does not matter | proved | Runs of any length, equivalence in both directions, exceptions alike. |
| C118 | A coast at rest stays as it is | proved | Runs of any length; the transports and water levels of each pass are hypotheses, the geometry only at the start. |
| C119 | Steady flow stays steady | partial | False for flow away from the sea: the momentum flux is taken with the sign of the velocity, so one right correction changes a steady landward flow wherever its momentum flux varies (general theorem, witness). Partial: flow towards the sea, any number of timesteps. |
| C120 | Uniform flow is found and kept | proved | Channels of any length, both solvers; no seepage for the unsteady one. |
| C121 | Features stay in order across the shore | partial | False: overwash can give a lagoon a negative width (witness). Partial: after every step that completes, channels of non-negative width lie strictly between lagoon edge and shoreline, and where there is a lagoon the shoreline is seaward of it. |
| C122 | A completed step can be followed by another one | partial | False: filling an eroded relic channel from the shoreface can move the shoreline behind the cliff, after which no step is possible (witness, for any later forcing and parameters). Partial: positive barrier width wherever there is a channel or a lagoon of positive width. |
| C123 | A validated configuration states numbers in their ranges | partial | False: nan passes the validation for every number (general theorem, witness). Partial: all finite numbers, all required keys. |
| C124 | A validated configuration can be prepared | partial | False: values at the border of the ranges (void ratio 1, gravity 0, equal densities, equal target widths, slope 0, spacing 0) pass and end in a ZeroDivisionError (witnesses). Partial: exactly those divisors. |
| C125 | A missing input is reported | partial | False except for the straight shoreline: a missing key of the other options gives a TypeError or ValueError (witnesses). Partial: no such configuration is ever prepared; the straight shoreline is reported by assertion. |
| C126 | A validated configuration lets a run begin | partial | False: HydDt above MorDtMin, or zero, is accepted and the first pass always fails (general theorem, witness). Partial: the exact condition on the two timesteps. |
| C127 | The prepared model is the one that the configuration describes | proved | All configurations that can be prepared, and all models that load (every parameter, series and file); times up to less than a nanosecond. |
| C128 | The forcing in a record is that of its time | partial | False: waves are those of the beginning of the step and flow and sea level those of the end of the step planned before it (general theorem for steadily changing waves, witness). Partial: exactly those times; the initial records; flow and sea level of steps that keep their length. |
| C129 | The real-world map shows the model in its place | proved | All states, origins and orientations for which the map can be drawn. |
| C130 | The real-world map can be drawn for every model | partial | False: without a transect to the left of the river there is no crossing of the cliff line (general theorem; every straight shoreline with ShorelineLengthLeft = 0). Partial: all models with transects on both sides. |
| C131 | The river comes from inland | partial | False: with all cliffs seaward of the baseline the river starts seaward of a cliff (general theorem, witness). Partial: all other coasts. |
| C132 | The ends of the lagoon are drawn where the lagoon ends | partial | False: lagoon edges are numbers on all transects, so the lines are at the ends of the model (general theorem, witness). Partial: first and last transect with a lagoon edge. |
| C133 | The live figure agrees with the time series file | partial | False: the first outflow shown is the inflow (exact condition, witness of a run started from a record). Partial: all other points, and the first point of starts from rest with the modelled solvers. |
| C134 | The vertical datum does not matter | partial | False: where a channel overlapping the lagoon merges with it, the weights of the averaged bed level do not add up to 1 (general theorem, witness of a pass), and -9999.9 marks transects without water (witness). Partial: all runs without such merging and with crests above the mark, in particular closed lagoons that keep their relic channels; the modelled solvers and overtopping. |
| C135 | The simulation starts when the configuration says | proved | All configurations that load; the record used is the closest one, the first of two equally close. |
| C136 | A continued simulation has the same forcing | partial | False: the tide is made for the configured start, so a run cannot be continued from an earlier record (witness; with a harmonic tide for every load), and a random hydrograph without seed is drawn anew (witness). Partial: files in order of time, a seed, and a start before the end. |
| C137 | A loaded model is forced throughout | partial | False: if the simulation has no length the tide is trimmed to nothing (witness), and records out of order give nan (witness). Partial: records in order of time and positive length; values on the line between the neighbouring records. |
| C138 | Both output files exist | partial | False: equal names are accepted, and the second file replaces the first or the simulation does not start (general theorem, witness). Partial: different names; the default names always differ. |
| C139 | A loaded straight coast starts | partial | False: a river not at least 1 mm wider than the smallest outlet is accepted and never starts (general theorem, witness). Partial: all other straight shorelines with positive length of the simulation, as far as the steady solver does not fail. |
| C140 | Accepted parameters move sediment with the waves | partial | False: sediment lighter than sea water is accepted and then moves against the waves (general theorems, witness). Partial: denser sediment. |
| C141 | Left and right are alike | partial | False of the morphological step: transport to the left at the outlet moves the shoreline by its rate instead of rate times timestep (witness with a lagoon whose parts are all symmetric); of the channel: closed lagoons without outlet end always drain left, an outlet in line with the river has the right-hand lagoon attached, an outlet ending on a transect has a reach one spacing longer on one side (general theorems). Partial: everything in a pass up to the morphological step for all other states, with the modelled solvers. |
| C142 | The cliff only retreats | partial | False: where the bed of the lagoon is above the cliff top, erosion of the banks moves the cliff seaward (witness, closed lagoon), and so does the repair of the last transect of the channel where its inner bank is below its bed (witness). Partial: all transects of a closed lagoon and all but one of an open one, with lagoon beds below the cliff top, crests above the closure depth and regular arguments (finite, nothing divided by is zero); and whole runs with a closed lagoon. |
| C143 | The corrections of the unsteady solver exist and are unique | partial | False: in a closed channel falling steeply over one short reach, with slow flow, the linear system has more than one solution (witness). Partial: states calm in every reach (water crosses a small part of a reach per timestep, momentum flux small against pressure), open or closed; with it C119 for every right linear solver. |
| C144 | The ends of the coast retreat at the configured rate | partial | False: the last step is cut off after the morphology was changed (witness of a run), whole days of a step are ignored (general theorem), and a narrow barrier at the end is held up by the cliff (witness). Partial: each step, for MorDt.seconds, and whole runs before the end of the simulation with timesteps in the ratio of a power of two and less than a day; wide barrier without a channel at the end, regular arguments (finite, nothing divided by is zero). |
| C145 | The barrier is never lower than the beach top or its lowest crest | partial | False: where a channel on a barrier 20 cm wide is filled by overwash just as the shoreline is pushed behind the lagoon shore, the crest falls from 4 m to -12 m (witness). Partial: every step and whole runs; nothing asked of transects without a channel, otherwise regular arguments and barriers with a channel more than twice MaxMorChange wide. |
| C146 | A beach gains what it is given | partial | False: with transport to the left at the end of the outlet, what the outlet takes is taken off the beach once instead of every second (witness of a whole step). Partial: closed lagoons, single transects and the total, and transects beyond an open outlet for all other directions of transport; wide barriers without a channel, regular arguments, changes within MaxMorChange, for MorDt.seconds. |
| C147 | The river bed gains what the bedload loses | proved | Every step, the whole river over a step, and whole runs; the first section without conditions. For regular arguments (finite, nothing divided by is zero) and MorDt.seconds; C33 and C94 say when that is the time simulated. |
| C148 | A channel appears only where the outlet reaches or breaks out | partial | False: an outlet that gets to the right edge of the domain is moved to the left edge, and every transect from the second to the outlet gets a channel (witness). Partial: closed lagoons without any condition; open ones with the end of the outlet at least MaxMorChange inside the second and the last-but-one transect, regular arguments. |
| C149 | A relic channel of a closed lagoon stays | proved | Regular arguments (finite, nothing divided by zero) and at most one outlet transect, as core.py passes for a closed lagoon. |
| C150 | The unsteady solver keeps the water balance | proved | One timestep, whole calls, and closed lagoons over a call. The linear solver is a parameter: its answers solve the system and it never reports a singular matrix (then riv.py 266-274 goes on with the corrections of an earlier iteration). Lagoon areas of the first and the last section count half, as in the code. |
| C151 | The barrier gains what the waves carry over it | proved | Regular arguments (finite, nothing divided by zero), transects in order, crest and back moving by no more than MaxMorChange; the transect just before the end of an open outlet is not away from the outlet. The cliff may move at the river (x = 0), where the code keeps the lagoon from closing. |
| C152 | A closed coast neither makes nor loses sediment | proved | Regular arguments, transects in order, barrier more than twice MaxMorChange wide, lagoon bed below crest and cliff top where the river flows, lagoon in line with the river at least MinOutletWidth plus twice MaxMorChange wide. First order: volumes over the faces at the start of the step. |
| C153 | Redundant records do not matter | proved | Numbers in every record and times increasing. Any number of records added one after the other. Series as main gets them: in a wave file the directions are wrapped before interpolation (C154), so a record added on the line between two bearings can matter. |
| C154 | Waves turn the shorter way between two records | partial | False: directions are wrapped to [-pi, pi) by loadModel and then interpolated as numbers. Waves going out to sea first to one side and then to the other come in from the sea in between (C154_refuted). True exactly when the loaded directions are at most half a turn apart, in particular for waves from the sea in both records. |
| C155 | The spit and its outlet channel gain what they are given | partial | False where the spit is lower than the barrier behind its channel: the check for overtopping raises the spit to the height of that barrier (C155_refuted: 41 cubic metres from nothing). True of the channel itself (bed and banks) in every case (C155_channel), and of the whole strip where the spit ends up the higher one, except with transport to the left across the end of the outlet (see C146). Regular arguments, nothing moving by MaxMorChange, wide spits. First order, as C152. |
| C156 | An open coast neither makes nor loses sediment | partial | False where OutletSedSpreadDist is not a whole number of grid steps: the delta then spreads more or less than it gets (C156_refuted; see C38). Partial: the exact balance for every spreading distance (C156_partial), nothing made or lost for a whole number of steps and a delta inside the domain (C156_partial_delta). Transport at the end of the outlet not to the left (C146), spits ending up higher than the barrier behind (C155). Regular arguments, nothing moving by MaxMorChange, no breach. First order, as C152. |
| C157 | Where the coast is on the map does not matter | partial | False: which side is the sea is decided by the sign of the northing of the baseline in line with the river (loadmod.py 441), so for every coast some movement north or south turns both axes of the model round (C157_refuted). Partial: every movement that keeps this sign. np.polyfit is taken to give the least-squares line. |
| C158 | The direction in which the lines are drawn does not matter | partial | False: an outlet line with both ends equally far out flows the way it is drawn (C158_refuted). Partial: all others, exceptions included. np.polyfit is taken to give the least-squares line. |
| C159 | Points added on the drawn lines do not matter | partial | False for the shoreline, because the baseline is fitted to its points (C159_refuted_shoreline), and for an outlet line that crosses no transect, because the channel is put at the mean of its points (C159_refuted_outlet). Partial: cliff and lagoon always, exceptions included; the outlet where the channel crosses two transects or more. |
| C160 | A higher sea never lowers the river | partial | False near critical flow: with friction taken from the two ends of a reach, a sea 33 cm higher gives a lagoon 3 cm lower behind a rough outlet (C160_refuted; n = 0.05, default Beta and ErrTol). Partial: tranquil flow, to within twice ErrTol for each reach. |
| C161 | The steady solution is the steady flow | proved | Beta at least 1 (default 1.05), spacings not negative. The exact flow is any list of tranquil depths with an exact energy balance; that there is one is not claimed. nan depths (C16, C17) are outside the claim. |
| C162 | A default may be stated | partial | False for every default None: the text None is refused for a number and taken as a name for a text (C162_refuted); Shoreline = None stops the model instead of giving the straight coast. Partial: all other defaults, for every file. |
| C163 | A misspelt key is reported | partial | False for every key with a default: a misspelt key is ignored and the default used without notice (C163_refuted, C163_refuted_example: the barrier no longer leaks). Partial: keys without a default are reported, for every file. |
| C164 | Without river flow the water stands at sea level | partial | False for every channel that rises to sea level: the velocity there is nan, and every section further up has nan depth and velocity (C164_refuted, which states the whole result). Partial: channels below sea level all along, of any shape. |
| C165 | More flow never moves less sediment | proved | Sections of positive width and depth; velocities of either sign; transport exponent positive. |
| C166 | A coarser bed is not moved more | partial | False for exponents of the transport formula below three halves, which the configuration accepts: with exponent one, grains four times the size are moved twice as much (C166_refuted). Partial: exponent three halves (the default) or more. |
| C167 | A system that cannot be solved does not end the unsteady solver | partial | False whenever the first system of a call is singular: noise is added to the matrix but it is not solved again, and the corrections applied next do not exist (C167_refuted_general: UnboundLocalError; C167_refuted: the channel of C143, with slow flow one metre deep). Partial: if the first system is solved, singular systems in later iterations or timesteps do not stop the call (C167_partial); the first one is solvable if the flow is calm (C167_partial_calm). A call can still end in the AssertionError of the steady solver it falls back on. |
| C168 | Waves wear down headlands and fill bays | partial | False for waves from the side: with waves at 45 degrees on one side of a headland and along the shore on the other, the headland grows (C168_refuted). Partial: waves within 45 degrees of the normals of both segments (C168_partial); over whole steps of a closed lagoon, with all repairs (C168_partial_step). |
| C169 | Waves do not turn headlands into bays | partial | False for steps that are too long for the spacing of transects, which nothing prevents: a headland of 10 m becomes a bay of 7 m in four minutes (C169_refuted, zig_transport). Partial: steps with 2 x drift x seconds at most shoreface height x Dx squared, closed lagoons, wide barriers, waves from the front. |
| C170 | Longshore transport grows as the 6/5 power of wave power | partial | False where refraction has no solution with the stronger waves: no number (C170_refuted). Partial: everywhere else, exactly. |
| C171 | Slower transport for a longer time has the same effect | partial | False for an open lagoon with transport to the left at the outlet end: mor.py 152 changes the shoreline itself by a rate, without the timestep (C171_refuted). Partial: closed lagoons, and open ones without such transport, exactly, errors included. |
| C172 | More flow never lowers the river | partial | False for a free fall at a rough outlet: friction taken from the two ends of a reach, one of them at critical depth, falls faster than the depth grows, and with more than twice the flow the lagoon is 3 cm lower (C172_refuted; n = 0.05, default Beta and ErrTol). Partial: tranquil flow, energy levels, to within twice ErrTol for each reach; the sea may be higher at the same time. |
| C173 | A finer grid contains the coarser one | partial | False for an outlet that crosses no transect of the coarser grid: the coarser model gets a channel at X = -20 that the finer one does not have (C173_refuted, the defect of C90), and at the ends of the default shoreline, where the coarser model has transects beyond the configured length (C173_refuted_ends). Partial: default shoreline between its configured ends, exactly; maps with an outlet across two transects or more, all but the bed of the channel, which is graded over the transects it crosses. |
| C174 | Disturbances travel one transect per step | proved | For a step (C174_step; a breach elsewhere does not matter either), for histories (C174_reach) under any sea whose transport on a segment depends on the shorelines at its two ends, of which the model's own is one (C174_sea). |
| C175 | A scale model of the river gives the flow and bedload of nature, to scale | proved | C175_flow, C175_bedload, both together C175_river, and C175_wider. For nan and infinite values too, and for the errors. Gravity is not scaled; in solveSteady it is the constant 9.81 of riv.py. |
| C176 | A longer and wider river with more water flows alike | proved | C176_unsteady. A solver that finds the solution where there is just one is of the kind assumed (only_blind). Heights cannot be scaled as in C175: dry sections and still water are replaced by the constant 0.0001, and one tolerance serves depths and velocities. |
| C177 | A channel that is harder to flow through never lowers the river | partial | False for a free fall at a rough outlet: one less than half as wide lowers the lagoon by 3 cm (C177_refuted; n = 0.05, default Beta and ErrTol), by the cause of C172. Partial: tranquil flow in the first channel, no critical flow above the outlet in the second, energy levels, to within twice ErrTol for each reach; flow and sea level may be larger at the same time. |
| C178 | The units of measurement do not matter | partial | False of solveSteady, which calculates with gravity 9.81 whatever PhysicalPars['Gravity'] is (riv.py 16; general theorem for all units that change the number of gravity, witness in feet), of runup for every other unit of time (empirical formula), and of overtopping for barriers narrower than 1 mm (witness). Partial: bedload and longshore transport in all units, with the coefficients loadModel derives from the configuration; overtopping of wider barriers; steady flow in units that keep the number of gravity. |
| C179 | A scale model of the coast changes like the coast | partial | False of the code: where shoreline, lagoon, cliff and channel meet the step leaves gaps of 1 mm or 0.1 mm whatever the size of the coast (C179_refuted: the cliff in line with the river is set to 1 mm beyond the least width of the outlet). Proved: timestep and river bed always; width and bed of the outlet in steps without a breach; every transect without a channel, beyond the outlet, whose shoreline is more than twice MaxMorChange from lagoon and cliff; all transects of a closed lagoon of such transects. |
| C180 | Larger events give a flow larger in proportion | proved | Proved for every factor, all arguments and all draws, failures included; the tide with its mean and range likewise. |
| C181 | The date does not matter to synthetic flow and tide | proved | Proved for all arguments and draws, failures included: any number of days later with pandas' origin of intervals at midnight, any number of output intervals later with a fixed origin, any time for the tide. |
| C182 | The flow of a longer simulation starts with that of the shorter one | partial | False: the last intervals of the hydrograph of the shorter simulation lack the flow after its last event, so with the same seed and a later EndTime the flow of its last day is another one (C182_refuted: an event a day, resampled to days). Partial: all records up to RisingLimbTime and one output interval before the end of the shorter simulation are the same, and the shorter hydrograph exists whenever the longer one does. |
| C183 | The unsteady scheme balances momentum | partial | False of the code when water flows upstream through an end of the channel: the momentum it carries has the wrong sign (V|V| instead of V squared). Proved for every channel when it does not. |
| C184 | Still water is in balance | proved |  |
| C185 | Longshore transport is largest for waves at 45 degrees | proved | C185_angle for any two segments, C185_largest. Where Snell's law has a solution (otherwise nan: C05). |
| C186 | Longshore transport changes gradually | proved | Where Snell's law has a solution (otherwise nan: C05). The bound holds across 90 degrees too. |
| C187 | The two output files agree | partial | Refuted as stated (C187_refuted): the outflow in the time series uses the outlet width before the step, while the record holds the width after it. Everything else agrees. |
| C188 | Failed unsteady hydraulics are replaced by steady flow at the end of the step | proved | The steady replacement takes no account of closure: with a closed outlet it too carries the whole inflow out of the last section. C188_real_steady and C188_real_unsteady show that the solvers of the code meet the two hypotheses (the latter if the linear solver returns numbers). |
| C189 | A barrier rolls over where it is too high for its width and is built up elsewhere | proved | For barriers without a channel, away from the outlet end, moving by no more than MaxMorChange in the step. C189_real_parts: the overtopping of the code follows the rule. |
| C190 | Gaps in the hydraulics of the channel are filled from the neighbouring sections | proved | For stored hydraulics that are numbers or missing. A depth is interpolated as depth, not as water level, so over an uneven bed the interpolated water surface need not be between its neighbours. |
| C191 | The lagoon length used for seepage counts every wet transect once | partial | C191_partial proves the identity for every shore apart from an outlet in line with the river (C191_refuted_inline: the right side is counted twice and the left not at all) and a transect exactly at the upstream end of the outlet (C191_refuted_at_end: left out). Unlike the area (C27), a single lagoon section is fine because the length is added rather than assigned. |
| C192 | Lagoon outside the channel is attached to the nearest lagoon section | partial | C192_partial gives every entry of LagLen and LagArea; false with the outlet in line with the river (C192_refuted_inline) and, for the area, with a single lagoon section, where the second assignment overwrites the first (C192_refuted_single). |
| C193 | A closed lagoon reports no outflow | partial | C193_partial bounds the outflow by the width times ErrTol squared for converged unsteady steps (C193_real: the code's solver meets its demand, with C150_call_any).  False: the steady fallback and a cold start report the whole inflow as outflow of a closed lagoon (C193_refuted_fallback, C193_refuted_start), and no unsteady step ever reports exactly nothing (C193_refuted_unsteady). |
| C194 | The recorded timestep is the time since the line before | partial | C194_partial covers runs that write a line every step.  False if a step in between wrote none (C194_refuted_between), for steps of a day or more, of which MorDt.seconds keeps only the part beyond whole days (C194_refuted_long), and of the first line, which records MorDtMin (C194_refuted_first). |
| C195 | Water gains no energy on its way to the sea | partial | False where the iteration finds the shallow (supercritical) one of the two depths: critical depth is then imposed although a deeper solution exists, and the energy level is 15 cm lower than downstream (C195_refuted, with the deeper solution exhibited). |
| C196 | A channel that disappears leaves nothing behind | partial | False for the crest: when a channel merges with the lagoon, ShoreZ[:,2] keeps the height of the barrier that is gone, and OutletPresent is stale, so a barrier in front that is lower is raised to it (C196_refuted, C196_refuted_crest). Partial: bank and bed are missing in every step and over whole runs; C196_exact shows that merging with the lagoon is the only cause of a crest left behind. |
| C197 | The outlet end always has a width | partial | False where MaxMorChange exceeds MinOutletWidth, which is accepted: one step narrows an open outlet from 1.5 m to -0.5 m (C197_refuted). Partial: every run with MaxMorChange at most MinOutletWidth; the width stays above MinOutletWidth less MaxMorChange while the outlet is open and never falls while it is closed. |
| C198 | The bed of the outlet end stays below the beach top | partial | False: one regular step raises the bed of an open outlet end from 2.9 m to 3.1 m with a beach top of 3 m, and in the next step longshore transport into the mouth widens the outlet (C198_refuted). Partial: a step raises the bed by at most MaxMorChange, not at all while the outlet is closed, and it falls faster only in a breach, to MaxOutletElev; a run stays below the beach top while its open steps are few enough. |
| C199 | The forcing stays within the range of the data | proved |  |
| C200 | A closed lagoon stays on its side of the river | partial | False: when the relic channel of an outlet right of the river is cut off, OutletEndX[0] becomes nan and from the next step on the lagoon is computed to the left of the river (C200_refuted, three passes). Partial: lagoons to the left, for any number of passes; lagoons to the right as long as the relic channel is connected; from the pass that closes the outlet channel on (not where the lagoon itself closes with the outlet channel still there). |
| C201 | Narrow sections of the lagoon widen, wide ones deepen | proved | In line with the river the lagoon must also be wider than MinOutletWidth by twice the limit on change, since there the cliff is moved to keep that width. |
| C202 | The outlet moves with the longshore drift | proved | Includes that the repairs leave the end alone (edge of the domain, truncation); C41, C80 and C81 describe what they do otherwise. |
| C203 | Narrow sections of the outlet channel widen, wide ones deepen | proved | The counterpart of C201 for the outlet channel; the conditions are those of C155. |
| C204 | The outlet mouth narrows when waves bring more sediment than the flow takes away | proved | Companion of C202 (position) and C203 (channel); no conditions on the rest of the coast. |
| C205 | Without longshore transport the outlet mouth never narrows | proved | One pass and, by induction, whole runs. That the bed stays below the beach top is the subject of C198. |
| C206 | A calm sea moves no sediment along the coast | partial | False for a calm record with period zero: the ratio of wave speeds is 0/0 and every transport is nan (C206_refuted, for every coast), after which the morphology step fails (C206_refuted_step). Partial: calm records with positive period and wave length. |
| C207 | A step never completes with a missing number in the wave forcing | proved | C207_run is for runs with any transport formulas; C207_waves for those of coast.py (with positive wave data depth). The exception is the assertion at the end of the step or an earlier one; state left behind by it is not modelled. |
| C208 | Waves leave a straight beach where it is | proved | The two end transects are moved by the configured erosion rate (C144). Barriers narrower than MaxMorChange and transects with a channel may be moved by the repairs (C44, C79) and are outside the claim; so is an outlet mouth, which takes sediment off the beach (C37). |
| C209 | Waves at a high angle build headlands out | proved | Strict inequalities. Not an error of the code: the transport formula has its maximum at 45 degrees (C185). |
| C210 | A higher sea never makes a beach fare better | proved | OT_coef positive and OT_exp at least 1, as in C10. Transects with a channel and narrow barriers may be moved by repairs and are outside the claim. |
| C211 | Stronger waves reshape the coast in a fixed proportion | proved | Stated for movement times the other step's length, so that the two steps may have different lengths. |
| C212 | Longshore transport tells the direction of the waves | partial | False of the code: directions half a turn apart give the same transport, since the power of waves that travel offshore is set to zero in an array (LocalWavePower) that is not used (coast.py 60-62, C07). Proved: the same exactly if the directions differ by half turns; a coast of two segments tells them apart. |
| C213 | Nothing below a critical section is felt above it | proved | Hydraulic control. The first part also shows that the second computation completes; the second part covers errors. |
| C214 | Two coasts under the same waves do not drift apart | proved | A comparison principle; C169 is about one coast. For longer steps or waves from the side it is false (C169_refuted, C209). |
| C215 | The laws of runup and overtopping | proved | Sharper than the monotonicity of C09 and C10. |
| C216 | Whole turns in the wave bearings do not matter | proved | From the uniqueness in C60; without rounding. |
| C217 | The forcing is linear in the data | proved | For columns without missing values; without rounding. With C160 and C172: more flow or a higher sea in the data never lowers the steady river. |
| C218 | The sea level between the records of the synthetic tide | proved | Without rounding. The bound holds before trimming of the series (C59: trimming does not change the forcing). |
| C219 | How far the forcing can be off | proved | Bounds by how much the late forcing of C128 can matter. For columns without missing values; without rounding. |
| C220 | The synthetic flow is the sum of its events | proved | With closer events the rising limbs overlap and the code adds part of the next event to the last record; then only the end of the series is claimed. Without rounding; the random numbers are a parameter. |
| C221 | Missing records are bridged | partial | False of the code: only records between those around the requested times are used, so next to a missing record the value before is carried on, or there is no value (C221_refuted). Proved if the last record at or before the first requested time and the first one at or after the last requested time have values. |
