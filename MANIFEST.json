{
 "claims": [
  {
   "property": "C01",
   "status": "proved",
   "theorems": [
    "Verif.Props.C01_real_mod_real",
    "Verif.Props.C01_mod_real_mod"
   ],
   "note": "Both directions, all finite inputs, exact reals."
  },
  {
   "property": "C02",
   "status": "proved",
   "theorems": [
    "Verif.Props.C02_isometry",
    "Verif.Props.C02_origin",
    "Verif.Props.C02_orientation",
    "Verif.Props.C02_seaward_bearing"
   ],
   "note": "Isometry, origin, orientation and seaward bearing."
  },
  {
   "property": "C03",
   "status": "proved",
   "theorems": [
    "Verif.Props.C03_intersections",
    "Verif.Props.C03_unique",
    "Verif.Props.C03_between"
   ],
   "note": "Results correspond one to one, in order, to the straddling segments, with unique exact ordinates."
  },
  {
   "property": "C04",
   "status": "proved",
   "theorems": [
    "Verif.Props.C04_parity",
    "Verif.Props.C04_polygon_even",
    "Verif.Props.C04_nonempty"
   ],
   "note": "Parity, closed polygon and non-emptiness."
  },
  {
   "property": "C05",
   "status": "proved",
   "theorems": [
    "Verif.Props.C05_direction",
    "Verif.Props.C05_no_solution_nan"
   ],
   "note": "Sign of transport per segment; segments with no breaking angle give nan."
  },
  {
   "property": "C06",
   "status": "proved",
   "theorems": [
    "Verif.Props.C06_mirror"
   ],
   "note": "Mirroring the shore and wave angle reverses the list and negates every value."
  },
  {
   "property": "C07",
   "status": "partial",
   "theorems": [
    "Verif.Props.C07_refuted_offshore_nonzero",
    "Verif.Props.C07_refuted_witness",
    "Verif.Props.C07_partial"
   ],
   "note": "False of the code: the masked wave power is not used (witness). Partial: transport vanishes only when waves run exactly along the shore-normal or the coast."
  },
  {
   "property": "C08",
   "status": "proved",
   "theorems": [
    "Verif.Props.C08_bound",
    "Verif.Props.C08_proportional",
    "Verif.Props.C08_local",
    "Verif.Props.C08_length"
   ],
   "note": "Bound, proportionality to K2, locality, one value per segment."
  },
  {
   "property": "C09",
   "status": "proved",
   "theorems": [
    "Verif.Props.C09_nonneg",
    "Verif.Props.C09_zero",
    "Verif.Props.C09_monotone",
    "Verif.Props.C09_positive"
   ],
   "note": ""
  },
  {
   "property": "C10",
   "status": "proved",
   "theorems": [
    "Verif.Props.C10_flux",
    "Verif.Props.C10_monotone",
    "Verif.Props.C10_nan_crest_rejected"
   ],
   "note": "Including rejection of nan crests."
  },
  {
   "property": "C11",
   "status": "proved",
   "theorems": [
    "Verif.Props.C11_no_outlet",
    "Verif.Props.C11_outlet",
    "Verif.Props.C11_flags"
   ],
   "note": ""
  },
  {
   "property": "C12",
   "status": "proved",
   "theorems": [
    "Verif.Props.C12_bedload"
   ],
   "note": ""
  },
  {
   "property": "C13",
   "status": "proved",
   "theorems": [
    "Verif.Props.C13_odd",
    "Verif.Props.C13_between"
   ],
   "note": ""
  },
  {
   "property": "C14",
   "status": "partial",
   "theorems": [
    "Verif.Props.C14_partial",
    "Verif.Props.C14_refuted_reversed",
    "Verif.Props.C14_refuted_witness"
   ],
   "note": "False for reversed flow (weights do not follow flow direction). Partial: holds for downstream flow."
  },
  {
   "property": "C15",
   "status": "proved",
   "theorems": [
    "Verif.Props.C15_continuity"
   ],
   "note": ""
  },
  {
   "property": "C16",
   "status": "partial",
   "theorems": [
    "Verif.Props.C16_partial",
    "Verif.Props.C16_refuted_nan"
   ],
   "note": "False as stated: a vanishing Newton gradient gives a nan depth (witness). Partial: every depth that is a number is at least critical and Froude <= 1."
  },
  {
   "property": "C17",
   "status": "partial",
   "theorems": [
    "Verif.Props.C17_partial",
    "Verif.Props.C17_refuted_nan"
   ],
   "note": "Residual bound proved for every section whose depth is a number; nan depths can be returned (C16 witness)."
  },
  {
   "property": "C18",
   "status": "proved",
   "theorems": [
    "Verif.Props.C18_backwater"
   ],
   "note": ""
  },
  {
   "property": "C19",
   "status": "proved",
   "theorems": [
    "Verif.Props.C19_positive"
   ],
   "note": "Any numeric solver results, any series; also after the fallback."
  },
  {
   "property": "C20",
   "status": "partial",
   "theorems": [
    "Verif.Props.C20_partial_general",
    "Verif.Props.C20_partial",
    "Verif.Props.C20_refuted_end_area"
   ],
   "note": "False as stated when lagoon area is attached to the first or last section: it is counted half (witness). Partial: exact balance for zero area at the two ends, and for any areas with the half weights."
  },
  {
   "property": "C21",
   "status": "partial",
   "theorems": [
    "Verif.Props.C21_partial",
    "Verif.Props.C21_refuted_reversed",
    "Verif.Props.C21_states"
   ],
   "note": "False for reversed flow: velocity entries of the momentum equation use V where the derivative has |V|. Partial: every other entry at any state, those entries for positive velocity, and zeros outside the band."
  },
  {
   "property": "C22",
   "status": "proved",
   "theorems": [
    "Verif.Props.C22_layout",
    "Verif.Props.C22_residuals"
   ],
   "note": "All numbers of sections from two upwards."
  },
  {
   "property": "C23",
   "status": "partial",
   "theorems": [
    "Verif.Props.C23_partial",
    "Verif.Props.C23_refuted_steady"
   ],
   "note": "False: the steady solution is bound to local names, the caller keeps the unconverged iterate (witness with an exact solver). Partial: what the caller gets in general."
  },
  {
   "property": "C24",
   "status": "proved",
   "theorems": [
    "Verif.Props.C24_wellformed"
   ],
   "note": "Any state for which it returns; the shape hypotheses are those of the caller."
  },
  {
   "property": "C25",
   "status": "proved",
   "theorems": [
    "Verif.Props.C25_closed_iff"
   ],
   "note": "Decision as an equivalence over transects on the lagoon reach and between the outlet ends."
  },
  {
   "property": "C26",
   "status": "proved",
   "theorems": [
    "Verif.Props.C26_contiguous",
    "Verif.Props.C26_whole_reach"
   ],
   "note": "Also: when open, the online lagoon is the whole reach to the outlet."
  },
  {
   "property": "C27",
   "status": "partial",
   "theorems": [
    "Verif.Props.C27_partial",
    "Verif.Props.C27_refuted_inline",
    "Verif.Props.C27_refuted_single",
    "Verif.Props.C27_refuted_at_end"
   ],
   "note": "False in three special positions (witnesses): outlet starting in line with the river, a transect exactly at the outlet start, a single online transect. Partial: exact identity otherwise."
  },
  {
   "property": "C28",
   "status": "proved",
   "theorems": [
    "Verif.Props.C28_round_trip"
   ],
   "note": "Any assembled channel, any numeric depths and velocities, open or closed, including a closure found in the lagoon."
  },
  {
   "property": "C29",
   "status": "proved",
   "theorems": [
    "Verif.Props.C29_stored",
    "Verif.Props.C29_succeeds"
   ],
   "note": ""
  },
  {
   "property": "C30",
   "status": "proved",
   "theorems": [
    "Verif.Props.C30_bedload"
   ],
   "note": ""
  },
  {
   "property": "C31",
   "status": "partial",
   "theorems": [
    "Verif.Props.C31_other_reaches",
    "Verif.Props.C31_partial",
    "Verif.Props.C31_at_multiple",
    "Verif.Props.C31_refuted"
   ],
   "note": "False for outlets running right to left or straight that end on a transect (general theorem and witness). Partial: all other positions."
  },
  {
   "property": "C32",
   "status": "proved",
   "theorems": [
    "Verif.Props.C32_adaptive",
    "Verif.Props.C32_whole"
   ],
   "note": "Whole-second steps doubling between MorDtMin and MorDtMax below one day; also what the step is in general."
  },
  {
   "property": "C33",
   "status": "partial",
   "theorems": [
    "Verif.Props.C33_refuted_above",
    "Verif.Props.C33_refuted_below",
    "Verif.Props.C33_partial"
   ],
   "note": "False as stated: doubling overshoots MorDtMax and halving undershoots MorDtMin unless they are related by powers of two (witnesses). Partial: bounds within a factor of two."
  },
  {
   "property": "C34",
   "status": "partial",
   "theorems": [
    "Verif.Props.C34_partial",
    "Verif.Props.C34_refuted"
   ],
   "note": "False for transport from right to left past an open outlet (one transect is moved outside the limiter, witness). Partial: every coordinate moves by at most MaxMorChange otherwise, for regular arguments (finite, nothing divided by is zero)."
  },
  {
   "property": "C35",
   "status": "proved",
   "theorems": [
    "Verif.Props.C35_conserves"
   ],
   "note": "Per section and in total, open and closed, any number of sections."
  },
  {
   "property": "C36",
   "status": "proved",
   "theorems": [
    "Verif.Props.C36_conserves"
   ],
   "note": "Compared with the same step without longshore transport: pointwise and in total."
  },
  {
   "property": "C37",
   "status": "partial",
   "theorems": [
    "Verif.Props.C37_partial",
    "Verif.Props.C37_refuted_general",
    "Verif.Props.C37_refuted"
   ],
   "note": "False from right to left (general theorem and witness over a step). Partial: exact from left to right for a mouth in the interior."
  },
  {
   "property": "C38",
   "status": "partial",
   "theorems": [
    "Verif.Props.C38_partial",
    "Verif.Props.C38_refuted"
   ],
   "note": "False unless the spreading distance is a whole number of transect spacings (witness). Partial: exact then, any number of transects and any mouth position with the kernel inside the domain."
  },
  {
   "property": "C39",
   "status": "proved",
   "theorems": [
    "Verif.Props.C39_cell",
    "Verif.Props.C39_stage"
   ],
   "note": "Per transect, and for whole repair stages with a closed outlet; cliff top above the sea bed."
  },
  {
   "property": "C40",
   "status": "partial",
   "theorems": [
    "Verif.Props.C40_partial",
    "Verif.Props.C40_refuted"
   ],
   "note": "Volume is false as stated: the crest rise uses the crest width before the step (witness). Partial: zero width or removed, no crest lowered, volume exact at the back or when the crest width has not changed."
  },
  {
   "property": "C41",
   "status": "partial",
   "theorems": [
    "Verif.Props.C41_partial",
    "Verif.Props.C41_refuted"
   ],
   "note": "False for the right edge: the outlet end is moved to the left edge (witness). Partial: always inside, left edge right, untouched inside."
  },
  {
   "property": "C42",
   "status": "partial",
   "theorems": [
    "Verif.Props.C42_partial",
    "Verif.Props.C42_refuted_general",
    "Verif.Props.C42_refuted"
   ],
   "note": "Bed volume is false when channel and lagoon overlap (general theorem and witness). Partial: merge condition, combined width, bed volume when they just touch."
  },
  {
   "property": "C43",
   "status": "partial",
   "theorems": [
    "Verif.Props.C43_partial",
    "Verif.Props.C43_clean_partial",
    "Verif.Props.C43_refuted"
   ],
   "note": "False: masked comparisons read uninitialised memory, which can make the step fail (witness). Partial: any two runs that return agree, for all states and all memory."
  },
  {
   "property": "C44",
   "status": "partial",
   "theorems": [
    "Verif.Props.C44_partial",
    "Verif.Props.C44_refuted_general",
    "Verif.Props.C44_refuted"
   ],
   "note": "Mass conservation is false: both sides gain sediment (general theorem and witness). Partial: 1 mm barrier and equal volumes."
  },
  {
   "property": "C45",
   "status": "proved",
   "theorems": [
    "Verif.Props.C45_erosion",
    "Verif.Props.C45_kept",
    "Verif.Props.C45_first"
   ],
   "note": "Decision for all states, closed and open, position of the breach, the check never fails, and overtopping does not move the breach. Stage of the step, with the lagoon openness computed at the start of the step as in the code."
  },
  {
   "property": "C46",
   "status": "partial",
   "theorems": [
    "Verif.Props.C46_partial",
    "Verif.Props.C46_refuted_general",
    "Verif.Props.C46_refuted"
   ],
   "note": "False: the filter is never applied and an unreachable spill is an IndexError (general theorem, whole-step witnesses). Partial: exact condition for breach, no breach and error."
  },
  {
   "property": "C47",
   "status": "proved",
   "theorems": [
    "Verif.Props.C47_deepest"
   ],
   "note": "All candidate lists, under numeric crest and water levels."
  },
  {
   "property": "C48",
   "status": "partial",
   "theorems": [
    "Verif.Props.C48_refuted_general",
    "Verif.Props.C48_partial",
    "Verif.Props.C48_refuted"
   ],
   "note": "False where the inner barrier is higher (general theorem, whole-step witness). Partial: nothing changes otherwise."
  },
  {
   "property": "C49",
   "status": "partial",
   "theorems": [
    "Verif.Props.C49_refuted_general",
    "Verif.Props.C49_partial",
    "Verif.Props.C49_refuted"
   ],
   "note": "False for every transect but the first two (general theorem, whole-step witness). Partial: the first two transects."
  },
  {
   "property": "C50",
   "status": "proved",
   "theorems": [
    "Verif.Props.C50_viable",
    "Verif.Props.C50_step"
   ],
   "note": "Stage-level with all inequalities, and for whole steps."
  },
  {
   "property": "C51",
   "status": "proved",
   "theorems": [
    "Verif.Props.C51_lagoon"
   ],
   "note": "Whole step."
  },
  {
   "property": "C52",
   "status": "proved",
   "theorems": [
    "Verif.Props.C52_linear",
    "Verif.Props.C52_independent",
    "Verif.Props.C52_between"
   ],
   "note": "Any increasing finite series and any requests inside it; each value independent of the other requests, and between its neighbours."
  },
  {
   "property": "C53",
   "status": "proved",
   "theorems": [
    "Verif.Props.C53_outside"
   ],
   "note": "Any series, any requests with one outside."
  },
  {
   "property": "C54",
   "status": "proved",
   "theorems": [
    "Verif.Props.C54_time"
   ],
   "note": "All runs of the loop model, generic in the numerical functions; StartTime <= EndTime and MorDtMin >= 0."
  },
  {
   "property": "C55",
   "status": "partial",
   "theorems": [
    "Verif.Props.C55_refuted",
    "Verif.Props.C55_refuted_general",
    "Verif.Props.C55_partial",
    "Verif.Props.C55_reaches_partial",
    "Verif.Props.C55_end"
   ],
   "note": "False: no run ever returns (general theorem; witness run ends in IndexError). Partial: with MorDtMin > 0 every run stops within an explicit number of passes, by an exception, and reaches EndTime unless a pass raises before."
  },
  {
   "property": "C56",
   "status": "proved",
   "theorems": [
    "Verif.Props.C56_cadence",
    "Verif.Props.C56_no_skip",
    "Verif.Props.C56_no_skip_ts"
   ],
   "note": "Both output files, all runs."
  },
  {
   "property": "C57",
   "status": "partial",
   "theorems": [
    "Verif.Props.C57_refuted",
    "Verif.Props.C57_refuted_general",
    "Verif.Props.C57_partial",
    "Verif.Props.C57_iff_partial",
    "Verif.Props.C57_tile_partial"
   ],
   "note": "False: the window uses the step chosen one pass earlier and ignores the clamp at EndTime (general theorem, witness run). Partial: exact condition for agreement, and tiling when it holds in each pass."
  },
  {
   "property": "C58",
   "status": "proved",
   "theorems": [
    "Verif.Props.C58_transitions",
    "Verif.Props.C58_morphology",
    "Verif.Props.C58_chain",
    "Verif.Props.C58_start"
   ],
   "note": "All runs."
  },
  {
   "property": "C59",
   "status": "partial",
   "theorems": [
    "Verif.Props.C59_partial",
    "Verif.Props.C59_refuted",
    "Verif.Props.C59_refuted_general"
   ],
   "note": "False for series with a single record (general theorem, witness). Partial: all longer series."
  },
  {
   "property": "C60",
   "status": "proved",
   "theorems": [
    "Verif.Props.C60_direction",
    "Verif.Props.C60_unique",
    "Verif.Props.C60_missing"
   ],
   "note": "All bearings and shore normals (reals, no rounding); the two conditions determine the value."
  },
  {
   "property": "C61",
   "status": "proved",
   "theorems": [
    "Verif.Props.C61_profile",
    "Verif.Props.C61_zero"
   ],
   "note": "All positive slopes, lengths and spacings; zero slope or spacing is an error."
  },
  {
   "property": "C62",
   "status": "partial",
   "theorems": [
    "Verif.Props.C62_transects",
    "Verif.Props.C62_refuted_general",
    "Verif.Props.C62_refuted",
    "Verif.Props.C62_partial",
    "Verif.Props.C62_loads"
   ],
   "note": "False: the default lagoon is 1 mm narrower than the river, and if that is below MinOutletWidth the first assembleChannel raises (general theorem, witness). Partial: spacing, coverage and river transect for all parameters, and an open channel when RiverWidth is at least MinOutletWidth + 1 mm."
  },
  {
   "property": "C63",
   "status": "proved",
   "theorems": [
    "Verif.Props.C63_line",
    "Verif.Props.C63_distinct"
   ],
   "note": "All parameters; equal widths are an error."
  },
  {
   "property": "C64",
   "status": "proved",
   "theorems": [
    "Verif.Props.C64_times",
    "Verif.Props.C64_start",
    "Verif.Props.C64_bounded",
    "Verif.Props.C64_range",
    "Verif.Props.C64_periodic",
    "Verif.Props.C64_zero"
   ],
   "note": "All dates, positive intervals, means and ranges."
  },
  {
   "property": "C65",
   "status": "partial",
   "theorems": [
    "Verif.Props.C65_iff_partial",
    "Verif.Props.C65_refuted"
   ],
   "note": "False unless the interval divides the length of the simulation (exact condition, witness). Partial: holds then."
  },
  {
   "property": "C66",
   "status": "partial",
   "theorems": [
    "Verif.Props.C66_refuted_general",
    "Verif.Props.C66_refuted",
    "Verif.Props.C66_partial"
   ],
   "note": "False: TypeError for all other valid arguments and draws. Partial: with any second decay rate given a series is returned, for any draws whose gaps reach the end date."
  },
  {
   "property": "C67",
   "status": "proved",
   "theorems": [
    "Verif.Props.C67_nonneg"
   ],
   "note": "All parameters and draws, before and after averaging; intervals in which nothing was computed are missing, see C73."
  },
  {
   "property": "C68",
   "status": "partial",
   "theorems": [
    "Verif.Props.C68_refuted",
    "Verif.Props.C68_refuted_general",
    "Verif.Props.C68_partial",
    "Verif.Props.C68_earlier",
    "Verif.Props.C68_all_partial",
    "Verif.Props.C68_hotstart_partial"
   ],
   "note": "False: the wave direction is read back as 0 and the wave power as None (general theorem, witness). Partial: every other variable, any number of records, earlier records unchanged, and hot start, with the precision of the storage as a parameter."
  },
  {
   "property": "C69",
   "status": "partial",
   "theorems": [
    "Verif.Props.C69_refuted",
    "Verif.Props.C69_partial",
    "Verif.Props.C69_declared"
   ],
   "note": "False: outlet_end_bedload is never written (witness). Partial: all other variables. Nothing undeclared is written and no name is declared twice (C69_declared)."
  },
  {
   "property": "C70",
   "status": "partial",
   "theorems": [
    "Verif.Props.C70_refuted",
    "Verif.Props.C70_refuted_general",
    "Verif.Props.C70_partial",
    "Verif.Props.C70_empty"
   ],
   "note": "False for equally close records: all their indices are returned and reading with them fails (general theorem, witness). Partial: only closest records are returned, at least one, a single one unless tied."
  },
  {
   "property": "C71",
   "status": "proved",
   "theorems": [
    "Verif.Props.C71_protected",
    "Verif.Props.C71_new",
    "Verif.Props.C71_guard"
   ],
   "note": "All paths and file systems."
  },
  {
   "property": "C72",
   "status": "proved",
   "theorems": [
    "Verif.Props.C72_positions"
   ],
   "note": "Whole step, all states."
  },
  {
   "property": "C73",
   "status": "partial",
   "theorems": [
    "Verif.Props.C73_partial",
    "Verif.Props.C73_refuted_general",
    "Verif.Props.C73_refuted"
   ],
   "note": "False for rising limbs longer than the output interval (general theorem, witness). Partial: nothing is missing otherwise."
  },
  {
   "property": "C74",
   "status": "partial",
   "theorems": [
    "Verif.Props.C74_iff_partial",
    "Verif.Props.C74_refuted"
   ],
   "note": "False unless the end date is a whole number of output intervals after midnight (exact condition, witness). Partial: holds then."
  },
  {
   "property": "C75",
   "status": "proved",
   "theorems": [
    "Verif.Props.C75_conserves"
   ],
   "note": "All states with positive heights and crest widths; compared with the same step without cross-shore transport."
  },
  {
   "property": "C76",
   "status": "proved",
   "theorems": [
    "Verif.Props.C76_elongation",
    "Verif.Props.C76_ok"
   ],
   "note": "All states with increasing transect positions; also that it does not fail away from the edges of the coast."
  },
  {
   "property": "C77",
   "status": "proved",
   "theorems": [
    "Verif.Props.C77_upstream"
   ],
   "note": "For transects with the channel bed below the inner crest."
  },
  {
   "property": "C78",
   "status": "proved",
   "theorems": [
    "Verif.Props.C78_downstream"
   ],
   "note": "For transects with the channel bed below the inner crest and the cliff top."
  },
  {
   "property": "C79",
   "status": "partial",
   "theorems": [
    "Verif.Props.C79_fill",
    "Verif.Props.C79_partial",
    "Verif.Props.C79_refuted_general"
   ],
   "note": "False: the sediment changes by (inner crest - outer crest) x (overlap) (exact, general refutation). Partial: preserved if either factor is zero."
  },
  {
   "property": "C80",
   "status": "partial",
   "theorems": [
    "Verif.Props.C80_truncation",
    "Verif.Props.C80_partial",
    "Verif.Props.C80_refuted_general",
    "Verif.Props.C80_refuted"
   ],
   "note": "False with two or more collisions: the code moves the end to the first one instead of the last (exact description, general refutation, witness where the outlet is left with a gap). Partial: one collision."
  },
  {
   "property": "C81",
   "status": "partial",
   "theorems": [
    "Verif.Props.C81_partial",
    "Verif.Props.C81_refuted_general",
    "Verif.Props.C81_refuted"
   ],
   "note": "False for channels to the left with two or more collisions: the code takes the wrong one (general refutation, witness). Partial: channels to the right, or one collision."
  },
  {
   "property": "C82",
   "status": "partial",
   "theorems": [
    "Verif.Props.C82_partial",
    "Verif.Props.C82_refuted_general",
    "Verif.Props.C82_refuted"
   ],
   "note": "False for channels to the right that meet the sea at the first transect and another (general refutation; witness where that transect becomes the first by truncation at the lagoon end, IndexError). Partial: all other cases."
  },
  {
   "property": "C83",
   "status": "partial",
   "theorems": [
    "Verif.Props.C83_partial",
    "Verif.Props.C83_refuted_general",
    "Verif.Props.C83_refuted"
   ],
   "note": "False for a baseline of slope zero (east-west coast): the origin is nan and loading always fails (general theorem). Partial: all other slopes."
  },
  {
   "property": "C84",
   "status": "partial",
   "theorems": [
    "Verif.Props.C84_baseline",
    "Verif.Props.C84_partial",
    "Verif.Props.C84_refuted"
   ],
   "note": "False: the code compares the northing of the baseline with zero instead of with the northing of the river (witness; exact condition). Partial: the baseline is at Y = 0, and the exact condition for the river to be landward."
  },
  {
   "property": "C85",
   "status": "proved",
   "theorems": [
    "Verif.Props.C85_transects",
    "Verif.Props.C85_river"
   ],
   "note": "All inputs for which loading succeeds with positive Dx, in model coordinates (conversion of the coordinates: C01, C02)."
  },
  {
   "property": "C86",
   "status": "proved",
   "theorems": [
    "Verif.Props.C86_lines",
    "Verif.Props.C86_cover"
   ],
   "note": "All inputs for which loading succeeds with positive Dx; the lagoon edge of a straight outlet transect may be moved landward."
  },
  {
   "property": "C87",
   "status": "partial",
   "theorems": [
    "Verif.Props.C87_partial",
    "Verif.Props.C87_refuted_lagoon",
    "Verif.Props.C87_refuted_cliff",
    "Verif.Props.C87_refuted_straight"
   ],
   "note": "False: lagoon edge and cliff are not compared with the shoreline and with each other, and a straight outlet may overlap the lagoon edge by 1 mm (witnesses). Partial: width of the channel and its place between lagoon edge and shoreline."
  },
  {
   "property": "C88",
   "status": "proved",
   "theorems": [
    "Verif.Props.C88_ends",
    "Verif.Props.C88_levels"
   ],
   "note": "All inputs for which loading succeeds with positive Dx, both directions, straight outlets included."
  },
  {
   "property": "C89",
   "status": "partial",
   "theorems": [
    "Verif.Props.C89_partial",
    "Verif.Props.C89_refuted",
    "Verif.Props.C89_gap_closes"
   ],
   "note": "False: transects where the channel does not fit are left without channel, so the first assembly closes the outlet (witness; general theorem for the closure). Partial: such transects are the only gaps."
  },
  {
   "property": "C90",
   "status": "partial",
   "theorems": [
    "Verif.Props.C90_partial",
    "Verif.Props.C90_refuted"
   ],
   "note": "False: the mean of the Y coordinates is used for the alongshore position (witness). Partial: one transect, configured width, position from the mean Y."
  },
  {
   "property": "C91",
   "status": "proved",
   "theorems": [
    "Verif.Props.C91_sizes",
    "Verif.Props.C91_written",
    "Verif.Props.C91_real_parts",
    "Verif.Props.C91_default_load",
    "Verif.Props.C91_real_load",
    "Verif.Props.C91_hot_load"
   ],
   "note": "For every hydraulic solver and longshore routine returning arrays of the right size, which the modelled ones do (C91_real_parts); the initial sizes hold for all three loaders."
  },
  {
   "property": "C92",
   "status": "partial",
   "theorems": [
    "Verif.Props.C92_noninterference_partial",
    "Verif.Props.C92_refuted"
   ],
   "note": "False for live plots: with an initially closed outlet the simulation fails to start with live plots and starts without (see C100). Partial: same states, same results of every pass, same exception, as far as plotting itself does not fail."
  },
  {
   "property": "C93",
   "status": "proved",
   "theorems": [
    "Verif.Props.C93_prefix"
   ],
   "note": "Both directions, up to the original EndTime (the last step is clipped there, see C94)."
  },
  {
   "property": "C94",
   "status": "partial",
   "theorems": [
    "Verif.Props.C94_refuted_general",
    "Verif.Props.C94_refuted",
    "Verif.Props.C94_partial"
   ],
   "note": "False: in the last step the clock is advanced only to EndTime while the whole step of erosion and transport is applied (general theorem and witness). Partial: all other steps."
  },
  {
   "property": "C95",
   "status": "proved",
   "theorems": [
    "Verif.Props.C95_causal"
   ],
   "note": "Agreement of the series up to T means: same entries up to T and the same next entry, as linear interpolation needs."
  },
  {
   "property": "C96",
   "status": "partial",
   "theorems": [
    "Verif.Props.C96_partial",
    "Verif.Props.C96_refuted_general",
    "Verif.Props.C96_hotstart_loses_breach",
    "Verif.Props.C96_refuted"
   ],
   "note": "False: after a breach of a closed lagoon the record says closed while the model goes on open, and a hot start from it loses the breach (general theorems and witness). Partial: everything else in the record, always; the flag whenever there was no such breach."
  },
  {
   "property": "C97",
   "status": "partial",
   "theorems": [
    "Verif.Props.C97_refuted",
    "Verif.Props.C97_partial"
   ],
   "note": "False: the time step is reset to MorDtMin, which changes the time for which flow and sea level are taken (witness). Partial: for records written when the step is MorDtMin, with a moving lagoon and an unchanged closed flag, the continued run agrees pass for pass."
  },
  {
   "property": "C98",
   "status": "proved",
   "theorems": [
    "Verif.Props.C98_trimmed"
   ],
   "note": "All lines of two or more nodes, all trim lines with increasing X."
  },
  {
   "property": "C99",
   "status": "partial",
   "theorems": [
    "Verif.Props.C99_refuted",
    "Verif.Props.C99_partial"
   ],
   "note": "False: with a nearly level line and a trim line that rises and falls the search alternates between two segments for ever (witness, for every number of rounds). Partial: lines of at least three nodes whose end segments are steeper than the trim lines and meet them; at most as many rounds as trim points."
  },
  {
   "property": "C100",
   "status": "partial",
   "theorems": [
    "Verif.Props.C100_refuted_general",
    "Verif.Props.C100_refuted",
    "Verif.Props.C100_refuted_index",
    "Verif.Props.C100_partial"
   ],
   "note": "False: with an initially closed outlet the first map view raises an IndexError, since modelView does not pass on that the outlet is closed (for every such start). Partial: open starts, and the update after every pass of every run."
  },
  {
   "property": "C101",
   "status": "proved",
   "theorems": [
    "Verif.Props.C101_sizes",
    "Verif.Props.C101_connected"
   ],
   "note": "Sizes for all views; meeting ends for views of an open outlet."
  },
  {
   "property": "C102",
   "status": "partial",
   "theorems": [
    "Verif.Props.C102_partial",
    "Verif.Props.C102_refuted_general",
    "Verif.Props.C102_refuted"
   ],
   "note": "False: for every outlet from left to right, line 347 overwrites the vertex of the left bank at the last crossed transect with a value from the right bank (general theorem, witness). Partial: the right bank; the left bank of outlets from right to left; all but the last transect otherwise."
  },
  {
   "property": "C103",
   "status": "partial",
   "theorems": [
    "Verif.Props.C103_partial",
    "Verif.Props.C103_refuted_general",
    "Verif.Props.C103_refuted"
   ],
   "note": "False: the vertex at the right edge has its X coordinate as Y (general theorem, witness). Partial: all other vertices."
  },
  {
   "property": "C104",
   "status": "proved",
   "theorems": [
    "Verif.Props.C104_mouth",
    "Verif.Props.C104_closed"
   ],
   "note": "Open and closed outlets."
  },
  {
   "property": "C105",
   "status": "proved",
   "theorems": [
    "Verif.Props.C105_closest",
    "Verif.Props.C105_range",
    "Verif.Props.C105_levels",
    "Verif.Props.C105_drawable"
   ],
   "note": "Closest transect (first one on a tie), exact range check, contents and drawability."
  },
  {
   "property": "C106",
   "status": "partial",
   "theorems": [
    "Verif.Props.C106_partial",
    "Verif.Props.C106_refuted_general",
    "Verif.Props.C106_refuted"
   ],
   "note": "False: the line starts at 1000 and ends at -1000 whatever the coast, so it turns back if the toe of the beach or the cliff is beyond (general theorem, witness). Partial: all other transects with edges in order."
  },
  {
   "property": "C107",
   "status": "proved",
   "theorems": [
    "Verif.Props.C107_lines",
    "Verif.Props.C107_energy",
    "Verif.Props.C107_froude",
    "Verif.Props.C107_total"
   ],
   "note": "Froude number over the reals; the other lines over any ordered field."
  },
  {
   "property": "C108",
   "status": "partial",
   "theorems": [
    "Verif.Props.C108_partial",
    "Verif.Props.C108_refuted_general",
    "Verif.Props.C108_refuted"
   ],
   "note": "False: the bedload axis starts at zero, so bedload directed upstream is off the axis (general theorem, witness). Partial: the flow axis always; the bedload axis if no bedload is negative."
  },
  {
   "property": "C109",
   "status": "partial",
   "theorems": [
    "Verif.Props.C109_refuted_general",
    "Verif.Props.C109_refuted",
    "Verif.Props.C109_partial",
    "Verif.Props.C109_default"
   ],
   "note": "False: the last record is excluded (general theorem, witness). Partial: exactly the records before it, in order; without an end all records to the end of the file."
  },
  {
   "property": "C110",
   "status": "partial",
   "theorems": [
    "Verif.Props.C110_refuted_general",
    "Verif.Props.C110_partial",
    "Verif.Props.C110_refuted"
   ],
   "note": "False: the first figure is drawn as if the outlet was open, so a file starting with a closed outlet fails (general theorem, witness). Partial: files starting with an open outlet, given that open outlets cross a transect."
  },
  {
   "property": "C111",
   "status": "partial",
   "theorems": [
    "Verif.Props.C111_partial",
    "Verif.Props.C111_refuted_general",
    "Verif.Props.C111_dry",
    "Verif.Props.C111_pars",
    "Verif.Props.C111_refuted"
   ],
   "note": "False: the recorded depth and velocity of the dummy section are not passed on (general theorem, witness), and with a dry outlet end the frame fails though a run can be started (C111_dry, witness). Partial: everything else is the same, the dummy section being drawn with the values of the outlet end; the three parameters kept in the file are enough."
  },
  {
   "property": "C112",
   "status": "partial",
   "theorems": [
    "Verif.Props.C112_refuted_general",
    "Verif.Props.C112_partial",
    "Verif.Props.C112_refuted"
   ],
   "note": "False for every onshore wave: the ratio of group speed to wave speed multiplies where it should divide, so the height is too large by a factor between 1 and 2 (general theorem, witness). Partial: exact relation to the deep water wave, which exists and is unique."
  },
  {
   "property": "C113",
   "status": "partial",
   "theorems": [
    "Verif.Props.C113_refuted_general",
    "Verif.Props.C113_partial",
    "Verif.Props.C113_refuted"
   ],
   "note": "False: for onshore waves more oblique than any deep water wave can become at that depth the height is infinite (general theorem, witness; with rounding a huge number). Partial: all other records."
  },
  {
   "property": "C114",
   "status": "proved",
   "theorems": [
    "Verif.Props.C114_power"
   ],
   "note": "All finite transports; for zero transport the direction is 180."
  },
  {
   "property": "C115",
   "status": "partial",
   "theorems": [
    "Verif.Props.C115_refuted_general",
    "Verif.Props.C115_refuted",
    "Verif.Props.C115_partial"
   ],
   "note": "False: minutes are dropped (general theorem, witness). Partial: records on the hour."
  },
  {
   "property": "C116",
   "status": "proved",
   "theorems": [
    "Verif.Props.C116_initial",
    "Verif.Props.C116_runs",
    "Verif.Props.C116_errors",
    "Verif.Props.C116_real_parts"
   ],
   "note": "Runs of any length, equivalence in both directions, exceptions alike; for the modelled coast.py functions and for any others that do not depend on the origin. Exact arithmetic."
  },
  {
   "property": "C117",
   "status": "proved",
   "theorems": [
    "Verif.Props.C117_initial",
    "Verif.Props.C117_runs",
    "Verif.Props.C117_errors"
   ],
   "note": "Runs of any length, equivalence in both directions, exceptions alike."
  },
  {
   "property": "C118",
   "status": "proved",
   "theorems": [
    "Verif.Props.C118_rest",
    "Verif.Props.C118_records"
   ],
   "note": "Runs of any length; the transports and water levels of each pass are hypotheses, the geometry only at the start."
  },
  {
   "property": "C119",
   "status": "partial",
   "theorems": [
    "Verif.Props.C119_partial",
    "Verif.Props.C119_partial_total",
    "Verif.Props.C119_refuted_general",
    "Verif.Props.C119_refuted"
   ],
   "note": "False for flow away from the sea: the momentum flux is taken with the sign of the velocity, so one right correction changes a steady landward flow wherever its momentum flux varies (general theorem, witness). Partial: flow towards the sea, any number of timesteps."
  },
  {
   "property": "C120",
   "status": "proved",
   "theorems": [
    "Verif.Props.C120_steady",
    "Verif.Props.C120_unsteady"
   ],
   "note": "Channels of any length, both solvers; no seepage for the unsteady one."
  },
  {
   "property": "C121",
   "status": "partial",
   "theorems": [
    "Verif.Props.C121_partial",
    "Verif.Props.C121_refuted"
   ],
   "note": "False: overwash can give a lagoon a negative width (witness). Partial: after every step that completes, channels of non-negative width lie strictly between lagoon edge and shoreline, and where there is a lagoon the shoreline is seaward of it."
  },
  {
   "property": "C122",
   "status": "partial",
   "theorems": [
    "Verif.Props.C122_partial",
    "Verif.Props.C122_refuted"
   ],
   "note": "False: filling an eroded relic channel from the shoreface can move the shoreline behind the cliff, after which no step is possible (witness, for any later forcing and parameters). Partial: positive barrier width wherever there is a channel or a lagoon of positive width."
  },
  {
   "property": "C123",
   "status": "partial",
   "theorems": [
    "Verif.Props.C123_refuted",
    "Verif.Props.C123_refuted_general",
    "Verif.Props.C123_partial",
    "Verif.Props.C123_required"
   ],
   "note": "False: nan passes the validation for every number (general theorem, witness). Partial: all finite numbers, all required keys."
  },
  {
   "property": "C124",
   "status": "partial",
   "theorems": [
    "Verif.Props.C124_partial",
    "Verif.Props.C124_refuted"
   ],
   "note": "False: values at the border of the ranges (void ratio 1, gravity 0, equal densities, equal target widths, slope 0, spacing 0) pass and end in a ZeroDivisionError (witnesses). Partial: exactly those divisors."
  },
  {
   "property": "C125",
   "status": "partial",
   "theorems": [
    "Verif.Props.C125_refuted",
    "Verif.Props.C125_partial",
    "Verif.Props.C125_straight_partial"
   ],
   "note": "False except for the straight shoreline: a missing key of the other options gives a TypeError or ValueError (witnesses). Partial: no such configuration is ever prepared; the straight shoreline is reported by assertion."
  },
  {
   "property": "C126",
   "status": "partial",
   "theorems": [
    "Verif.Props.C126_refuted",
    "Verif.Props.C126_refuted_general",
    "Verif.Props.C126_partial"
   ],
   "note": "False: HydDt above MorDtMin, or zero, is accepted and the first pass always fails (general theorem, witness). Partial: the exact condition on the two timesteps."
  },
  {
   "property": "C127",
   "status": "proved",
   "theorems": [
    "Verif.Props.C127_times",
    "Verif.Props.C127_derived",
    "Verif.Props.C127_choice",
    "Verif.Props.C127_straight",
    "Verif.Props.C127_boundary",
    "Verif.Props.C127_loaded",
    "Verif.Props.C127_parameters",
    "Verif.Props.C127_forcing",
    "Verif.Props.C127_files"
   ],
   "note": "All configurations that can be prepared, and all models that load (every parameter, series and file); times up to less than a nanosecond."
  },
  {
   "property": "C128",
   "status": "partial",
   "theorems": [
    "Verif.Props.C128_start",
    "Verif.Props.C128_partial",
    "Verif.Props.C128_kept_partial",
    "Verif.Props.C128_refuted_general",
    "Verif.Props.C128_refuted"
   ],
   "note": "False: waves are those of the beginning of the step and flow and sea level those of the end of the step planned before it (general theorem for steadily changing waves, witness). Partial: exactly those times; the initial records; flow and sea level of steps that keep their length."
  },
  {
   "property": "C129",
   "status": "proved",
   "theorems": [
    "Verif.Props.C129_lines",
    "Verif.Props.C129_axes",
    "Verif.Props.C129_river"
   ],
   "note": "All states, origins and orientations for which the map can be drawn."
  },
  {
   "property": "C130",
   "status": "partial",
   "theorems": [
    "Verif.Props.C130_refuted_general",
    "Verif.Props.C130_partial",
    "Verif.Props.C130_refuted"
   ],
   "note": "False: without a transect to the left of the river there is no crossing of the cliff line (general theorem; every straight shoreline with ShorelineLengthLeft = 0). Partial: all models with transects on both sides."
  },
  {
   "property": "C131",
   "status": "partial",
   "theorems": [
    "Verif.Props.C131_partial",
    "Verif.Props.C131_refuted_general",
    "Verif.Props.C131_refuted"
   ],
   "note": "False: with all cliffs seaward of the baseline the river starts seaward of a cliff (general theorem, witness). Partial: all other coasts."
  },
  {
   "property": "C132",
   "status": "partial",
   "theorems": [
    "Verif.Props.C132_partial",
    "Verif.Props.C132_refuted_general",
    "Verif.Props.C132_refuted"
   ],
   "note": "False: lagoon edges are numbers on all transects, so the lines are at the ends of the model (general theorem, witness). Partial: first and last transect with a lagoon edge."
  },
  {
   "property": "C133",
   "status": "partial",
   "theorems": [
    "Verif.Props.C133_partial",
    "Verif.Props.C133_cold_partial",
    "Verif.Props.C133_refuted"
   ],
   "note": "False: the first outflow shown is the inflow (exact condition, witness of a run started from a record). Partial: all other points, and the first point of starts from rest with the modelled solvers."
  },
  {
   "property": "C134",
   "status": "partial",
   "theorems": [
    "Verif.Props.C134_initial",
    "Verif.Props.C134_runs_partial",
    "Verif.Props.C134_closed_partial",
    "Verif.Props.C134_real_parts",
    "Verif.Props.C134_refuted_general",
    "Verif.Props.C134_refuted",
    "Verif.Props.C134_refuted_mark"
   ],
   "note": "False: where a channel overlapping the lagoon merges with it, the weights of the averaged bed level do not add up to 1 (general theorem, witness of a pass), and -9999.9 marks transects without water (witness). Partial: all runs without such merging and with crests above the mark, in particular closed lagoons that keep their relic channels; the modelled solvers and overtopping."
  },
  {
   "property": "C135",
   "status": "proved",
   "theorems": [
    "Verif.Props.C135_start"
   ],
   "note": "All configurations that load; the record used is the closest one, the first of two equally close."
  },
  {
   "property": "C136",
   "status": "partial",
   "theorems": [
    "Verif.Props.C136_partial",
    "Verif.Props.C136_refuted_general",
    "Verif.Props.C136_refuted",
    "Verif.Props.C136_refuted_seed"
   ],
   "note": "False: the tide is made for the configured start, so a run cannot be continued from an earlier record (witness; with a harmonic tide for every load), and a random hydrograph without seed is drawn anew (witness). Partial: files in order of time, a seed, and a start before the end."
  },
  {
   "property": "C137",
   "status": "partial",
   "theorems": [
    "Verif.Props.C137_partial",
    "Verif.Props.C137_values_partial",
    "Verif.Props.C137_refuted",
    "Verif.Props.C137_refuted_order"
   ],
   "note": "False: if the simulation has no length the tide is trimmed to nothing (witness), and records out of order give nan (witness). Partial: records in order of time and positive length; values on the line between the neighbouring records."
  },
  {
   "property": "C138",
   "status": "partial",
   "theorems": [
    "Verif.Props.C138_default",
    "Verif.Props.C138_partial",
    "Verif.Props.C138_creates",
    "Verif.Props.C138_refuted_general",
    "Verif.Props.C138_refuted"
   ],
   "note": "False: equal names are accepted, and the second file replaces the first or the simulation does not start (general theorem, witness). Partial: different names; the default names always differ."
  },
  {
   "property": "C139",
   "status": "partial",
   "theorems": [
    "Verif.Props.C139_partial",
    "Verif.Props.C139_refuted_general",
    "Verif.Props.C139_refuted"
   ],
   "note": "False: a river not at least 1 mm wider than the smallest outlet is accepted and never starts (general theorem, witness). Partial: all other straight shorelines with positive length of the simulation, as far as the steady solver does not fail."
  },
  {
   "property": "C140",
   "status": "partial",
   "theorems": [
    "Verif.Props.C140_partial",
    "Verif.Props.C140_refuted_general",
    "Verif.Props.C140_refuted",
    "Verif.Props.C140_direction_partial",
    "Verif.Props.C140_refuted_direction"
   ],
   "note": "False: sediment lighter than sea water is accepted and then moves against the waves (general theorems, witness). Partial: denser sediment."
  },
  {
   "property": "C141",
   "status": "partial",
   "theorems": [
    "Verif.Props.C141_channel_partial",
    "Verif.Props.C141_partial",
    "Verif.Props.C141_total_partial",
    "Verif.Props.C141_refuted",
    "Verif.Props.C141_refuted_closed",
    "Verif.Props.C141_refuted_river",
    "Verif.Props.C141_refuted_end"
   ],
   "note": "False of the morphological step: transport to the left at the outlet moves the shoreline by its rate instead of rate times timestep (witness with a lagoon whose parts are all symmetric); of the channel: closed lagoons without outlet end always drain left, an outlet in line with the river has the right-hand lagoon attached, an outlet ending on a transect has a reach one spacing longer on one side (general theorems). Partial: everything in a pass up to the morphological step for all other states, with the modelled solvers."
  },
  {
   "property": "C142",
   "status": "partial",
   "theorems": [
    "Verif.Props.C142_partial",
    "Verif.Props.C142_refuted",
    "Verif.Props.C142_refuted_bank",
    "Verif.Props.C142_partial_run"
   ],
   "note": "False: where the bed of the lagoon is above the cliff top, erosion of the banks moves the cliff seaward (witness, closed lagoon), and so does the repair of the last transect of the channel where its inner bank is below its bed (witness). Partial: all transects of a closed lagoon and all but one of an open one, with lagoon beds below the cliff top, crests above the closure depth and regular arguments (finite, nothing divided by is zero); and whole runs with a closed lagoon."
  },
  {
   "property": "C143",
   "status": "partial",
   "theorems": [
    "Verif.Props.C143_partial",
    "Verif.Props.C143_partial_held",
    "Verif.Props.C143_refuted"
   ],
   "note": "False: in a closed channel falling steeply over one short reach, with slow flow, the linear system has more than one solution (witness). Partial: states calm in every reach (water crosses a small part of a reach per timestep, momentum flux small against pressure), open or closed; with it C119 for every right linear solver."
  },
  {
   "property": "C144",
   "status": "partial",
   "theorems": [
    "Verif.Props.C144_partial",
    "Verif.Props.C144_partial_run",
    "Verif.Props.C144_refuted",
    "Verif.Props.C144_refuted_days",
    "Verif.Props.C144_refuted_narrow"
   ],
   "note": "False: the last step is cut off after the morphology was changed (witness of a run), whole days of a step are ignored (general theorem), and a narrow barrier at the end is held up by the cliff (witness). Partial: each step, for MorDt.seconds, and whole runs before the end of the simulation with timesteps in the ratio of a power of two and less than a day; wide barrier without a channel at the end, regular arguments (finite, nothing divided by is zero)."
  },
  {
   "property": "C145",
   "status": "partial",
   "theorems": [
    "Verif.Props.C145_partial",
    "Verif.Props.C145_partial_run",
    "Verif.Props.C145_real_parts",
    "Verif.Props.C145_refuted"
   ],
   "note": "False: where a channel on a barrier 20 cm wide is filled by overwash just as the shoreline is pushed behind the lagoon shore, the crest falls from 4 m to -12 m (witness). Partial: every step and whole runs; nothing asked of transects without a channel, otherwise regular arguments and barriers with a channel more than twice MaxMorChange wide."
  },
  {
   "property": "C146",
   "status": "partial",
   "theorems": [
    "Verif.Props.C146_partial_closed",
    "Verif.Props.C146_partial_total",
    "Verif.Props.C146_partial_open",
    "Verif.Props.C146_refuted"
   ],
   "note": "False: with transport to the left at the end of the outlet, what the outlet takes is taken off the beach once instead of every second (witness of a whole step). Partial: closed lagoons, single transects and the total, and transects beyond an open outlet for all other directions of transport; wide barriers without a channel, regular arguments, changes within MaxMorChange, for MorDt.seconds."
  },
  {
   "property": "C147",
   "status": "proved",
   "theorems": [
    "Verif.Props.C147_step",
    "Verif.Props.C147_total",
    "Verif.Props.C147_upstream",
    "Verif.Props.C147_run"
   ],
   "note": "Every step, the whole river over a step, and whole runs; the first section without conditions. For regular arguments (finite, nothing divided by is zero) and MorDt.seconds; C33 and C94 say when that is the time simulated."
  },
  {
   "property": "C148",
   "status": "partial",
   "theorems": [
    "Verif.Props.C148_closed",
    "Verif.Props.C148_partial",
    "Verif.Props.C148_refuted"
   ],
   "note": "False: an outlet that gets to the right edge of the domain is moved to the left edge, and every transect from the second to the outlet gets a channel (witness). Partial: closed lagoons without any condition; open ones with the end of the outlet at least MaxMorChange inside the second and the last-but-one transect, regular arguments."
  },
  {
   "property": "C149",
   "status": "proved",
   "theorems": [
    "Verif.Props.C149_stays"
   ],
   "note": "Regular arguments (finite, nothing divided by zero) and at most one outlet transect, as core.py passes for a closed lagoon."
  },
  {
   "property": "C150",
   "status": "proved",
   "theorems": [
    "Verif.Props.C150_call_any",
    "Verif.Props.C150_step",
    "Verif.Props.C150_call",
    "Verif.Props.C150_filling"
   ],
   "note": "One timestep, whole calls, and closed lagoons over a call. The linear solver is a parameter: its answers solve the system and it never reports a singular matrix (then riv.py 266-274 goes on with the corrections of an earlier iteration). Lagoon areas of the first and the last section count half, as in the code."
  },
  {
   "property": "C151",
   "status": "proved",
   "theorems": [
    "Verif.Props.C151_barrier",
    "Verif.Props.C151_volume",
    "Verif.Props.C151_dry",
    "Verif.Props.C151_sum"
   ],
   "note": "Regular arguments (finite, nothing divided by zero), transects in order, crest and back moving by no more than MaxMorChange; the transect just before the end of an open outlet is not away from the outlet. The cliff may move at the river (x = 0), where the code keeps the lagoon from closing."
  },
  {
   "property": "C152",
   "status": "proved",
   "theorems": [
    "Verif.Props.C152_transect",
    "Verif.Props.C152_total"
   ],
   "note": "Regular arguments, transects in order, barrier more than twice MaxMorChange wide, lagoon bed below crest and cliff top where the river flows, lagoon in line with the river at least MinOutletWidth plus twice MaxMorChange wide. First order: volumes over the faces at the start of the step."
  },
  {
   "property": "C153",
   "status": "proved",
   "theorems": [
    "Verif.Props.C153_series",
    "Verif.Props.C153_run"
   ],
   "note": "Numbers in every record and times increasing. Any number of records added one after the other. Series as main gets them: in a wave file the directions are wrapped before interpolation (C154), so a record added on the line between two bearings can matter."
  },
  {
   "property": "C154",
   "status": "partial",
   "theorems": [
    "Verif.Props.C154_partial",
    "Verif.Props.C154_onshore",
    "Verif.Props.C154_refuted"
   ],
   "note": "False: directions are wrapped to [-pi, pi) by loadModel and then interpolated as numbers. Waves going out to sea first to one side and then to the other come in from the sea in between (C154_refuted). True exactly when the loaded directions are at most half a turn apart, in particular for waves from the sea in both records."
  },
  {
   "property": "C155",
   "status": "partial",
   "theorems": [
    "Verif.Props.C155_channel",
    "Verif.Props.C155_partial",
    "Verif.Props.C155_refuted"
   ],
   "note": "False where the spit is lower than the barrier behind its channel: the check for overtopping raises the spit to the height of that barrier (C155_refuted: 41 cubic metres from nothing). True of the channel itself (bed and banks) in every case (C155_channel), and of the whole strip where the spit ends up the higher one, except with transport to the left across the end of the outlet (see C146). Regular arguments, nothing moving by MaxMorChange, wide spits. First order, as C152."
  },
  {
   "property": "C156",
   "status": "partial",
   "theorems": [
    "Verif.Props.C156_partial",
    "Verif.Props.C156_partial_delta",
    "Verif.Props.C156_refuted"
   ],
   "note": "False where OutletSedSpreadDist is not a whole number of grid steps: the delta then spreads more or less than it gets (C156_refuted; see C38). Partial: the exact balance for every spreading distance (C156_partial), nothing made or lost for a whole number of steps and a delta inside the domain (C156_partial_delta). Transport at the end of the outlet not to the left (C146), spits ending up higher than the barrier behind (C155). Regular arguments, nothing moving by MaxMorChange, no breach. First order, as C152."
  },
  {
   "property": "C157",
   "status": "partial",
   "theorems": [
    "Verif.Props.C157_partial",
    "Verif.Props.C157_refuted"
   ],
   "note": "False: which side is the sea is decided by the sign of the northing of the baseline in line with the river (loadmod.py 441), so for every coast some movement north or south turns both axes of the model round (C157_refuted). Partial: every movement that keeps this sign. np.polyfit is taken to give the least-squares line."
  },
  {
   "property": "C158",
   "status": "partial",
   "theorems": [
    "Verif.Props.C158_partial",
    "Verif.Props.C158_refuted"
   ],
   "note": "False: an outlet line with both ends equally far out flows the way it is drawn (C158_refuted). Partial: all others, exceptions included. np.polyfit is taken to give the least-squares line."
  },
  {
   "property": "C159",
   "status": "partial",
   "theorems": [
    "Verif.Props.C159_partial",
    "Verif.Props.C159_partial_outlet",
    "Verif.Props.C159_refuted_outlet",
    "Verif.Props.C159_refuted_shoreline"
   ],
   "note": "False for the shoreline, because the baseline is fitted to its points (C159_refuted_shoreline), and for an outlet line that crosses no transect, because the channel is put at the mean of its points (C159_refuted_outlet). Partial: cliff and lagoon always, exceptions included; the outlet where the channel crosses two transects or more."
  },
  {
   "property": "C160",
   "status": "partial",
   "theorems": [
    "Verif.Props.C160_partial",
    "Verif.Props.C160_refuted"
   ],
   "note": "False near critical flow: with friction taken from the two ends of a reach, a sea 33 cm higher gives a lagoon 3 cm lower behind a rough outlet (C160_refuted; n = 0.05, default Beta and ErrTol). Partial: tranquil flow, to within twice ErrTol for each reach."
  },
  {
   "property": "C161",
   "status": "proved",
   "theorems": [
    "Verif.Props.C161_energy",
    "Verif.Props.C161_level"
   ],
   "note": "Beta at least 1 (default 1.05), spacings not negative. The exact flow is any list of tranquil depths with an exact energy balance; that there is one is not claimed. nan depths (C16, C17) are outside the claim."
  },
  {
   "property": "C162",
   "status": "partial",
   "theorems": [
    "Verif.Props.C162_partial",
    "Verif.Props.C162_refuted",
    "Verif.Props.C162_refuted_shoreline"
   ],
   "note": "False for every default None: the text None is refused for a number and taken as a name for a text (C162_refuted); Shoreline = None stops the model instead of giving the straight coast. Partial: all other defaults, for every file."
  },
  {
   "property": "C163",
   "status": "partial",
   "theorems": [
    "Verif.Props.C163_partial",
    "Verif.Props.C163_refuted",
    "Verif.Props.C163_refuted_example"
   ],
   "note": "False for every key with a default: a misspelt key is ignored and the default used without notice (C163_refuted, C163_refuted_example: the barrier no longer leaks). Partial: keys without a default are reported, for every file."
  },
  {
   "property": "C164",
   "status": "partial",
   "theorems": [
    "Verif.Props.C164_partial",
    "Verif.Props.C164_refuted"
   ],
   "note": "False for every channel that rises to sea level: the velocity there is nan, and every section further up has nan depth and velocity (C164_refuted, which states the whole result). Partial: channels below sea level all along, of any shape."
  },
  {
   "property": "C165",
   "status": "proved",
   "theorems": [
    "Verif.Props.C165_more_flow"
   ],
   "note": "Sections of positive width and depth; velocities of either sign; transport exponent positive."
  },
  {
   "property": "C166",
   "status": "partial",
   "theorems": [
    "Verif.Props.C166_partial",
    "Verif.Props.C166_refuted"
   ],
   "note": "False for exponents of the transport formula below three halves, which the configuration accepts: with exponent one, grains four times the size are moved twice as much (C166_refuted). Partial: exponent three halves (the default) or more."
  },
  {
   "property": "C167",
   "status": "partial",
   "theorems": [
    "Verif.Props.C167_partial",
    "Verif.Props.C167_partial_calm",
    "Verif.Props.C167_refuted_general",
    "Verif.Props.C167_refuted"
   ],
   "note": "False whenever the first system of a call is singular: noise is added to the matrix but it is not solved again, and the corrections applied next do not exist (C167_refuted_general: UnboundLocalError; C167_refuted: the channel of C143, with slow flow one metre deep). Partial: if the first system is solved, singular systems in later iterations or timesteps do not stop the call (C167_partial); the first one is solvable if the flow is calm (C167_partial_calm). A call can still end in the AssertionError of the steady solver it falls back on."
  },
  {
   "property": "C168",
   "status": "partial",
   "theorems": [
    "Verif.Props.C168_partial",
    "Verif.Props.C168_refuted",
    "Verif.Props.C168_partial_step"
   ],
   "note": "False for waves from the side: with waves at 45 degrees on one side of a headland and along the shore on the other, the headland grows (C168_refuted). Partial: waves within 45 degrees of the normals of both segments (C168_partial); over whole steps of a closed lagoon, with all repairs (C168_partial_step)."
  },
  {
   "property": "C169",
   "status": "partial",
   "theorems": [
    "Verif.Props.C169_partial",
    "Verif.Props.C169_refuted"
   ],
   "note": "False for steps that are too long for the spacing of transects, which nothing prevents: a headland of 10 m becomes a bay of 7 m in four minutes (C169_refuted, zig_transport). Partial: steps with 2 x drift x seconds at most shoreface height x Dx squared, closed lagoons, wide barriers, waves from the front."
  },
  {
   "property": "C170",
   "status": "partial",
   "theorems": [
    "Verif.Props.C170_partial",
    "Verif.Props.C170_refuted"
   ],
   "note": "False where refraction has no solution with the stronger waves: no number (C170_refuted). Partial: everywhere else, exactly."
  },
  {
   "property": "C171",
   "status": "partial",
   "theorems": [
    "Verif.Props.C171_partial",
    "Verif.Props.C171_refuted"
   ],
   "note": "False for an open lagoon with transport to the left at the outlet end: mor.py 152 changes the shoreline itself by a rate, without the timestep (C171_refuted). Partial: closed lagoons, and open ones without such transport, exactly, errors included."
  },
  {
   "property": "C172",
   "status": "partial",
   "theorems": [
    "Verif.Props.C172_partial",
    "Verif.Props.C172_refuted"
   ],
   "note": "False for a free fall at a rough outlet: friction taken from the two ends of a reach, one of them at critical depth, falls faster than the depth grows, and with more than twice the flow the lagoon is 3 cm lower (C172_refuted; n = 0.05, default Beta and ErrTol). Partial: tranquil flow, energy levels, to within twice ErrTol for each reach; the sea may be higher at the same time."
  },
  {
   "property": "C173",
   "status": "partial",
   "theorems": [
    "Verif.Props.C173_partial_default",
    "Verif.Props.C173_partial_map",
    "Verif.Props.C173_refuted",
    "Verif.Props.C173_refuted_ends"
   ],
   "note": "False for an outlet that crosses no transect of the coarser grid: the coarser model gets a channel at X = -20 that the finer one does not have (C173_refuted, the defect of C90), and at the ends of the default shoreline, where the coarser model has transects beyond the configured length (C173_refuted_ends). Partial: default shoreline between its configured ends, exactly; maps with an outlet across two transects or more, all but the bed of the channel, which is graded over the transects it crosses."
  },
  {
   "property": "C174",
   "status": "proved",
   "theorems": [
    "Verif.Props.C174_step",
    "Verif.Props.C174_reach",
    "Verif.Props.C174_sea"
   ],
   "note": "For a step (C174_step; a breach elsewhere does not matter either), for histories (C174_reach) under any sea whose transport on a segment depends on the shorelines at its two ends, of which the model's own is one (C174_sea)."
  },
  {
   "property": "C175",
   "status": "proved",
   "theorems": [
    "Verif.Props.C175_flow",
    "Verif.Props.C175_bedload",
    "Verif.Props.C175_river",
    "Verif.Props.C175_wider"
   ],
   "note": "C175_flow, C175_bedload, both together C175_river, and C175_wider. For nan and infinite values too, and for the errors. Gravity is not scaled; in solveSteady it is the constant 9.81 of riv.py."
  },
  {
   "property": "C176",
   "status": "proved",
   "theorems": [
    "Verif.Props.C176_unsteady"
   ],
   "note": "C176_unsteady. A solver that finds the solution where there is just one is of the kind assumed (only_blind). Heights cannot be scaled as in C175: dry sections and still water are replaced by the constant 0.0001, and one tolerance serves depths and velocities."
  },
  {
   "property": "C177",
   "status": "partial",
   "theorems": [
    "Verif.Props.C177_partial",
    "Verif.Props.C177_refuted"
   ],
   "note": "False for a free fall at a rough outlet: one less than half as wide lowers the lagoon by 3 cm (C177_refuted; n = 0.05, default Beta and ErrTol), by the cause of C172. Partial: tranquil flow in the first channel, no critical flow above the outlet in the second, energy levels, to within twice ErrTol for each reach; flow and sea level may be larger at the same time."
  },
  {
   "property": "C178",
   "status": "partial",
   "theorems": [
    "Verif.Props.C178_bedload",
    "Verif.Props.C178_longshore",
    "Verif.Props.C178_coefficients",
    "Verif.Props.C178_overtopping_partial",
    "Verif.Props.C178_flow_partial",
    "Verif.Props.C178_refuted_general",
    "Verif.Props.C178_refuted",
    "Verif.Props.C178_refuted_runup",
    "Verif.Props.C178_refuted_crest"
   ],
   "note": "False of solveSteady, which calculates with gravity 9.81 whatever PhysicalPars['Gravity'] is (riv.py 16; general theorem for all units that change the number of gravity, witness in feet), of runup for every other unit of time (empirical formula), and of overtopping for barriers narrower than 1 mm (witness). Partial: bedload and longshore transport in all units, with the coefficients loadModel derives from the configuration; overtopping of wider barriers; steady flow in units that keep the number of gravity."
  },
  {
   "property": "C179",
   "status": "partial",
   "theorems": [
    "Verif.Props.C179_river",
    "Verif.Props.C179_outlet_partial",
    "Verif.Props.C179_barrier_partial",
    "Verif.Props.C179_closed_partial",
    "Verif.Props.C179_refuted"
   ],
   "note": "False of the code: where shoreline, lagoon, cliff and channel meet the step leaves gaps of 1 mm or 0.1 mm whatever the size of the coast (C179_refuted: the cliff in line with the river is set to 1 mm beyond the least width of the outlet). Proved: timestep and river bed always; width and bed of the outlet in steps without a breach; every transect without a channel, beyond the outlet, whose shoreline is more than twice MaxMorChange from lagoon and cliff; all transects of a closed lagoon of such transects."
  },
  {
   "property": "C180",
   "status": "proved",
   "theorems": [
    "Verif.Props.C180_flow",
    "Verif.Props.C180_tide"
   ],
   "note": "Proved for every factor, all arguments and all draws, failures included; the tide with its mean and range likewise."
  },
  {
   "property": "C181",
   "status": "proved",
   "theorems": [
    "Verif.Props.C181_flow",
    "Verif.Props.C181_days",
    "Verif.Props.C181_intervals",
    "Verif.Props.C181_tide"
   ],
   "note": "Proved for all arguments and draws, failures included: any number of days later with pandas' origin of intervals at midnight, any number of output intervals later with a fixed origin, any time for the tide."
  },
  {
   "property": "C182",
   "status": "partial",
   "theorems": [
    "Verif.Props.C182_partial",
    "Verif.Props.C182_refuted"
   ],
   "note": "False: the last intervals of the hydrograph of the shorter simulation lack the flow after its last event, so with the same seed and a later EndTime the flow of its last day is another one (C182_refuted: an event a day, resampled to days). Partial: all records up to RisingLimbTime and one output interval before the end of the shorter simulation are the same, and the shorter hydrograph exists whenever the longer one does."
  },
  {
   "property": "C183",
   "status": "partial",
   "theorems": [
    "Verif.Props.C183_partial",
    "Verif.Props.C183_refuted_flood"
   ],
   "note": "False of the code when water flows upstream through an end of the channel: the momentum it carries has the wrong sign (V|V| instead of V squared). Proved for every channel when it does not."
  },
  {
   "property": "C184",
   "status": "proved",
   "theorems": [
    "Verif.Props.C184_still",
    "Verif.Props.C184_only_level"
   ],
   "note": ""
  },
  {
   "property": "C185",
   "status": "proved",
   "theorems": [
    "Verif.Props.C185_angle",
    "Verif.Props.C185_largest"
   ],
   "note": "C185_angle for any two segments, C185_largest. Where Snell's law has a solution (otherwise nan: C05)."
  },
  {
   "property": "C186",
   "status": "proved",
   "theorems": [
    "Verif.Props.C186_gradual"
   ],
   "note": "Where Snell's law has a solution (otherwise nan: C05). The bound holds across 90 degrees too."
  },
  {
   "property": "C187",
   "status": "partial",
   "theorems": [
    "Verif.Props.C187_partial",
    "Verif.Props.C187_first",
    "Verif.Props.C187_refuted"
   ],
   "note": "Refuted as stated (C187_refuted): the outflow in the time series uses the outlet width before the step, while the record holds the width after it. Everything else agrees."
  },
  {
   "property": "C188",
   "status": "proved",
   "theorems": [
    "Verif.Props.C188_real_steady",
    "Verif.Props.C188_real_unsteady",
    "Verif.Props.C188_fallback",
    "Verif.Props.C188_unsteady"
   ],
   "note": "The steady replacement takes no account of closure: with a closed outlet it too carries the whole inflow out of the last section. C188_real_steady and C188_real_unsteady show that the solvers of the code meet the two hypotheses (the latter if the linear solver returns numbers)."
  },
  {
   "property": "C189",
   "status": "proved",
   "theorems": [
    "Verif.Props.C189_real_parts",
    "Verif.Props.C189_step"
   ],
   "note": "For barriers without a channel, away from the outlet end, moving by no more than MaxMorChange in the step. C189_real_parts: the overtopping of the code follows the rule."
  },
  {
   "property": "C190",
   "status": "proved",
   "theorems": [
    "Verif.Props.C190_filled",
    "Verif.Props.C190_range"
   ],
   "note": "For stored hydraulics that are numbers or missing. A depth is interpolated as depth, not as water level, so over an uneven bed the interpolated water surface need not be between its neighbours."
  },
  {
   "property": "C191",
   "status": "partial",
   "theorems": [
    "Verif.Props.C191_partial",
    "Verif.Props.C191_refuted_inline",
    "Verif.Props.C191_refuted_at_end"
   ],
   "note": "C191_partial proves the identity for every shore apart from an outlet in line with the river (C191_refuted_inline: the right side is counted twice and the left not at all) and a transect exactly at the upstream end of the outlet (C191_refuted_at_end: left out). Unlike the area (C27), a single lagoon section is fine because the length is added rather than assigned."
  },
  {
   "property": "C192",
   "status": "partial",
   "theorems": [
    "Verif.Props.C192_partial",
    "Verif.Props.C192_refuted_inline",
    "Verif.Props.C192_refuted_single"
   ],
   "note": "C192_partial gives every entry of LagLen and LagArea; false with the outlet in line with the river (C192_refuted_inline) and, for the area, with a single lagoon section, where the second assignment overwrites the first (C192_refuted_single)."
  },
  {
   "property": "C193",
   "status": "partial",
   "theorems": [
    "Verif.Props.C193_refuted_fallback",
    "Verif.Props.C193_refuted_start",
    "Verif.Props.C193_refuted_unsteady",
    "Verif.Props.C193_partial",
    "Verif.Props.C193_real"
   ],
   "note": "C193_partial bounds the outflow by the width times ErrTol squared for converged unsteady steps (C193_real: the code's solver meets its demand, with C150_call_any).  False: the steady fallback and a cold start report the whole inflow as outflow of a closed lagoon (C193_refuted_fallback, C193_refuted_start), and no unsteady step ever reports exactly nothing (C193_refuted_unsteady)."
  },
  {
   "property": "C194",
   "status": "partial",
   "theorems": [
    "Verif.Props.C194_partial",
    "Verif.Props.C194_refuted_long",
    "Verif.Props.C194_refuted_first",
    "Verif.Props.C194_refuted_between"
   ],
   "note": "C194_partial covers runs that write a line every step.  False if a step in between wrote none (C194_refuted_between), for steps of a day or more, of which MorDt.seconds keeps only the part beyond whole days (C194_refuted_long), and of the first line, which records MorDtMin (C194_refuted_first)."
  },
  {
   "property": "C195",
   "status": "partial",
   "theorems": [
    "Verif.Props.C195_partial",
    "Verif.Props.C195_refuted"
   ],
   "note": "False where the iteration finds the shallow (supercritical) one of the two depths: critical depth is then imposed although a deeper solution exists, and the energy level is 15 cm lower than downstream (C195_refuted, with the deeper solution exhibited)."
  },
  {
   "property": "C196",
   "status": "partial",
   "theorems": [
    "Verif.Props.C196_partial",
    "Verif.Props.C196_exact",
    "Verif.Props.C196_clear",
    "Verif.Props.C196_run_partial",
    "Verif.Props.C196_refuted",
    "Verif.Props.C196_refuted_crest"
   ],
   "note": "False for the crest: when a channel merges with the lagoon, ShoreZ[:,2] keeps the height of the barrier that is gone, and OutletPresent is stale, so a barrier in front that is lower is raised to it (C196_refuted, C196_refuted_crest). Partial: bank and bed are missing in every step and over whole runs; C196_exact shows that merging with the lagoon is the only cause of a crest left behind."
  },
  {
   "property": "C197",
   "status": "partial",
   "theorems": [
    "Verif.Props.C197_step_partial",
    "Verif.Props.C197_run_partial",
    "Verif.Props.C197_refuted"
   ],
   "note": "False where MaxMorChange exceeds MinOutletWidth, which is accepted: one step narrows an open outlet from 1.5 m to -0.5 m (C197_refuted). Partial: every run with MaxMorChange at most MinOutletWidth; the width stays above MinOutletWidth less MaxMorChange while the outlet is open and never falls while it is closed."
  },
  {
   "property": "C198",
   "status": "partial",
   "theorems": [
    "Verif.Props.C198_step_partial",
    "Verif.Props.C198_run_partial",
    "Verif.Props.C198_refuted"
   ],
   "note": "False: one regular step raises the bed of an open outlet end from 2.9 m to 3.1 m with a beach top of 3 m, and in the next step longshore transport into the mouth widens the outlet (C198_refuted). Partial: a step raises the bed by at most MaxMorChange, not at all while the outlet is closed, and it falls faster only in a breach, to MaxOutletElev; a run stays below the beach top while its open steps are few enough."
  },
  {
   "property": "C199",
   "status": "proved",
   "theorems": [
    "Verif.Props.C199_records",
    "Verif.Props.C199_passes"
   ],
   "note": ""
  },
  {
   "property": "C200",
   "status": "partial",
   "theorems": [
    "Verif.Props.C200_partial",
    "Verif.Props.C200_left_partial",
    "Verif.Props.C200_right_partial",
    "Verif.Props.C200_refuted"
   ],
   "note": "False: when the relic channel of an outlet right of the river is cut off, OutletEndX[0] becomes nan and from the next step on the lagoon is computed to the left of the river (C200_refuted, three passes). Partial: lagoons to the left, for any number of passes; lagoons to the right as long as the relic channel is connected; from the pass that closes the outlet channel on (not where the lagoon itself closes with the outlet channel still there)."
  },
  {
   "property": "C201",
   "status": "proved",
   "theorems": [
    "Verif.Props.C201_answers"
   ],
   "note": "In line with the river the lagoon must also be wider than MinOutletWidth by twice the limit on change, since there the cliff is moved to keep that width."
  },
  {
   "property": "C202",
   "status": "proved",
   "theorems": [
    "Verif.Props.C202_drift"
   ],
   "note": "Includes that the repairs leave the end alone (edge of the domain, truncation); C41, C80 and C81 describe what they do otherwise."
  },
  {
   "property": "C203",
   "status": "proved",
   "theorems": [
    "Verif.Props.C203_answers"
   ],
   "note": "The counterpart of C201 for the outlet channel; the conditions are those of C155."
  },
  {
   "property": "C204",
   "status": "proved",
   "theorems": [
    "Verif.Props.C204_mouth"
   ],
   "note": "Companion of C202 (position) and C203 (channel); no conditions on the rest of the coast."
  },
  {
   "property": "C205",
   "status": "proved",
   "theorems": [
    "Verif.Props.C205_step",
    "Verif.Props.C205_run"
   ],
   "note": "One pass and, by induction, whole runs. That the bed stays below the beach top is the subject of C198."
  },
  {
   "property": "C206",
   "status": "partial",
   "theorems": [
    "Verif.Props.C206_partial",
    "Verif.Props.C206_refuted",
    "Verif.Props.C206_refuted_step"
   ],
   "note": "False for a calm record with period zero: the ratio of wave speeds is 0/0 and every transport is nan (C206_refuted, for every coast), after which the morphology step fails (C206_refuted_step). Partial: calm records with positive period and wave length."
  },
  {
   "property": "C207",
   "status": "proved",
   "theorems": [
    "Verif.Props.C207_step",
    "Verif.Props.C207_run",
    "Verif.Props.C207_waves",
    "Verif.Props.C207_overtopping",
    "Verif.Props.C207_sea"
   ],
   "note": "C207_run is for runs with any transport formulas; C207_waves for those of coast.py (with positive wave data depth). The exception is the assertion at the end of the step or an earlier one; state left behind by it is not modelled."
  },
  {
   "property": "C208",
   "status": "proved",
   "theorems": [
    "Verif.Props.C208_transport",
    "Verif.Props.C208_step",
    "Verif.Props.C208_coast"
   ],
   "note": "The two end transects are moved by the configured erosion rate (C144). Barriers narrower than MaxMorChange and transects with a channel may be moved by the repairs (C44, C79) and are outside the claim; so is an outlet mouth, which takes sediment off the beach (C37)."
  },
  {
   "property": "C209",
   "status": "proved",
   "theorems": [
    "Verif.Props.C209_step"
   ],
   "note": "Strict inequalities. Not an error of the code: the transport formula has its maximum at 45 degrees (C185)."
  },
  {
   "property": "C210",
   "status": "proved",
   "theorems": [
    "Verif.Props.C210_flux",
    "Verif.Props.C210_sea"
   ],
   "note": "OT_coef positive and OT_exp at least 1, as in C10. Transects with a channel and narrow barriers may be moved by repairs and are outside the claim."
  },
  {
   "property": "C211",
   "status": "proved",
   "theorems": [
    "Verif.Props.C211_step"
   ],
   "note": "Stated for movement times the other step's length, so that the two steps may have different lengths."
  },
  {
   "property": "C212",
   "status": "partial",
   "theorems": [
    "Verif.Props.C212_partial_same",
    "Verif.Props.C212_partial_tells",
    "Verif.Props.C212_partial",
    "Verif.Props.C212_refuted"
   ],
   "note": "False of the code: directions half a turn apart give the same transport, since the power of waves that travel offshore is set to zero in an array (LocalWavePower) that is not used (coast.py 60-62, C07). Proved: the same exactly if the directions differ by half turns; a coast of two segments tells them apart."
  },
  {
   "property": "C213",
   "status": "proved",
   "theorems": [
    "Verif.Props.C213_control",
    "Verif.Props.C213_sea"
   ],
   "note": "Hydraulic control. The first part also shows that the second computation completes; the second part covers errors."
  },
  {
   "property": "C214",
   "status": "proved",
   "theorems": [
    "Verif.Props.C214_apart"
   ],
   "note": "A comparison principle; C169 is about one coast. For longer steps or waves from the side it is false (C169_refuted, C209)."
  },
  {
   "property": "C215",
   "status": "proved",
   "theorems": [
    "Verif.Props.C215_runup",
    "Verif.Props.C215_overtopping"
   ],
   "note": "Sharper than the monotonicity of C09 and C10."
  },
  {
   "property": "C216",
   "status": "proved",
   "theorems": [
    "Verif.Props.C216_bearing",
    "Verif.Props.C216_load"
   ],
   "note": "From the uniqueness in C60; without rounding."
  },
  {
   "property": "C217",
   "status": "proved",
   "theorems": [
    "Verif.Props.C217_superpose",
    "Verif.Props.C217_order"
   ],
   "note": "For columns without missing values; without rounding. With C160 and C172: more flow or a higher sea in the data never lowers the steady river."
  },
  {
   "property": "C218",
   "status": "proved",
   "theorems": [
    "Verif.Props.C218_tide",
    "Verif.Props.C218_quarter"
   ],
   "note": "Without rounding. The bound holds before trimming of the series (C59: trimming does not change the forcing)."
  },
  {
   "property": "C219",
   "status": "proved",
   "theorems": [
    "Verif.Props.C219_interpolated",
    "Verif.Props.C219_record"
   ],
   "note": "Bounds by how much the late forcing of C128 can matter. For columns without missing values; without rounding."
  },
  {
   "property": "C220",
   "status": "proved",
   "theorems": [
    "Verif.Props.C220_sum",
    "Verif.Props.C220_falls",
    "Verif.Props.C220_start"
   ],
   "note": "With closer events the rising limbs overlap and the code adds part of the next event to the last record; then only the end of the series is claimed. Without rounding; the random numbers are a parameter."
  },
  {
   "property": "C221",
   "status": "partial",
   "theorems": [
    "Verif.Props.C221_partial",
    "Verif.Props.C221_refuted",
    "Verif.Props.C221_refuted_after_gap"
   ],
   "note": "False of the code: only records between those around the requested times are used, so next to a missing record the value before is carried on, or there is no value (C221_refuted). Proved if the last record at or before the first requested time and the first one at or after the last requested time have values."
  }
 ]
}