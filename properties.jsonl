{"id": "C01", "title": "Coordinate conversion round trip", "statement": "Converting any real-world point to model coordinates and back (geom.real2mod then geom.mod2real, same origin and shore-normal direction) returns the original point, and converting any model point to real-world and back returns the original model point.", "quantifier": "all points, all origins, all shore-normal directions", "why_tests_cant": "The domain is a continuum of points, origins and angles, including the points where the polar angle jumps (the origin, the negative axis); a test samples finitely many.", "anchors": ["hapuamod/geom.py:mod2real", "hapuamod/geom.py:real2mod"]}
{"id": "C02", "title": "Coordinate conversion is a rigid motion with seaward = shore-normal bearing", "statement": "geom.real2mod preserves the distance between any two points, maps the origin to (0,0) and keeps left/right handedness; the model point one metre seaward (0,1) is one metre from the origin on compass bearing ShoreNormalDir.", "quantifier": "all pairs of points, all origins, all shore-normal directions", "why_tests_cant": "Isometry is a statement about all pairs of points; a sign or handedness error can cancel at sampled symmetric points.", "anchors": ["hapuamod/geom.py:mod2real", "hapuamod/geom.py:real2mod"]}
{"id": "C03", "title": "Polyline intersection is exact and complete", "statement": "geom.intersectPolyline returns exactly one Y for each polyline segment that has one end strictly left of the X coordinate and the other not, in polyline order; each returned Y is the ordinate of that segment at the X coordinate, lies between the segment's end ordinates, and the computation never divides by zero.", "quantifier": "all polylines (any number of points, vertical and repeated segments included) and all X coordinates", "why_tests_cant": "Degenerate polylines (vertical segments, vertices exactly on the line) form an unbounded family.", "anchors": ["hapuamod/geom.py:intersectPolyline"]}
{"id": "C04", "title": "Polyline crossing parity", "statement": "For a closed polygon the number of intersections is even; for any polyline it is odd exactly when one end is left of the X coordinate and the other is not; if any two vertices are on different sides there is at least one intersection.", "quantifier": "all polylines and all X coordinates", "why_tests_cant": "Parity is an invariant over polylines of every length.", "anchors": ["hapuamod/geom.py:intersectPolyline", "hapuamod/loadmod.py:loadModel"]}
{"id": "C05", "title": "Longshore transport direction", "statement": "coast.longShoreTransport gives zero transport on a segment whose shore-normal is aligned with the waves, left-to-right (positive) transport where waves arrive from the left of the local shore-normal, and right-to-left (negative) where they arrive from the right, whenever waves arrive from the seaward side and the refraction relation has a solution.", "quantifier": "all shorelines, wave powers, periods, wavelengths, directions and positive coefficients", "why_tests_cant": "The sign claim ranges over a continuum of shoreline angles and wave conditions.", "anchors": ["hapuamod/coast.py:longShoreTransport"]}
{"id": "C06", "title": "Longshore transport mirror symmetry", "statement": "Mirroring the shoreline left-to-right and negating the wave direction reverses the order and sign of the transport returned by coast.longShoreTransport.", "quantifier": "all shorelines of any length and all wave conditions", "why_tests_cant": "A symmetry law over every shoreline; tests check a few shapes.", "anchors": ["hapuamod/coast.py:longShoreTransport"]}
{"id": "C07", "title": "No longshore transport where waves travel offshore", "statement": "On shore segments where the waves are directed offshore (more than 90 degrees from the local shore-normal) coast.longShoreTransport returns zero transport, as its comment promises.", "quantifier": "all shorelines, segments and wave conditions", "why_tests_cant": "Only a universally quantified statement can show the masked power really feeds the result; a test with onshore waves never distinguishes.", "anchors": ["hapuamod/coast.py:longShoreTransport"]}
{"id": "C08", "title": "Longshore transport magnitude bound", "statement": "Every defined value returned by coast.longShoreTransport has magnitude at most K2coef times the wave power, is proportional to K2coef, and depends only on the two shoreline positions that bound its segment.", "quantifier": "all shorelines and wave conditions", "why_tests_cant": "A bound over all inputs.", "anchors": ["hapuamod/coast.py:longShoreTransport"]}
{"id": "C09", "title": "Runup is non-negative and monotone", "statement": "coast.runup is non-negative for non-negative wave period, height and slope, zero when there are no waves, and never decreases when the period, height or slope increases.", "quantifier": "all non-negative periods, heights and slopes", "why_tests_cant": "Monotonicity relates all pairs of inputs.", "anchors": ["hapuamod/coast.py:runup"]}
{"id": "C10", "title": "Overtopping flux is zero below the crest, positive above, and monotone", "statement": "coast.overtopping returns a zero sediment flux at a transect exactly when runup plus sea level does not exceed its crest, a positive flux otherwise, and raising the sea level or runup never reduces any flux; with valid parameters its internal checks never fire.", "quantifier": "all shorelines with defined crests, all runups and sea levels, all OT_coef > 0 and OT_exp >= 1", "why_tests_cant": "Threshold and monotonicity claims over a continuum; an assertion firing on some input cannot be excluded by sampling.", "anchors": ["hapuamod/coast.py:overtopping"]}
{"id": "C11", "title": "Overwash decision rule", "statement": "At each transect coast.overtopping reports all-overwash exactly when an outlet channel is present with no width left, or when the crest is higher than the target height for its crest width and there is either a lagoon or an outlet channel behind it; otherwise all the flux goes to the crest. There is no fractional split.", "quantifier": "all shorelines, transect by transect", "why_tests_cant": "The rule must hold for every combination of missing outlet, zero-width outlet, absent lagoon and crest width.", "anchors": ["hapuamod/coast.py:overtopping"]}
{"id": "C12", "title": "Bedload follows the flow and vanishes below threshold", "statement": "riv.calcBedload returns one value per reach; a reach whose two end sections are both at or below the critical Shields stress carries none; a reach whose end velocities are both non-negative carries a non-negative bedload and one whose end velocities are both non-positive carries a non-positive bedload.", "quantifier": "all channels of any length with positive depths and valid sediment parameters", "why_tests_cant": "Quantifies over all channels and velocities.", "anchors": ["hapuamod/riv.py:calcBedload"]}
{"id": "C13", "title": "Bedload is odd in velocity and bounded by its end sections", "statement": "Reversing every velocity negates every value returned by riv.calcBedload, and each reach value lies between the capacities of its two end sections (weight Psi on the downstream section).", "quantifier": "all channels with positive depths", "why_tests_cant": "A symmetry law and a bound over all channels.", "anchors": ["hapuamod/riv.py:calcBedload"]}
{"id": "C14", "title": "Bedload upwinding follows the flow direction", "statement": "The reach bedload returned by riv.calcBedload weights the section the water comes from at least as much as the section it goes to.", "quantifier": "all channels and flow directions, Psi between 0 and 0.5", "why_tests_cant": "The weights only matter for reversed flow between unequal sections, which typical tests do not construct.", "anchors": ["hapuamod/riv.py:calcBedload"]}
{"id": "C15", "title": "Steady solution carries the inflow everywhere", "statement": "When riv.solveSteady returns a depth and velocity that are numbers, velocity times width times depth equals the inflow at every cross-section.", "quantifier": "all channels with positive widths, all inflows, sea levels, roughnesses, iteration limits", "why_tests_cant": "Must hold at every section of channels of every length and after any number of Newton iterations.", "anchors": ["hapuamod/riv.py:solveSteady"]}
{"id": "C16", "title": "Steady solution is never supercritical", "statement": "Every depth riv.solveSteady returns is at least the critical depth of its cross-section (so the Froude number is at most one).", "quantifier": "all channels with positive widths and all positive inflows", "why_tests_cant": "Newton iterates can be anything, including non-numbers; only a proof covers every path out of the loop.", "anchors": ["hapuamod/riv.py:solveSteady"]}
{"id": "C17", "title": "Steady solution satisfies the energy equation to tolerance", "statement": "At every section where riv.solveSteady did not impose critical depth, the energy-balance residual with the next section downstream is at most ErrTol in magnitude; at the downstream end the depth is the larger of critical depth and the depth at sea level.", "quantifier": "all channels for which it returns", "why_tests_cant": "Loop exit condition over unbounded iteration histories.", "anchors": ["hapuamod/riv.py:solveSteady"]}
{"id": "C18", "title": "Steady solution depends only on downstream sections", "statement": "The depths and velocities riv.solveSteady gives for the downstream part of a channel are the same whatever river is attached upstream (as long as it returns), i.e. it is a pure backwater sweep.", "quantifier": "all channels and all upstream extensions", "why_tests_cant": "A non-interference property over pairs of channels.", "anchors": ["hapuamod/riv.py:solveSteady"]}
{"id": "C19", "title": "Unsteady solver keeps depths positive and velocities non-zero", "statement": "Whatever the linear solver returns, when riv.solveFullPreissmann returns normally every depth it leaves in the caller's array is positive and no velocity is zero (for numeric inputs and corrections).", "quantifier": "all channels, all boundary series, all linear-solver results", "why_tests_cant": "Quantifies over an arbitrary external solver and any number of iterations and timesteps.", "anchors": ["hapuamod/riv.py:solveFullPreissmann"]}
{"id": "C20", "title": "Unsteady scheme conserves water", "statement": "If the continuity residuals assembled by riv.solveFullPreissmann vanish for a timestep, the change in stored volume (channel plus attached lagoon area) equals the time-weighted inflow minus outflow minus barrier seepage, exactly.", "quantifier": "all channels of any number of sections, all timesteps, weights Theta, seepage parameters", "why_tests_cant": "Discrete conservation is a telescoping identity over every channel length.", "anchors": ["hapuamod/riv.py:solveFullPreissmann"]}
{"id": "C21", "title": "Newton matrix is the derivative of the residuals", "statement": "Each entry placed in the banded matrix by riv.solveFullPreissmann is the partial derivative of the corresponding residual with respect to the corresponding depth or velocity, for either direction of flow.", "quantifier": "all channel states with positive depth and non-zero velocity", "why_tests_cant": "A derivative identity on an open set; a finite-difference test samples points and tolerances.", "anchors": ["hapuamod/riv.py:solveFullPreissmann"]}
{"id": "C22", "title": "Newton matrix layout matches the banded solver convention", "statement": "The five-row band storage built by riv.solveFullPreissmann represents, under scipy's solve_banded convention, the matrix whose rows are upstream boundary, continuity and momentum of each reach in order, downstream boundary, and no two assignments write the same cell with different meaning; the residual vector lists the residuals of the same equations in the same order.", "quantifier": "all numbers of cross-sections from two upwards", "why_tests_cant": "Index arithmetic for every channel length.", "anchors": ["hapuamod/riv.py:solveFullPreissmann"]}
{"id": "C23", "title": "Non-converged unsteady steps fall back to the steady solution", "statement": "When riv.solveFullPreissmann exceeds MaxIt in a timestep, the caller's depth and velocity arrays hold the steady solution afterwards, as the warning it logs says.", "quantifier": "all channels and boundary series for which some timestep does not converge", "why_tests_cant": "Aliasing between local rebinding and caller arrays; needs a non-converging case.", "anchors": ["hapuamod/riv.py:solveFullPreissmann"]}
{"id": "C24", "title": "Assembled channel is well formed", "statement": "When riv.assembleChannel returns, all per-section outputs have equal length, the reach lengths are one fewer, every width is positive, no depth, velocity, width or bed level is missing, and the section flags appear in the order river, lagoon, outlet, outlet end, dummy sea section, with the outlet parts present exactly when it reports open.", "quantifier": "all model states", "why_tests_cant": "Any combination of missing outlet data, closed states and lagoon geometry.", "anchors": ["hapuamod/riv.py:assembleChannel"]}
{"id": "C25", "title": "When assembleChannel reports the outlet closed", "statement": "riv.assembleChannel reports closed exactly when the outlet was already closed, or some online outlet width or the outlet end width is at or below MinOutletWidth, or an online lagoon width is below MinOutletWidth; in particular it never re-opens an outlet.", "quantifier": "all model states for which it returns", "why_tests_cant": "Decision logic over all geometries.", "anchors": ["hapuamod/riv.py:assembleChannel"]}
{"id": "C26", "title": "Online lagoon runs contiguously from the river", "statement": "The online lagoon transects reported by riv.assembleChannel start at the transect in line with the river and step by one transect towards the outlet without gaps, and each has width at least MinOutletWidth.", "quantifier": "all model states for which it returns", "why_tests_cant": "Contiguity and width bounds over lagoons of any extent.", "anchors": ["hapuamod/riv.py:assembleChannel"]}
{"id": "C27", "title": "Lagoon surface area is accounted for exactly once", "statement": "The lagoon area attached to channel sections as offline storage plus the area of the online lagoon transects equals the total lagoon area.", "quantifier": "all model states for which riv.assembleChannel returns", "why_tests_cant": "An accounting identity over all geometries, violated only in special positions (outlet in line with the river, single online transect).", "anchors": ["hapuamod/riv.py:assembleChannel"]}
{"id": "C28", "title": "Storing and re-assembling hydraulics loses nothing", "statement": "If the geometry has not changed, assembling the channel from what riv.storeHydraulics stored returns the same depths and velocities it was given (with zero velocity at a closed end).", "quantifier": "all channels, open or closed, any number of sections", "why_tests_cant": "A round trip across two functions for every size and flag layout.", "anchors": ["hapuamod/riv.py:storeHydraulics", "hapuamod/riv.py:assembleChannel"]}
{"id": "C29", "title": "Offline lagoon takes the nearest online water level", "statement": "After riv.storeHydraulics every transect beyond an end of the online lagoon has the water level of that end, every online transect has bed level plus depth, and velocities are missing exactly off line.", "quantifier": "all channels and lagoons", "why_tests_cant": "Indexing claims over all sizes.", "anchors": ["hapuamod/riv.py:storeHydraulics"]}
{"id": "C30", "title": "Stored bedload keeps every reach value", "statement": "riv.storeBedload places the bedload of every lagoon, outlet and outlet-end reach at its transect and zero everywhere else, for open and closed lagoons.", "quantifier": "all channels", "why_tests_cant": "Index bookkeeping for all sizes and both states.", "anchors": ["hapuamod/riv.py:storeBedload"]}
{"id": "C31", "title": "Distance to the outlet end", "statement": "The last-but-one reach length returned by riv.assembleChannel for an open outlet is Dx plus the alongshore distance from the last outlet transect to the outlet end.", "quantifier": "all outlet end positions", "why_tests_cant": "The exceptional positions (exact multiples of Dx) have measure zero among sampled positions yet occur after every breach.", "anchors": ["hapuamod/riv.py:assembleChannel"]}
{"id": "C32", "title": "Adaptive timestep is well behaved", "statement": "If MorDtMax is MorDtMin times a power of two, both whole seconds below one day, and the step passed in is MorDtMin times a power of two between them, mor.updateMorphology's timestep adaptation terminates, stays between MorDtMin and MorDtMax, remains such a step, and its internal assertion cannot fail.", "quantifier": "all change rates, limits and such time parameters", "why_tests_cant": "Loop termination and invariants over all rates.", "anchors": ["hapuamod/mor.py:updateMorphology"]}
{"id": "C33", "title": "Adaptive timestep respects MorDtMin and MorDtMax in general", "statement": "For any positive MorDtMin <= MorDtMax and a step between them, the step mor.updateMorphology returns is between MorDtMin and MorDtMax.", "quantifier": "all time parameters", "why_tests_cant": "Fails only for parameters not related by powers of two or involving fractions of seconds or whole days.", "anchors": ["hapuamod/mor.py:updateMorphology"]}
{"id": "C34", "title": "Forced morphological change per step is limited", "statement": "In one call of mor.updateMorphology no bed level, bank or shoreline position moves by more than MaxMorChange as a result of the computed transport rates.", "quantifier": "all states, transports and time parameters", "why_tests_cant": "A bound over all inputs that depends on the interplay of adaptation, limiter and every place that writes positions.", "anchors": ["hapuamod/mor.py:updateMorphology"]}
{"id": "C35", "title": "River, lagoon and outlet bed changes conserve bedload", "statement": "The volume rates of bed and bank change that mor.updateMorphology derives from bedload add up, over all sections, to bedload entering at the top minus bedload leaving at the bottom (nothing leaves when closed), and each section either widens or deepens when eroding, never both.", "quantifier": "all channels of any length, open or closed", "why_tests_cant": "A telescoping identity for every channel length.", "anchors": ["hapuamod/mor.py:updateMorphology"]}
{"id": "C36", "title": "Longshore transport conserves shoreline volume", "statement": "The shoreface volume change rate due to longshore transport over the interior transects equals the transport in at the first segment minus the transport out at the last, for a closed outlet.", "quantifier": "all shorelines of any length", "why_tests_cant": "A telescoping identity for every shoreline length.", "anchors": ["hapuamod/mor.py:updateMorphology"]}
{"id": "C37", "title": "Longshore transport into the outlet mouth narrows the outlet and is taken off the beach", "statement": "With an open outlet, the longshore transport reaching the outlet mouth is removed from the beach beyond the mouth at the same volume rate at which it narrows the outlet end, for either transport direction.", "quantifier": "all states and transport directions", "why_tests_cant": "The two transport directions take different code paths; both must balance for every rate and timestep.", "anchors": ["hapuamod/mor.py:updateMorphology"]}
{"id": "C38", "title": "River sediment delivered to the beach is conserved", "statement": "The sediment leaving the outlet is spread over the shoreline with total volume rate equal to the outlet bedload.", "quantifier": "all outlet positions with the spreading width inside the domain, all spreading widths", "why_tests_cant": "Whether the sampled triangular weights sum to one depends on the ratio of spread distance to Dx and holds at every outlet position or not at all.", "anchors": ["hapuamod/mor.py:updateMorphology"]}
{"id": "C39", "title": "Shoreline-cliff collision repair", "statement": "Where the shoreline has eroded to or past the cliff, mor.updateMorphology retreats the cliff so the beach is 1 mm wide with the lagoon edge on the cliff, and the volume taken from the cliff equals the volume added to the shoreface.", "quantifier": "all collided transects", "why_tests_cant": "An exact mass balance over a continuum.", "anchors": ["hapuamod/mor.py:updateMorphology"]}
{"id": "C40", "title": "Overwash into a closed channel", "statement": "Where overwash would give an outlet channel negative width, mor.updateMorphology leaves a channel of exactly zero width or removes it, never lowers a crest, and raises barrier volume by exactly the volume of overwash that did not fit.", "quantifier": "all transects with an outlet channel", "why_tests_cant": "Mass balance over three branches for all geometries.", "anchors": ["hapuamod/mor.py:updateMorphology"]}
{"id": "C41", "title": "Outlet stays inside the domain at the nearest edge", "statement": "After mor.updateMorphology's edge check the seaward end of the outlet lies between the second and last-but-one transects, and an outlet that tried to leave the domain is held at the edge it reached.", "quantifier": "all outlet end positions", "why_tests_cant": "Only positions beyond one particular edge show the error.", "anchors": ["hapuamod/mor.py:updateMorphology"]}
{"id": "C42", "title": "Merging an offline channel into the lagoon conserves lagoon area and bed volume", "statement": "When the barrier between an offline channel and the lagoon erodes away, the merged lagoon has the combined width and a bed level that conserves the combined bed volume.", "quantifier": "all transects where it occurs", "why_tests_cant": "An identity over a continuum of geometries.", "anchors": ["hapuamod/mor.py:updateMorphology"]}
{"id": "C43", "title": "Same state, same result", "statement": "mor.updateMorphology is a function of its arguments: repeating a step from the same state gives the same morphology.", "quantifier": "all states", "why_tests_cant": "Depends on uninitialised memory in masked comparisons; a repeated test run usually sees the same memory.", "anchors": ["hapuamod/mor.py:updateMorphology"]}
{"id": "C44", "title": "Unbreached eroded barrier is restored with mass balance", "statement": "Where the barrier is completely eroded but does not breach, mor.updateMorphology restores a 1 mm wide barrier, moving sediment in a mass-conserving way.", "quantifier": "all such transects", "why_tests_cant": "An identity over a continuum.", "anchors": ["hapuamod/mor.py:updateMorphology"]}
{"id": "C45", "title": "Erosion breach decision", "statement": "An eroded barrier breaches a closed lagoon exactly when some eroded transect is connected to the river through open lagoon, breaches an open lagoon only if such a transect is closer to the river than the outlet, and the breach is at the connected eroded transect closest to the river.", "quantifier": "all states", "why_tests_cant": "Decision logic over all sets of eroded transects and lagoon shapes.", "anchors": ["hapuamod/mor.py:updateMorphology"]}
{"id": "C46", "title": "Overtopping breach in an open lagoon must be closer to the river", "statement": "With an open outlet, overtopping causes a breach only at a location closer to the river than the existing outlet, and a spill on a disconnected part of the lagoon causes no breach and no error.", "quantifier": "all states with an open outlet", "why_tests_cant": "The filter and the error path depend on which candidate sets are empty.", "anchors": ["hapuamod/mor.py:updateMorphology"]}
{"id": "C47", "title": "Overtopping breach happens where the spill is deepest", "statement": "When overtopping breaches the barrier, the breach is at a spilling, connected transect and no other candidate spills more deeply.", "quantifier": "all states", "why_tests_cant": "Argmax over arbitrary candidate lists.", "anchors": ["hapuamod/mor.py:updateMorphology"]}
{"id": "C48", "title": "Checking for overtopping does not change the barrier", "statement": "If no breach occurs, the overtopping check in mor.updateMorphology leaves all crest heights unchanged.", "quantifier": "all states", "why_tests_cant": "In-place aliasing shows only where inner and outer barrier heights differ.", "anchors": ["hapuamod/mor.py:updateMorphology"]}
{"id": "C49", "title": "Breach on a connected channel re-uses the channel", "statement": "A breach at a transect of a channel connected to the lagoon shortens the existing outlet to that transect instead of creating a new lagoon outlet.", "quantifier": "all breach positions on connected channels", "why_tests_cant": "Membership is tested against a mask; the position index decides the outcome.", "anchors": ["hapuamod/mor.py:updateMorphology"]}
{"id": "C50", "title": "A new breach is viable", "statement": "A newly created breach outlet has width at least twice MinOutletWidth at its transect and at its end, starts and ends at the breach transect, has its end bed no higher than MaxOutletElev, and fits between the lagoon edge and the shoreline.", "quantifier": "all states in which a lagoon breach is created", "why_tests_cant": "Post-condition over all geometries.", "anchors": ["hapuamod/mor.py:updateMorphology"]}
{"id": "C51", "title": "There is always a lagoon at the river mouth", "statement": "After mor.updateMorphology returns, the lagoon at the transect in line with the river is at least MinOutletWidth wide, and shoreline, lagoon edge and cliff positions are all defined.", "quantifier": "all states for which it returns", "why_tests_cant": "A post-condition across every path of the function.", "anchors": ["hapuamod/mor.py:updateMorphology"]}
{"id": "C52", "title": "Time-series interpolation is linear interpolation of the neighbouring records", "statement": "core.interpolate_at returns the recorded value at recorded times and the time-linear interpolation of the two neighbouring records otherwise, the result does not depend on the other times requested, and lies between those two records.", "quantifier": "all series with increasing times and all non-empty increasing requests inside the series", "why_tests_cant": "Equality with full-series interpolation for all series and request windows, although the code slices and re-indexes.", "anchors": ["hapuamod/core.py:interpolate_at"]}
{"id": "C53", "title": "Interpolation outside the series is an error", "statement": "core.interpolate_at raises an error, rather than extrapolating, whenever a requested time is before the first or after the last record, or no time is requested.", "quantifier": "all series and increasing requests", "why_tests_cant": "Error branch over all series.", "anchors": ["hapuamod/core.py:interpolate_at"]}
{"id": "C54", "title": "Model time never runs backwards nor past the end", "statement": "During core.main the model time never decreases and never exceeds EndTime, and every record written has a time between StartTime and EndTime.", "quantifier": "all histories of step sizes and outcomes", "why_tests_cant": "An invariant over unbounded histories.", "anchors": ["hapuamod/core.py:main"]}
{"id": "C55", "title": "A run finishes", "statement": "core.main returns normally once the model time reaches EndTime.", "quantifier": "all runs with StartTime <= EndTime", "why_tests_cant": "Depends on the loop condition at the exact end time for every history.", "anchors": ["hapuamod/core.py:main"]}
{"id": "C56", "title": "Output cadence", "statement": "Between the start and any model time core.main has written at most one output record per output interval elapsed (plus the initial one), consecutive record times never decrease, and no scheduled output time is skipped while steps are no longer than the output interval.", "quantifier": "all histories of step sizes and output intervals", "why_tests_cant": "A counting invariant over unbounded histories.", "anchors": ["hapuamod/core.py:main"]}
{"id": "C57", "title": "Hydraulics and morphology cover the same time", "statement": "The time simulated by the hydraulics in each pass of core.main's loop is the time by which morphology is advanced, so hydraulic windows tile the simulation without gap or overlap.", "quantifier": "all histories of adaptive steps", "why_tests_cant": "Differs only when the adaptive step changes.", "anchors": ["hapuamod/core.py:main", "hapuamod/mor.py:updateMorphology"]}
{"id": "C58", "title": "Outlet state transitions", "statement": "During core.main the outlet goes from open to closed only in channel assembly and from closed to open only after a step that reported a breach.", "quantifier": "all histories", "why_tests_cant": "A temporal property over unbounded histories.", "anchors": ["hapuamod/core.py:main", "hapuamod/riv.py:assembleChannel", "hapuamod/mor.py:updateMorphology"]}
{"id": "C59", "title": "Trimming input series does not change the forcing", "statement": "The trimming of input time series in loadmod.loadModel does not change any value that interpolation at a time between StartTime and EndTime + MorDtMax would give, nor whether it succeeds.", "quantifier": "all series accepted by the coverage checks", "why_tests_cant": "Equality of interpolants for all series and windows, in presence of an overwritten mask.", "anchors": ["hapuamod/loadmod.py:loadModel", "hapuamod/core.py:interpolate_at"]}
{"id": "C60", "title": "Wave directions are normalised", "statement": "Wave directions loaded by loadmod.loadModel lie in [-pi, pi) and differ from bearing minus shore-normal direction by a whole number of turns.", "quantifier": "all bearings and shore-normal directions", "why_tests_cant": "A continuum with wrap-around.", "anchors": ["hapuamod/loadmod.py:loadModel"]}
{"id": "C61", "title": "Initial river profile", "statement": "The initial river bed produced by loadmod.loadModel falls by RiverSlope times Dx from each section to the next, ends at the lagoon bed level, and has as many sections as Dx-steps needed to cover UpstreamLength.", "quantifier": "all positive slopes, lengths and spacings", "why_tests_cant": "Array generation with ceilings for all parameters.", "anchors": ["hapuamod/loadmod.py:loadModel"]}
{"id": "C62", "title": "Default straight shoreline is a valid start", "statement": "With the default straight shoreline loadmod.loadModel produces equally spaced transects that cover the requested lengths, exactly one of which is in line with the river, and a geometry on which the first riv.assembleChannel call reports an open outlet when OutletWidth exceeds MinOutletWidth.", "quantifier": "all lengths, spacings, widths and elevations within the configuration limits", "why_tests_cant": "Array generation with floors and ceilings, and cross-module preconditions, for all parameters.", "anchors": ["hapuamod/loadmod.py:loadModel", "hapuamod/riv.py:assembleChannel"]}
{"id": "C63", "title": "Barrier target line", "statement": "The target crest-height line derived by loadmod.loadModel passes through (SpitWidth, BeachTopElev) and (TargetBarWidth, TargetBarHeight).", "quantifier": "all parameters with distinct widths", "why_tests_cant": "An algebraic identity over all parameters; equal widths must be rejected.", "anchors": ["hapuamod/loadmod.py:loadModel"]}
{"id": "C64", "title": "Harmonic tide shape", "statement": "synth.harmonicTide returns regularly spaced times from the start to no later than the end, starting at mean sea level, always within half the tidal range of the mean, and repeating every tidal period.", "quantifier": "all dates, intervals, means and ranges", "why_tests_cant": "Bounds and periodicity over a continuum and any length.", "anchors": ["hapuamod/synth.py:harmonicTide"]}
{"id": "C65", "title": "Harmonic tide satisfies the coverage check", "statement": "A harmonic sea level boundary always covers the simulation, so loadmod.loadModel does not reject it.", "quantifier": "all start and end times and sea level intervals", "why_tests_cant": "Holds or fails according to a divisibility condition.", "anchors": ["hapuamod/synth.py:harmonicTide", "hapuamod/loadmod.py:loadModel"]}
{"id": "C66", "title": "First-order shot noise works with the documented defaults", "statement": "synth.shotNoise called with PropRate1 = 1 and no DecayRate2, the documented first-order default, returns a series.", "quantifier": "all other valid arguments and all random draws", "why_tests_cant": "The claim is about all calls in a documented mode.", "anchors": ["hapuamod/synth.py:shotNoise"]}
{"id": "C67", "title": "Shot noise flows are never negative", "statement": "Every flow value synth.shotNoise computes is non-negative, for any sequence of random draws.", "quantifier": "all valid parameters and all random sequences", "why_tests_cant": "Random sequences of unbounded length.", "anchors": ["hapuamod/synth.py:shotNoise"]}
{"id": "C68", "title": "Written state is read back", "statement": "What out.writeCurrent appended for a time is what out.readTimestep returns for that record (up to storage precision), earlier records are unchanged, and a hot start rebuilds the same geometry, depths and velocities and open/closed state.", "quantifier": "all states and any number of records", "why_tests_cant": "A round trip over every state and file history.", "anchors": ["hapuamod/out.py:writeCurrent", "hapuamod/out.py:readTimestep", "hapuamod/loadmod.py:loadModel"]}
{"id": "C69", "title": "Every declared output variable is written", "statement": "Each per-time variable that out.newOutFile declares is written by out.writeCurrent at every record.", "quantifier": "all declared variables and records", "why_tests_cant": "A finite table, but a reader cannot tell a fill value from a missing write by running once.", "anchors": ["hapuamod/out.py:newOutFile", "hapuamod/out.py:writeCurrent"]}
{"id": "C70", "title": "Closest output time", "statement": "out.closestTimeIx returns a single record index and no other record is closer to the requested time.", "quantifier": "all record times and requests", "why_tests_cant": "Ties only occur at special times.", "anchors": ["hapuamod/out.py:closestTimeIx"]}
{"id": "C71", "title": "Existing output files are protected", "statement": "An existing output file is removed only if overwriting was requested or the user confirmed; otherwise the file is untouched and the call fails.", "quantifier": "all file states, flags and user replies", "why_tests_cant": "All replies.", "anchors": ["hapuamod/out.py:newOutFile", "hapuamod/out.py:newTsOutFile"]}
{"id": "C72", "title": "A morphology step keeps the transects", "statement": "mor.updateMorphology neither adds, removes, reorders nor moves transects: the alongshore positions of the returned shoreline are those of the given one.", "quantifier": "all states for which it returns", "why_tests_cant": "Every path through thirteen repair and breach stages has to be covered.", "anchors": ["hapuamod/mor.py:updateMorphology"]}
{"id": "C73", "title": "Shot noise hydrographs have no missing values", "statement": "The series returned by synth.shotNoise has a value at every one of its times.", "quantifier": "all valid parameters and all random sequences", "why_tests_cant": "Missing values appear only for certain combinations of rising limb, output interval and random gaps.", "anchors": ["hapuamod/synth.py:shotNoise"]}
{"id": "C74", "title": "Shot noise hydrograph satisfies the coverage check", "statement": "A shot noise river flow boundary always covers the simulation, so loadmod.loadModel does not reject it.", "quantifier": "all parameters, start and end times and random sequences", "why_tests_cant": "Holds or fails according to a divisibility condition on dates.", "anchors": ["hapuamod/synth.py:shotNoise", "hapuamod/loadmod.py:loadModel"]}
{"id": "C75", "title": "Cross-shore transport conserves sediment", "statement": "In mor.updateMorphology, cross-shore transport removes from the shoreface of every interior transect exactly the volume it puts on the crest and the back of the barrier, the back being the channel where there is one and the lagoon otherwise; it affects nothing else, and leaves the shoreline of the two end transects alone.", "quantifier": "all states and cross-shore transports", "why_tests_cant": "A mass balance is an identity over all states; tests compare rounded numbers in a few.", "anchors": ["hapuamod/mor.py:updateMorphology"]}
{"id": "C76", "title": "Elongation gives a channel to exactly the transects passed", "statement": "When the seaward end of an open outlet channel has moved past transects, mor.updateMorphology gives exactly those transects a channel (SpitWidth behind the shoreline, outlet end width and bed level, old crest behind it and BeachTopElev in front of it), extends the outlet channel in flow order, and changes nothing else; if no transect was passed nothing is changed.", "quantifier": "all states, both outlet directions, any number of transects passed", "why_tests_cant": "Any number of transects may be passed in one step, in either direction, up to the edge of the domain.", "anchors": ["hapuamod/mor.py:updateMorphology"]}
{"id": "C77", "title": "No seaward truncation of the upstream transect", "statement": "If the sea has reached the channel at the upstream transect of an open outlet, the channel is moved landward so that a barrier of 1 mm is left, preserving the volume of sediment; otherwise nothing happens.", "quantifier": "all states", "why_tests_cant": "Mass balance identity over all geometries.", "anchors": ["hapuamod/mor.py:updateMorphology"]}
{"id": "C78", "title": "No lagoonward truncation of the downstream transect", "statement": "If the channel has reached the lagoon at the downstream transect of an open outlet, it is left with a landward barrier of 0.1 mm; if there is no room for that in front of the cliff, the cliff retreats and supplies exactly the sediment deposited in the channel; otherwise nothing happens.", "quantifier": "all states", "why_tests_cant": "Mass balance identity over all geometries.", "anchors": ["hapuamod/mor.py:updateMorphology"]}
{"id": "C79", "title": "Filling a channel from the shoreface preserves sediment", "statement": "When the sea has reached a channel that is not part of the outlet, mor.updateMorphology removes the channel and preserves the sediment mass balance of the transect.", "quantifier": "all transects", "why_tests_cant": "Holds in the special case tests would pick (equal crests); fails in general.", "anchors": ["hapuamod/mor.py:updateMorphology"]}
{"id": "C80", "title": "Lagoon-end truncation removes every collision", "statement": "After truncation of its lagoon end no transect of the outlet channel but the last meets the lagoon.", "quantifier": "all states, both directions, any number of collisions", "why_tests_cant": "Fails only when several transects collide in the same step.", "anchors": ["hapuamod/mor.py:updateMorphology"]}
{"id": "C81", "title": "Seaward truncation removes every collision", "statement": "After truncation of its seaward end no transect of the outlet channel but the first meets the sea.", "quantifier": "all states, both directions, any number of collisions", "why_tests_cant": "Fails only for one direction and several collisions in the same step.", "anchors": ["hapuamod/mor.py:updateMorphology"]}
{"id": "C82", "title": "Truncation leaves at least one outlet transect", "statement": "Truncation of the outlet channel never removes all its transects (\"have to be careful to leave at least 1 transect in outlet channel\").", "quantifier": "all states, both directions", "why_tests_cant": "Fails only for a combination of truncations from both ends in one direction.", "anchors": ["hapuamod/mor.py:updateMorphology"]}
{"id": "C83", "title": "The river is at model position X = 0", "statement": "With real-world spatial inputs, for every fitted straight baseline and every river location, loadModel puts the model origin on the baseline such that the river inflow has alongshore model coordinate 0.", "quantifier": "all baselines and river locations", "why_tests_cant": "The special case (a coast running exactly east-west) and the trigonometry hold or fail for all real orientations, not sampled ones.", "anchors": ["hapuamod/loadmod.py:loadModel", "hapuamod/geom.py:real2mod"]}
{"id": "C84", "title": "The model's Y axis points out to sea", "statement": "With real-world spatial inputs the baseline has model coordinate Y = 0 and the river inflow is on the landward side of it (Y <= 0), wherever the coast lies in the real-world coordinate system.", "quantifier": "all baselines and river locations", "why_tests_cant": "Depends on the absolute position of the coast in the map projection; a test uses one projection.", "anchors": ["hapuamod/loadmod.py:loadModel", "hapuamod/geom.py:real2mod"]}
{"id": "C85", "title": "Transects of a real-world shoreline", "statement": "With real-world spatial inputs the transects are exactly the multiples of Dx between the ends of the shoreline polyline (so one is in line with the river if the shoreline extends to both sides of it), in increasing order, and each initial shoreline position lies on the polyline, whichever way it was drawn.", "quantifier": "all polylines and spacings", "why_tests_cant": "Floor arithmetic and interpolation over polylines of any length.", "anchors": ["hapuamod/loadmod.py:loadModel"]}
{"id": "C86", "title": "Cliff and lagoon lines on the transects", "statement": "With real-world spatial inputs the cliff position on each transect is the most seaward crossing of the cliff polyline; inside the extent of the lagoon polyline the lagoon edge is the most seaward crossing of that polyline, elsewhere it is on the cliff; a cliff line that does not cross every transect is rejected.", "quantifier": "all polylines", "why_tests_cant": "Polylines of any length and shape, with any number of crossings.", "anchors": ["hapuamod/loadmod.py:loadModel", "hapuamod/geom.py:intersectPolyline"]}
{"id": "C87", "title": "Initial features are in order across the shore", "statement": "When loading real-world spatial inputs succeeds, on every transect the shoreline is seaward of the lagoon edge, which is not landward of the cliff, and the outlet channel lies between shoreline and lagoon edge.", "quantifier": "all inputs accepted by the loader", "why_tests_cant": "Inputs violating the order can be accepted; only all accepted inputs show which.", "anchors": ["hapuamod/loadmod.py:loadModel"]}
{"id": "C88", "title": "Ends and bed profile of the initial outlet channel", "statement": "With real-world spatial inputs the upstream end of the outlet is at its first channel transect in flow direction, the downstream end is half a cell beyond the last, and the bed level varies linearly in flow direction from the lagoon bed at the first transect to the configured outlet bed at the downstream end.", "quantifier": "all inputs accepted by the loader, both outlet directions", "why_tests_cant": "Any number of channel transects, both directions.", "anchors": ["hapuamod/loadmod.py:loadModel"]}
{"id": "C89", "title": "The initial outlet channel has no gaps", "statement": "With real-world spatial inputs every transect between the two ends of the outlet has a channel.", "quantifier": "all inputs accepted by the loader", "why_tests_cant": "Gaps arise from particular shapes of the barrier.", "anchors": ["hapuamod/loadmod.py:loadModel", "hapuamod/riv.py:assembleChannel"]}
{"id": "C90", "title": "A straight outlet is where it was drawn", "statement": "If the outlet polyline lies between two transects, the loader puts the outlet channel on a transect next to it.", "quantifier": "all inputs accepted by the loader", "why_tests_cant": "The wrong coordinate may give the right transect by coincidence.", "anchors": ["hapuamod/loadmod.py:loadModel"]}
{"id": "C91", "title": "Array sizes are fixed for the whole simulation", "statement": "Throughout a simulation the transects stay where they are, the number of river sections stays the same, and every array of every output record has the size of the dimension it is written along, so every record can be written to the output file and read back.", "quantifier": "all runs of any length, all loaders including a hot start, any forcing", "why_tests_cant": "Arrays are rebuilt in every time step from a channel of varying length; a mismatch can appear after any number of steps.", "anchors": ["hapuamod/core.py:main", "hapuamod/out.py:writeCurrent"]}
{"id": "C92", "title": "Output options do not influence the simulation", "statement": "The intervals of output, time series, logging and plotting do not change the simulated states, the steps, or whether the simulation fails.", "quantifier": "all runs, all pairs of output options", "why_tests_cant": "A relation between pairs of runs of any length.", "anchors": ["hapuamod/core.py:main"]}
{"id": "C93", "title": "A longer simulation starts with the shorter one", "statement": "With a later EndTime and the same other settings the simulation goes through the same states up to the original EndTime, and the other way round.", "quantifier": "all runs, all pairs of end times", "why_tests_cant": "A relation between pairs of runs of any length.", "anchors": ["hapuamod/core.py:main"]}
{"id": "C94", "title": "A step changes the coast by what happens in that step", "statement": "The morphological change applied in a time step is that of the time by which the model clock advances.", "quantifier": "all passes of the time loop", "why_tests_cant": "Fails only in the last step of a simulation, and looks plausible there.", "anchors": ["hapuamod/core.py:main"]}
{"id": "C95", "title": "The future does not influence the past", "statement": "River flow, sea level and waves after a given time do not influence the simulation before: if two sets of boundary conditions agree up to a time (in data points at or before it and the next one), the steps that end by that time are the same.", "quantifier": "all runs, all pairs of boundary conditions", "why_tests_cant": "A relation between pairs of runs; linear interpolation looks ahead by one data point.", "anchors": ["hapuamod/core.py:main", "hapuamod/core.py:interpolate_at"]}
{"id": "C96", "title": "Every record holds the state at its time", "statement": "Every output record holds the model state (transects, outlet ends, river bed, hydraulics, and whether the outlet is closed) at the time it is labelled with.", "quantifier": "all records of all runs", "why_tests_cant": "Fails only in the step in which a closed lagoon breaches.", "anchors": ["hapuamod/core.py:main"]}
{"id": "C97", "title": "A hot start continues the simulation", "statement": "A simulation hot-started from a record goes on as the simulation that wrote the record did.", "quantifier": "all runs, all records, all boundary conditions", "why_tests_cant": "A relation between pairs of runs; differences are small and only appear if forcing varies.", "anchors": ["hapuamod/core.py:main", "hapuamod/loadmod.py:loadModel"]}
{"id": "C98", "title": "Trimmed ends lie on the trim lines", "statement": "When geom.trimLine returns and the new end coordinates are numbers, the first node lies on the start trim line and on the straight line through the first two original nodes, the last node lies on the end trim line and on the straight line through the last two original nodes, and all other nodes are unchanged.", "quantifier": "all lines and trim lines of any number of points", "why_tests_cant": "The search for the segment may visit any number of segments and wrap to negative indices.", "anchors": ["hapuamod/geom.py:trimLine"]}
{"id": "C99", "title": "Trimming a line terminates", "statement": "geom.trimLine terminates for every line with increasing Y and trim lines with increasing X whose extent contains the ends of the line.", "quantifier": "all lines and trim lines of any number of points", "why_tests_cant": "Non-termination can not be observed by a test, and occurs only for particular slopes.", "anchors": ["hapuamod/geom.py:trimLine"]}
{"id": "C100", "title": "Live plotting never aborts a simulation", "statement": "If a simulation can be started, it can be started with live plots as well: drawing the first map view and updating it after any step does not fail.", "quantifier": "all simulations, all steps", "why_tests_cant": "Plots are not covered by tests, and failure depends on the state of the outlet at the start.", "anchors": ["hapuamod/core.py:main", "hapuamod/visualise.py:updateModelView", "hapuamod/visualise.py:modelView"]}
{"id": "C101", "title": "The lines of the map view fit together", "statement": "Every line and polygon of the map view has as many X as Y coordinates; with an open outlet each bank starts at the end of the lagoon line on its side and ends at the end of the shoreline on its side.", "quantifier": "all states", "why_tests_cant": "Pictures are inspected by eye, for few states.", "anchors": ["hapuamod/visualise.py:updateModelView"]}
{"id": "C102", "title": "The banks in the map view follow the outlet channel", "statement": "On every transect crossed by the outlet between the ends of a bank, the bank is drawn at the edge of the channel on its side.", "quantifier": "all states with an open outlet", "why_tests_cant": "A wrong vertex among many is easily overlooked.", "anchors": ["hapuamod/visualise.py:updateModelView"]}
{"id": "C103", "title": "The cliff area in the map view lies landward of the cliff", "statement": "Every vertex of the hatched cliff area lies on the cliff line or far landward of it.", "quantifier": "all states", "why_tests_cant": "The wrong vertex is outside the usual field of view.", "anchors": ["hapuamod/visualise.py:updateModelView"]}
{"id": "C104", "title": "The map view shows the river mouth where it is", "statement": "With an open outlet, the transects strictly inside the mouth are drawn as dots and all others are on the shoreline, which has no vertex strictly inside the mouth; with a closed outlet the shoreline and the lagoon line pass through all transects.", "quantifier": "all states", "why_tests_cant": "Depends on the position of the mouth relative to the transects.", "anchors": ["hapuamod/visualise.py:updateModelView"]}
{"id": "C105", "title": "The transect figure shows the requested transect", "statement": "newTransectFig refuses positions outside the model and otherwise shows a transect none is closer than; the figure shows its shoreline, outlet channel, lagoon and cliff at their levels and water at the sea, outlet and lagoon level in the respective places; both lines can be drawn and both filled areas are closed.", "quantifier": "all states and positions", "why_tests_cant": "Pictures are inspected by eye for a few states.", "anchors": ["hapuamod/visualise.py:newTransectFig", "hapuamod/visualise.py:updateTransectFig"]}
{"id": "C106", "title": "The ground line of the transect figure never turns back", "statement": "For a transect whose edges are in order across the shore, the ground line drawn by updateTransectFig runs from the sea to the land without turning back.", "quantifier": "all transects with edges in order", "why_tests_cant": "Fails only for coasts wider than the built-in limits of the figure.", "anchors": ["hapuamod/visualise.py:updateTransectFig"]}
{"id": "C107", "title": "The long section shows the channel", "statement": "Every line of the long section is drawn at the accumulated distances of the sections (energy half way between them); the water line is bed plus depth, the flow line width times depth times velocity, the energy line is nowhere below the mean water level and touches it exactly at rest, and the Froude number is below 1 exactly for subcritical flow; with numbers everywhere the section of every pass of a run can be drawn.", "quantifier": "all channels of any number of sections, all passes of all runs", "why_tests_cant": "Identities over channels of any length.", "anchors": ["hapuamod/visualise.py:longSection", "hapuamod/visualise.py:updateLongSection"]}
{"id": "C108", "title": "The axes of the long section cover its lines", "statement": "The flow axis and the bedload axis of the long section cover all values drawn on them.", "quantifier": "all channels", "why_tests_cant": "Fails only for bedload directed upstream.", "anchors": ["hapuamod/visualise.py:longSection"]}
{"id": "C109", "title": "An animation shows the requested records", "statement": "An animation from record s to record e with resampling r shows the records s, s+r, ... up to and including e.", "quantifier": "all file sizes and ranges", "why_tests_cant": "An off-by-one error at the end of a range.", "anchors": ["hapuamod/animate.py:main"]}
{"id": "C110", "title": "Every readable output file can be animated", "statement": "For every output file all records of which can be read, the map view animation from any existing record with any positive resampling can be made.", "quantifier": "all files", "why_tests_cant": "Fails only for files starting with a closed outlet.", "anchors": ["hapuamod/animate.py:main", "hapuamod/animate.py:animateMap"]}
{"id": "C111", "title": "The long section of a record shows the recorded channel", "statement": "The channel drawn by the long section animation for a record is the channel with which a run hot-started from that record begins: same sections, same depths and velocities.", "quantifier": "all files, records and parameters", "why_tests_cant": "Relates two parts of the program over all states; the difference is in one section.", "anchors": ["hapuamod/animate.py:animateLongSec", "hapuamod/loadmod.py:loadModel", "hapuamod/riv.py:assembleChannel"]}
{"id": "C112", "title": "Back-calculation to deep water conserves wave energy", "statement": "The offshore significant wave height computed from SWAN output is that of the deep water wave from which the wave at the output point comes according to linear theory: dispersion relation, Snell's law, and the energy passing a unit length of shore is conserved.", "quantifier": "all onshore waves, wave lengths and depths", "why_tests_cant": "An identity over transcendental functions; a wrong factor between 1 and 2 looks plausible in any single number.", "anchors": ["preprocessing/WaveDataFromSwanOutput.py"]}
{"id": "C113", "title": "The offshore wave height is a number", "statement": "For every record with positive wave length and depth and non-negative height, the offshore significant wave height is a non-negative number; it is 0 for waves directed offshore.", "quantifier": "all records", "why_tests_cant": "Fails only for very oblique waves in shallow water.", "anchors": ["preprocessing/WaveDataFromSwanOutput.py"]}
{"id": "C114", "title": "Wave power and its direction give back the energy transport", "statement": "The wave power computed from SWAN output is not negative, its direction is in [0, 360) degrees, and together they represent the energy transport vector, direction being where waves come from.", "quantifier": "all records, including zero transport", "why_tests_cant": "All quadrants and the reduction modulo 360 degrees.", "anchors": ["preprocessing/WaveDataFromSwanOutput.py"]}
{"id": "C115", "title": "SWAN records keep their time", "statement": "Every record is labelled with its time in the wave model output.", "quantifier": "all records", "why_tests_cant": "Hourly test data does not show it.", "anchors": ["preprocessing/WaveDataFromSwanOutput.py"]}
{"id": "C116", "title": "The origin of the Y axis does not matter", "statement": "If all cross-shore positions of the initial condition are increased by the same distance, a simulation takes the same steps, raises the same exceptions and gives the same results, with all cross-shore positions in states and records increased by that distance.", "quantifier": "all initial conditions, parameters, forcing and numbers of steps, all distances", "why_tests_cant": "A relation between two simulations of any length; one absolute position compared with 0 anywhere would break it.", "anchors": ["hapuamod/core.py:main", "hapuamod/mor.py:updateMorphology", "hapuamod/riv.py:assembleChannel", "hapuamod/coast.py"]}
{"id": "C117", "title": "The calendar does not matter", "statement": "If start, end and all forcing are moved by the same time, a simulation takes the same steps, raises the same exceptions and gives the same results at times moved by that time.", "quantifier": "all initial conditions, parameters, forcing and numbers of steps, all time differences", "why_tests_cant": "A relation between two simulations of any length.", "anchors": ["hapuamod/core.py:main", "hapuamod/core.py:interpolate_at"]}
{"id": "C118", "title": "A coast at rest stays as it is", "statement": "From a coast with nothing to repair (edges in order across the shore on every transect, beds below banks, outer barrier not lower than the inner one, outlet end inside the domain), a simulation in which no sediment moves and the water in lagoon and outlet is never above the lowest barrier crest leaves all transects, the river bed and the outlet exactly as they are in every step and every record, and makes no breach; only a closed lagoon may lose the reference to the channel it once had.", "quantifier": "all initial conditions meeting the stated conditions, all parameters with positive widths and spacing and no imposed shoreline retreat, any number of steps", "why_tests_cant": "Says that none of some twenty repairs and breach rules acts without cause; tests with zero forcing cover single states.", "anchors": ["hapuamod/core.py:main", "hapuamod/mor.py:updateMorphology"]}
{"id": "C119", "title": "Steady flow stays steady", "statement": "If the given depths and velocities satisfy the steady Saint-Venant equations with seepage for the given inflow and sea level (constant in time, outlet open), the unsteady solver leaves them exactly as they are for any number of timesteps.", "quantifier": "all channels, parameters and directions of flow, every linear solver that is right", "why_tests_cant": "An exact statement about a fixed point for channels of any length; tests see a drift only if it is large.", "anchors": ["hapuamod/riv.py:solveFullPreissmann"]}
{"id": "C120", "title": "Uniform flow is found and kept", "statement": "In a channel of constant width whose bed falls by the friction slope of a flow that is not supercritical, with the sea at that depth, the steady solver returns that depth and velocity at every section, and the unsteady solver keeps them for any number of timesteps if nothing seeps through the barrier.", "quantifier": "all numbers of sections, widths, depths, velocities and roughnesses", "why_tests_cant": "Exact for channels of any length.", "anchors": ["hapuamod/riv.py:solveFullPreissmann", "hapuamod/riv.py:solveSteady"]}
{"id": "C121", "title": "Features stay in order across the shore", "statement": "If on every transect cliff, lagoon edge, channel banks (where there is a channel) and shoreline are in this order from land to sea before a completed morphology step, they are after it.", "quantifier": "all states and forcing", "why_tests_cant": "A geometric invariant of all rates, repairs and breach rules together; tests see the coasts they start from.", "anchors": ["hapuamod/mor.py:updateMorphology"]}
{"id": "C122", "title": "A completed step can be followed by another one", "statement": "After a completed morphology step from features in order across the shore, every transect has a barrier of positive width, as the next step requires (mor.py 63).", "quantifier": "all states and forcing", "why_tests_cant": "An invariant between steps: the step that breaks it completes normally and the failure appears in the next one.", "anchors": ["hapuamod/mor.py:updateMorphology"]}
{"id": "C123", "title": "A validated configuration states numbers in their ranges", "statement": "In a configuration that passes the validation in loadModel every key without a default is present, and every number lies in its physical range: quantities that cannot be negative are not, ratios are between their bounds.", "quantifier": "all configuration files", "why_tests_cant": "Whatever the file contains; a check that compares the wrong way round lets odd values through that no test tries.", "anchors": ["hapuamod/configspec.cnf", "hapuamod/loadmod.py:loadModel"]}
{"id": "C124", "title": "A validated configuration can be prepared", "statement": "Every configuration that passes the validation, with readable dates and everything that its options need, is prepared without an exception.", "quantifier": "all configuration files", "why_tests_cant": "Fails only at single values at the border of the permitted ranges.", "anchors": ["hapuamod/configspec.cnf", "hapuamod/loadmod.py:loadModel"]}
{"id": "C125", "title": "A missing input is reported", "statement": "A configuration that lacks an input that its chosen options need (hot start, straight or surveyed shoreline, synthetic flow, synthetic tide) is refused with a ConfigError or an assertion that names the input.", "quantifier": "all configuration files and combinations of options", "why_tests_cant": "Needs every combination of options and missing keys.", "anchors": ["hapuamod/configspec.cnf", "hapuamod/loadmod.py:loadModel"]}
{"id": "C126", "title": "A validated configuration lets a run begin", "statement": "With the times of any prepared configuration and data for the whole period, the first pass of the main loop has times to compute the hydraulics for.", "quantifier": "all configuration files", "why_tests_cant": "Depends on the ratio of two timesteps that tests keep fixed.", "anchors": ["hapuamod/configspec.cnf", "hapuamod/loadmod.py:loadModel", "hapuamod/core.py:main"]}
{"id": "C127", "title": "The prepared model is the one that the configuration describes", "statement": "In every prepared model the period, the timesteps and intervals, the derived coefficients, the choice of initial state and of boundary conditions, and the straight shoreline are those the configuration states under the respective keys, in its units.", "quantifier": "all configuration files that can be prepared", "why_tests_cant": "A swapped key or unit gives a plausible model; tests run on the files they were written for.", "anchors": ["hapuamod/loadmod.py:loadModel", "hapuamod/configspec.cnf"]}
{"id": "C128", "title": "The forcing in a record is that of its time", "statement": "River flow, sea level and waves in every record of the output file and of the time series file are those of the boundary conditions at the time of the record.", "quantifier": "all records of all runs", "why_tests_cant": "The difference is one timestep, which no plot shows.", "anchors": ["hapuamod/core.py:main", "hapuamod/out.py:writeCurrent", "hapuamod/out.py:writeTsOut"]}
{"id": "C129", "title": "The real-world map shows the model in its place", "statement": "The map in real-world coordinates shows shoreline, bank, lagoon edge and cliff of every transect at their places, the river meeting the cliff in line with the origin, and arrows from the origin along the shore and out to sea.", "quantifier": "all states, origins and orientations", "why_tests_cant": "Pictures are inspected by eye for one coast.", "anchors": ["hapuamod/visualise.py:mapView", "hapuamod/geom.py:mod2real"]}
{"id": "C130", "title": "The real-world map can be drawn for every model", "statement": "For every loaded model the map in real-world coordinates can be drawn.", "quantifier": "all models", "why_tests_cant": "Fails only for models that begin at the river.", "anchors": ["hapuamod/visualise.py:mapView"]}
{"id": "C131", "title": "The river comes from inland", "statement": "The line of the river in the real-world map starts landward of all cliffs.", "quantifier": "all states", "why_tests_cant": "Holds wherever the baseline is seaward of the cliffs, as in the test data.", "anchors": ["hapuamod/visualise.py:mapView"]}
{"id": "C132", "title": "The ends of the lagoon are drawn where the lagoon ends", "statement": "The two lines from lagoon edge to cliff in the real-world map are at the ends of the lagoon.", "quantifier": "all states", "why_tests_cant": "A line of length zero is not visible.", "anchors": ["hapuamod/visualise.py:mapView"]}
{"id": "C133", "title": "The live figure agrees with the time series file", "statement": "The live figure of boundary conditions shows the same inflow, outflow and sea level as the time series file where both have a value for the same time, in order of time, and its time axis covers all of them.", "quantifier": "all runs", "why_tests_cant": "Fails only for the first point of runs started from a record.", "anchors": ["hapuamod/core.py:main", "hapuamod/visualise.py:bdyCndFig", "hapuamod/visualise.py:updateBdyCndFig"]}
{"id": "C134", "title": "The vertical datum does not matter", "statement": "If all levels (bed, crest and water levels of the initial condition, levels among the parameters, sea level) are increased by the same amount, a simulation takes the same steps, raises the same exceptions and gives the same results, with all levels in states and records increased by that amount.", "quantifier": "all initial conditions, parameters, forcing and numbers of steps, all amounts", "why_tests_cant": "A relation between two simulations of any length; one level treated as a depth, or one average whose weights do not add up to 1, breaks it.", "anchors": ["hapuamod/core.py:main", "hapuamod/mor.py:updateMorphology", "hapuamod/riv.py:assembleChannel", "hapuamod/riv.py:solveFullPreissmann", "hapuamod/riv.py:solveSteady", "hapuamod/coast.py:overtopping"]}
{"id": "C135", "title": "The simulation starts when the configuration says", "statement": "A loaded model starts at StartTime, or, if it continues an earlier run, at the record of that run closest to HotStartTime, with the state of that record; it ends at EndTime.", "quantifier": "all configurations that load, all files of earlier runs", "why_tests_cant": "Depends on three options together and on times between records.", "anchors": ["hapuamod/loadmod.py:loadModel", "hapuamod/out.py:closestTimeIx", "hapuamod/out.py:readTimestep"]}
{"id": "C136", "title": "A continued simulation has the same forcing", "statement": "A simulation continued from a record of an earlier one, with a configuration that differs only in the section HotStart, sees the same river flow, sea level and waves as the earlier one at every time both cover.", "quantifier": "all configurations, series and records", "why_tests_cant": "Synthetic series are generated again at each start; tests compare one pair at most.", "anchors": ["hapuamod/loadmod.py:loadModel", "hapuamod/synth.py:shotNoise", "hapuamod/synth.py:harmonicTide"]}
{"id": "C137", "title": "A loaded model is forced throughout", "statement": "In every model that loads, river flow, sea level and waves are defined at every time from the start to the end of the simulation, between those of the neighbouring records.", "quantifier": "all configurations and series", "why_tests_cant": "Fails at the ends of the period or for odd series only.", "anchors": ["hapuamod/loadmod.py:loadModel", "hapuamod/core.py:interpolate_at"]}
{"id": "C138", "title": "Both output files exist", "statement": "When the main loop of a loaded model begins, the output file holds the initial state and the time series file its first record, and no other file has changed.", "quantifier": "all configurations and contents of the disk", "why_tests_cant": "Depends on names in the configuration and on files left by earlier runs.", "anchors": ["hapuamod/loadmod.py:loadModel", "hapuamod/core.py:main", "hapuamod/out.py:newOutFile", "hapuamod/out.py:newTsOutFile"]}
{"id": "C139", "title": "A loaded straight coast starts", "statement": "Every model with a straight shoreline that loads, with an outlet wider than the smallest outlet width, reaches the main loop with an open outlet.", "quantifier": "all configurations", "why_tests_cant": "Fails for a narrow band of river widths.", "anchors": ["hapuamod/loadmod.py:loadModel", "hapuamod/core.py:main", "hapuamod/riv.py:assembleChannel"]}
{"id": "C140", "title": "Accepted parameters move sediment with the waves", "statement": "In every model that loads, longshore transport is directed with the waves: to the right if they come from the left, and the other way round.", "quantifier": "all configurations", "why_tests_cant": "The sign depends on the densities, which tests leave at their defaults.", "anchors": ["hapuamod/loadmod.py:loadModel", "hapuamod/configspec.cnf", "hapuamod/coast.py:longShoreTransport"]}
{"id": "C141", "title": "Left and right are alike", "statement": "If the coast and the direction of the waves are replaced by their mirror images (left and right of the river exchanged), every step gives the mirror image: same levels, depths, velocities, flows and timestep, the channel through the mirrored transects, longshore transport reversed.", "quantifier": "all states, parameters and forcing", "why_tests_cant": "A relation between two simulations; the code has separate branches for the two sides in more than a dozen places, and test data have the outlet on one side.", "anchors": ["hapuamod/core.py:main", "hapuamod/mor.py:updateMorphology", "hapuamod/riv.py:assembleChannel", "hapuamod/riv.py:storeHydraulics", "hapuamod/coast.py:longShoreTransport"]}
{"id": "C142", "title": "The cliff only retreats", "statement": "On every transect the cliff behind the lagoon is after a morphological step where it was before or farther inland.", "quantifier": "all states and parameters, all completed steps", "why_tests_cant": "Bank erosion, three repairs and the breach all move it; the sign of each movement depends on levels that test data keep in the usual order.", "anchors": ["hapuamod/mor.py:updateMorphology"]}
{"id": "C143", "title": "The corrections of the unsteady solver exist and are unique", "statement": "In every iteration of the unsteady solver the linear system for the corrections of depths and velocities has exactly one solution.", "quantifier": "all channels of any number of sections, all states the iteration can reach, outlet open or closed", "why_tests_cant": "Whether a matrix of any size is singular for some state is not visible in runs that converge; a singular one ends a simulation.", "anchors": ["hapuamod/riv.py:solveFullPreissmann"]}
{"id": "C144", "title": "The ends of the coast retreat at the configured rate", "statement": "At the first and the last transect the shoreline is, at every time of a simulation, where it was at the start less ShorelineErosionRate times the time simulated.", "quantifier": "all runs, parameters and forcing", "why_tests_cant": "A drift of millimetres per step; the parameter is zero by default.", "anchors": ["hapuamod/mor.py:updateMorphology", "hapuamod/core.py:main"]}
{"id": "C145", "title": "The barrier is never lower than the beach top or its lowest crest", "statement": "After every morphological step, and so throughout a simulation, every barrier crest is at least as high as BeachTopElev or as the lowest crest (outer or inner) before it, whichever is lower.", "quantifier": "all states, parameters and completed steps, all runs", "why_tests_cant": "Six repairs set crest levels, some by dividing volumes by widths that are positive in ordinary cases only.", "anchors": ["hapuamod/mor.py:updateMorphology", "hapuamod/core.py:main", "hapuamod/coast.py:overtopping"]}
{"id": "C146", "title": "A beach gains what it is given", "statement": "Over a whole morphological step, including all repairs and breaches, the volume of the beach at a transect away from the outlet (shoreline position times shoreface height times spacing) changes by its share of the delta, plus longshore transport in, less longshore transport out, less what waves carry over the barrier; transport across the end of the outlet is lost to the outlet. In total the beach of a closed lagoon gains what crosses its first segment less what crosses its last less all overwash.", "quantifier": "all states, parameters and completed steps", "why_tests_cant": "A balance over steps in which eleven repairs may act; small errors of sediment volume are not visible in any single run.", "anchors": ["hapuamod/mor.py:updateMorphology"]}
{"id": "C147", "title": "The river bed gains what the bedload loses", "statement": "In every completed morphological step the bed of each river section but the first rises by the bedload coming in less the bedload going out, spread over RiverWidth times Dx, times the seconds of the step, but by no more than MaxMorChange up or down; nothing else moves it (no repair, no breach), and the first section never moves. Where the limit is not reached, the volume of the whole river bed has at any time of a simulation grown by all the bedload that has entered at the top less all that has left for the lagoon.", "quantifier": "all states, parameters and completed steps with finite forcing and nothing divided by zero; all runs of such steps; any number of river sections", "why_tests_cant": "A balance summed over all steps of all runs; errors of one section per step are far below what plots show.", "anchors": ["hapuamod/mor.py:updateMorphology", "hapuamod/core.py:main"]}
{"id": "C148", "title": "A channel appears only where the outlet reaches or breaks out", "statement": "In a completed morphological step a transect without an outlet channel gets one only in a breach, both ends of the outlet then being at that transect, or, if the outlet is open, because the end of the outlet, having moved by no more than MaxMorChange, passes it on its way from the last transect of the outlet channel.", "quantifier": "all states, parameters and completed steps", "why_tests_cant": "Seven repairs and the breach write channel positions, most of them by index ranges; a channel at a transect nobody looks at shows much later.", "anchors": ["hapuamod/mor.py:updateMorphology"]}
{"id": "C149", "title": "A relic channel of a closed lagoon stays", "statement": "In a completed morphological step of a closed lagoon a channel whose width and distances to lagoon and sea are more than twice MaxMorChange is still there afterwards, its banks and bed moved by no more than MaxMorChange, its inner crest as high as before, unless the barrier is breached at that very transect.", "quantifier": "all states of a closed lagoon, regular arguments, all completed steps", "why_tests_cant": "Truncation, closure, merging and breach all delete channels; that none of them reaches a channel away from the outlet is a statement about every index range.", "anchors": ["hapuamod/mor.py:updateMorphology"]}
{"id": "C150", "title": "The unsteady solver keeps the water balance", "statement": "In every timestep of the unsteady solver that converges, with every linear system solved and no depth or velocity reset to its lower limit, the water stored in channel and lagoon changes by inflow less outflow less seepage, weighted by Theta between the end and the start of the timestep; the flow through the first section is the river flow to within its width times Tol squared, the flow through the last is the outflow to the same accuracy and zero for a closed outlet; an open outlet ends at sea level. So a closed lagoon that does not leak gains over a call what the river brings.", "quantifier": "all channels of two or more sections of any shape, all states, boundary conditions and numbers of timesteps", "why_tests_cant": "The balance holds for the sum over all sections after any number of Newton iterations; one wrong coefficient still converges, to a slightly wrong volume.", "anchors": ["hapuamod/riv.py:solveFullPreissmann"]}
{"id": "C151", "title": "The barrier gains what the waves carry over it", "statement": "Over a whole morphological step, including all repairs and breaches, a barrier without a channel, away from the outlet, that is not breached in the step and whose width is more than twice MaxMorChange stays without a channel; its crest rises by what the waves leave on it (the part 1 - OverwashProp of CST) over its width; where the river does not flow behind it, its back moves landward by the rest over its height, and lagoon bed and cliff stay. So the barrier gains what the waves carry over it, beach and barrier of a closed lagoon together gain what longshore transport brings, and a barrier no wave gets over keeps its height.", "quantifier": "all states with regular arguments and all completed steps in which crest and back move by no more than MaxMorChange", "why_tests_cant": "That none of eleven repairs, none of three ways of merging and no limiter touches such a barrier is a statement about all states; a crest that sinks by millimetres a step is not visible in a test.", "anchors": ["hapuamod/mor.py:updateMorphology"]}
{"id": "C152", "title": "A closed coast neither makes nor loses sediment", "statement": "In every completed morphological step of a closed lagoon without channels, without a breach and without anything moving by as much as MaxMorChange, beach, crest, back of the barrier, cliff and lagoon bed of every transect but the two at the ends together gain what longshore transport and bedload bring there less what they take; the river and all these transects together gain the bedload that enters at the top of the river and what longshore transport brings across the first segment of the coast less what it takes across the last. Volumes are counted over the faces the features have before the step.", "quantifier": "all states with regular arguments and wide barriers, any numbers of transects and sections, all parameters", "why_tests_cant": "A balance over river, lagoon, barrier and beach in one, after all repairs; each of a dozen formulas for rates enters with a width or height of its own.", "anchors": ["hapuamod/mor.py:updateMorphology"]}
{"id": "C153", "title": "Redundant records do not matter", "statement": "Adding records to the series of flow, sea level and waves, each on the straight line between its neighbours, changes no answer of core.interpolate_at and no error it raises, for any request in order of time, and so changes nothing in any simulation by core.main.", "quantifier": "all series of numbers in order of time, any number of added records anywhere, all requests, all simulations with HydDt > 0", "why_tests_cant": "Which records interpolation selects depends on where they fall relative to the window of each pass; a slip shows only for particular spacings.", "anchors": ["hapuamod/core.py:interpolate_at", "hapuamod/core.py:main"]}
{"id": "C154", "title": "Waves turn the shorter way between two records", "statement": "Between two consecutive records of the wave file the wave direction used by core.main turns steadily the shorter way from the one direction to the other.", "quantifier": "all bearings, shore-normal directions and times between two records", "why_tests_cant": "A continuum of pairs of bearings; the wrong ones are those on both sides of the direction straight out to sea, which no test data contain.", "anchors": ["hapuamod/loadmod.py:loadModel", "hapuamod/core.py:interpolate_at"]}
{"id": "C155", "title": "The spit and its outlet channel gain what they are given", "statement": "In every completed morphological step of an open lagoon without a breach at the transect, with everything further apart than twice MaxMorChange and nothing moving by as much, the channel behind the spit (bed and both banks) gains the bedload coming in less the bedload going out plus what waves carry over the spit; and the whole strip of a transect of the outlet, from the shoreface to the cliff, gains its share of the delta, longshore transport and bedload in less longshore transport and bedload out.", "quantifier": "all states with regular arguments and wide spits, outlets of any length, all parameters", "why_tests_cant": "A balance over seven moving features of a transect after all repairs; an amount created at one transect in one step is far below what plots show.", "anchors": ["hapuamod/mor.py:updateMorphology"]}
{"id": "C156", "title": "An open coast neither makes nor loses sediment", "statement": "In every completed morphological step of an open lagoon, without a breach and without anything moving by as much as MaxMorChange, the river, all transects but the two at the ends of the coast (beach, barrier or spit, outlet channel, lagoon, cliff) and the end of the outlet (its bed and its bank) together gain the bedload that enters at the top of the river and what longshore transport brings across the first segment of the coast less what it takes across the last. Volumes are counted over the faces the features have before the step.", "quantifier": "all states with regular arguments, wide barriers and spits, outlets of any length, any numbers of transects and sections, all parameters", "why_tests_cant": "What the beach loses at the end of the outlet has to turn up at the bank, what the outlet discharges in the delta; a balance over seven kinds of volume after all repairs.", "anchors": ["hapuamod/mor.py:updateMorphology"]}
{"id": "C157", "title": "Where the coast is on the map does not matter", "statement": "If shoreline, cliff, lagoon, outlet and river of the map are all moved by the same vector, loadModel gives the same model, with an origin moved by that vector, and raises the same errors.", "quantifier": "all maps and vectors", "why_tests_cant": "A relation between two loads; test data have one map in one place.", "anchors": ["hapuamod/loadmod.py:loadModel", "hapuamod/geom.py:real2mod"]}
{"id": "C158", "title": "The direction in which the lines are drawn does not matter", "statement": "Drawing shoreline, cliff, lagoon or outlet of the map from the other end gives the same model or the same error.", "quantifier": "all maps", "why_tests_cant": "Depends on code that turns lines round after looking at their ends; wrong only for particular lines.", "anchors": ["hapuamod/loadmod.py:loadModel", "hapuamod/geom.py:intersectPolyline"]}
{"id": "C159", "title": "Points added on the drawn lines do not matter", "statement": "Adding points to the lines of the map, each on the straight piece between two neighbours, gives the same model or the same error.", "quantifier": "all maps, any number of added points anywhere on the lines", "why_tests_cant": "A point may fall exactly on a transect, where crossings could be counted twice or not at all.", "anchors": ["hapuamod/loadmod.py:loadModel", "hapuamod/geom.py:intersectPolyline"]}
{"id": "C160", "title": "A higher sea never lowers the river", "statement": "With the same channel and flow, solveSteady gives for a higher sea level a level at every section that is not lower, to within the tolerance.", "quantifier": "all channels, flows and pairs of sea levels", "why_tests_cant": "A relation between two solutions; the one counterexample in thousands is taken for numerical noise.", "anchors": ["hapuamod/riv.py:solveSteady"]}
{"id": "C161", "title": "The steady solution is the steady flow", "statement": "Where the flow is tranquil (subcritical, with little friction between two sections), the energy level solveSteady finds at a section differs from that of the exact steady flow with the same level at the sea by at most ErrTol for each reach in between, and the water level by as much divided by one less Beta times the Froude number squared.", "quantifier": "all channels of any number of sections, all tranquil flows", "why_tests_cant": "The exact solution is not known for any channel but the uniform one; errors could grow from section to section.", "anchors": ["hapuamod/riv.py:solveSteady"]}
{"id": "C162", "title": "A default may be stated", "statement": "Adding to a configuration a key that it leaves out, with the default of that key as its value, gives the same model or the same error.", "quantifier": "all configurations and all keys with a default", "why_tests_cant": "There are some sixty keys with defaults and each could be left out of any configuration.", "anchors": ["hapuamod/loadmod.py:loadModel", "hapuamod/configspec.cnf"]}
{"id": "C163", "title": "A misspelt key is reported", "statement": "If a key of a configuration is misspelt, loadModel raises an exception.", "quantifier": "all configurations, all keys, all misspellings", "why_tests_cant": "Test configurations are spelt correctly.", "anchors": ["hapuamod/loadmod.py:loadModel", "hapuamod/configspec.cnf"]}
{"id": "C164", "title": "Without river flow the water stands at sea level", "statement": "With no inflow solveSteady returns, at every section, the depth of still water at sea level (none on ground above it) and no velocity.", "quantifier": "all channels of any number of sections, all sea levels", "why_tests_cant": "The river in test data always flows, and the divisions 0/0 that matter need a dry section.", "anchors": ["hapuamod/riv.py:solveSteady"]}
{"id": "C165", "title": "More flow never moves less sediment", "statement": "If at every section the water is not slower and, running the same way, not deeper, then calcBedload gives no less bedload downstream in any reach.", "quantifier": "all channels, all pairs of flows in either direction", "why_tests_cant": "A relation between two flows over a formula with a threshold, a power and a sign.", "anchors": ["hapuamod/riv.py:calcBedload"]}
{"id": "C166", "title": "A coarser bed is not moved more", "statement": "With a larger GrainSize and everything else the same, calcBedload gives no more bedload in any reach.", "quantifier": "all channels with flow one way, all parameters the configuration accepts", "why_tests_cant": "Grain size enters the formula twice, in opposite ways; tests use one grain size.", "anchors": ["hapuamod/riv.py:calcBedload", "hapuamod/configspec.cnf"]}
{"id": "C167", "title": "A system that cannot be solved does not end the unsteady solver", "statement": "If the linear system of an iteration of solveFullPreissmann is singular, the solver carries on, and the call returns or ends in the error of the steady solver it falls back on.", "quantifier": "all channels of two or more sections, all boundary conditions, all solvers of linear systems that raise LinAlgError only", "why_tests_cant": "Singular systems do not occur in test data; the branch is never run.", "anchors": ["hapuamod/riv.py:solveFullPreissmann"]}
{"id": "C168", "title": "Waves wear down headlands and fill bays", "statement": "Where the shoreline lies seaward of the straight line between its neighbours, longshore transport takes away more than it brings, and where it lies landward of it, less. Over a whole morphological step of a closed lagoon such a headland does not grow and such a bay, with no waves over the barrier, does not deepen.", "quantifier": "all shorelines, waves and parameters; all completed steps", "why_tests_cant": "Holds or fails by the angle of the waves to each of two segments; tests look at straight shores.", "anchors": ["hapuamod/coast.py:longShoreTransport", "hapuamod/mor.py:updateMorphology"]}
{"id": "C169", "title": "Waves do not turn headlands into bays", "statement": "After a morphological step the shoreline of a transect on which only longshore transport acts lies between the most landward and the most seaward of the shorelines that it and its neighbours had before.", "quantifier": "all closed coasts with wide barriers, all waves from the front, all completed steps", "why_tests_cant": "The condition for it joins wave power, timestep, spacing and shoreface height; sample runs are far from it until parameters are changed.", "anchors": ["hapuamod/coast.py:longShoreTransport", "hapuamod/mor.py:updateMorphology"]}
{"id": "C170", "title": "Longshore transport grows as the 6/5 power of wave power", "statement": "With c times the wave power and everything else the same, longshore transport along every segment is c to the power 6/5 times what it was.", "quantifier": "all shorelines, waves, parameters and positive factors", "why_tests_cant": "An exact law over real factors, through a chain of powers and roots.", "anchors": ["hapuamod/coast.py:longShoreTransport"]}
{"id": "C171", "title": "Slower transport for a longer time has the same effect", "statement": "A morphological step with a c-th of the bedload, longshore and cross-shore transport and of the imposed retreat, and c times the current, least and greatest timestep, leaves the same coast, river bed and outlet as the step it was made from, and takes c times as long.", "quantifier": "all coasts, transport rates, parameters, whole factors c, and timesteps as in C32 that stay below a day", "why_tests_cant": "Relates two runs of the function; a change applied without the timestep looks plausible in any single run.", "anchors": ["hapuamod/mor.py:updateMorphology"]}
{"id": "C172", "title": "More flow never lowers the river", "statement": "With the same channel and sea level, solveSteady gives for a larger flow an energy level at every section that is not lower, to within the tolerance.", "quantifier": "all channels, sea levels and pairs of flows", "why_tests_cant": "A relation between two solutions, which fails only near critical flow with much friction.", "anchors": ["hapuamod/riv.py:solveSteady"]}
{"id": "C173", "title": "A finer grid contains the coarser one", "statement": "If Dx is divided by a whole number and everything else is the same, every transect and every river section of the coarser model is in the finer model too, with the same shoreline, channel banks, lagoon edge, cliff, crests and lagoon bed.", "quantifier": "all maps and straight shorelines, all positive Dx and whole numbers for which both models load", "why_tests_cant": "Relates two loads of one configuration; a slip in the start or end of the grid, or an index used for a position, shows only for some ratios of length to Dx.", "anchors": ["hapuamod/loadmod.py:loadModel"]}
{"id": "C174", "title": "Disturbances travel one transect per step", "statement": "In a closed lagoon the state of a transect after a morphological step depends on nothing but the transect itself, the transport on its two sides, across its barrier and by the river through it, and the length of the step, unless the barrier breaches at that very transect. So two histories of n steps under the same sea and river, with the same timesteps, that start with the same n transects on both sides of a transect and have no breach there, are the same at that transect at the end.", "quantifier": "all closed lagoons with regular arguments, all transects, all parameters, histories of any number of steps", "why_tests_cant": "A relation between two simulations that differ far away; eleven repairs, three kinds of merging and a limiter triggered by the largest rate anywhere could carry something over.", "anchors": ["hapuamod/mor.py:updateMorphology", "hapuamod/coast.py:longShoreTransport", "hapuamod/coast.py:overtopping"]}
{"id": "C175", "title": "A scale model of the river gives the flow and bedload of nature, to scale", "statement": "If all heights of a river are multiplied by v, lengths by l and widths by b, the flow by b v^(3/2), Manning's n by v^(2/3)/l^(1/2), and the sea level and tolerance by v, then solveSteady finds at every section v times the depth and v^(1/2) times the velocity, or fails with the same error. With grains d times as large, as rough as makes the dimensionless shear stress the same, calcBedload gives b d^(3/2) times the bedload in every reach. In particular a river with all widths and the flow multiplied by b has the same depths and velocities and b times the bedload.", "quantifier": "all channels (any numbers of sections, any values, nan and infinities included), all positive scales, all parameters", "why_tests_cant": "A relation between two runs for a three-parameter family of transformations of arbitrary channels, through every Newton iterate and every switch to critical depth.", "anchors": ["hapuamod/riv.py:solveSteady", "hapuamod/riv.py:calcBedload"]}
{"id": "C176", "title": "A longer and wider river with more water flows alike", "statement": "If all lengths of a river with its lagoon are multiplied by l, widths by b, the timestep by l, the inflow by b, Manning's n by l^(-1/2) and the permeability by b/l, with the same heights, then solveFullPreissmann gives the same depths and velocities after any series of inflows and sea levels, or fails with the same error.", "quantifier": "all channels, any values, all positive l and b, all parameters, any number of timesteps, outlet open or closed, all linear solvers whose answer does not depend on factors in front of the equations", "why_tests_cant": "A relation between two runs for a two-parameter family of transformations of arbitrary channels; the iterates, the test for convergence, the replaced zeros and the steady solution taken in its place all have to go along.", "anchors": ["hapuamod/riv.py:solveFullPreissmann", "hapuamod/riv.py:solveSteady"]}
{"id": "C177", "title": "A channel that is harder to flow through never lowers the river", "statement": "If a channel is made rougher, longer, narrower or higher in its bed anywhere, solveSteady gives with the same flow and sea level an energy level at every section that is not lower, to within the tolerance.", "quantifier": "all channels, all changes of this kind, all flows and sea levels", "why_tests_cant": "A relation between two solutions for arbitrary channels, which fails only near critical flow.", "anchors": ["hapuamod/riv.py:solveSteady"]}
{"id": "C178", "title": "The units of measurement do not matter", "statement": "If all inputs of riv.solveSteady, riv.calcBedload, coast.longShoreTransport, coast.runup and coast.overtopping and all parameters are given in other units of length, time and mass, the results are the same in those units.", "quantifier": "all units, all parameters and inputs", "why_tests_cant": "A relation between runs in arbitrary units; it shows numbers hidden in the code that have a unit.", "anchors": ["hapuamod/riv.py:solveSteady", "hapuamod/riv.py:calcBedload", "hapuamod/coast.py:longShoreTransport", "hapuamod/coast.py:runup", "hapuamod/coast.py:overtopping", "hapuamod/loadmod.py:loadModel"]}
{"id": "C179", "title": "A scale model of the coast changes like the coast", "statement": "For a model of the coast with all lengths and heights L times those of nature (transports of sediment times L cubed, transport over the crest per metre times L squared, times unchanged) a morphological step takes the same timestep and gives the outcome in nature with all lengths and heights times L.", "quantifier": "all scales L > 0, all parameters and states of the coast for which the step completes", "why_tests_cant": "A test runs one coast at one size; agreement of all sizes is a relation between infinitely many runs, and a constant in metres somewhere in the step is only found by asking for it at every size.", "anchors": ["hapuamod/mor.py:updateMorphology"]}
{"id": "C180", "title": "Larger events give a flow larger in proportion", "statement": "shotNoise with MeanEventIncrease multiplied by a factor gives, for the same draws, the same record times with every flow (and no other missing values) multiplied by that factor, or fails in the same way. harmonicTide with MeanSeaLevel and TidalRange multiplied by a factor gives the tide multiplied by that factor.", "quantifier": "all factors, all arguments, all sequences of random draws", "why_tests_cant": "A test compares single hydrographs of random events with a tolerance; that no part of the series (starting flow, rising limbs of overlapping events, resampling) departs from the proportion holds for all draws only by induction over the events.", "anchors": ["hapuamod/synth.py:shotNoise", "hapuamod/synth.py:harmonicTide"]}
{"id": "C181", "title": "The date does not matter to synthetic flow and tide", "statement": "shotNoise for a simulation a number of days later gives, for the same draws, the same flows that many days later, or fails in the same way; so does it for a simulation a number of output intervals later. harmonicTide for a simulation any time later gives the same tide that much later.", "quantifier": "all shifts, all arguments, all sequences of random draws", "why_tests_cant": "A test checks one pair of dates; dependence on the calendar would show up only for particular dates.", "anchors": ["hapuamod/synth.py:shotNoise", "hapuamod/synth.py:harmonicTide"]}
{"id": "C182", "title": "The flow of a longer simulation starts with that of the shorter one", "statement": "For the same random draws, shotNoise with a later EndDate returns the records that it returns with the earlier EndDate, followed by others.", "quantifier": "all arguments accepted by shotNoise, all end dates, all sequences of random draws", "why_tests_cant": "Only the last intervals differ, and by an amount that looks like noise; that all earlier ones agree for all draws, rising limbs reaching back included, needs an invariant of the loop.", "anchors": ["hapuamod/synth.py:shotNoise"]}
{"id": "C183", "title": "The unsteady scheme balances momentum", "statement": "If the residuals of the momentum equations assembled by riv.solveFullPreissmann vanish, then over the timestep the momentum of the water in the channel changes by the time-weighted momentum that the flow carries in at the first section less what it carries out at the last (Beta times area times velocity squared, whichever way the water flows), plus the force of the slope of the water surface, less the friction at the bed by Manning's formula.", "quantifier": "all numbers of sections, bed levels, widths, spacings, depths and velocities before and after the timestep, and parameters", "why_tests_cant": "A balance of real-valued sums for every channel and every pair of states; a test sees one run, and the error shows only on a rising tide.", "anchors": ["hapuamod/riv.py:solveFullPreissmann"]}
{"id": "C184", "title": "Still water is in balance", "statement": "For every channel and lagoon, water that stands at sea level everywhere satisfies all equations of a timestep of riv.solveFullPreissmann without inflow exactly (the scheme drives no currents of its own over an uneven bed or a change of width), at an open and at a closed outlet; and water standing still before and after a timestep satisfies the momentum equations only if its surface is level.", "quantifier": "all numbers of sections, bed levels below the sea, widths, lagoon areas and lengths, spacings and parameters", "why_tests_cant": "Exact cancellation between the terms of bed slope and depth for every bed; a test cannot tell exact cancellation from small currents.", "anchors": ["hapuamod/riv.py:solveFullPreissmann"]}
{"id": "C185", "title": "Longshore transport is largest for waves at 45 degrees", "statement": "For the same wave height and period, the longshore transport that coast.longShoreTransport computes for a segment of the shoreline grows with the angle between the waves and the shore-normal of the segment up to 45 degrees, falls from there to 90 degrees, and is never larger than at 45 degrees, wherever refraction of the waves has a solution.", "quantifier": "all wave conditions, shorelines, pairs of segments and wave directions within 90 degrees of their shore-normals (any direction for the last part)", "why_tests_cant": "An ordering between the results of any two calls over continuous angles.", "anchors": ["hapuamod/coast.py:longShoreTransport"]}
{"id": "C186", "title": "Longshore transport changes gradually", "statement": "When the waves turn and the shoreline moves, the longshore transport computed for a segment changes by at most K2coef times wave power times the ratio of the wave speeds at breaking and offshore, times the angle by which the waves turn plus the movement of the two ends of the segment over the transect spacing; there are no jumps, wherever refraction has a solution.", "quantifier": "all wave conditions, shorelines and pairs of wave directions", "why_tests_cant": "A Lipschitz bound over all pairs of real inputs; sampling cannot exclude a jump between samples.", "anchors": ["hapuamod/coast.py:longShoreTransport"]}
{"id": "C187", "title": "The two output files agree", "statement": "Whenever a step writes both a full record and a line of the time series, the two agree: same time, sea level, inflow, waves, outlet position and closure; the mean lagoon level is the mean of the recorded levels that are not missing; and the outflow is recorded depth times velocity times width at the outlet end.", "quantifier": "all steps of all runs that write both outputs, and the start of every run", "why_tests_cant": "The two outputs are gathered in different places and at different moments of the step; agreement has to hold for every state, step and missing value.", "anchors": ["hapuamod/core.py:main", "hapuamod/out.py:writeCurrent", "hapuamod/out.py:writeTsOut"]}
{"id": "C188", "title": "Failed unsteady hydraulics are replaced by steady flow at the end of the step", "statement": "If the unsteady river solution of a step raises any exception, depths and velocities of the step are those of steady flow carrying the inflow at the end of the step (the reported inflow) through every section, for the sea level at the end of the step. Otherwise they are the unsteady solution for the flows and levels at the hydraulic times, with positive depths.", "quantifier": "all steps of all runs, all exceptions", "why_tests_cant": "Failures of the unsteady solution are rare and depend on the state; the claim is about every step, every section and every exception.", "anchors": ["hapuamod/core.py:main", "hapuamod/riv.py:solveSteady", "hapuamod/riv.py:solveFullPreissmann"]}
{"id": "C189", "title": "A barrier rolls over where it is too high for its width and is built up elsewhere", "statement": "In a completed step, a barrier that waves get over keeps its crest height and has its back moved by the overwash volume over its height if a lagoon lies behind it and its crest is above the target height for its width; otherwise its crest rises by the volume over its width and its back stays (where the river does not flow behind it). The record written for the step shows overwash proportion 1 in the first case and 0 in the second.", "quantifier": "all steps of all runs and all barrier transects away from the outlet", "why_tests_cant": "The decision, the two fluxes and the record are made in three functions; the claim is about every step and barrier.", "anchors": ["hapuamod/core.py:main", "hapuamod/coast.py:overtopping", "hapuamod/mor.py:updateMorphology"]}
{"id": "C190", "title": "Gaps in the hydraulics of the channel are filled from the neighbouring sections", "statement": "The channel handed to the river solver uses every stored depth and velocity unchanged. Where none is stored (a section that has just come online), the depth is on the straight line between the nearest sections that have one (the nearest one at the ends), and depth times velocity is on the straight line between the nearest sections that have a velocity. So no depth lies outside the range of the stored ones.", "quantifier": "all model states, numbers and positions of gaps", "why_tests_cant": "Gaps arise only when a lagoon widens, an outlet lengthens or a breach occurs; the claim is about any pattern of gaps in channels of any length.", "anchors": ["hapuamod/riv.py:assembleChannel"]}
{"id": "C191", "title": "The lagoon length used for seepage counts every wet transect once", "statement": "In a channel built by assembleChannel, the lagoon lengths given to the sections (LagLen, over which solveFullPreissmann spreads the seepage through the barrier) add up to Dx times the number of transects at which the lagoon has a positive width, both inside and outside the channel: each wet transect once, no dry one.", "quantifier": "all transect lists with increasing X and finite non-negative lagoon widths, all parameters and all outlets for which assembleChannel returns; proved when the outlet does not start in line with the river and no transect is exactly at the upstream end of an open outlet", "why_tests_cant": "the sum depends on the place of outlet, closure, dry transects and the cut at a narrow transect; a test fixes one shore, and the failing cases need coincidences", "anchors": ["hapuamod/riv.py:assembleChannel", "hapuamod/riv.py:solveFullPreissmann"]}
{"id": "C192", "title": "Lagoon outside the channel is attached to the nearest lagoon section", "statement": "In a channel built by assembleChannel, the plan area and wet length of the lagoon on the other side of the river from the outlet are attached to the first lagoon section, those beyond the last lagoon section to the last one, and no other section is given any: river and outlet sections have none and the lagoon sections in between only their own length.", "quantifier": "all transect lists with increasing X and finite non-negative lagoon widths, all parameters and all outlets for which assembleChannel returns, every section; proved when the outlet does not start in line with the river and no transect is exactly at the upstream end of an open outlet (for the area also with two or more lagoon sections)", "why_tests_cant": "which section gets which storage depends on the side of the outlet, closure and where the lagoon is cut; a wrong index still conserves the total and goes unnoticed in runs", "anchors": ["hapuamod/riv.py:assembleChannel"]}
{"id": "C193", "title": "A closed lagoon reports no outflow", "statement": "Whenever the time-series output of a run says that the outlet is closed, the lagoon outflow on the same line is zero.", "quantifier": "all environments, all loaded states and all steps of all runs that write a line with Closed set; proved up to the width of the last section times the square of ErrTol, for steps whose unsteady solution goes well", "why_tests_cant": "the outflow is computed from the last section of the channel whatever the outlet is, so that its size depends on which solver ran, on convergence and on the start; the condition holds nearly in ordinary steps and fails by the whole river flow in others", "anchors": ["hapuamod/core.py:main", "hapuamod/riv.py:solveFullPreissmann", "hapuamod/riv.py:solveSteady"]}
{"id": "C194", "title": "The recorded timestep is the time since the line before", "statement": "Every line of the time-series output records as MorDt the number of seconds simulated since the line before it, so that the recorded timesteps of a run add up to the time simulated.", "quantifier": "all environments, loaded states and runs of any number of steps, and all pairs of successive lines; proved when no step is shorter than TsOutInt and all steps are whole numbers of seconds of less than a day", "why_tests_cant": "holds in the usual configurations and fails silently when steps are shorter than the output interval, or a day or longer, where the attribute used drops whole days", "anchors": ["hapuamod/core.py:main", "hapuamod/out.py:writeTsOut"]}
{"id": "C195", "title": "Water gains no energy on its way to the sea", "statement": "In a solution of solveSteady the energy level (bed, depth and velocity head) of a section is never higher than that of any section upstream of it, to within ErrTol for each reach in between.", "quantifier": "all channels of any number of sections with spacings that are not negative, all flows and sea levels for which it returns, all pairs of sections; proved where no section on the way from the upper to the lower one is at critical depth or nan", "why_tests_cant": "the sign of the head difference depends on which of two depths the iteration finds at each section; random channels almost never start the iteration near the shallow one", "anchors": ["hapuamod/riv.py:solveSteady"]}
{"id": "C196", "title": "A channel that disappears leaves nothing behind", "statement": "At every transect without an outlet channel (ShoreY[:,1] missing) after a morphology step, the other bank (ShoreY[:,2]), the channel bed (ShoreZ[:,1]) and the crest of the barrier behind the channel (ShoreZ[:,2]) are missing, too, if that was so before the step.", "quantifier": "all coasts, forcing and parameters with regular arguments (no division by zero, numbers), all transects, all steps of a run of any length", "why_tests_cant": "channels disappear in five different ways (overwash, truncation, merging with lagoon, filling from the sea, extension of the lagoon), and a remnant is invisible until a later reader of the array uses it", "anchors": ["hapuamod/mor.py:updateMorphology"]}
{"id": "C197", "title": "The outlet end always has a width", "statement": "If OutletEndWidth is positive when a simulation starts, it is positive after every step.", "quantifier": "all simulations of any length whose steps with an open outlet have regular arguments (no division by zero, numbers)", "why_tests_cant": "the width is only checked when the channel is assembled, before it is changed; the failure needs a large permitted change per step and a nearly closed outlet", "anchors": ["hapuamod/mor.py:updateMorphology", "hapuamod/riv.py:assembleChannel", "hapuamod/core.py:main"]}
{"id": "C198", "title": "The bed of the outlet end stays below the beach top", "statement": "If OutletEndElev is below BeachTopElev when a simulation starts, it is below BeachTopElev after every step, so that longshore transport into the mouth narrows the outlet.", "quantifier": "all simulations of any length whose steps with an open outlet have regular arguments (no division by zero, numbers)", "why_tests_cant": "the bed rises over many steps; the sign of the height of the outlet bank is used as a divisor and never checked, and tests start with a deep outlet", "anchors": ["hapuamod/mor.py:updateMorphology", "hapuamod/core.py:main"]}
{"id": "C199", "title": "The forcing stays within the range of the data", "statement": "The river flow, sea level, wave height and wave direction used in the computation and written to both output files are never below the smallest nor above the largest value given.", "quantifier": "all simulations of any length, all forcing series of numbers in order of time", "why_tests_cant": "interpolation is done anew in every step for a window of times that depends on the adaptive step; a test sees a few windows", "anchors": ["hapuamod/core.py:main", "hapuamod/core.py:interpolate_at"]}
{"id": "C200", "title": "A closed lagoon stays on its side of the river", "statement": "While the outlet stays closed, the part of the lagoon that is computed as continuation of the river is on the same side of the river from step to step, that of the outlet that closed.", "quantifier": "all simulations of any length with a closed outlet and no breach", "why_tests_cant": "the side is read off a position that a later step may set to nan, and a comparison with nan is silently false; only a run over several steps with an outlet right of the river shows it", "anchors": ["hapuamod/riv.py:assembleChannel", "hapuamod/mor.py:updateMorphology", "hapuamod/core.py:main"]}
{"id": "C201", "title": "Narrow sections of the lagoon widen, wide ones deepen", "statement": "In a morphology step that takes time, a lagoon section that receives more bedload than it passes on rises and keeps its banks. One that passes on more than it receives lowers its bed and keeps its banks if it is more than WidthDepthRatio times as wide as it is deep, and otherwise widens with its bed unchanged: the cliff retreats, and so does the barrier side of the lagoon where waves carry nothing over the barrier.", "quantifier": "all completed steps with positive duration, all lagoon sections of a transect without outlet channel, away from an open outlet and not breached, with positive depth and more room between sea, lagoon and cliff than a step may take", "why_tests_cant": "the outcome depends on sign of the bedload difference and a width-depth comparison per section, after rate limiting and through the index arithmetic that aligns river sections with transects", "anchors": ["hapuamod/mor.py:updateMorphology"]}
{"id": "C202", "title": "The outlet moves with the longshore drift", "statement": "In a morphology step without a breach the end of an open outlet moves in the direction of the longshore transport past it, unless its banks are eroded and the outlet channel comes from the other side. While its last section keeps at least the bedload it receives, the outlet narrows if and only if there is transport, and only from the side the transport comes from: the opposite bank stays in place unless the change was limited.", "quantifier": "all completed steps with positive duration and no breach, all open outlets whose spit, channel and inner barrier are wide compared with MaxMorChange and whose end is not about to pass a transect or reach the edge of the domain", "why_tests_cant": "position and width of the outlet end are changed by bank erosion, by longshore transport read at a searched index, by the rate limiter and by several repairs, with signs depending on the direction of the channel and of the transport", "anchors": ["hapuamod/mor.py:updateMorphology"]}
{"id": "C203", "title": "Narrow sections of the outlet channel widen, wide ones deepen", "statement": "In a morphology step that takes time, a section of an open outlet channel that receives more bedload than it passes on rises and keeps its banks. One that passes on more than it receives lowers its bed and keeps its banks if it is more than WidthDepthRatio times as wide as it is deep, and otherwise widens with its bed unchanged: the bank away from the sea retreats, and so does the bank of the spit where waves carry nothing over the spit.", "quantifier": "all completed steps with positive duration, all transects of an open outlet channel that are not breached, with positive depth, if spit, channel and inner barrier are wide compared with MaxMorChange and the outlet end is not about to pass a transect", "why_tests_cant": "the outcome depends on the sign of the bedload difference and a width-depth comparison per section, after rate limiting, repairs and breaches, and through the index arithmetic that aligns sections with transects", "anchors": ["hapuamod/mor.py:updateMorphology"]}
{"id": "C204", "title": "The outlet mouth narrows when waves bring more sediment than the flow takes away", "statement": "In a morphology step that takes time and does not breach, the bed of an open outlet end rises if it receives more bedload than it passes to the sea. If it receives less, its bed falls where it is more than WidthDepthRatio times as wide as it is deep, and the mouth then narrows wherever there is longshore transport; otherwise its bed stays, and the mouth widens if the missing bedload exceeds the longshore transport into it and narrows if it is less. Unless the change is limited, the volume stored at the mouth (bed and spit) is exactly what flow and waves have brought.", "quantifier": "all completed steps with positive duration and without a breach, any open outlet with channel arrays of matching size, an outlet end of positive width and depth with its bed below the beach top, ending between two transects", "why_tests_cant": "the outcome depends on the balance of two independent fluxes, the sign of each, a width-depth comparison, rate limiting, and the index of the transport reach found from the position of the mouth; tests sample a few such combinations", "anchors": ["hapuamod/mor.py:updateMorphology"]}
{"id": "C205", "title": "Without longshore transport the outlet mouth never narrows", "statement": "In a run without longshore transport the outlet end is never narrower after a pass than before: flow can only widen it, and a breach only makes it wider.", "quantifier": "all runs, all passes, open and closed, with or without breaches, whose bedload is a number, as long as the bed of an open outlet end is below the beach top", "why_tests_cant": "a statement about every pass of every run, with erosion, limiting, truncation, elongation, closing and breaching", "anchors": ["hapuamod/mor.py:updateMorphology", "hapuamod/core.py:main"]}
{"id": "C206", "title": "A calm sea moves no sediment along the coast", "statement": "For a wave record with wave power zero, longShoreTransport returns zero for every shoreline segment.", "quantifier": "all coasts, all wave directions, all wave periods and wave lengths that a record of a calm sea may hold, including zero", "why_tests_cant": "calm records are rare in test data, and the result passes through a quotient of two wave speeds that both may vanish", "anchors": ["hapuamod/coast.py:longShoreTransport"]}
{"id": "C207", "title": "A step never completes with a missing number in the wave forcing", "statement": "On a coast of at least three transects updateMorphology raises an exception, and never returns, if any longshore transport is nan or the cross-shore transport at a transect between the ends is nan; hence no run of main passes a wave record in which power, period, wave length or direction is nan, nor one of a calm sea with period zero, nor a time at which offshore wave height or sea level is nan (overtopping raises an AssertionError).", "quantifier": "all coasts of three or more transects, all lagoons (open, closed, breaching), all positions of the missing number, all other forcing, runs of any length", "why_tests_cant": "a missing number could be wiped out by any of a dozen repairs that overwrite transects (cliff retreat, truncation, merging, breaching); tests would need one case for each place and each repair", "anchors": ["hapuamod/mor.py:updateMorphology", "hapuamod/coast.py:longShoreTransport", "hapuamod/core.py:main"]}
{"id": "C208", "title": "Waves leave a straight beach where it is", "statement": "longShoreTransport gives the same transport on segments of the same slope, whatever the waves; hence in a completed updateMorphology step of a closed lagoon a transect between the ends, on a barrier wide enough for the step and in line with its two neighbours, stays where it is, at whatever angle the waves arrive, except that it recedes by what the waves carry over the barrier.", "quantifier": "all straight stretches of any length and slope, all waves for which refraction has a solution, all steps that complete", "why_tests_cant": "tests try a few angles; the claim joins coast.py and mor.py and must hold for every angle at once, including beyond 45 degrees, where transport decreases", "anchors": ["hapuamod/coast.py:longShoreTransport", "hapuamod/mor.py:updateMorphology"]}
{"id": "C209", "title": "Waves at a high angle build headlands out", "statement": "In a completed updateMorphology step of a closed lagoon, with longshore transport from longShoreTransport, a transect on a wide barrier that waves reach on both sides at 45 to 135 degrees from the same side, and do not overtop, moves seaward if it lies seaward of the line between its neighbours and landward if it lies landward of it (the high-angle instability, the reverse of C168).", "quantifier": "all coasts, all waves for which refraction has a solution, both sides, all completed steps of at least one second whose movement is within MaxMorChange", "why_tests_cant": "the sign of the change rests on the fall of sin(2a) beyond 45 degrees and on signs spread over two modules; sampled angles cannot show it for all", "anchors": ["hapuamod/coast.py:longShoreTransport", "hapuamod/mor.py:updateMorphology"]}
{"id": "C210", "title": "A higher sea never makes a beach fare better", "statement": "Of two completed updateMorphology steps of the same closed lagoon that differ only in sea level and wave runup, with cross-shore transport from overtopping, the one with the higher or equal sea and runup moves the shoreline of every transect between the ends on a wide barrier landward at least as fast, or seaward at most as fast (per second of step, as the adaptive steps may differ in length).", "quantifier": "all closed lagoons with regular arguments, all pairs of sea levels and runups in order, all completed steps whose movement is within MaxMorChange", "why_tests_cant": "compares two executions and passes through a power law with free coefficients; tests compare a few pairs", "anchors": ["hapuamod/coast.py:overtopping", "hapuamod/mor.py:updateMorphology"]}
{"id": "C211", "title": "Stronger waves reshape the coast in a fixed proportion", "statement": "Of two completed updateMorphology steps of the same closed lagoon, with longshore transport from longShoreTransport under waves that differ only in power, by a factor c, a transect on a wide barrier that waves do not overtop moves c^(6/5) times as far per second of step under the second waves as under the first, in the same direction.", "quantifier": "all coasts, all waves for which refraction has a solution, all factors c > 0, all pairs of completed steps whose movements are within MaxMorChange, whatever the lengths of the steps", "why_tests_cant": "the exponent joins the power law of the transport formula with the linear volume budget of another module; sampled powers cannot show it for all factors", "anchors": ["hapuamod/coast.py:longShoreTransport", "hapuamod/mor.py:updateMorphology"]}
{"id": "C212", "title": "Longshore transport tells the direction of the waves", "statement": "Waves that differ only in direction give the same longshore transport along every coast exactly if their directions are the same up to whole turns, wherever refraction of the waves has a solution.", "quantifier": "all waves and parameters, all pairs of directions, all coasts", "why_tests_cant": "an equivalence over all coasts and continuous directions, by which two directions must be told apart; tests look at a few directions within 90 degrees of the shore-normal", "anchors": ["hapuamod/coast.py:longShoreTransport"]}
{"id": "C213", "title": "Nothing below a critical section is felt above it", "statement": "If the steady solution has critical depth at a section and the channel below that section and the sea level are replaced by others with which it has critical depth too, solveSteady returns the same depths and velocities above the section as before, and from the section on those of the lower part alone. In particular all sea levels that are not above the critical level of the last section give the same result.", "quantifier": "all channels with positive widths and any number of sections, all positions of the section, all replacements of the lower part, all sea levels, flows and parameters", "why_tests_cant": "the sweep carries depth, energy and friction from section to section in four arrays; independence of everything below one section is a relation between two runs of any length", "anchors": ["hapuamod/riv.py:solveSteady"]}
{"id": "C214", "title": "Two coasts under the same waves do not drift apart", "statement": "Of two closed lagoons under the same waves from the front, with the same spacing, beach height and overtopping, after updateMorphology steps of the same length, short enough for waves and spacing (2 K P C T <= h Dx^2), how far the one shoreline lies seaward of the other at a transect on a wide barrier is between the least and the most that it did at the transect and its two neighbours before. So a coast that lies seaward of another stays so, and a disturbance of the shoreline does not grow.", "quantifier": "all pairs of coasts, all waves within 45 degrees of the normals of the four segments for which refraction has a solution, all pairs of completed steps whose movements are within MaxMorChange", "why_tests_cant": "a relation between two runs on different coasts over continuous shapes; it rests on bounds for the slope of the transport formula and the signs in another module", "anchors": ["hapuamod/coast.py:longShoreTransport", "hapuamod/mor.py:updateMorphology"]}
{"id": "C215", "title": "The laws of runup and overtopping", "statement": "coast.runup is proportional to wave period and to wave height and grows as the square root of the slope of the beach. coast.overtopping: where sea and runup exceed the crest of the barrier c times as much, waves carry c to the power OT_exp times as much over it.", "quantifier": "all periods, heights, slopes >= 0 and factors; all barriers of any number of transects, sea levels, runups and positive factors and exponents", "why_tests_cant": "exact laws over real factors and exponents; a wrong exponent or offset can agree with any sample", "anchors": ["hapuamod/coast.py:runup", "hapuamod/coast.py:overtopping"]}
{"id": "C216", "title": "Whole turns in the wave bearings do not matter", "statement": "loadModel gives the same model, or fails in the same way, from two wave files that agree but for whole turns (multiples of 360 degrees) in the bearings of any of their records; and two bearings are loaded as the same direction only if they are whole turns apart.", "quantifier": "all wave files of any length and any number of turns per record, all other inputs and configurations, all directions of the shore normal", "why_tests_cant": "over all real bearings and shore normals; a reduction that is right only within one or two turns, or that folds opposite directions together, passes samples", "anchors": ["hapuamod/loadmod.py:loadModel"]}
{"id": "C217", "title": "The forcing is linear in the data", "statement": "core.interpolate_at: from records in order of time, the interpolated values of a times one column plus b times another one are a times and b times the interpolated values of the two columns; whether the requested times can be interpolated is the same for all columns; and a column that is nowhere less than another one is nowhere interpolated as less.", "quantifier": "all tables of any length, all request lists in order of time, all columns and factors", "why_tests_cant": "superposition over all series, requests and factors; a sample with few records does not show which weights are used between others", "anchors": ["hapuamod/core.py:interpolate_at"]}
{"id": "C218", "title": "The sea level between the records of the synthetic tide", "statement": "At every time at which the harmonic tide is interpolated for the simulation, the sea level differs from the true tide by at most a fraction of the tidal range that depends on the interval of the records only and decreases with its square: (2 pi interval / period)^2 / 16, i.e. about a thousandth for records every 15 minutes.", "quantifier": "all starts, ends, positive intervals, mean levels and ranges; all requested times in order, in any number", "why_tests_cant": "an error bound over all real parameters and all times between records", "anchors": ["hapuamod/synth.py:harmonicTide", "hapuamod/core.py:interpolate_at"]}
{"id": "C219", "title": "How far the forcing can be off", "statement": "If the records of a quantity that changes by at most L per unit of time have errors of at most err and are at most gap apart, then every value that core.interpolate_at gives is off by at most err + L gap / 2. In a record that a pass of main writes, river flow, sea level and wave height are off from their true values at the time of the record by at most this and L times the time by which the forcing of the pass is late.", "quantifier": "all quantities with a bounded rate, all series of any length, all request lists in order of time, all passes", "why_tests_cant": "an error bound over all signals; the worst case is a signal that no sample of records shows", "anchors": ["hapuamod/core.py:interpolate_at", "hapuamod/core.py:main"]}
{"id": "C220", "title": "The synthetic flow is the sum of its events", "statement": "The series that synth.shotNoise computes before resampling ends with the first event at or after the end date. Its last flow is what is left by then of the initial flow and of all events: of each event the fraction PropRate1 decayed at DecayRate1 and the rest at DecayRate2 since the event. If events are no closer than RisingLimbTime, every flow of the series is what is left of the initial flow and of the events up to its time. The flow falls between events, and starts at its long-term mean.", "quantifier": "all parameters that are accepted, all sequences of random numbers of any length", "why_tests_cant": "a closed form over all sequences of events; a component that decays from the wrong time or gets the wrong share of an event shows up after some events only", "anchors": ["hapuamod/synth.py:shotNoise"]}
{"id": "C221", "title": "Missing records are bridged", "statement": "Where records of a time series have no value, interpolate_at gives at each requested time the value on the straight line between the nearest records that have one.", "quantifier": "all series with increasing times and any pattern of missing values, all sorted lists of requested times with known records on either side", "why_tests_cant": "which records are used depends on the first and last requested time together with where the gaps are; tests with one gap and a long request do not see it", "anchors": ["hapuamod/core.py:interpolate_at", "hapuamod/core.py:main"]}
