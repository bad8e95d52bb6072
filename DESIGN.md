# Formal model of TCRM — design

TCRM (`/repo`) is a Python program that simulates tropical cyclones: it
ingests historical tracks, fits statistics, generates synthetic tracks,
computes wind fields around them, aggregates the fields into a hazard
estimate and stores the result.  This directory holds a Lean 4 model of its
logic and machine-checked proofs of the properties in `properties.jsonl`.

## Layout

| path | content |
|---|---|
| `properties.jsonl` | the properties, in English |
| `lean/Verif/Model/*.lean` | the model; every definition cites the lines of `/repo` it models and names its simplifications |
| `lean/Verif/Spec/*.lean` | small specifications used by the property statements, written without the model's helpers |
| `lean/Verif/Lemmas/*.lean` | helper lemmas (no claim rests on reading them) |
| `lean/Verif/Props/*.lean` | the property theorems `Cnn_…`, each followed by an `example` meeting its hypotheses |
| `MANIFEST.json` | property → theorem names and status |
| `seeded/LOG.jsonl` | log of seeded-bug experiments |

## Trusted base

* Lean's kernel (4.33.0) and the three standard axioms `propext`,
  `Classical.choice`, `Quot.sound`.  No other axiom, no `sorry`, no
  `native_decide`, no `bv_decide`.  `lean/Verif/Axioms.lean` runs
  `#print axioms` on every property theorem during the build.
* Mathlib, as a library of definitions and kernel-checked proofs.
* The reading of `/repo`: the code is not executed; the model's tie to it is
  the citation in each definition.

## Modelling conventions

* **Numbers.** Python `int` is `Int`/`Nat`. Floats are exact elements of an
  ordered field (`ℚ` when the code only does field arithmetic, `ℝ` when it uses
  `exp`, `log`, `sqrt`, trigonometry). Rounding, overflow, NaN and infinities
  are *not* modelled, except where a NaN/inf branch is itself code (then the
  value is an `Option` or an explicit flag).
* **Arrays** are `List`s or functions from indices; shapes are explicit.
* **Exceptions** are values (`Except Err α` or a result type).
* **Loops** become structural recursion; `while` loops with a data-dependent
  bound are given a fuel argument or a well-founded measure, and "it
  terminates" is then a theorem that enough fuel exists.
* **External libraries** (numpy RNG, SciPy fits, netCDF, GDAL, SQLite, MPI,
  the file system) become parameters or an abstract state machine with the
  documented contract. The contract is stated in the definition's comment.
* **Concurrency** (MPI ranks, threads) is a nondeterministic transition
  system; theorems quantify over all its executions.

## Disagreements between the code and the property

When the code violates a property, the theorem list contains the negation
(suffix `_fails…`/`_counterexample`, with a concrete witness) and a theorem
ending in `_partial` for the part that does hold. The section *Findings*
collects them.

## Plan per property

The model modules and the method of proof; in brackets the outcome.

* **C01** Hazard tiles partition the domain — `Model/Tiles`: tile bounds as integer functions; exact cover by Euclidean division on the cell index. [proved: Axis coordinates are integers in the model (any ordered unit); the tiling is index arithmetic.]
* **C02** Distributed hazard calculation equals the serial one on every schedule — `Model/Dispatch`, `Model/HazardOutput`: master/worker protocol as a transition system with FIFO mailboxes; token invariant, termination measure, deadlock freedom, order independence of the output. [proved: All schedules of an asynchronous message-passing model; MPI delivery guarantees are assumed, the per-tile calculation is an arbitrary non-raising function.]
* **C03** Round-robin work sharing partitions the work — `Model/Balanced`: `islice(l, rank, None, P)`; index characterisation, hence partition by residues. [proved: Includes the file/track sharing of the wind-field stage for differing directory orders.]
* **C04** Synthetic event sets do not depend on how the work is split over ranks — `Model/TrackGen`: ranks thread a process-global generator state; counterexample to independence and partial theorem. [partial: The property is false of the code (C04_split_changes_tracks: sizes come from the global numpy generator, which is not re-seeded per simulation). Proved: it holds if that generator's variates do not depend on history, and for the first simulation of each rank.]
* **C05** A computed CDF is a distribution function — `Model/Cdf`: running sums over ℚ. [proved: Exact arithmetic; a grid whose first two points coincide is excluded (the code then returns all zeros).]
* **C06** Inverse-CDF sampling returns the quantile — `Model/Cdf`: searchsorted on lists; quantile characterisation. [proved: searchsorted is modelled by its contract. The boundary u = 0, outside the property, is shown to select the first entry.]
* **C07** Origin sampling stays inside the support of the density — `Model/Cdf`: marginal and conditional tables as in the code; positivity by telescoping. [proved: Exactly the stated range (0,1]; the counterexample shows it cannot be extended to u = 0.]
* **C08** Two-dimensional CDF is the normalised prefix sum — `Model/Cdf`: the recurrence as code; equality with the double sum by induction. [proved: Exact arithmetic.]
* **C09** Cell numbers identify grid cells — `Model/Cells`: whole degrees as integers, points rational; round trip on one side of the origin, counterexamples for straddling domains. [partial: Proved for domains on one side of the meridian and of the equator; proved false for straddling domains (cells get the same number).]
* **C10** Points outside the domain are rejected, points inside are accepted — `Model/Cells`: iff for whole-degree limits, exact behaviour and counterexample otherwise. [partial: Proved for whole-degree limits; proved false for fractional limits; exact behaviour for all limits given.]
* **C11** Cell statistics are computed from a sufficient, non-degenerate sample — `Model/Extract`: window expansion loop; measure is the distance of the window to the limits. [proved: Termination is 'for all sufficiently large fuel'. The window test is half-open to the north, so an observation exactly on the northern edge is never used although the cell numbering accepts it (C11_northern_edge_never_used).]
* **C12** Autoregressive coefficients are well defined — `Model/Acf`: Cauchy–Schwarz on lists over ℝ. [proved: Real arithmetic; a stronger (strict) bound is proved.]
* **C13** Synthetic tracks stay inside the domain and stop at the first violation — `Model/TrackGen`: the stepping loop with arbitrary draws; invariant on the produced prefix. [proved: Domain limits integer for the genesis point (the cell test uses floor/ceil).]
* **C14** The event generator returns exactly the requested, valid tracks — `Model/TrackGen`: rejection loop over a stream of candidates; invariant, partial correctness, non-termination witness. [proved: Conditional on return, as stated; C14_may_run_forever shows that return is not guaranteed.]
* **C15** Genesis conditions of each track are drawn for that track — `Model/TrackGen`: state kept between tracks; counterexample and partial theorem. [partial: False of the code: the environmental pressure of the first candidate is used for all tracks of a call, and prescribed zeros are ignored. Proved: prescribed non-zero values are used by every track; all tracks of a call share one environmental pressure.]
* **C16** Random streams of different simulations are distinct — `Model/TrackGen`: key = seed + stream; injectivity for one seed, collision for two. [partial: First half proved; the second half is false (key = seed + index).]
* **C17** The regional wind field is the pointwise extreme over the track — `Model/Windfield`, `Model/WindfieldAll`: fold of masked updates; invariant relating the state to maximum and arg max. [proved: Bounded domain, margins and resolutions in hundredths of a degree: for every resolution up to twice the margin, the calculation succeeds exactly if the remainder condition of C18 holds at every position in the region, and whenever it succeeds the cells record the extremes (C17_whenever); always if the resolution divides twice the margin. Full domain: for limits other than 0 and a resolution dividing the extended extents (C17_full_domain; zero limits: C18).]
* **C18** Local fields are pasted inside the regional grid — `Model/Windfield`: integer index arithmetic of the pasting window. [partial: The window is always inside the grid; its shape is that of the local field iff the stated remainder condition holds, so the property is false when the resolution does not divide twice the margin (C18_mismatch_fails).]
* **C19** Combining the tracks of a file keeps gust, bearing and components consistent — `Model/Windfield`: fold with masks computed after the update; negation and partial theorem. [partial: Gust and pressure parts proved; bearing and components are always those of the first track, so that part is false.]
* **C20** Wind-field file names identify events — `Model/GustFiles`: zero-padded decimals and shell patterns on character lists. [proved: For all natural track numbers and years. glob special characters in the directory path are not modelled.]
* **C21** Annual maxima aggregation — `Model/GustFiles`: yearly maxima; permutation invariance. [proved: Rounding on storage (32-bit numbers) is covered by C21_rounding, for every rounding that preserves order and zero.]
* **C22** Restarting an interrupted wind-field run — `Model/GustFiles`: disk states, crash after any prefix of writes, skip test; idempotence. [partial: Proved for gust files when the grid limit is configured and unclosed files cannot be opened; without the latter, every kept file still has correct axes, gusts and components. Refuted otherwise: torn files accepted if readable (pressure missing), local wind skipped after a crash, grid limit taken from a different track after a restart.]
* **C23** Extreme-value fits never report an unusable record as valid — `Model/Evd`: decision structure over L-moments; monotonicity over ℝ. [proved: Exact reals; the Newton iteration of the shape is modelled as written, the results hold for whatever shape it returns.]
* **C24** GPD return level and return period are inverse — `Model/Evd`: `Real.rpow`. [proved: Exact reals. The maximum-likelihood fit (scipy) is a parameter.]
* **C25** Empirical return periods rank the data — `Model/Evd`: ranks over ℚ. [proved: Exact reals; scipy interp1d by its contract.]
* **C26** The configuration is read once and shared — `Model/Config`: state machine over lists of operations. [partial: All histories of obtain/read/set/reset. False of the code in one clause: a path that exists but cannot be opened is accepted silently and blocks later reads. Handles kept across a reset (meant for tests) are stale.]
* **C27** Configuration defaults and value round trip — `Model/Config`: split and join on character lists; look-up with default. [partial: False of the code for list defaults (None is returned), dictionary defaults (any type), the empty list, and list options written with capitals; proved for text, truth value, integer and float defaults and for non-empty lists without commas (exact characterisation). Switches read with a section are true exactly for the word True (C27_switches); three listed with capitals stay texts, and a non-empty text counts as true (C27_switches_fail).]
* **C28** The processed-files register behaves like a map — `Model/Register`: memory and file; refinement to a map. [partial: All histories of records, reloads and restarts with names free of separators and line breaks; false of the code for names containing the separator.]
* **C29** Segment intersection points lie on both segments — `Model/Geometry`: determinants over an ordered field; soundness and completeness. [proved: Exact arithmetic over any ordered field. A segment of length zero is reported as coincident with everything (C29_degenerate_coincident).]
* **C30** Circle-line intersection points — `Model/Geometry`: ℝ with `Real.sqrt`. [partial: Everything but tangency: the tangent point is never reported, and the status does not depend on whether it lies on the segment.]
* **C31** Point-in-polygon test — `Model/Geometry`: both tests as written; negation and the cases in which they agree. [partial: False as stated: the winding test never counts downward crossings, so inside points of clockwise triangles and of some counter-clockwise polygons are reported outside. Proved: no false positives by the crossing number, points outside the bounding box, agreement if the point is left of all edges, and the full property for strictly convex polygons traversed counter-clockwise.]
* **C32** Saved tracks load back unchanged — `Model/TrackFiles`: group names, order and filtering; round trip. [partial: Proved for the default time units and times of whole seconds, any number of tracks when groups are listed in creation order (netCDF4), and up to 10000 tracks when they are listed by name. Refuted for other time units (the file always states the default units) and for fractions of seconds. The netCDF library is a contract.]
* **C33** Nearest grid index — `Model/Grid`: first minimiser of the distance with the shortcuts for the range. [partial: Proved for values within the range of any axis and for all values on ascending axes; refuted for all values outside the range of a descending axis.]
* **C34** Automatic track domain covers the region and the tracks that enter it — `Model/DataProc`: running limits; containment, minimality and counterexample. [partial: The domain contains the region, has whole-degree limits, is the smallest such box, and contains each entering track up to its last observation inside. Observations after leaving are not covered (counterexample theorem).]
* **C35** Annual frequency is the mean number of genesis events per year — `Model/DataProc`: year range and counting. [partial: The frequency is the mean over the years before the last, of origins strictly inside, to two decimals; the full statement fails: origins in the last year have no influence and a one-year record gives NaN.]
* **C36** Track extraction keeps exactly the tracks that start in the domain — `Model/DataProc`: flag fold equals filtering of track groups. [proved: Exact characterisation of the kept indices, in order and without repetition.]
* **C37** Track start markers split the record into tracks — `Model/DataProc`: markers, cumulative numbers and grouping. [partial: Markers from identifiers and the split are correct for all records; for a file with its own index column not beginning with a marker the first records are lost (theorem).]
* **C38** Implausible jumps start a new track — `Model/DataProc`: signed threshold test. [partial: Exact rule for the markers. Fails: westward and southward jumps never split, a small step west over 0 degrees always does.]
* **C39** Processed rates and screened observations are in range — `Model/Rates`: wrapping and screening. [partial: Bearing, speed and pressure parts hold. Fails for the radius (garbage rate after a missing value) and negative wind speeds are not screened.]
* **C40** Elapsed time and day of year — `Model/Dates`: elapsed-time fold; Gregorian day numbers for all years. [partial: Elapsed times are right for the original markers; they do not restart at tracks split off at jumps. Day numbers are right except after February in non-multiples of four before 1900 and in 1900, 2100, ...]
* **C41** The dynamic record array behaves like a list — `Model/DynArray`: refinement to list append. [proved: Appending any sequence of records to the growable array: its contents are the records in order, whatever the internal growth; each append adds exactly one record at the end.]
* **C42** Unit conversion — `Model/Units`: tables as data; laws over ℚ. [partial: Proved: same unit unchanged; every pair of units of one kind in the tables is converted right up to 1/1000 and round trips up to 2/1000; temperatures. The claim that an unsupported pair is reported is false of the code (values come back unchanged, also F<->K), Kelvin is 0.15 off, and F->C changes the caller's array.]
* **C43** Humidity conversions — `Model/Humidity`: ℝ. [partial: Proved: ranges and round trips for vapour pressure, mixing ratio, specific humidity, dew point. The range claim is false of spHumToRH (any value is attained), wetBulbToRH mixes hPa and kPa and answers 100 from 10 percent on, and rHToDewPoint raises UnboundLocalError for 0.]
* **C44** Bearing and mathematical angle conversions are inverse — `Model/Angles`: ℝ with real modulus. [proved: Over the exact reals, for every angle.]
* **C45** L-moments — `Model/LMoments`: both routines as written, equality by algebra on sums. [proved: Exact reals; every shape above -1, 0 (the exponential distribution) included.]
* **C46** Wind-pressure relations are inverse of each other — `Model/Vmax`: ℝ. [partial: Inverse holds for the Holland and Willoughby relations and, for Atkinson and Holliday, only at 1010 hPa (refuted otherwise); error and monotonicity proved.]
* **C47** Radial wind profiles peak at the radius of maximum wind — `Model/Profiles`: ℝ, derivatives by `HasDerivAt`. [partial: Proved for Jelesnianski and Rankine. For Holland: the cubic core joins with equal first and second derivative, but not equal value, and exceeds the maximum wind just inside (both refuted, with bounds on the excess). The double vortex is unbounded south of the equator (refuted); its core has the value, slope and curvature it was built with, but that curvature is not the one of the outer profile (refuted). The profile of 2010 takes its radius of gales in metres and exceeds 1000 m/s (refuted); with a radius of gales in the unit of the other distances it peaks at the radius of maximum wind and is 17 m/s at the radius of gales (C47_newHolland_partial).]
* **C48** Radial pressure profiles — `Model/Pressure`: ℝ. [partial: Proved for every profile with a positive shape parameter; the shape parameter of willoughby can be negative, and then the pressure falls with radius (refuted).]
* **C49** Boundary-layer factors are continuous and bounded — `Model/Boundary`: piecewise, ℝ. [partial: Inflow of McConochie continuous and bounded; reduction factor bounded but with two jumps, inflow of Hubbert with one (refuted).]
* **C50** Raster segments and worker threads of the multiplier stage — `Model/Multipliers`: segment list; thread pool as a transition system with the check-then-get race. [partial: Cover, exactly-once and equality with the whole raster are proved for every interleaving. Missing: the pool always finishes only with one thread; with two or more a thread can wait for ever on the emptied queue (C50_hangs_fails).]
* **C51** Directional multiplier selection — `Model/Multipliers`: table of octants; exact cover of [0,360). [partial: Proved for exact bearings. Missing: a bearing rounded up to 360 in single precision selects no multiplier (C51_rounded_fails).]
* **C52** Database queries return the records of the requested location — `Model/Database`: tables as lists, joins as list comprehensions, NULL as `none`. [partial: Proved for locationRecordsExceeding, locationRecords, locationAllReturnLevels and locationPassageWindSpeed. Refuted for locationPassage, which returns the winds of all locations; locationReturnPeriodEvents is proved when one level is recorded and raises IndexError when none is.]
* **C53** Track generation works for every positive number of simulations — `Model/TrackGen`: division of the random number space. [partial: False for one simulation (division by zero); for two or more proved on any number of ranks: only the generation of an event set can fail (C53_several_simulations_partial), and the files of all ranks are one event set for each simulation with the number of tracks drawn for it (C53_event_sets).]
* **C54** Sampled genesis pressure is below the environmental pressure — `Model/TrackGen`: table look-up for the pressure. [partial: Second half proved; the first half holds when the table starts below the environment and fails otherwise (index -1).]
* **C55** Optional inputs of the track generator are usable — `Model/TrackGen`: unreachable success of the size branch. [partial: The property is false; the theorems prove the negations for all inputs.]
* **C56** Local wind fields of several tracks are all kept — `Model/GustFiles`: fixed name of the local wind file. [partial: False in the code: output name does not depend on the track, so only the last track's local wind field remains. Holds for one track.]
* **C57** Event records for the peaks-over-threshold fits — `Model/GustFiles`: listing of all regular files. [partial: Holds when the directory contains event files only; any other regular file without vmax (e.g. the evolution files) stops the calculation.]
* **C58** GEV fit reproduces the L-moments — `Model/LMoments`: Gamma function identities. [proved: L-moments as integrals of the quantile function. Shape 0: to within the rounding of the constants in the code. The shape is above -1 for every L-skewness; below -0.8 this follows from the convergence of the Newton-Raphson iterations (C148).]
* **C59** Empirical levels for all periods up to the simulation length — `Model/Evd`: index arithmetic of the empirical levels. [partial: False of the code: the period equal to the number of simulated years is accepted if and only if that number is a multiple of four.]
* **C60** Cells that cannot be fitted are marked missing in the hazard output — `Model/Evd`: case analysis of a cell. [partial: False of the code for cells without any wind, which get 0; proved for cells with at least one positive value.]
* **C61** Confidence intervals can be computed — `Model/HazardOutput`: call with the wrong arguments. [partial: False of the code: TypeError for every input.]
* **C62** An interrupted write to the processed-files register loses at most that entry — `Model/Register`: all prefixes of the written text. [partial: False of the code: an unfinished line makes the register unreadable for all later runs. Proved for stops before the first or after the last character.]
* **C63** Deleting the processed-files register — `Model/Register`: state machine. [partial: Holds for later runs; false of the code for the running process and for the return code.]
* **C64** Line and circle against polygons — `Model/Geometry`: loops over edges. [partial: False: the line test reports an intersection for every polygon with an edge, the circle test on a list of polygons skips the last edge. Proved: the listed points, and the circle test on one polygon that is not a list, up to tangency.]
* **C65** CSV track files: one track per storm number and no record lost — `Model/TrackFiles`: grouping by number. [partial: Proved for files of at least two well-formed records with positive storm numbers; the exceptions are proved to lose records.]
* **C66** Loading a directory of track files — `Model/TrackFiles`: sorted listing. [proved]
* **C67** Saving tracks does not change them — `Model/TrackFiles`: mutation of the saved record. [partial: All columns but the date column are unchanged; the date column is overwritten, and a second save fails.]
* **C68** Sampling a gridded file — `Model/Grid`: binary search on the axes. [partial: At grid points of a file with ascending coordinates and rows from north to south the value is that of the point; between grid points the next one east and north is taken, not the nearest. For rows in the order of the latitudes, for ascii grids and for western longitudes the result is wrong, as proved.]
* **C69** Initial and later observations partition the record — `Model/Rates`: marks of first and second observations. [proved: For all 0/1 marker columns of any length.]
* **C70** Clock times read from the hour column — `Model/Dates`: hhmm test. [partial: Both notations are read correctly if some hhmm time is 01:00 or later; otherwise minutes become hours. Whether a file gets there is the subject of C168.]
* **C71** Time steps are the times between observations — `Model/Dates`: rounding. [partial: Steps are rounded to whole hours: exact for whole hours, within half an hour otherwise, zero below half an hour.]
* **C72** Extremes and outer pressure of a loaded track ignore missing values — `Model/Dates`: folds over values that are not missing. [partial: Extremes hold; the outer pressure of loaded track files is computed from missing pressures because the marks differ.]
* **C73** The search for the wet bulb temperature ends and solves its equation — `Model/Humidity`: bisection; measure and invariant. [proved: Exact reals, before the final rounding to three decimals; dew point above -237.3 degrees (the pole of the formula), pressure not negative.]
* **C74** Vorticity belongs to the wind profile — `Model/Profiles`: `HasDerivAt` of the wind against the vorticity formula. [partial: Holds for the core of Holland's profile; refuted outside it, for Jelesnianski and Rankine, and for both parts of the double vortex.]
* **C75** Compiled and interpreted code agree — `Model/Compiled`: Fortran and Python routines side by side. [partial: Agreement proved off the equator for shape parameters up to 2 (wind: up to 3); refuted on the equator and for the vorticity of steep profiles. Single-precision literals of the Fortran source are taken exactly.]
* **C76** Asymmetry of the wind field — `Model/Boundary`, `Model/Profiles`: symmetry of the formulas. [partial: Mirror symmetry of the Kepert and McConochie fields (both components of the wind) and of the profiles of Jelesnianski, Rankine, Holland and 2010, and the place of the maximum in McConochie, proved; refuted for Hubbert's field (mirrored exactly where the motion adds nothing), for the vorticity of Rankine's profile and for the double vortex; the configured angle is converted to radians three times (refuted).]
* **C77** Documented wind field choices work — `Model/Selection`: finite table of names, all combinations. [partial: Exactly four profiles work; jelesnianski and doubleHolland are documented but fail.]
* **C78** Pressure and wind of a storm use the same shape — `Model/Pressure`: difference of two formulas. [partial: Refuted for powell and willoughby; holland and schloemer take the same parameter by construction, and the two vortices of doubleholland have the same deficits and default shapes.]
* **C79** Regional wind is placed at its own latitude before multiplying — `Model/Multipliers`: row order conventions. [partial: True of wind fields read from gust files; refuted for wind fields passed on directly, whose rows are mirrored.]
* **C80** Combined multiplier is the product, and missing where a factor is missing — `Model/MultiplierFiles`, `Model/Multipliers`: masked products. [partial: Product proved when none is missing, and the missing mark when terrain is missing (which leaves the wind unchanged); refuted for missing topography or shielding, which count as 1.]
* **C81** S3 locations are taken apart as written — `Model/MultiplierFiles`: split and join. [proved: For every location text.]
* **C82** Extent of the local wind is the overlap of wind and multipliers — `Model/MultiplierFiles`: affine maps. [partial: The extent is the intersection for images with north at the top; refuted for images with south at the top, and rasters without overlap are not reported.]
* **C83** Updating the hazard database again does not duplicate or mix results — `Model/Database`: sequence of updates; key invariants. [partial: Proved for the first update; refuted for later ones, which duplicate winds, levels and passages and keep the old events.]
* **C84** Tables of the hazard database name events alike — `Model/Database`: scanner for numbers, padding. [partial: Identifiers proved to agree and to be distinct; refuted for directories with other files, which end the update.]
* **C85** All locations inside the domain are used — `Model/Database`: residue of longitudes. [partial: Proved for domains within 0 to 360; refuted for domains in negative longitudes.]
* **C86** Time series at stations — `Model/Stations`: state of the stations as a fold over the time steps; first maximum and minimum of lists. [partial: Records, tables and files proved; refuted: stations with the same identifier share a file, the minimum can be taken from a time when the station was outside the grid, and stations of csv files in western longitudes are never inside.]
* **C87** Largest wind of a station's series is the gust field at the station — `Model/Stations`, `Model/Windfield`: simulation between the series and the running maximum; nearest point of a part of an axis. [partial: Upper bound for all stations, equality for stations at grid points; refuted for stations just outside the local grid.]
* **C88** A run's time series cover all its tracks — `Model/Stations`, `Model/Balanced`: sequence of processes writing the same files. [partial: Proved for one process and no wind field complete beforehand; refuted for parallel runs (the last process replaces the files) and resumed runs.]
* **C89** Multipliers applied to a time series belong to the wind direction — `Model/Stations`: piecewise linear function. [partial: The factor lies between the two neighbouring multipliers; refuted: the weights are interchanged, so a wind from a direction gets the multiplier of the next one and the factor jumps.]
* **C90** The file of all wind fields stores each field at its coordinates — `Model/Foliation`, `Model/Windfield`: both axes as arithmetic progressions; placement of tables. [partial: Proved for settings in whole hundredths of a degree with the resolution dividing the size of the domain; refuted otherwise.]
* **C91** Smooth interpolation passes through the observations — `Model/Akima`: piecewise cubics glued at the nodes; derivatives from Mathlib. [partial: All parts proved for the Python implementation (exact arithmetic), except that positions stay in the observed range, which is refuted: Akima's curve overshoots.]
* **C92** Interpolated tracks have a uniform time step over the whole track — `Model/TrackInterp`: arithmetic of `arange` with ceilings; totality by cases. [partial: Proved: times, with the exact range of the final step, and success for all tracks; uniform when the step divides the duration. Refuted: the final step is otherwise up to twice as long, a step longer than the track loses its start, seconds are dropped.]
* **C93** Interpolated tracks pass through the observed positions — `Model/TrackInterp`, `Model/Akima`: linear interpolation as bisection of an increasing table. [partial: Proved for the methods linear and akima; the default scipy spline is a parameter. Refuted across the zero meridian.]
* **C94** Forward speed of interpolated tracks — `Model/TrackInterp`: legs between consecutive records; distance is a parameter. [partial: Proved for all legs but the final one; refuted there whenever the step does not divide the duration (distance is divided by the nominal step).]
* **C95** Central pressure of interpolated tracks — `Model/TrackInterp`: slices of the list of new times; convexity for the mask. [partial: Proved (for the wind speed too) except for the last record with a known pressure, which repeats the pressure of the record before on tracks of four or more observations (refutation). With three observations, one of them without pressure, interpolated pressures between known ones are marked missing (C95_few_fails).]
* **C96** A step by bearing and distance follows the great circle — `Model/Sphere`, `Spec/Sphere`, `Lemmas/Sphere`, `Props/Sphere`: Unit vectors of three-dimensional space as the specification; trigonometric identities, the polar form of the arctangent of two arguments, induction over the steps of a track.. [partial: Proved in exact real arithmetic for every starting latitude strictly between the poles (the distance also at the poles). At the pole itself the bearing is ignored (C96_pole_fails).]
* **C97** Distances to grid points are distances over the sphere — `Model/Sphere`, `Spec/Sphere`, `Lemmas/Sphere`, `Props/Sphere`: The haversine formula is rewritten as the angle between unit vectors, for which symmetry and the triangle inequality are in Mathlib.. [proved: Exact real arithmetic; units other than kilometres are the subject of the unit conversion properties.]
* **C98** Bearings and lengths of the legs of a track describe its displacements — `Model/Sphere`, `Props/Azimuth`: Rotation identities; induction over the track for recovery; concrete counterexamples evaluated exactly.. [partial: Displacement, range, recovery of the track and lengths along meridians are proved. Refuted: the length depends on the direction (the parallel of the end point is used), a step across the meridian where longitudes restart is measured the long way round, and the length is not the distance the position was moved by. The rounding of bearings to single precision is not modelled.]
* **C99** The distance from a line is available for every grid — `Model/Sphere`, `Props/Azimuth`: Case analysis on the number of rows under numpy's broadcasting; irrationality of pi for the counterexample.. [partial: Refuted: a grid with three or more latitudes raises, a grid with one latitude comes back with two rows, and points of the line itself are reported away from it.]
* **C100** Density maps count every position of every track in exactly one cell — `Model/Evaluate`: Half-open cells; recursion over the edges shows that exactly one cell contains a value; double counting over cells and records.. [partial: Counts, totals, additivity and order are proved for the grid of edges; np.histogram2d is modelled by its documentation. The grid covers the domain if the spacing divides the extent (and is at least 0.1); otherwise positions inside the domain beyond the last edge are in no cell (C100_domain_fails). Density maps by kernel estimation are not modelled.]
* **C101** Densities per year are counts divided by the number of years — `Model/Evaluate`: First and last year by induction over the tracks; comparison of the two quotients.. [partial: Refuted for the historical record: the divisor is the last year minus the first, so that every non-zero rate is too large and a record of one year has no rates. The theorem for simulations (in one process) is complete.]
* **C102** Pressure maps are the statistics of the recorded pressures of each cell — `Model/Evaluate`, `Model/EvaluateStats`: The values of a cell as a filtered list; ranks in the sorted list for the median.. [partial: The statistics of a cell and the distribution of minima are complete. Records on the last edge are in no cell, although the density maps count them there (C102_edge_fails). numpy's mean, median and histogram are modelled by their documentation.]
* **C103** Crossings of meridians are found with latitude and direction — `Model/Evaluate`, `Model/Crossing`: The common point of two segments (C29); sides of the gate; sums of normalised histograms.. [partial: Legs are characterised completely. The columns are normalised to area one, so they are not numbers per year (C103_rate_fails), and a storm observed on the meridian is counted twice or, if it turns back, once in either direction (C103_on_gate_fails).]
* **C104** Landfalls are attributed to the gates they cross — `Model/Evaluate`, `Model/LandfallGates`: Membership in the list of gates; unit bins of the histogram.. [partial: All gates but the last two sides of the coast are characterised. Landfalls across these are never recorded (C104_last_gate_fails); without any landfall the rates are undefined (nan). Which positions are on land is C31.]
* **C105** Landfall intensity is reported by gate and category — `Model/Evaluate`, `Model/LandfallGates`: Parameters of the common point of two segments; the categories partition the pressures.. [partial: Number, mean and minimum are complete. Refuted for the categories: the columns are shifted by one and category 5 is in none (C105_columns_fail); a record on the gate is missed; the version for locations raises as soon as a leg crosses an area. shapely's `crosses` is modelled for two segments in general position.]
* **C106** Summaries of many simulations are means and percentiles of them — `Model/EvaluateStats`: Position in the sorted list; counting in prefixes and suffixes of it.. [proved: scipy's scoreatpercentile is modelled with its interpolation on the sorted values.]
* **C107** The stages of a run follow each other on all processes — `Model/Pipeline`: Transition system of processes with barriers; the number of barriers left is the same for all processes, and a suffix of a program with as many barriers as follow a stage lies behind that stage.. [partial: Order, once-only, absence of deadlock and termination are proved for all schedules without failures, with the evaluation represented by its barriers (see C108 for several processes). Refuted for failures: the exception is logged and only that process ends; the others wait at the next barrier for ever (C107_failure_blocks, C107_failure_fails); a single process does end.]
* **C108** The evaluation can be run on several processes — `Model/Pipeline`: All states reachable up to the deadlock are described by an invariant; recursion over the list of files.. [partial: Refuted: on two or more processes every run of the longitude crossings ends in a deadlock, and every evaluation fails with fewer files than workers. On a single process the main program with its evaluation always gets to its end. That results agree is not stated, since no run on several processes gets there.]
* **C109** Every stage finds the files it needs — `Model/Rerun`: Programs of file operations; which files are needed from outside is computed and shown sound for all directories.. [partial: Exactly characterised: calibration and start of the track generator get through iff the output format is txt, times are given as dates, and radii are in the input if wanted; plots need several years in addition. Refuted for netCDF output and for ages, where the run fails in data processing.]
* **C110** A run depends on its own input only — `Model/Rerun`, `Model/GustFiles`: The needed files outside a run are computed and shown sound; wind fields use the restart theorems of C22.. [partial: Holds for calibration up to the radii; for tracks if there were no more simulations before; for wind fields in an empty directory. Refuted otherwise: each exception has its own theorem.]
* **C111** Selecting seasons keeps whole tracks — `Model/Seasons`, `Model/DataProc`: Induction over the list of tracks; markers and identifiers form a chain.. [partial: Holds if every track is of one season, which is the case where tracks are told apart by season and number. Refuted otherwise: the remaining records of a track lose their marker and join the track before.]
* **C112** Counts by year and day account for every track — `Model/Seasons`: Sizes of the classes of a partition add up.. [proved: Years and days are whole numbers. Nothing is written if all records are of one year. The last bin of days holds days 365 and 366; after the correction for leap years (C40) day 366 does not occur.]
* **C113** Calibrated distributions cover the observed range and are distribution functions — `Model/Kde`, `Model/Cdf`, `Model/Extract`: arange membership and length; C05 for the cumulative values; induction over the cells.. [proved: The density estimator of the library is an arbitrary non-negative function; arithmetic is exact. Periods that are a whole number of steps (the only use: 365 days, quarter-day steps); otherwise the table begins before day 1 (C113_periodic_uneven). A cell whose speeds or pressures differ by no more than a step ends the whole calibration. The bandwidth computed is only checked; the library chooses its own.]
* **C114** Densities of days and bearings are circular — `Model/Kde`: Terms of repetitions two or more periods away vanish.. [partial: Proved for days with kernels of finite width up to the period: three times the density of the repeated data equals the density with any number of repetitions, and the density column of the table written is that density. Refuted for kernels of infinite width (the default Gaussian): the density falls short of that of the circle and does not close at the end of the year. Refuted for bearings (for the estimator and for the table written), for generateGenesisDateCDF and for circularKDE.]
* **C115** Cyclones begin where the calibrated density is positive, in a calibrated cell — `Model/Kde`, `Model/Cdf`, `Model/Cells`: Row-major layout of a grid; C07 for the draw, C09 for the cell, C113 for the table.. [partial: Orientation, points and origins are proved for every domain wider than a step; that an origin is given a cell with tables, for all domains of whole degrees and cells. In domains on one side of the equator and of Greenwich it is the cell where the origin lies; in others it may be another one (C115_other_cell_fails), and if the western limit is no whole degree an origin can have no cell at all (C115_no_cell_fails). Coordinates are stored as 32-bit numbers in the code and exact here.]
* **C116** The hazard file holds at each place the fit to the winds there — `Model/HazardRun`, `Model/Tiles`, `Model/Dispatch`, `Model/GustFiles`, `Model/Evd`, `Model/HazardEvents`: Composition of C01, C02 and C21; the saved axes by the bounds of the grid.. [proved: Annual maxima: the composition of C01 (tiles), C02 (processes), C21 (annual maxima) and the fit of C23; the files of a year are recognised by name (C20), other files must not match. Other methods: the fit to all winds in ascending order; there must be no other files (C57). The winds are the numbers stored in the files; for the effect of storing them see C21_rounding and C124.]
* **C117** Return levels have the stated probability under the fitted distribution — `Model/HazardRun`, `Model/Evd`: Algebra of the quantile function; real powers and logarithms.. [proved: The distribution functions are written in the statement. The Pareto parameters are those of the library; its fit is not modelled.]
* **C118** Return periods count all simulated years — `Model/HazardRun`: Case analysis of the method; monotonicity of the empirical interval.. [partial: Holds for annual maxima. For the Pareto, empirical and power-law methods the years per simulation have no influence, although the number of events of a simulation is drawn for them: the periods are too short by that factor.]
* **C119** Levels come from enough observations — `Model/HazardRun`, `Model/Evd`: Case analysis of the method; a record with a single wind.. [partial: Holds for annual maxima. The empirical and power-law methods do not use the number; the Pareto method counts events without wind at the place.]
* **C120** Power-law levels increase with the period — `Model/HazardRun`: Monotonicity of real powers.. [partial: Proved exactly for answers of the library with factor and exponent of opposite signs (limit: positive factor); nothing in the code checks the answer, and for the same signs the levels fall.]
* **C121** Every track near the region gets its wind-field file, on any number of processes — `Model/WindRun`, `Model/Windfield`, `Model/Balanced`, `Model/GustFiles`: Composition of C03 (sharing), C17 (extremes) and C20 (names).. [proved: Bounded domain, margin and resolution in whole hundredths of a degree with the step dividing twice the margin (as in C17); directory empty at the beginning.]
* **C122** The wind at a place takes account of every storm position within the margin of it — `Model/WindRun`, `Model/Windfield`: C17, C18; a track east of the region.. [partial: Holds for positions inside the region. Positions outside it do not count, however near (timesInRegion has no margin): a storm passing any distance outside the boundary leaves zero wind in the whole region.]
* **C123** Without a configured region the wind field covers the track — `Model/WindRun`: Bounds of floor and ceiling; two tracks 20 degrees apart.. [partial: Holds for the first track of each process. Its domain is kept for all others: a track outside it gets zero wind, so the content of a file depends on the number of processes.]
* **C124** The hazard comes from the winds of all tracks simulated — `Model/WindRun`, `Model/HazardRun`, `Model/Windfield`, `Model/WindRunEvents`: Composition of C121 and C116; rows of the files in descending latitude.. [proved: For the tracks in the files of the wind-field stage, which begins with an empty directory. Rounding of the winds on storage (32-bit numbers) is covered by C124_tracks_to_hazard_stored and C124_tracks_to_hazard_events. The wind a position brings to a grid point is `contribution` (none for positions outside the region, C122).]
* **C125** A cyclone weakens over land in proportion to the time since landfall — `Model/TrackGen`, `Model/Landfall`: Invariant of the track loop: landfall state is that of the last position at sea.. [partial: The law holds with the total time over land since genesis: the time over land is not reset at sea, so a second landfall begins with the decay of the first. The rate can be negative for the variates that occur; then the cyclone deepens over land.]
* **C126** The pressure of a synthetic cyclone at sea stays above the floor of the observations — `Model/TrackGen`, `Model/Landfall`: Case analysis of a step; induction along the track.. [proved: Exact numbers.]
* **C127** The environmental pressure of a storm is that of the climatology at its day and position — `Model/Climate`: Arithmetic of the indices; wrap of scipy as contract.. [partial: True of longitudes. The theorems say exactly which day and latitude are read instead: the next day, a latitude up to two rows too far north, and with rows from the north the mirrored latitude. Interpolation is taken to be exact, so the errors are those of the coordinates alone.]
* **C128** Loading a best-track file keeps every record, in order, in the track it belongs to — `Model/LoadTrack`: The loaded tracks characterised by predicates on neighbouring records; induction on the file.. [proved: Markers are 0 or 1 and the first is 1. Jumps are as the program defines them (C38), hours rounded as it does (C71); elapsed time is C40. Exact numbers.]
* **C129** The wind estimated from pressure is sound — `Model/LoadTrack`, `Model/PressureWind`: Real analysis: bounds of the exponent and monotonicity of the power law.. [proved: Within the ranges of the hypotheses: deficit up to 215 hPa (|latitude| ≤ 60) for positivity, surplus up to 25 hPa, deficit up to 150 hPa and speed up to 10 m/s for monotonicity. Far outside them (centre 90 hPa above the environment) the formula gives wind again, which is proved too.]
* **C130** Shapefiles of tracks show every position and step — `Model/Shapes`: Elementwise characterisation of the features written.. [partial: True of points, records and categories of known pressures, and of tracks that do not cross the meridian where longitudes wrap. An eastward crossing loses a position of the dissolved line, a westward crossing draws a line round the globe, and a missing pressure (0) becomes category 5.]
* **C131** Smoothing a hazard map neither creates extremes nor loses wind — `Model/Smooth`: Weights positive, symmetric and summing to one; the reflected axis has every index twice in a period.. [partial: True of complete maps. Missing cells enter with their fill value, so every value within the smoothing length of one is too low. A smoothing length of 0 (resolutions above one degree) gives NaN and is excluded by the division in the model.]
* **C132** Data passed between stages as text comes back — `Model/TextFiles`: Writing and reading as functions on characters; splitting undoes joining by induction.. [partial: True of files with two rows or more and two columns or more (tables), and of one-column files of two or more entries. A file of one storm comes back without its first axis and taking its columns raises IndexError. Text is modelled character by character; exponents and binary rounding of numbers are not.]
* **C133** The empirical points of a hazard curve are those of the simulation — `Model/Plots`, `Model/Units`, `Model/Grid`: Order statistics of the sorted days; counting of the points above a level.. [partial: True of plots in m/s with one year per simulation. Other units convert the curve but not the points; with several years per simulation the periods are too short; the unit kmh changes the label only.]
* **C134** Contour levels of a map — `Model/Plots`: The decade by the integer logarithm; case analysis over the six steps.. [proved: Exact numbers; the refusal (IndexError) is stated as such. All callers in the program start from zero.]
* **C135** A storm uses the statistics of its own cell — `Model/CellStats`, `Model/Extract`, `Model/Acf`, `Model/Circular`, `Model/Cells`: Composition of C11, C12, C136 with a round trip through the reshaped file.. [proved: Proved for every cell number of the grid; for the cell of a position within the limits of C09. Land statistics come from sea observations when the domain has too few over land, as documented. The axes of the file are not checked on loading, and a domain of one cell fails; both are proved. Exact numbers (the file is in single precision).]
* **C136** Mean and spread of bearings respect the circle — `Model/Circular`: Polar form of the resultant; equality case of the triangle inequality.. [proved: Real arithmetic. Limits other than the default 0 and 2π (the only ones a caller uses) are covered by C136_units and C136_variance.]
* **C137** The distance stored for a track and a location is that of their closest approach — `Model/Closest`: Segment distance of GEOS as minimum over all fractions, induction on the course; convexity of cos of a square root for the comparison with the sphere.. [partial: Refuted: distances are measured in degrees in the plane and multiplied by 111.1251, so an east-west distance is overstated by 1/cos(latitude), and across Greenwich it is wrong. Proved: which rows there are and that each holds the planar minimum over the whole course; the true distance never exceeds the stored one by more than a millionth.]
* **C138** Simulating an event maps the wind field of that event — `Model/Event`, `Model/WindRun`, `Model/GustFiles`: Case analysis over the run; names of wind fields are injective (C20).. [partial: Refuted: the map never appears for a TCRM track file, nor for a table of several events or a BoM file of one event, as the name of the wind field is guessed wrongly; after an earlier event in the same directory its wind field is mapped again. Proved for a table of one event in a new directory: the map has exactly the cells of the grid within the region, with the values of the wind field of the event. Interpolation of the track is C91 to C95, the wind field itself C17.]
* **C139** Exporting a grid to text keeps every value at its place — `Model/TextGrid`, `Model/Grid`: Index arithmetic over lists; minimum of an arithmetic progression.. [partial: Refuted: files with descending latitudes, which all wind fields are, export upside down; cells that are not square are placed wrongly; exporting over an existing file raises. Proved for ascending latitudes and square cells, with the round trip of writing and reading. Printed precision is a parameter.]
* **C140** Each station's time series is plotted to its own image titled with its identifier — `Model/SeriesPlots`: Induction over the listing; laws of stripping.. [partial: Refuted: removing the extension and the prefix removes sets of characters, so identifiers ending in c, s, v or a full stop share images and titles lose leading letters t and s; a series of fewer than two records ends the plotting of the rest. Proved for identifiers without such letters at their ends; the image name is characterised exactly.]
* **C141** A dataset reported as downloaded is there and complete — `Model/Datasets`: Induction over the history with an invariant of the disk.. [partial: Refuted: a broken transfer, or a stop while writing, leaves a part of the dataset which all later attempts report as downloaded; zipped datasets are never unpacked, but an empty file counts as downloaded at the next attempt; two datasets whose addresses end alike share a file. Proved for all histories without stops in which the server is unreachable or sends everything; a file once there is never changed, in any history. The directory is assumed to be there and the size to be announced.]
* **C142** A setting left out takes a default that every stage accepts — `Model/Defaults`, `Model/Config`: Decision over the finite tables of settings lifted to all files by lookup lemmas.. [partial: Refuted: the default kernel is unknown to the calibration, as are all kernels named in its documentation; the years per simulation, optional for the tracks, have no default for the hazard and the evaluation; the database and the hazard plots need a section without defaults; formats of input data do not take the defaults of section Source. Proved exactly which settings are required by each stage, for all files whose own settings fit. The names of kernels of statsmodels and conversions of decimal texts are a contract.]
* **C143** A run that fails says so — `Model/Startup`, `Model/Pipeline`: Induction on the list of stages with a sorted-order characterisation of the prefix performed.. [partial: Refuted: without --debug every exception is caught, logged and swallowed, so the status is zero. Proved: exactly which stages are begun for every combination of endings, and that with --debug the status is zero iff all wanted stages ended regularly. One process; the stages are abstract.]
* **C144** The configuration file named on the command line is the one used — `Model/Startup`: Case analysis on paths; cancellation of common suffixes.. [partial: Refuted for tcrm.py: it changes to its own directory before reading, so a relative name means a file there: another file of that name is used silently, or an existing file is not found. Proved for absolute names or when started in that directory, and always for tcevent.py.]
* **C145** Processes of a run write different log files — `Model/Startup`: Appending a suffix without full stops or slashes commutes with splitext; decimal numerals are injective.. [proved: Paths are texts; directories that cannot be created and symbolic links are not modelled. `os.path.splitext` is modelled on characters.]
* **C146** Every synthetic track obeys the track model — `Model/TrackModel`, `Model/TrackGen`: States of the loop as a trajectory; invariants for position, age, hours over land, last step at sea, day and number of variates by induction; uniqueness by strong induction.. [proved: The model is stated in closed form (hours over land as a count, the coast as the last step at sea, the day modulo 365) in Spec/TrackModel. Exact arithmetic; exp, degrees, the movement on the sphere, the pressure field and the land mask are parameters; the code stores columns as float32.]
* **C147** Genesis conditions are drawn from the fitted distributions — `Model/TrackModel`, `Model/TrackGen`, `Model/Cdf`: Inversion of the sampling chain and of the rejection loop for the radius; loop invariant over attempts.. [proved: Tables are lists of rows; the sampler of origins and the calendar are parameters (the sampler is C07). Without prescribed values, as in every run.]
* **C148** The fitted extreme value distribution has the skewness of the record — `Model/LMoments`, `Model/Evd`, `Model/GevSkew`, `Model/GevNewton`, `Model/GevStart`, `Model/LogIntegral`: Integrals by the substitution u = exp(-t) and the Gamma function; the L-skewness decreases with the shape (secants of a convex function) and the approximations with the L-skewness (Bernstein form of a polynomial); on a grid of 722 points the shape and its L-skewness are enclosed by comparing powers of whole numbers in the kernel, and monotonicity covers the points between. Below -0.8: the ratio minus one decays with exponent between 0.58 and 0.6932, so one Newton step at least halves the error (mean value theorem), by induction over the iterations; starting values enclosed by a further table and by the exponential.. [proved: L-moments of the distribution are integrals of its quantile function, shape 0 (Gumbel) included. The hypothesis that 1 + L-skewness is at least 2^-1000 holds for every double above -1; closer to -1 the starting value, which uses a rounded logarithm of two, is too far off. Exact reals.]
* **C149** Sample L-moments of every order — `Model/LMoments`, `Model/LMomentsAll`: Three-term recurrence of the discrete Legendre polynomials, coefficient by coefficient; parity; pairing of the sum from both ends.. [proved: Exact reals.]
* **C150** Track files giving ages — `Model/Ages`, `Model/Dates`: Induction over the years of a date; finite table of the days of a year; rounding bounds.. [proved: Minutes are truncated after rounding to microseconds, so a step may differ from the exact one by up to 31 minutes; for whole hours it is exact. Every storm is dated from 1 January, so that the day of the year is not that of the storm. The later extraction of statistics does not accept ages (C109).]
* **C151** Time of day of the environmental pressure — `Model/Ages`, `Model/Climate`, `Model/Dates`: Rounding to sixteenths of a day; shift by whole days.. [partial: Refuted: the times are stored in single precision, whose spacing is an hour and a half for these day numbers, and without minutes. Exact at multiples of three hours, otherwise within half an hour of the hour.]
* **C152** Wind and pressure of a storm balance — `Model/Balance`, `Model/Profiles`, `Model/Pressure`: Derivative of the pressure profile, uniqueness of the non-negative root of the balance equation, monotonicity of x exp(-x).. [partial: Holds for Holland and Schloemer outside the radius of maximum wind, and for the double vortex north of the equator outside its core when the same second radius is given to both. Refuted at the radius of maximum wind (cubic core), on the equator, for the double vortex south of the equator, and for its default second radius, which is 150 m for the wind and 250 km for the pressure. Willoughby and Powell use different parameters for wind and pressure (C78); the other profiles have no pressure (C77).]
* **C153** Gridded data saved to a file come back — `Model/NcGrid`: Induction over dimensions and variables; look-up in lists with different names.. [partial: Round trip and refusals are proved. The last clause is refuted: the file is opened for writing, and emptied, before the arguments are checked. The netCDF library is taken to keep what is assigned; what it does with an array of another shape is a parameter; attributes other than the missing value, range and percentile are left out.]
* **C154** A hazard map shows the calculated level at each place, and nothing where there is none — `Model/NcGrid`: Composition of the saved file (C153) with reading, masking and slicing; index arithmetic for row-major arrays.. [proved: For maps without smoothing; what smoothing does to missing places is C131. Numbers are those of the file (single precision, a parameter). Unit conversion is C42. Drawing is not modelled. The longitudes of a region east of 180 degrees are drawn 360 degrees less, the same meridians.]
* **C155** The hazard file describes its contents — `Model/NcGrid`: As for C153, with the minimum and maximum of the array.. [partial: Levels and parameters are proved. Refuted: with any missing level the stated range starts at the missing value (-9999); the limits are labelled 95 and 5 whatever range is configured; and without confidence limits (they cannot be calculated at all, C61) the file has limits of 0 everywhere.]
* **C156** The hazard is calculated on the grid of the wind fields — `Model/WindDir`: Membership in the permuted folder; composition with C116 for the mirrored levels.. [partial: Proved without optional output. Refuted with it: the grid is taken from the first file listed. If that is a file of all time steps, whose latitudes run the other way, every level is saved with the latitude of another place (C156_mirrored_fails); if it is a raster of local winds, the stage fails. The annual maxima themselves are not disturbed.]
* **C157** The local winds of the wind-field stage use the configured multipliers — `Model/LocalWind`: Case analysis on the files opened; C51 for the choice of direction; induction over tracks.. [partial: Refuted: the configured file only gives the grid; the multipliers are read from the folder of the wind fields, into which nothing in the program puts them. Where they are not there the run ends with an exception after the first track. Proved: the product with the multiplier of the nearest direction in that folder. See C56 for the file written.]
* **C158** A storm is set up as described by its pressures, radius and maximum wind — `Model/Storms`: Case analysis on the unit; monotonicity of square root and power.. [partial: Proved for units, maximum wind and its monotonicity. Refuted: a maximum wind of 0 that is set is ignored, and the radius, documented in km, is taken in metres, the unit of the distances. The maximum of Atkinson for a central pressure above 1010 hPa (a complex number in Python) is left out.]
* **C159** The distribution function of the origins is that of the sampled origins — `Model/OriginCdf`: Position in a sorted table is equivalent to a comparison; tables from C05; files from C153.. [partial: Proved: north-east of the first grid point it is the probability of a strictly lower value, so between grid longitudes the distribution function. Refuted: at the first grid longitude or latitude and before it the value is 1 (index -1); at a sampled point it is below the variate that gave it; the conditional distribution is that of the column to the west; saving it raises after erasing an earlier file.]
* **C160** Sizes fitted to observations reproduce the observations — `Model/SizeFit`: Normal equations of least squares from minimality along lines; exact data force zero residuals.. [partial: Proved for observations that follow the form without a constant. Refuted: there is no constant in the fit; for observations with one a spread is reported where there is none, and the result in the place of the coefficients of the size model (as in the test of the project) shifts them by one.]
* **C161** Archived files are kept — `Model/Archive`: State machine over histories; names read from the end, the last two full stops.. [partial: Proved: effect of one call, names in the archive meet just if name and date are the same, and files stay in histories without such meetings. Refuted: two files of one name changed in the same minute replace one another with success reported; the date in the name cannot be turned off; without an archive folder files are moved into the current one.]
* **C162** Stations and locations are those of the location files — `Model/Places TextFiles Database`: Dictionary lemma (last writer, order of first insertion) by induction over the features; reading of text files from C132.. [partial: Proved: entries of a shape file by number and by key, values of a field, the location table (rows, numbering, longitudes, refusal), stations with distinct identifiers, text files of two or more lines. Refuted: of places with one identifier only the last is kept; an unknown identifier field gives numbers; a text file with one station raises; names in a text file become NaN; a changed location file has no effect once there is a table.]
* **C163** Local time series and tables for every station — `Model/LocalSeries Stations`: Invariant of the loop over the records: the inputs are unchanged, each path has what the last record wrote, tables grow by one row per record with a series; first columns by name.. [partial: Proved: exactly when a run completes; the local series of each station with a record (the last record counts); one row of each table per record with a series, first largest gust and first lowest pressure of the local series; original series kept always, other files kept; tables kept after an error; a second run changes nothing. Refuted: stations without a record in the Input location file are left out without an error; a station with two records has two rows in the tables, one of them not from its series; a record without numbers ends the run. (The module itself cannot be imported as it is: it takes shapefile from Utilities, where there is no such module. The theorems are about its functions.) How the factor belongs to the direction is C89.]
* **C164** Saved evaluation maps have each number at its place and under its name — `Model/EvalSave NcGrid Evaluate EvaluateStats`: Index calculation for transposed row-major arrays, composed with the theorems on counts, cells and gates and with the theorem on saved grids.. [partial: Proved from tracks to file for all four files: place, name and statistic of every number, and an error without a change of the file if results of the simulations are missing. Refuted: the density of genesis is labelled 'per year' but does not depend on years; the upper percentiles of crossings are labelled 90 but are the 95th; without results of the record save returns normally and an earlier file stays. In one process; on several see C108. Kernel density estimation is a parameter; units other than the two refuted, and the text files of minimum pressures, are not modelled.]
* **C165** The output folders are created without touching anything, and an interrupted creation is completed — `Model/Folders`: File system as a function from paths; extension as a preorder preserved by every step; possibility of creation is invariant under extension; step induction for schedules.. [partial: All parts are proved for a run with one process and, for tcrm.py, for any number of processes in any order. Refuted for several processes of tcevent.py (or two runs with the same output path): creation is not restricted to the first process, and the folder may appear between the test and its creation, which ends one of them with FileExistsError. Symbolic links and changes by other programs are not modelled; os.makedirs is modelled after the Python library.]
* **C166** Each column of the attribute tables of exported tracks holds the quantity it is named after — `Model/ShapeTable Dates Shapes`: Records as ordered lists of named values; the arrangement of the symbolic record is computed for each of the two array types and lifted to all tracks by Forall₂.. [partial: Proved for the tables of points and segments of observed and of netCDF tracks, and for the rows of whole observed tracks. Refuted: for whole tracks from netCDF files the row is that of the first record (age, pressure and category at genesis); formatJTWC.py writes the tables without categories; the functions of the same names in shptools.py do not remove the date, so that every column from the longitude on holds its left neighbour. Shapes are C130. How the shape-file library writes values as text (width, cutting of long numbers) is not modelled.]
* **C167** Dates are read as written in the configured format — `Model/DateText Dates`: regular expressions of strptime as ordered lists of matches; the first match of a written text by induction over the format; soundness by induction over all matches. [partial: Proved for the reading of texts in every format. Refuted for files: columns of digits that do not begin with the year lose leading zeros (1 February becomes 10 February), and data processing ignores the configured format and refuses files in another than the default one.]
* **C168** Dates given in separate columns — `Model/DateText DateColumns Dates`: decision logic; induction over storms and observations for the years. [partial: Refuted for files: the array that the reader returns raises ValueError for a missing column of dates, and parseDates expects KeyError. Proved for dictionaries of columns; without years the dates are those of 2000 or 2001, which have different Februaries (refuted).]
* **C169** Calibration and simulation agree on what is land — `Model/LandMask Grid CellStats TrackModel`: the sampled grid point by C68; composed with the theorems on cell statistics (C135) and on tracks (C146); induction over the calls for the time over land. [partial: The two stages agree with each other and with the mask for masks with ascending coordinates whose rows are stored from north to south, at positions from 0 to 360 degrees that the mask reaches; the grid point is the next one to the north-east, not the nearest (refuted), and a mask with rows in the order of its latitudes is mirrored (refuted). One observation beyond the mask ends the calibration. Positions exact; the process files have two decimals.]
* **C170** The scale bar of a map has the length that it shows — `Model/ScaleBar`: invariant of the binary search; termination by uniform continuity on the interval found by the exponential search; case analysis on the leading digit. [partial: Proved for maps at least 5 km wide on which the points tried reach the length: the bar is never shorter than its label and at most 1 % (and 10 nanometres) longer. Refuted for maps narrower than 4.75 km, which end with an error, and if no point is far enough the search does not end. Real numbers; the geodesic distance between points of the axes and the width of the map are parameters.]
* **C171** The plots of the input data show the data — `Model/StatPlots Rates`: induction over the storms of a column; irrationality of pi for the bearings. [partial: Proved: plots of speeds, bearings and rates of change never mix storms; minimum pressures are right but for the last observation of the data; steps are those of each storm. Refuted: the plot of pressure has a point mixing storms for each storm but the first; the last observation of the data is ignored in the minimum pressures; steps westwards across Greenwich are shown the long way round; the axis labels of the plots of successive steps are swapped; the plot of bearings treats degrees as radians, so that it is right only for storms moving due north. Drawing is not modelled.]
* **C172** Progress is reported as configured — `Model/Progress`: invariants of the mark of the last report over the sequence of updates. [partial: Proved: completion is reported, percentages are rounded down, an unreported update is less than five per cent ahead of a reported one, and below 99 per cent at most one line is written for five per cent. Refuted: the setting ProgressBar=False has no effect, because any text counts as true; from 99 per cent on every update is reported. Exact numbers.]
* **C173** The multipliers merged are those of the configured tiles — `Model/MultiplierTiles`: folds over tiles, kinds and directions; uniqueness of the last underscore of a name. [partial: Proved: which files are merged, for every working directory whose three folders are all there or all missing; files of earlier runs and merged files never enter; if no configured text begins the files of another tile, the files are those of the configured tiles. Refuted: a text that begins the name of another tile (or an empty text) brings that tile along; a folder missing beside shielding, or a working directory given without a slash at its end, stops the run; the tiles of the example configuration, which end with an underscore, are not found on S3. glob and shell special characters do not occur; gdal is a parameter.]
* **C174** Figures show everything that is in them — `Model/Figures`: rounding of quotients and square roots; floor and ceiling inequalities. [partial: Proved: the arrangement, the graticule (spacing, position, both edges), the curve within its axis, when the range is drawn and which colours are chosen. Refuted: a map between two even degrees has no line inside; the upper confidence limit may be outside the axis; a range missing for the first period is not drawn at all; levels that are all equal, or of a numpy type other than float64, are errors. Drawing itself is not modelled.]
* **C175** The impact of an event is calculated for each of its wind fields — `Model/Impact`, `Model/GustFiles`, `Model/Defaults`: induction over the files; the defaults as a table. [partial: Proved: the calls made, the files written, failures, and the decision by the switch. Refuted: a section with the exposure data alone does not start the calculation, since the defaults always have the section of actions; the switch without exposure data fails after the wind fields. hazimp is a parameter and writes nothing if it fails; the path has no characters special to glob.]
* **C176** The compiled interpolation of positions gives the same tracks as the Python code — `Model/AkimaC`, `Model/AkimaTracks`, `Model/AkimaSmooth`: induction over the passes of each loop; refinement to the cubic of the interval; calculus over the reals. [partial: Proved: when it succeeds, independence of the memory beyond the arrays (one element of which is read), observed positions, the curve as a continuously differentiable piecewise cubic with Akima's velocities, agreement with the Python code where the motion changes or is steady, and interpolated tracks. Refuted: at a turn between two steady motions the Python code takes the velocity before, the compiled code the mean; new times out of order give wrong positions even at observations; new times outside the observations are extrapolated instead of refused. No rounding.]
* **C177** Multipliers applied at the resolution of the wind fields — `Model/LowRes`, `Model/LocalWind`, `Model/Multipliers`: induction over the files and over the characters of paths; C51 for the directions. [partial: Refuted: the program never writes anything, as the check of the output folder asks for os.path.path, which does not exist; with that mended, nothing is written beside the wind fields if the path of the folder contains 'gust', and wind fields on another grid than the first get multipliers of other places. Proved for the rest of the program given a working check: the outputs, their names and values, that inputs are kept and outputs distinct. GDAL's reprojection is a parameter; no missing gusts, no rounding.]
* **C178** The fallback distribution of storm sizes — `Model/SizeTable`, `Model/Cdf`: change of variables to the normal density and its moment generating function; partial sums; C05 and C06. [partial: Density, all its moments, the table and sampling from it are proved. Refuted: the second parameter is the deviation of the logarithm, so that the sizes of the default configuration have a standard deviation of more than 20 km, not 0.5; and as the table ends at 119 km its mean is below every configured mean from 119 km on.]
* **C179** Reports on the event set average over all simulations — `Model/SimRates`, `Model/Evaluate`: Rows of nan are carried as `none`; the statistics of each column are computed, and the sums are exchanged by induction over the simulations.. [partial: Crossings and maps of pressure are as stated. A single simulation without landfall makes the mean of every gate nan (C179_landfall_fails), and one whose storms are all weaker than 1015 hPa or outside the region makes the whole distribution of minimum pressure nan (C179_minimum_partial). The rates of landfall are shares, unchanged if all storms occur twice (C179_rate_fails). One process; numpy's mean and sort with nan are modelled by their documentation.]
* **C180** The table of maximum winds belongs to its coordinates — `Model/WindTable`, `Model/Dispatch`, `Model/Units`: The protocol is that of C02, so the results received are a permutation of the combinations, and filling by index does not depend on their order.. [proved: The wind models are a parameter: C180 is about which arguments they are given, and which entry their maximum becomes. km/h become m/s with the factor 0.2777778 of C42. Messages as in C02 (buffered sends, in order between two processes). Exact reals.]
* **C181** The wind field calculation gets through for every margin and resolution — `Model/Binary64`, `Model/Windfield`: Rounding to nearest is monotone and exact on doubles, with an error of at most 2^-53 of the number; so products are cut to the right whole number or the next towards zero. The settings that fail are computed by the kernel, over complete lists.. [partial: Double precision is modelled as rounding to 53 binary digits, to nearest, ties to even, with unlimited exponent (C181_nearest). C181_exact ties the model to that of C18: without rounding it says whether the calculation of C18 gets through. The full statement is refuted (C181_margin_fails, C181_full_fails; C181_fails for every track with a position just north of a grid line).]
* **C182** The hazard is calculated for every grid point of the region — `Model/Binary64`, `Model/Tiles`: The saved coordinates keep their place in thousandths (the error of two roundings is below one half); the limits are cut to the right whole number or the next towards zero.. [partial: As C181 for double precision. Coordinates are doubles in the saved files. The full statement is refuted.]
* **C183** Interpolated tracks keep their observations in double precision — `Model/Times64`, `Model/Binary64`, `Model/TrackInterp`: The error of each of the five roundings is bounded by 2^-53 of the number, which gives a bound below 10^-6 hours; multiples of 45 minutes are 32nds of a day, which are doubles. The theorems of C92 hold for any increasing times starting at zero.. [partial: Double precision as in C181, for the times of the observations only: the new times are exact for whole hours and taken as exact in general, and the interpolated values are not rounded. The full statement is refuted by C183_pressure_fails.]
* **C184** A tile or file that cannot be processed ends the distributed calculation — `Model/DispatchFail`, `Model/Dispatch`: A failed worker is one that never sends its result, so that the invariant of C02 goes on to hold; the four facts added to it (nothing raised is sent or stored, a worker is stopped only when all is handed out) are invariants of every action.. [partial: As C02 for messages. Refuted by C184_never_ends_fails and C184_stuck_fails. Proved: no schedule goes on for ever, everything stored is right, runs without failure are those of C02. What MPI does when a process ends (finalisation waits for the others) is not modelled; a failure of the master is covered by C107.]
* **C185** Positions on the edge of a domain in double precision — `Model/Fuzzy`, `Model/DataProc`: The value is strictly monotone in the bit pattern and its range is the representable numbers, so counting representable numbers is subtraction of bit patterns; the extraction is that of C36 on the widened domain.. [proved: Doubles by bit pattern (sign and magnitude), with subnormal numbers; no infinities or NaN, no overflow. Representable numbers are specified without bit patterns.]
* **C186** Filling in a template — `Model/Template`: Substitution of one key maps the pieces of a template; induction over the values; lines can be treated together since no pattern contains a newline.. [partial: Holds for values without braces and backslashes, keys that are words and not numbers, and an output file other than the input. Otherwise: a value with a backslash (a Windows path) raises re.error or is changed (also when the template does not use it) and leaves an empty output; a value with a placeholder is filled in again depending on the order; a template filled in place is emptied without error. Octal escapes and \g<0> in values are not modelled.]
* **C187** Regular grids in double precision — `Model/Arange64 Binary64 Cells`: Rounded quotients of whole numbers keep their ceiling; error bounds of rounding; sums and products of short dyadic numbers are exact.. [partial: Limits in tenths of a degree can give a grid point on the eastern limit that should be excluded (100 to 100.2: three points); a step of 0.7 over 21 degrees gives 31 points; cells of a tenth of a degree are numbered in rows of 99 where there are 100 (Python's // on doubles), so the number of a position is that of a cell elsewhere. np.arange is modelled as numpy calculates it.]
* **C188** Times and dates of interpolated tracks — `Model/TrackDates Times64 Arange64 TrackInterp`: Error bounds of rounding for the times; day numbers are whole multiples of 2^-33 days, so the error at five-minute steps depends on the count modulo nine only.. [partial: The times are right (within a millionth of an hour), and the number of records too. The dates are right within a millisecond, but hour and minute are cut off, not rounded: for tracks that begin at midnight (1900 to 2039) four of nine records at five minutes are dated one minute early, and one o'clock becomes 00:59, because the part of the day is added to a day number counted from year 1 before the epoch is subtracted. At multiples of 45 minutes all is exact. matplotlib's num2date is a contract (rounding to microseconds, and to 20 microseconds far from 1970).]
* **C189** Summary of landfalls over the simulations — `Model/LandfallSummary Evaluate`: Grouping of rows by induction; permutations of the files.. [partial: Totals, rates and lowest pressures are complete and independent of the order of the files, if the gates are numbered from 0 in the order of the shape file. The summary is joined by position instead of the number of the gate: gates numbered from 1 are shown with the landfalls of their neighbour (refuted). The mean pressure is a mean of the means of simulations (refuted; right if all simulations have equally many landfalls). A single file without tracks stops it. Standard deviations and quantiles are not modelled.]
* **C190** Quantile plot of lowest pressures — `Model/QuantilePlot Evaluate`: Order statistics are monotone in the data (counting); percentiles as in C106; induction over tracks and files.. [proved: For a run on one processor. What is drawn is modelled, not the limits of the axes (850 to 1000 hPa), beyond which points are not visible. Random draws are arbitrary positions within the data.]
* **C191** Hazard curves show the events of the run that plots them — `Model/CurveRuns Database Grid`: Invariant of the database over the history; induction over runs, events and locations.. [partial: Holds for the first run in a folder that makes the database. Refuted otherwise: without a database plotting stops with an error (no such table) before the first curve; with the database of an earlier run the events of that one are plotted with the new levels; after updates in the same folder the events of all runs are plotted together. Maps, smoothing and the drawing itself are not modelled here.]
* **C192** Kepert's surface wind is that of the linear boundary layer — `Model/Boundary Compiled Profiles Ekman EkmanUnique EkmanHolland`: Explicit waves; complex algebra for the surface conditions; uniqueness by differentiating the energy under the integral; strict positivity of Holland's wind and vorticity.. [proved: Existence, uniqueness (energy argument) and the identity of the surface values. The condition on the vorticity is met by Holland's profile up to a shape parameter of 2 (C192_holland); C192_steep_fails shows a steeper storm where it is not and the program takes roots of negative numbers. At a resonance the program divides by zero. Exact reals; the speed the layer moves with is the program's own adjusted speed (C192_translation).]
* **C193** Vorticity of a sampled wind field is that of the field — `Model/WindCurl Profiles`: Case analysis of the stencil; mean value theorem; trigonometric identities and bounds.. [proved: Mean value theorem on both axes; solid rotation in closed form with an error bound. Winds and derivatives below 9e19 so that they are not taken for missing values. Exact reals. The spectral algorithms (package sphere) are not modelled; nothing else in the repository calls the module.]
* **C194** Coordinates of the grid around a storm are those of its points — `Model/Mesh Windfield`: Arithmetic of truncation and of floor division; closed form of both axes.. [partial: Holds if the resolution divides the width and the centre is given to a thousandth of a degree or is further than the margin from the equator and Greenwich (C194_points_partial). Otherwise it fails: a row and a column too many when the resolution does not divide the width (C194_extra_fails), and coordinates a thousandth of a degree off within the margin of the equator or Greenwich (C194_shift_fails; the case east or north of it). Exact rationals, not floats.]
* **C195** Durations in the log are the time that has passed — `Model/Timing`: Floor division; digits read back; uniqueness of what a text shows.. [proved: Exact numbers, not floats. The bar's durations are for times that are not negative. The words around the duration and the drawing of the bar are not modelled.]
* **C196** Every model of the wind can be selected by its name and gets its settings — `Model/Registry Selection`: Induction on the tree and on the list of arguments; finite tables by kernel evaluation.. [proved: Classes with several bases (found twice by the discovery, entered once in the dictionary) are not modelled. C196_profiles ties the table of C77 to the tree of classes, for every name.]
* **C197** Simulated rates, bearings and speeds have the mean, autocorrelation and spread of the calibration — `Model/Autoreg`: Moment generating function of the logistic variate by the beta integral and the reflection formula, differentiated three times; independence of the noise from the past; induction on the steps.. [partial: Mean (C197_mean_partial) and autocorrelation (C197_lag_partial) hold. The spread does not: the noise is a logistic variate of scale 1, whose variance is π²/3 and not 1 (C197_noise), so that the variance is π²/3·(1-∏α²) times the calibrated one (C197_spread), which exceeds it from the second step on for autocorrelations up to 0.9 (C197_spread_fails) and tends to more than three times it (C197_limit_fails). The speed is the modulus of such a value: C197_speed gives its mean square. The cells passed through are given (not random); bearings before they are wrapped to the circle; random numbers are exactly uniform and independent; exact reals.]
* **C198** Storms begin at the places and with the values at the frequencies estimated from the observations — `Model/Draws`: A table of the distribution function selects a position for an interval of numbers of the length of its probability; independence for the two numbers of an origin; strong law of large numbers for the shares.. [partial: Partial: where no tabulated pressure is below that of the surroundings, the pressure is drawn from the whole table (C198_pressure_fails_without_lower); all else is proved. About what is drawn; tracks that are discarded after the draw (see C14) are not accounted for. Random numbers are exactly uniform and independent, exact reals; the positions in the random sequence of the numbers used for storm k are given, not random.]
* **C199** The sizes of simulated storms have the fitted distribution — `Model/SizeDraw`: The events that the n-th number is the first to be accepted are disjoint; their probabilities form a geometric series. The integral of a centred normal variable over a lower tail is negative.. [partial: Drawing ends with probability one (C199_ends). The deviation kept has the distribution of a single draw given a radius of at most 100 km (C199_law_partial), hence not the fitted one: its mean is negative for every pressure deficit and latitude (C199_mean_fails), and it is used for the whole life of the storm, not only for its beginning. Random numbers are exactly normal and independent, exact reals.]
* **C200** Sample L-moments are unbiased — `Model/Unbiased`: The sum over the sorted sample is a sum over the sample with ranks; a binomial coefficient of the rank counts the sets of smaller values; the expected value for each set by independence and Fubini.. [proved: Exact reals; random numbers exactly uniform and independent, values by the quantile function. The numbers returned from the third on are ratios; the theorem says of their numerators that they are unbiased (a ratio of unbiased statistics is not unbiased). C200_fit speaks of the cells at which a distribution with shape above -1 and not 0 is reported.]
* **C201** As many storms are simulated as the annual frequency says — `Model/Counts`: Product of probabilities of independent counts; Poisson sums by induction; rejected tracks are replaced (C14, C53), so the files hold what was drawn; strong law of large numbers.. [proved: Numbers from numpy's generator are exactly Poisson and independent (contract). C201_drawn and C201_frequency speak of runs that succeed on every process (C53, C14 say when they do not).]
* **C202** Random variates have the distribution their name says — `Model/Variates`: Each event is the event that the uniform number is at most the distribution function at the bound.. [partial: Distributions are proved for exact reals and an exact inverse normal distribution function. Not always defined: the generator delivers numbers from 0 (included) to 1 (excluded), and 0 raises an exception in the logistic variate (C202_zero_fails).]
* **C203** Longer simulations give better hazard estimates — `Lemmas/Consistent`, `Model/Unbiased`: The ranks of the random numbers are spread evenly (uniformly in the number, from the law of large numbers at rational points), the weights of the sample moments approach powers of the relative rank, and the law of large numbers gives the limit of the sum of values weighted by powers.. [partial: Proved for the moments of all orders without restriction (C203_three, C203_all). The fitted distribution gets the L-skewness only to within 0.005 and, for shapes that the fit rounds to 0, the mean to within a thousandth of the L-scale (C203_fit_partial). Return levels are reported if the L-skewness is between -0.8 and 0.1698 (C203_reported), but above 0.17 none is, however long the simulation, with probability one (C203_skewed_fails).]
* **C204** Chance of an exceedance within a year — `Spec/Annual`, `Model/GustFiles`: The annual maximum is at most v exactly if all storms of the year are (C21); summed over the numbers of storms this is the exponential series. Years depend on disjoint sets of independent quantities; the strong law of large numbers gives the share.. [proved: Storms are assumed independent of each other and of their numbers, and identically distributed; the numbers have the Poisson distribution (C201). Wind speeds are exact reals (C21_rounding covers the rounding on storing).]
* **C205** From storms to the fitted hazard — `Spec/AnnualFit`, `Spec/Annual`, `Model/GustFiles`, `Model/Evd`: Order statistics are measurable functions of the sequence, so that 'the sample L-moments converge' is an event. The years are blocks of independent quantities, the annual maxima independent with the distribution of Q of a uniform number; what is almost surely true of Q at independent uniform numbers (C203) is therefore almost surely true of the annual maxima.. [partial: Partial: the fitted distribution matches only to within the tolerances of the fit (a thousandth of the L-scale for the mean, 0.005 for the L-skewness; see C148), and where the annual maxima have an L-skewness above 0.17 no return level is reported however long the simulation (C205_skewed_fails): so, for example, where a year without storms has the probability 0.81 and winds of 30 and 60 are equally likely. Between 0.1698 and 0.17 nothing is claimed. Storms are independent and identically distributed, their numbers Poisson.]
* **C206** Colours on the map of tracks — `Model/TrackMap`: List lemmas on zip, dropLast and tail; the colour index in closed form by counting bounds, then all six intervals.. [partial: Partial: lines and colours are proved, but 'No data' is the label of all wind speeds below category 1, and a line whose wind speed is missing gets none of the legend's colours (C206_missing_fails). What LineCollection, BoundaryNorm and ListedColormap do is taken from the documentation of matplotlib; the map projection is a parameter.]
* **C207** The download stage fetches the listed datasets — `Model/DataDownload`: Induction over the names (registering) and over the registered datasets (fetching), with the lemmas of C141 for one download.. [partial: Partial: names must be separated by commas only; with a blank after a comma the section is not found and nothing is fetched (C207_blank_fails). Two datasets with the same place share a file (C141). The settings are a parameter (C27 models the parser); exceptions and sys.exit(1) are one outcome.]
* **C208** Bounds that make cells evenly spaced — `Model/StatRange`: The points of np.arange from C187; the last one before the end plus one step is the first that reaches it.. [partial: Partial: for bounds and steps with few binary digits; in tenths of a degree the bound can be a step too far (C208_tenths_fail), and a step lost in rounding ends in an IndexError (C208_small_step_fails). np.arange is the model of C187.]
* **C209** Polygons written to a shape file keep their rings — `Model/RingFile`: Induction over the rings: cutting the concatenation at the starts gives every ring without its last point, which closing restores.. [partial: Partial: for rings that are closed (end with their first point), as the format requires; the last point of an open ring is lost if the polygon has another ring, and kept if it has not (C209_open_fails). What pyshp does with the parts (closing them) is taken from its source.]
* **C210** Tiles of raw multipliers fetched from remote storage — `Model/RawTiles`: Transition system of the threads; an invariant relating the files fetched and those left; a variant for termination.. [partial: Partial: if all files can be fetched they all are, in every schedule, and every schedule ends; but an exception in a thread is not seen by the program, which goes on without the tile and those after it (C210_silent_fails). That the storage is read correctly is a contract; where the files are read from is C81.]
* **C211** The grid over a domain covers it, and its coordinates are those of its points — `Model/DomainMesh`: Closed form of both axes by integer division; cover by the floor of the offset.. [partial: Partial: the points and their cover of the domain are proved in general, the agreement of coordinates and points if the resolution divides the size of the domain with its margins; otherwise there is a column of coordinates without points (C211_extra_fails). Numbers are exact; the distances and bearings themselves are C97.]
* **C212** Local wind with input and output in remote storage — `Model/RemoteRun`: Case analysis of the run; induction over the uploads with the part done so far.. [partial: Partial: proved but for the last sentence: a gust file is fetched into the working directory before that is made, so with a new local (or configured temporary) directory the run fails (C212_directory_fails). The storage client and the calculation are parameters; the multipliers fetched are C210, the calculation C51 and C79.]
* **C213** The script that collects multipliers merges those of the configured tiles — `Model/TileScript`: Induction over the history of runs, with the contents of the folders that match a direction as the invariant; the copying and merging are those of C173.. [partial: Partial: what is merged in every history is proved (C213_merged), and that it is right for the first run with a new folder and texts that match one tile each (C213_first_partial). The folders are never cleaned, so every later run also merges the tiles of the earlier ones (C213_earlier_fails), and folders that are only partly there stop the run (C213_folders, C213_missing_fails). The translation and merging programs are external.]
* **C214** The seasonal mean of the sea level pressure — `Model/SeasonalPressure`: The sum over the list of distinct months as a sum over a finite set; induction over the axis for the search.. [partial: Partial: the mean over the set of months is proved. The rows are reversed but the latitudes are not (C214_mean), so that a sample is taken at the mirrored latitude, and always to the west of the place, not at the nearest point (C214_sample, C214_nearest_fails; right latitude only for mirrored values, C214_sample_partial); west of the first longitude the last one is used (C214_edge_fails). Months 0 to -11 count from the end (C214_refused, C214_month_zero_fails), no months give nan (C214_no_month_fails). Sampling is modelled for increasing axes only; exact arithmetic.]
* **C215** The table of events lists the wind fields of the folder — `Model/EventTable`: Induction over the sorted list of files and over the rows inserted.. [partial: Partial: proved but for the last sentence. A second call always fails, as the numbers begin at 0 again (C215_again_fails), and a call that fails after some rows leaves them in the open transaction, for the next commit to keep (C215_leftover_fails); the committed table is not changed by the failed call itself (C215_committed_partial). SQL by its meaning; dates, versions and the track file are left out.]
* **C216** Cyclones fill over land — `Model/LandDecay`: Monotonicity of the exponential function; induction over the steps.. [partial: Partial: the random term is normal and may make the rate negative; then the cyclone becomes more intense over land (C216_fills says exactly when, C216_deepens_fails). The method has no caller in the repository; C216_run and C216_twice are for calls at each step, where the time over land counts again at every step. Exact real arithmetic; the random term is a parameter.]
* **C217** Positions of the best track files are read in degrees — `Model/JtwcPosition`: Induction over the letters at both ends of the text; arithmetic.. [partial: Partial: the meridian of Greenwich is read as 0 when written as east and as 360 when written as west (C217_longitude_fails_at_zero_west). Python's float is a parameter; the reading of the columns by numpy and the rest of the script are not modelled. Texts that consist of letters only are left out. Exact rationals.]
* **C218** Annual probability of a return period — `Model/AnnualProb`: The Poisson measure of Mathlib; inequalities of the exponential function.. [proved: Exact reals; single numbers, not arrays. Negative return periods are not refused (C218_refused). The function has no caller in the repository.]
* **C219** Latitude bands of the UTM grid — `Model/UtmBand`: Case distinction over the bands; the number of the band is a whole part.. [partial: Partial: the letter Z is after N, so south of 80 degrees south the letter is that of the northern hemisphere (C219_hemisphere_fails); all else is proved. The conversion itself is not modelled: it takes the name of a type for the longitude and always raises TypeError.]

## Modelled parts

Lines of `/repo` cited by the model, by file (of comments in the Lean sources, counted by `tools/coverage.py`).

| file | lines | lines cited | model modules |
|---|---|---|---|
| `DataProcess/CalcFrequency.py` | 102 | 44 | DataProc, TextFiles |
| `DataProcess/CalcTrackDomain.py` | 145 | 51 | DataProc, Defaults, Rerun |
| `DataProcess/DataProcess.py` | 866 | 682 | DataProc, DateText, Dates, Defaults, Fuzzy, LandMask, Rates, Rerun, Seasons, TextFiles |
| `Evaluate/genesisDensity.py` | 483 | 274 | Defaults, EvalSave, Evaluate, Pipeline |
| `Evaluate/interpolateTracks.py` | 347 | 242 | Event, Pipeline, Times64, TrackDates, TrackInterp |
| `Evaluate/landfallIntensity.py` | 344 | 155 | Evaluate, LandfallSummary |
| `Evaluate/landfallRates.py` | 301 | 122 | Defaults, Evaluate, Pipeline, SimRates |
| `Evaluate/locationLandfallIntensity.py` | 388 | 17 | Evaluate |
| `Evaluate/longitudeCrossing.py` | 525 | 381 | Defaults, EvalSave, Evaluate, Pipeline, SimRates |
| `Evaluate/pressureDistribution.py` | 584 | 318 | Defaults, EvalSave, Evaluate, Pipeline, QuantilePlot, SimRates |
| `Evaluate/trackDensity.py` | 375 | 236 | Defaults, EvalSave, Evaluate, Pipeline |
| `Evaluate/windFieldValidation.py` | 276 | 156 | Mesh, WindTable |
| `MSLP/mslp_seasonal_clim.py` | 128 | 34 | SeasonalPressure |
| `PlotInterface/AutoPlotHazard.py` | 258 | 171 | CurveRuns, Defaults, NcGrid, Plots |
| `PlotInterface/curves.py` | 643 | 42 | Figures, Plots |
| `PlotInterface/figures.py` | 495 | 37 | Figures, QuantilePlot |
| `PlotInterface/maps.py` | 692 | 132 | Figures, Plots, ScaleBar |
| `PlotInterface/plotStats.py` | 404 | 72 | StatPlots |
| `PlotInterface/plotTimeseries.py` | 125 | 44 | SeriesPlots |
| `PlotInterface/scalebar.py` | 208 | 172 | ScaleBar |
| `PlotInterface/tracks.py` | 187 | 64 | TrackMap |
| `PressureInterface/pressureProfile.f90` | 25 | 25 | Pressure |
| `PressureInterface/pressureProfile.py` | 263 | 118 | Pressure, Selection |
| `ProcessMultipliers/lowResProcessMultipliers.py` | 182 | 107 | LowRes |
| `ProcessMultipliers/processMultipliers.py` | 1249 | 715 | GustFiles, LocalWind, MultiplierFiles, MultiplierTiles, Multipliers, RawTiles, RemoteRun, Timing, WindDir |
| `StatInterface/GenerateDistributions.py` | 430 | 155 | Extract, Kde |
| `StatInterface/KDEOrigin.py` | 261 | 94 | Arange64, Kde, OriginCdf, Rerun, TextFiles |
| `StatInterface/KDEParameters.py` | 322 | 179 | Defaults, Kde |
| `StatInterface/SamplingOrigin.py` | 251 | 129 | Cdf, OriginCdf |
| `StatInterface/SamplingParameters.py` | 137 | 31 | Cdf |
| `StatInterface/StatInterface.py` | 279 | 216 | CellStats, Defaults, Rerun |
| `StatInterface/circularKDE.py` | 50 | 13 | Kde |
| `StatInterface/generateStats.py` | 483 | 328 | Acf, CellStats, Extract, LandMask |
| `TrackGenerator/TrackGenerator.py` | 1896 | 978 | Autoreg, Balanced, Cdf, CellStats, Climate, Counts, Defaults, Draws, Kde, Pipeline, Rerun, SizeDraw, SizeTable, Sphere, TrackGen |
| `TrackGenerator/trackLandfall.py` | 119 | 60 | Defaults, LandDecay, LandMask |
| `TrackGenerator/trackSize.py` | 93 | 72 | SizeFit, TrackGen |
| `Utilities/AsyncRun.py` | 57 | 2 | RawTiles |
| `Utilities/Intersections.py` | 353 | 295 | Geometry |
| `Utilities/akima.py` | 190 | 119 | Akima, AkimaC |
| `Utilities/columns.py` | 53 | 6 | DateText, Defaults |
| `Utilities/config.py` | 382 | 341 | Config, DateText, Defaults, Startup |
| `Utilities/datasets.py` | 143 | 103 | DataDownload, Datasets |
| `Utilities/dynarray.py` | 58 | 36 | DynArray |
| `Utilities/files.py` | 320 | 123 | Archive, Register, Startup, TextFiles |
| `Utilities/formatJTWC.py` | 80 | 13 | JtwcPosition |
| `Utilities/get_multipliers.py` | 237 | 96 | MultiplierFiles, TileScript |
| `Utilities/grid.py` | 269 | 193 | Grid, Kde, TextGrid |
| `Utilities/interp3d.py` | 104 | 50 | Climate |
| `Utilities/lat_long_UTM_conversion.py` | 288 | 28 | UtmBand |
| `Utilities/lmomentFit.py` | 360 | 312 | LMoments |
| `Utilities/loadData.py` | 966 | 726 | Ages, Climate, DataProc, DateText, Dates, Event, LoadTrack, ShapeTable, TrackGen |
| `Utilities/maputils.f90` | 65 | 65 | Compiled |
| `Utilities/maputils.py` | 753 | 509 | Angles, Binary64, Compiled, DomainMesh, Grid, Mesh, Sphere, TrackInterp, Windfield |
| `Utilities/metutils.py` | 554 | 465 | Humidity, Profiles, Units |
| `Utilities/nc2txt.py` | 107 | 27 | TextGrid |
| `Utilities/nctools.py` | 395 | 288 | GustFiles, NcGrid |
| `Utilities/parallel.py` | 133 | 16 | Folders, Pipeline |
| `Utilities/process.py` | 311 | 280 | Archive, Register |
| `Utilities/progressbar.py` | 88 | 41 | Progress, Timing |
| `Utilities/shptools.py` | 534 | 320 | Places, RingFile, ShapeTable, Shapes |
| `Utilities/smooth.py` | 45 | 28 | Smooth |
| `Utilities/stats.py` | 338 | 223 | AnnualProb, Arange64, Cdf, Cells, Circular, Extract, Fuzzy, Kde, SizeTable, StatRange |
| `Utilities/tcrandom.py` | 118 | 90 | Autoreg, Draws, TrackGen, Variates |
| `Utilities/template.py` | 47 | 35 | Template |
| `Utilities/timeseries.py` | 300 | 192 | Places, SeriesPlots, Stations |
| `Utilities/track.py` | 471 | 363 | Closest, Evaluate, ShapeTable, TrackFiles |
| `Utilities/tracks2shp.py` | 416 | 225 | ShapeTable, Shapes |
| `Utilities/tsmultipliers.py` | 257 | 150 | LocalSeries, Stations |
| `Utilities/vorticity.py` | 801 | 291 | WindCurl |
| `database/__init__.py` | 818 | 594 | Closest, CurveRuns, Database, Defaults, Dispatch, DispatchFail, EventTable, Pipeline, Places, Timing |
| `database/definitions.py` | 74 | 33 | Database, Places |
| `database/queries.py` | 250 | 221 | Database, EventTable, Timing |
| `hazard/GPD.py` | 124 | 95 | Evd |
| `hazard/__init__.py` | 1035 | 720 | Binary64, Defaults, Dispatch, DispatchFail, Evd, GustFiles, HazardOutput, HazardRun, NcGrid, Pipeline, Tiles, WindDir |
| `hazard/evd.py` | 550 | 278 | Evd, HazardRun, LMoments, Registry |
| `impact/__init__.py` | 77 | 40 | Impact |
| `tcevent.py` | 286 | 184 | Event, Folders, Impact, Progress, Startup, Timing |
| `tcrm.py` | 662 | 374 | CurveRuns, DataDownload, Defaults, DispatchFail, Folders, Pipeline, Progress, Rerun, Startup, StatPlots, Timing |
| `wind/__init__.py` | 983 | 648 | Balanced, Binary64, Boundary, Defaults, Event, GustFiles, LocalWind, Pipeline, Registry, Rerun, Selection, Stations, WindDir, WindRun, Windfield |
| `wind/vmax.py` | 142 | 82 | Vmax |
| `wind/windmodels.f90` | 209 | 205 | Compiled |
| `wind/windmodels.py` | 1221 | 1135 | Boundary, Compiled, Defaults, Pressure, Profiles, Registry, Selection, Storms |
| `wind/writer.py` | 129 | 87 | Foliation, WindDir |

Not modelled: plotting (`PlotInterface`, apart from what is in the table), the graphical tool, logging, progress bars, command line parsing, download of
data sets, reading and writing of the netCDF, shapefile, GDAL and SQLite formats themselves (their contracts are stated
where they are used), random number generation (variates are arbitrary parameters), floating-point rounding
(except in `Model/Binary64`, `Model/Times64`, `Model/Fuzzy`, `Model/Arange64` and `Model/TrackDates`, which round to 53 binary digits), and the
files of `/repo` that are not in the table.

## Findings

Places where the code does not have the property one would expect. Those marked with a property are proved (theorems
`…_fails…`, `…_counterexample` and the like); the others were seen while reading and are not modelled.

*Hazard.* Cells without any wind are fitted as 0 instead of being marked missing (C60). The empirical fit refuses the
period equal to the number of simulated years unless that is a multiple of four (C59). The confidence intervals always
end in a TypeError (C61). Any file without `vmax` in the wind field directory stops the calculation (C57).

*Configuration.* A path that exists but cannot be opened is accepted and blocks later reads (C26). A list default is
replaced by None, a dictionary default admits any type, and capitals in an option name bypass the formatter (C27).

*Register of processed files.* A name with the separator corrupts the register (C28); an interrupted write makes it
unreadable for all later runs (C62); deleting it returns 0 and keeps the entries in memory (C63).

*Track generation.* The tracks of a simulation depend on the division over ranks (C04); the environmental pressure of
the first candidate is used for all tracks of a call and prescribed zeros are ignored (C15); streams of different seeds
coincide (C16); one simulation is a division by zero (C53); the lowest pressure index can be −1 (C54); radii from a file
or prescribed cannot be used (C55).

*Wind fields.* The local field and the window have different shapes unless the resolution divides twice the margin
(C18); combined tracks keep bearing and components of the first track (C19); torn files count as complete if readable,
and the grid limit is taken from the first track computed (C22); one file name is used for the local wind of all tracks
(C56).

*Profiles.* The core of the Holland profile has a step at the radius of maximum wind and exceeds the maximum; the double
vortex grows without bound south of the equator and its core has another curvature than its outer part; the profile of
2010 exceeds 1000 m/s with its default radius of gales (C47); vorticities of the outer Holland, Jelesnianski, Rankine
and double profiles are wrong (C74); interpreted and compiled code differ on the equator and for steep profiles (C75); Hubbert's
asymmetry is reversed in the northern hemisphere and the configured angle is converted to radians three times (C76);
`jelesnianski` and `doubleHolland` cannot be selected (C77); pressure and wind of powell and willoughby use different
shapes (C78), that of willoughby can be negative, so that pressure falls with radius (C48); jumps in the surface wind
reduction and the inflow angle (C49); atkinson is not invertible unless the environmental pressure is 1010 hPa (C46).

*Geometry.* Tangents are never reported (C30), the winding number never counts downward crossings (C31), a line always
intersects a polygon and a list of polygons loses its last edge (C64).

*Input data.* The track domain does not cover tracks after they leave (C34); the last year is not counted (C35); records
before the first mark are lost (C37); jumps west or south never split a track, a step west over 0° always does (C38);
rates after a missing radius are garbage and negative speeds are kept (C39); elapsed time does not restart at split
tracks, day numbers are wrong before 1900 and in centuries (C40); times before 01:00 in hhmm are misread (C70); steps are
rounded to hours (C71); the outer pressure is computed from missing pressures (C72). Not modelled: an input with a usable
`age` column ends in an UnboundLocalError (DataProcess.py L348); season filtering after marking can merge tracks (L227-235).

*Track files.* Other time units than the default are not stated in the file, fractions of seconds are lost, and an
empty list leaves an older file (C32); a second save fails (C67); one bad line of a csv file loses the whole file (C65).

*Grids.* Out of range on a descending axis the farthest index is returned (C33); sampling takes the next point instead
of the nearest, and wrong ones for ascii grids and western longitudes (C68).

*Units and humidity.* Unknown pairs of units are returned unchanged, Kelvin is 273, F→C changes the argument (C42);
wet bulb conversions mix hPa and kPa (C43).

*Multipliers.* The worker pool can hang (C50); a bearing rounded to 360 gets no multiplier (C51); the directly computed
local wind is a mirror image (C79); missing topography or shielding counts as 1 (C80); rasters with south at the top or
without overlap give an empty extent silently (C82). Failed downloads in threads go unnoticed (C210).

*Database.* `locationPassage` mixes the winds of all locations, `locationReturnPeriodEvents` raises IndexError without
level (C52); a second update duplicates everything but keeps the old events (C83); any other file in the wind field
directory ends the update (C84); no locations are found in domains with negative longitudes (C85).

*Time series.* In parallel and resumed runs the series lack the tracks of the other processes or of the earlier run
(C88); the multipliers are applied with interchanged weights, a north wind gets the multiplier of north-east (C89);
stations just outside the local grid record no wind where the gust field has some (C87); stations of csv files in
western longitudes record nothing, while those of shape files do (C86); the coordinates in the file of all wind fields
are wrong unless the resolution divides the domain (C90).

*Interpolated tracks.* Unless the time step divides the duration the final step is longer (up to twice), and the forward
speed of the last two records is wrong; a step longer than the track loses its start (C92, C94); on tracks of four or more
observations the pressure of the last record is that of the one before, and with three
observations one missing pressure hides the interpolated ones (C95); tracks across 0° go round the world (C93).
Not modelled: a track without `Datetime` or `Speed` column raises instead of taking the other branch (`hasattr` only
catches AttributeError).

*Positions on the sphere.* Steps by bearing and distance are exact on the sphere except from a pole, where the bearing is
ignored (C96). The bearings and lengths extracted from tracks use the parallel of the end point: walking a leg backwards
gives another length, a leg across the meridian where longitudes restart is measured around the world, and a generated
step is not measured with the length it was generated with (C98). `dist2GC` interchanges latitudes and longitudes, takes
degrees for radians and fails for grids of three or more latitudes (C99).
*Evaluation of tracks.* If the grid spacing does not divide the domain, positions beyond the last edge are in no cell (C100).
Historic rates divide by the last year minus the first one, which is one year too few; a record of a single year is
divided by zero (C101). A record on the last edge is in the density maps but not in the pressure maps (C102). Crossings of
meridians are normalised, so that the number of tracks does not matter although the result is labelled as a number per
year; a record on the meridian is counted twice (C103). Landfalls across the last two sides of the gates are never recorded
(C104). The landfalls of category `c` are stored in the column of category `c + 1`, those of category 5 in none; a record on
the gate is missed; `locationLandfallIntensity` fails as soon as a leg crosses an area (C105). The branches of these modules
for several processes use the buffer methods `Send` and `Recv` with strings and tuples, and misspelt names; they are not modelled.
*The main program.* A failure on one of several processes is logged and ends that process only; all others wait at the next
barrier for ever (C107). The evaluation of longitude crossings on two or more processes always ends in a deadlock: `historic` runs on the
first process only but contains a barrier, so that the workers have passed the next barrier and wait for work while the
first process waits for them at it (C108). The parallel branches of all five evaluations fail if there are fewer track files than workers (C108).
*Files between the stages.* With `Format=nc`, which `DataProcess` announces to support, data processing fails on every input (`origin_year` is defined for `txt`
only); with the column `age` it fails on every input (`year` and `jdays` are not defined); the plots of the data fail if all records are of one year (C109).
A run in a directory used before takes over: the distribution of radii of an earlier run, although the model of radii is asked for; radii of an earlier input;
annual frequencies in the plots; track files of higher numbers; and every finished wind field of the same simulation and track number, whatever the new tracks are (C110).
A track that begins before the first season selected and goes on into it is joined to the track before it (C111).
*Calibration by kernel densities.* A cell whose observations differ by no more than one step ends the calibration of all cells with `ValueError` (C113). The bandwidth computed
in `generateKDE` is checked but not handed to the estimator. Bearings are treated as points on a line: bearings just west of north give no density just east of it, while days do reach over the
new year; `generateGenesisDateCDF` ignores the days it is given; `circularKDE` adds to uninitialised memory (C114).
*Years per simulation.* The hazard from annual maxima allows for simulations of several years; the Pareto, empirical and power-law methods count each simulation as one year (C118). They also ignore the least number of records or count
events without wind as records (C119), and the power law uses whatever parameters the library finds, also ones for which levels fall with the period (C120). The classes of `hazard/evd.py` (`EVFUNCS`) cannot be used: `nodata` and `intervals` are not defined there; nothing calls them.
*Storms passing outside the region.* Tracks within the margin of the region are chosen, but only positions inside the region itself are used for the wind field (`timesInRegion` has no margin), so a storm that passes a hundredth of a degree outside it leaves no wind
inside (C122). Without a configured region all tracks of a process get the domain of its first track; those outside it have no wind, and which they are depends on the number of processes (C123).
*Landfall.* The time over land is never reset when a cyclone returns to sea, so at a second landfall the deficit drops at once by the decay of all earlier time ashore; and the random part of the filling rate can exceed the rest, which makes cyclones deepen over land (C125).
*Environmental pressure.* The climatology is read one day late, displaced in latitude, and, in the files the configuration names (rows from the north), in the other hemisphere (C127).
*Shapefiles.* A dissolved track that crosses 0°E eastward loses the position before the crossing; one that crosses westward is drawn round the globe; positions without a pressure become category 5 (C130).
*Smoothed hazard maps.* Missing cells are smoothed with their fill value, so wind speeds near them are far too low (C131).
*Files of one storm.* A data set with a single genesis position is read back as a vector, and calibration stops with an IndexError (C132).
*Hazard curves.* The points for simulated events stay in m/s whatever the plot units, ignore YearsPerSimulation, and the unit kmh only changes the label (C133).
*Domains of one cell.* Calibration fails on a grid of one cell (plots use one column too few), and the plots never show cell 0; a statistics file of another grid is accepted silently (C135).
*Distances in degrees.* The closest approach of tracks to locations is measured in degrees in the plane and then scaled, so east-west distances are too large by 1/cos(latitude), and wrong across Greenwich; queries by distance miss events (C137).
*Maps of single events.* The event simulation guesses the name of the wind field to map: for an event taken from a TCRM track file the guess never exists, for several events it does not exist either, and after an earlier event the old wind field is kept and mapped (C138). The failure is logged and the program still ends with status 0.
*Text exports.* The export of gridded files to text flips the rows although the files already begin in the north, so exported wind fields are upside down; it takes one cell size for both directions, and it cannot replace an existing file because of a removed builtin (C139).
*Plots of time series.* Extensions are removed with `rstrip('.csv')` and prefixes with `lstrip('ts.')`, which remove sets of characters: the plots of stations such as Cairns and Cairn overwrite each other (C140).
*Downloads of input data.* A dataset counts as downloaded as soon as its file exists: after a broken transfer, a stop of the program or the failure that every zipped dataset causes, a partial or empty file is used for good (C141).
*Defaults.* The default `kdeType=Gaussian` is not a name the calibration accepts, nor are the documented kernels; the example configuration leaves it out. `YearsPerSimulation` is optional for track generation but has no default for the hazard and evaluation stages; `[Process]` has no defaults but the database needs it (C142).
*Exit status.* Without `--debug`, `tcrm.py` and `tcevent.py` end with status 0 after any exception in a stage (C143).
*Relative configuration names.* `tcrm.py` changes to its own directory before it reads the file named by `-c`, so a relative name given elsewhere picks up another file or none; `tcevent.py` reads first (C144).
The climatological environmental pressure is looked up with single precision day numbers, so that 01:00 and 02:59 both use 01:30.
The second radius of the double vortex is 150 metres for the wind unless given (the documentation says 250 km) and 250 km for the pressure, so that the two do not balance.
ncSaveGrid empties an existing file before it checks its arguments, so a refused request destroys the earlier results.
The hazard file's actual_range includes the missing value, the percentile attributes are fixed, and uncalculated confidence limits are stored as 0 rather than missing.
setDomain takes the grid from the first file os.listdir returns. If wind fields of all time steps are kept, that may be an evolution file, whose latitudes ascend while those of gust files descend: the hazard map is then saved upside down without any error.
calcLocalWindfield hands the configured multipliers over as the raster to match only; processMult reads m4_<direction>.tif from the wind-field folder. A run with Input/Multipliers fails after its first track unless those files were put there by hand.
WindProfileModel documents rMax in km but compares it with distances in metres; a profile made as documented has its maximum within metres of the centre. Setting vMax = 0 is ignored (truth test in the getter).
SamplingOrigin.cdf uses searchsorted(x)-1: at or west of the first grid longitude the index is -1 and the value 1; at grid points the latitude distribution of the neighbouring column is used. KDEOrigin.generateCdf(save=True) passes a flat array for two dimensions and always raises ValueError.
fitRmax fits without an intercept (no column of ones) although the form documented, and used by rmax, has one; its result has three entries (b, c, sigma), which rmax takes as (a, b, c).
pArchiveFile replaces an archived file of the same name and minute of modification (os.rename) and reports success; pArchiveTimestamp(False) has no effect; with no archive directory set files are moved to the working directory.
shpGetVertices keeps one feature per key value, so stations that share an identifier are lost; a station file (csv) with a single line raises IndexError; names of stations in a csv file are read as NaN and all stations write the same file; locations.db is never rebuilt when LocationFile changes.
Utilities/tsmultipliers.py imports shapefile from Utilities, where there is none, so it cannot be imported; it takes the stations from Input/LocationFile although the series are collected for Timeseries/LocationFile, and skips stations without a record silently.
longitudeCrossing.py labels the upper percentiles of crossings 90 but calculates the 95th; genesisDensity.py labels a probability density 'TCs per 1-degree grid per year' (division by the number of years is commented out).
tcevent.py creates its output folders on every process with a test followed by os.makedirs without exist_ok: of two processes that both find a folder missing, one ends with FileExistsError.
Utilities/shptools.py tracks2point/tracks2line write records that still contain the date into 16 columns without one, shifting all columns from the longitude on; tracks2shp.py with dissolve writes the first record as the attributes of a whole netCDF track.
DataProcess.processData calls parseDates without the configured DateFormat (DataProcess/DataProcess.py L239-240), so any file whose dates are not in the default format stops the run; the loader of track files (loadTrackFile) passes the format. Dates such as %d%m%Y are read as numbers by numpy.genfromtxt, lose their leading zero and can be read as another day.
parseDates (Utilities/loadData.py L433-435) catches only KeyError for a missing 'date' column, but the structured array of numpy returned by colReadCSV raises ValueError, so files with separate year, month, day and hour columns cannot be loaded. Files without years are dated in 2000 and 2001: a storm over the end of February is a day too long, or refused if it began in January and saw a 29 February.
LandfallDecay keeps its time over land from one storm to the next (TrackGenerator/trackLandfall.py L70, L86); only the debug output shows it, since the decay uses its own count. An observation east or north of the land mask, even far outside the domain, ends data processing with an IndexError.
_setlength (PlotInterface/scalebar.py L134-142) has no suitable length below 1 km: on a map narrower than 4.75 km scale_number recurses without end (or, by rounding, returns 0 and _upper_bound raises ValueError). _upper_bound loops for ever when no point in the direction is as far as the length asked for.
Plots of the input data (PlotInterface/plotStats.py): plotPressure (L250-254) pairs the first pressure of a storm with the last of the storm before; plotMinPressure (L278) leaves out the last observation; plotLonLat (L391-397) unwraps only steps below -180 degrees and swaps the labels t and t-1; plotBearing (L305-306) takes np.cos of half a bearing in degrees; quantile (L243) prints the correlation coefficient r as r^2.
config.get('Logging', 'ProgressBar') (tcrm.py L120, L192, L220, L247, L274, L358, L412, L440, tcevent.py L196) returns the text 'False', which is true, so the progress bar cannot be turned off by the setting.
os.makedirs('{0}/{1}') but copyfile(..., working_dir + wm + '/' ...) (processMultipliers.py L214, L246): without a slash at the end of working_dir the copies go to a folder that does not exist; the tiles of processMultipliers.ini end with an underscore, to which check_if_wm_source_from_s3 (L372) adds another.
The upper end of the axis of a hazard curve is taken from the curve only (curves.py L404), so the upper confidence limit may be outside; the range is drawn according to the first period only (L399); selectColormap (maps.py L69) fails for numpy float32 or integer levels and for equal levels.
impact.run_optional (impact/__init__.py L71-74) asks for the section Impact only if there is no section Actions, but the defaults always have one: a configuration with exposure data and without ExecuteImpact calculates nothing.
Utilities/akima.c and akima.py differ at an observation between two steady motions (mean of the two velocities against the velocity before), in the threshold for that case (1e-9 absolute against 1e-9 of the largest change), and in their checks (akima.c accepts new times outside the data and needs them in order); akima.c L164-185 reads one element beyond both arrays, without effect on the result.
lowResProcessMultipliers.downscale_multipliers (L32) calls os.path.path.isdir: AttributeError for every input, logged by run, so the program never produces a file; main (L175) replaces 'gust' in the whole path, including folders.
TrackGenerator builds the fallback table of sizes (L390) and selects its columns (L643), but no size is ever drawn from it: the radius at genesis comes from trackSize.rmax.
A single simulation without landfall makes the mean landfall rate of every gate nan, because the histogram of an empty list with density=True is nan and np.mean does not skip it; the same happens to the distribution of minimum pressure.
wind/__init__.py L241: `int(100. * self.margin)` is 229 for a margin of 2.3, where maputils.makeGrid has `int(1000 * margin)` = 2300: the local field does not fit its window and NumPy raises ValueError. With the full domain a limit such as 128.2 is enough.
hazard/__init__.py L107-116: `int(gridLimit['yMin']*1000)` cuts towards zero, so for yMin = -16.22 (-16219.999...) the southernmost row is dropped; `np.round` is used for the coordinates but not for the limits.
Evaluate/interpolateTracks.py L79-94: day numbers in floating point are off by up to 10^-9 hours, and the pressure at the first record with a pressure is compared with `newtime`: for an hourly track it is marked missing where the time is rounded up (2:00, 5:00, ...).
hazard/__init__.py L392-401 and database/__init__.py L405-416: an exception in a worker is not sent to the master, which then waits at `comm.recv` for ever; nothing is saved.
The autoregressive models draw their noise from a logistic distribution of scale 1, whose standard deviation is 1.81: simulated pressure rates, bearings and speeds spread 1.81 times as wide as the calibrated standard deviations.
The deviation of the size of a storm from the fitted relation is drawn again until the initial radius is at most 100 km, and then kept for the whole storm: sizes are smaller in the mean than fitted at all later times too, also where a radius of more than 100 km would not occur.
The generator can deliver 0, for which logisticvariate raises ValueError (logarithm of zero) and ends the run. (Chance 2^-53 per number.)
Where the annual maxima have an L-skewness above 0.17 (a heavier tail than the Gumbel distribution), more simulated years do not help: with probability one all return levels are missing from some length of the simulation on.
Legend of the track map: 'No data' is the label of all winds below 17.5 m/s, and lines with missing wind speed get no colour (C206).
A blank after a comma in the list of datasets: the section is not found, the download stage fails (C207).
statMaxRange(1, 1.2, 0.1) is 1.3: rounding adds a step (C208).
Shape files: the last point of a ring that is not closed is lost if the shape has several parts (C209).
Raw multipliers from remote storage: a tile that cannot be fetched ends its thread, and the program goes on without it and the rest of its type (C210).
Grid over a domain: if the resolution does not divide its size the coordinates have a column (row) more than the distances (C211).
Gust file in remote storage: it is downloaded into the working directory before that directory is made, so a run with a new directory fails (C212).
Collecting multipliers with the separate script (Utilities/get_multipliers.py): tiles of earlier runs left in the output folder are merged too (C213).
Seasonal pressure (MSLP/mslp_seasonal_clim.py): rows are reversed but latitudes are not, so samples are taken at the mirrored latitude; west of the grid the last longitude is used (C214).
Table of events: filling it again always fails on the first number, and a failed call leaves rows in the open transaction (C215).
C217: `fmtlon` reads `0W` as 360 degrees and `0E` as 0.
Initial pressure: where the table of a cell has no pressure below that of the surroundings, index -1 selects the whole table, and the storm begins with a pressure not below that of the surroundings (C198).
Letters of the UTM grid: latitudes south of 80 degrees south have the letter Z, after N, that is of the northern hemisphere (C219); the conversion LLtoUTM always raises TypeError (`int` written for the longitude).
