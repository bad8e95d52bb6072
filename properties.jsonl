{"id": "C01", "title": "Hazard tiles partition the domain", "statement": "The sub-grids handed out for hazard calculation cover the wind-field domain exactly once: every grid cell of the requested domain lies in exactly one tile, no tile reaches outside the domain, and the number of tiles reported is the number that exist.", "quantifier": "every domain size, every tile step >= 1, every offset of the domain inside the wind-field grid", "why_tests_cant": "domain sizes and tile steps are unbounded and the failing cases (last partial tile, step larger than domain) are boundary cases of an infinite family", "anchors": ["hazard/__init__.py:TileGrid.tileGrid", "hazard/__init__.py:TileGrid.getGridLimit", "hazard/__init__.py:getTiles", "hazard/__init__.py:getTileLimits"]}
{"id": "C02", "title": "Distributed hazard calculation equals the serial one on every schedule", "statement": "Running the hazard calculation under MPI with any number of workers terminates without deadlock, processes every tile exactly once, stops every worker, and writes the same output arrays as a one-process run, whatever the order in which worker results arrive.", "quantifier": "every number of tiles, every number of worker ranks >= 1, every interleaving of message arrivals", "why_tests_cant": "the set of arrival orders is factorial in the number of tiles and a test run exhibits one of them", "anchors": ["hazard/__init__.py:HazardCalculator.dumpHazardFromTiles"]}
{"id": "C03", "title": "Round-robin work sharing partitions the work", "statement": "Dividing an iterable across P ranks gives every item to exactly one rank, keeps each rank's items in the original order, and loads differ by at most one item.", "quantifier": "every list of items, every number of ranks P >= 1", "why_tests_cant": "quantifies over all list lengths and rank counts", "anchors": ["TrackGenerator/TrackGenerator.py:balanced", "wind/__init__.py:balanced", "wind/__init__.py:loadTracksFromFiles", "Utilities/track.py:loadTracksFromFiles"]}
{"id": "C04", "title": "Synthetic event sets do not depend on how the work is split over ranks", "statement": "For a fixed seed, the tracks produced for a simulation do not depend on how many MPI ranks share the work or on which other simulations a rank ran first.", "quantifier": "every seed, number of simulations, rank count and per-simulation workload", "why_tests_cant": "needs all partitions of the simulations over ranks; a run exhibits one", "anchors": ["TrackGenerator/TrackGenerator.py:run", "TrackGenerator/TrackGenerator.py:TrackGenerator.generateTracks", "Utilities/tcrandom.py:Random"]}
{"id": "C05", "title": "A computed CDF is a distribution function", "statement": "For a non-negative density with positive total on a uniform grid, the computed CDF has one value per grid point, never decreases, stays in [0,1] and ends at exactly 1, and does not depend on the scale of the density; an all-zero density gives an all-zero CDF instead of a division by zero.", "quantifier": "every grid with at least two points and every non-negative density on it", "why_tests_cant": "all densities of all lengths", "anchors": ["Utilities/stats.py:cdf", "StatInterface/KDEParameters.py:KDEParameters.generateKDE"]}
{"id": "C06", "title": "Inverse-CDF sampling returns the quantile", "statement": "Sampling a parameter from a tabulated CDF with a uniform variate u returns the first tabulated value whose CDF is at least u; so for 0 < u <= 1 the value returned always carries positive probability, a larger u never gives a smaller value, and an index outside the table can occur only if u exceeds the last CDF value.", "quantifier": "every non-decreasing CDF table and every uniform variate", "why_tests_cant": "all tables and all real u; the boundary u equal to a tabulated value is a measure-zero event for random tests", "anchors": ["StatInterface/SamplingParameters.py:SamplingParameters.generateOneSample", "TrackGenerator/TrackGenerator.py:ppf"]}
{"id": "C07", "title": "Origin sampling stays inside the support of the density", "statement": "Sampling a cyclone origin from a gridded 2-D density with uniform variates in (0,1] returns a grid point whose density is positive; the point depends only on the variates and the density.", "quantifier": "every non-negative 2-D density with positive mass and every pair of variates", "why_tests_cant": "all grids and all reals; zero-mass columns and variates at the boundary are not hit by sampling", "anchors": ["StatInterface/SamplingOrigin.py:SamplingOrigin.ppf", "StatInterface/SamplingOrigin.py:SamplingOrigin._calculateCDF", "StatInterface/SamplingOrigin.py:SamplingOrigin.generateSamples"]}
{"id": "C08", "title": "Two-dimensional CDF is the normalised prefix sum", "statement": "The two-dimensional CDF at grid point (i,j) is the share of the total density lying at or below (i,j); it is non-decreasing in both indices and ends at 1 when the total is positive.", "quantifier": "every 2-D non-negative array with at least two rows and two columns", "why_tests_cant": "inclusion-exclusion recurrence over arrays of all sizes", "anchors": ["Utilities/stats.py:cdf2d"]}
{"id": "C09", "title": "Cell numbers identify grid cells", "statement": "A point of the domain maps to a cell number in 0..max, two points get the same number only if they are in the same cell, and converting the number back to a longitude/latitude gives the north-west corner of the cell the point is in.", "quantifier": "every domain with whole-degree limits, every whole-degree cell size dividing it, every point of the domain", "why_tests_cant": "a continuum of points and unboundedly many grids, including those that straddle the equator or the Greenwich meridian", "anchors": ["Utilities/stats.py:getCellNum", "Utilities/stats.py:getCellLonLat", "Utilities/stats.py:validCellNum", "Utilities/stats.py:maxCellNum"]}
{"id": "C10", "title": "Points outside the domain are rejected, points inside are accepted", "statement": "Asking for the cell number of a point raises an error if and only if the point is outside the domain (west/north edges inclusive, east/south exclusive).", "quantifier": "every domain and every point", "why_tests_cant": "a continuum of points and limits", "anchors": ["Utilities/stats.py:getCellNum"]}
{"id": "C11", "title": "Cell statistics are computed from a sufficient, non-degenerate sample", "statement": "For each cell, the sample used for the statistics has more than the minimum number of observations and at least two distinct values, comes from a window that contains the cell and stays inside the domain, and the search always terminates; it fails only when even the whole domain has too few observations.", "quantifier": "every observation set, domain of whole cells, cell, positive window increment and non-negative minimum sample", "why_tests_cant": "termination of a window-growing loop over arbitrary data is not observable by finite tests", "anchors": ["StatInterface/generateStats.py:GenerateStats.extractParameter", "StatInterface/generateStats.py:GenerateStats._expandCell", "StatInterface/generateStats.py:GenerateStats._checkGridLimits", "StatInterface/GenerateDistributions.py:GenerateDistributions.extractParameter"]}
{"id": "C12", "title": "Autoregressive coefficients are well defined", "statement": "For any sample of at least two observations that are not all equal the lag-one autocorrelation lies in [-1,1], so the noise coefficient sqrt(1-alpha^2) is a real number in [0,1].", "quantifier": "every finite sample", "why_tests_cant": "Cauchy-Schwarz style bound over samples of all lengths", "anchors": ["StatInterface/generateStats.py:acf", "StatInterface/generateStats.py:GenerateStats.calculate"]}
{"id": "C13", "title": "Synthetic tracks stay inside the domain and stop at the first violation", "statement": "Every position of a generated track lies inside the model domain, ages are the multiples of the time step starting at zero, each position is reached from the previous one with its bearing and speed, and the track has at most the configured number of steps. Apart from the genesis values, speeds are non-negative, bearings are in [0,360), and every kept step has a pressure deficit of at least 2 hPa up to hour 12 and of at least 5 hPa after it.", "quantifier": "every random-number stream, every cell statistics field, land mask and initial condition", "why_tests_cant": "the loop consumes an unbounded stream of random numbers", "anchors": ["TrackGenerator/TrackGenerator.py:TrackGenerator._singleTrack", "TrackGenerator/TrackGenerator.py:TrackGenerator._notValidTrackStep", "TrackGenerator/TrackGenerator.py:TrackGenerator._stepBearing", "TrackGenerator/TrackGenerator.py:TrackGenerator._stepSpeed"]}
{"id": "C14", "title": "The event generator returns exactly the requested, valid tracks", "statement": "If generation of n tracks returns, it returns exactly n tracks, numbered 0..n-1 with the simulation id, each of which is non-empty, lives at least 12 hours, starts with a positive intensity, never has central pressure above environmental pressure, and has a size within bounds.", "quantifier": "every n, every stream of candidate tracks", "why_tests_cant": "rejection sampling: unbounded numbers of rejected candidates", "anchors": ["TrackGenerator/TrackGenerator.py:TrackGenerator.generateTracks"]}
{"id": "C15", "title": "Genesis conditions of each track are drawn for that track", "statement": "When the environment pressure is not prescribed, each track uses the environmental pressure at its own genesis position and day; when a genesis longitude, latitude, bearing, speed or pressure is prescribed, every track uses the prescribed value.", "quantifier": "every sequence of genesis draws and every prescribed value including 0", "why_tests_cant": "state leaks between successive tracks and falsy-value handling are invisible to single-track tests", "anchors": ["TrackGenerator/TrackGenerator.py:TrackGenerator.generateTracks"]}
{"id": "C16", "title": "Random streams of different simulations are distinct", "statement": "Within one run (one seed) different simulations use different generator keys; and two runs whose seeds differ never share a stream.", "quantifier": "all seeds and simulation indices", "why_tests_cant": "all pairs of integers", "anchors": ["Utilities/tcrandom.py:Random", "TrackGenerator/TrackGenerator.py:run"]}
{"id": "C17", "title": "The regional wind field is the pointwise extreme over the track", "statement": "For each grid cell the recorded gust is the maximum over all time steps of the local gust at that cell (zero if never reached), the recorded pressure is the minimum, and the recorded bearing and wind components are the ones of the time step that attained the recorded gust.", "quantifier": "every track length, every grid, every local wind field sequence", "why_tests_cant": "quantifies over all sequences of fields", "anchors": ["wind/__init__.py:WindfieldAroundTrack.regionalExtremes"]}
{"id": "C18", "title": "Local fields are pasted inside the regional grid", "statement": "The sub-grid of the regional grid updated at a time step is inside the regional grid and has the shape of the local field, for every storm position accepted as inside the extended domain.", "quantifier": "every grid limit, margin, resolution and storm position", "why_tests_cant": "off-by-one at the domain edge for a continuum of positions", "anchors": ["wind/__init__.py:WindfieldAroundTrack.regionalExtremes"]}
{"id": "C19", "title": "Combining the tracks of a file keeps gust, bearing and components consistent", "statement": "When several tracks of one file are combined into one field, each cell's gust is the maximum over tracks and the bearing and components stored with it are those of the track that produced that gust.", "quantifier": "every sequence of per-track fields", "why_tests_cant": "needs all sequences of fields", "anchors": ["wind/__init__.py:WindfieldGenerator.calculateExtremesFromTrackfile"]}
{"id": "C20", "title": "Wind-field file names identify events", "statement": "Two different (track, year) pairs never share a wind-field file name, and the per-year file pattern used when reading selects exactly the files of that year.", "quantifier": "all natural track numbers and years, including those with more digits than the padding", "why_tests_cant": "all pairs of naturals; collisions appear only beyond the padding width", "anchors": ["wind/__init__.py:WindfieldGenerator.gustFilename", "hazard/__init__.py:aggregateWindFields"]}
{"id": "C21", "title": "Annual maxima aggregation", "statement": "The annual wind-speed record used for the extreme-value fit holds, for each simulated year and cell, the maximum over that year's event files (zero if there are none), independently of the order in which files are listed, and no event of another year contributes.", "quantifier": "every set of event files, every number of simulations and years per simulation, every directory order", "why_tests_cant": "all file sets and listing orders", "anchors": ["hazard/__init__.py:aggregateWindFields", "hazard/__init__.py:loadFilesFromPath", "hazard/__init__.py:loadFile"]}
{"id": "C22", "title": "Restarting an interrupted wind-field run", "statement": "After a crash at any point, re-running the wind-field stage produces the same set of files with the same contents as an uninterrupted run, and recomputes no finished file.", "quantifier": "every list of tracks, every crash point, every number of restarts", "why_tests_cant": "every prefix of the write sequence is a crash point", "anchors": ["wind/__init__.py:WindfieldGenerator.dumpGustsFromTracks", "wind/__init__.py:WindfieldGenerator.gustFileComplete", "wind/__init__.py:WindfieldGenerator.saveGustToFile"]}
{"id": "C23", "title": "Extreme-value fits never report an unusable record as valid", "statement": "For a record that is too short, all zero or constant over its non-zero values, or whose L-moments are infeasible, the return levels reported by the GEV fit are the missing value; when a return-level curve is reported it strictly increases with the return period and stays below the upper bound of the fitted distribution; the fit of a cell does not depend on the order of its record.", "quantifier": "every wind record, every list of return periods", "why_tests_cant": "all records and return periods", "anchors": ["hazard/evd.py:gevfit", "Utilities/lmomentFit.py:pelgev"]}
{"id": "C24", "title": "GPD return level and return period are inverse", "statement": "Converting a return period to a return level and back (and conversely) gives the starting value, return levels increase with the return period and exceed the threshold when the period is longer than the mean exceedance interval; with a negative shape they are bounded by the threshold plus -scale/shape.", "quantifier": "every threshold, non-zero shape, positive scale, positive rate and period", "why_tests_cant": "real-parameter families", "anchors": ["hazard/GPD.py:gpdReturnLevel", "hazard/GPD.py:gpdRecurrenceIntervals", "hazard/GPD.py:gpdfit", "hazard/evd.py:gpdReturnLevel"]}
{"id": "C25", "title": "Empirical return periods rank the data", "statement": "Empirical average recurrence intervals are positive, strictly increase with rank, and a larger observation never has a smaller recurrence interval.", "quantifier": "every record length and number of simulated years", "why_tests_cant": "all lengths", "anchors": ["hazard/evd.py:empfit"]}
{"id": "C26", "title": "The configuration is read once and shared", "statement": "All parts of the program that obtain the configuration see the same settings: the first file read wins, later reads are ignored until a reset, an unreadable path is an error, and a change made through one handle is seen through every other.", "quantifier": "every sequence of obtain/read/set/reset operations", "why_tests_cant": "histories of operations", "anchors": ["Utilities/config.py:ConfigParser", "Utilities/config.py:_ConfigParser.read", "Utilities/config.py:reset"]}
{"id": "C27", "title": "Configuration defaults and value round trip", "statement": "Asking for an option with a default returns the default exactly when the section or option is missing and otherwise a value of the default's type; writing a list option and reading it back gives the same list whenever no element contains the separator.", "quantifier": "every configuration content and every default", "why_tests_cant": "all contents and all lists of strings", "anchors": ["Utilities/config.py:cnfGetIniValue", "Utilities/config.py:formatList", "Utilities/config.py:parseList", "Utilities/config.py:parseBool"]}
{"id": "C28", "title": "The processed-files register behaves like a map", "statement": "After any sequence of records and reloads, asking for a file's stored modification date or checksum returns the last values recorded for that directory and name, survives saving and reloading the register file, and a file is treated as already processed exactly when its current attribute equals the stored one.", "quantifier": "every sequence of set/write/reload operations, every path name", "why_tests_cant": "histories; separator characters in names", "anchors": ["Utilities/process.py:pSetProcessedEntry", "Utilities/process.py:pGetProcessedEntry", "Utilities/process.py:pGetProcessedFiles", "Utilities/process.py:pWriteProcessedFile", "Utilities/process.py:pAlreadyProcessed"]}
{"id": "C29", "title": "Segment intersection points lie on both segments", "statement": "When two segments are reported to intersect, the reported point lies on both; when they are reported not to intersect, they have no common point; parallel and coincident lines are reported as such.", "quantifier": "every pair of segments in the plane", "why_tests_cant": "a four-point continuum", "anchors": ["Utilities/Intersections.py:Crossings.LineLine", "Utilities/Intersections.py:Crossings.lerp"]}
{"id": "C30", "title": "Circle-line intersection points", "statement": "Every point reported by the circle-segment test lies on the circle and on the segment, at most two are reported, tangency gives one, and Inside/Outside is reported only when the segment does not meet the circle.", "quantifier": "every circle and segment", "why_tests_cant": "a continuum with degenerate tangency", "anchors": ["Utilities/Intersections.py:Crossings.CircleLine", "Utilities/Intersections.py:Crossings.CirclePolygon"]}
{"id": "C31", "title": "Point-in-polygon test", "statement": "A point is on land exactly when it is inside the coastline polygon: the crossing-number and winding-number tests agree for every simple polygon.", "quantifier": "every polygon and point", "why_tests_cant": "all vertex counts and positions", "anchors": ["Utilities/Intersections.py:inLand", "Utilities/Intersections.py:_cnPnPoly", "Utilities/Intersections.py:_wnPnPoly", "Utilities/Intersections.py:_isLeft"]}
{"id": "C32", "title": "Saved tracks load back unchanged", "statement": "Tracks written to a netCDF track file and read back are the same non-empty tracks in the same order with the same identifiers and data; an empty list writes no file.", "quantifier": "every list of tracks", "why_tests_cant": "all list lengths, including more than 9999 tracks where zero padding runs out and group order may change", "anchors": ["Utilities/track.py:ncSaveTracks", "Utilities/track.py:ncReadTrackData", "Utilities/track.py:readMultipleTrackData"]}
{"id": "C33", "title": "Nearest grid index", "statement": "Looking up a coordinate in a grid axis returns the index of a grid value closest to it.", "quantifier": "every non-empty axis (ascending or descending) and every coordinate", "why_tests_cant": "all axes and reals; out-of-range values on descending axes", "anchors": ["Utilities/maputils.py:find_index", "Utilities/maputils.py:find_nearest", "Utilities/grid.py:SampleGrid.sampleGrid"]}
{"id": "C34", "title": "Automatic track domain covers the region and the tracks that enter it", "statement": "The automatically computed track-generation domain contains the wind-field domain, has whole-degree limits, and contains every observation of every historical track that enters the wind-field domain.", "quantifier": "every historical data set and wind-field domain", "why_tests_cant": "all track sets; coverage after leaving the domain", "anchors": ["DataProcess/CalcTrackDomain.py:CalcTrackDomain.calcDomainFromTracks"]}
{"id": "C35", "title": "Annual frequency is the mean number of genesis events per year", "statement": "The automatically computed annual frequency is the number of tracks starting in the domain divided by the number of years in the record.", "quantifier": "every historical data set and domain", "why_tests_cant": "all data sets; first/last-year boundary", "anchors": ["DataProcess/CalcFrequency.py:CalcFrequency.calc"]}
{"id": "C36", "title": "Track extraction keeps exactly the tracks that start in the domain", "statement": "Restricting a data set to the domain keeps all observations, in order, of the tracks whose first observation is inside the domain and none of the others.", "quantifier": "every sequence of observations and domain", "why_tests_cant": "flag state machine over arbitrary sequences", "anchors": ["DataProcess/DataProcess.py:DataProcess.extractTracks"]}
{"id": "C37", "title": "Track start markers split the record into tracks", "statement": "Given a track data file the start markers are set exactly at the first record and at every change of identifier, and splitting at the markers loses, duplicates and reorders no record.", "quantifier": "every sequence of identifiers for every supported identifier column", "why_tests_cant": "all sequences", "anchors": ["Utilities/loadData.py:getInitialPositions", "Utilities/loadData.py:loadTrackFile"]}
{"id": "C38", "title": "Implausible jumps start a new track", "statement": "A record whose position is more than the threshold away from its predecessor starts a new track, whichever direction the jump is in.", "quantifier": "every pair of consecutive positions", "why_tests_cant": "all jumps and directions", "anchors": ["DataProcess/DataProcess.py:DataProcess.processData", "Utilities/loadData.py:loadTrackFile"]}
{"id": "C39", "title": "Processed rates and screened observations are in range", "statement": "Bearing changes used for statistics lie in [-180,180] before division by the time step and differ from the raw change by a multiple of 360; screened pressures are either missing or within [600,1100] hPa; screened speeds are missing or within [0,200]; first observations of a track never contribute a rate.", "quantifier": "every observation record", "why_tests_cant": "all records", "anchors": ["DataProcess/DataProcess.py:DataProcess._bearingRate", "DataProcess/DataProcess.py:DataProcess._speed", "DataProcess/DataProcess.py:DataProcess._pressureRate", "Utilities/loadData.py:filterPressure"]}
{"id": "C40", "title": "Elapsed time and day of year", "statement": "Elapsed time restarts at zero at each track start and equals the time since that start; the day of year stored for February 29 and later in leap years is shifted so that every calendar day has the same number in every year.", "quantifier": "every record sequence and every Gregorian date", "why_tests_cant": "all dates over all years including century years", "anchors": ["Utilities/loadData.py:getTimeElapsed", "Utilities/loadData.py:getTimeDelta", "DataProcess/DataProcess.py:DataProcess._juliandays"]}
{"id": "C41", "title": "The dynamic record array behaves like a list", "statement": "Appending records one by one and reading the array back gives exactly the appended records in order, whatever the number of internal resizes.", "quantifier": "every append sequence", "why_tests_cant": "unbounded histories crossing arbitrarily many resize points", "anchors": ["Utilities/dynarray.py:DynamicRecArray"]}
{"id": "C42", "title": "Unit conversion", "statement": "Converting between two units of the same kind scales consistently: a conversion in one direction followed by the reverse gives the starting value up to the rounding of the tabulated factors, converting to the same unit changes nothing, and an unsupported pair is reported rather than silently ignored.", "quantifier": "every value and every pair of unit names", "why_tests_cant": "all pairs of strings and all values", "anchors": ["Utilities/metutils.py:convert"]}
{"id": "C43", "title": "Humidity conversions", "statement": "Relative humidity is always within [0,100]; converting vapour pressure to mixing ratio and back, and mixing ratio to specific humidity and back, gives the starting value.", "quantifier": "every vapour pressure, temperature and pressure with a positive denominator", "why_tests_cant": "real inputs", "anchors": ["Utilities/metutils.py:vapPrToRH", "Utilities/metutils.py:vapPrToMixRat", "Utilities/metutils.py:mixRatToVapPr", "Utilities/metutils.py:spHumToMixRat", "Utilities/metutils.py:wetBulbToRH"]}
{"id": "C44", "title": "Bearing and mathematical angle conversions are inverse", "statement": "Converting a bearing to a mathematical angle and back gives the same bearing modulo a full turn, and results are always in [0, 2*pi).", "quantifier": "every real angle", "why_tests_cant": "a continuum; wrap-around", "anchors": ["Utilities/maputils.py:bearing2theta", "Utilities/maputils.py:theta2bearing"]}
{"id": "C45", "title": "L-moments", "statement": "Sample L-moments are invariant under reordering after sorting, shift and scale with the data, the second is non-negative, the L-skewness of data with positive spread lies in [-1,1], the fast three-moment routine returns the same values as the general routine, and fitting a generalized Pareto distribution to the exact L-moments of that distribution recovers its parameters.", "quantifier": "every sample of length >= 3 and every parameter triple with shape > -1", "why_tests_cant": "samples of all lengths", "anchors": ["Utilities/lmomentFit.py:samlmu", "Utilities/lmomentFit.py:samlmu3", "Utilities/lmomentFit.py:pelgpa"]}
{"id": "C46", "title": "Wind-pressure relations are inverse of each other", "statement": "For each supported relation, converting a central pressure to a maximum wind and back with the same environmental pressure gives the same central pressure; a central pressure above the environmental pressure is an error; a deeper storm never has a weaker maximum wind.", "quantifier": "every pair of pressures in Pa or hPa and every relation", "why_tests_cant": "real inputs and mixed units", "anchors": ["wind/vmax.py:vmax", "wind/vmax.py:pDiff"]}
{"id": "C47", "title": "Radial wind profiles peak at the radius of maximum wind", "statement": "The profile wind speed never exceeds the maximum wind in magnitude and attains it at the radius of maximum wind, has the rotation sense of the hemisphere, and the inner cubic core joins the outer profile with equal value and derivatives at the radius of maximum wind.", "quantifier": "every radius, latitude and storm parameter", "why_tests_cant": "real-parameter families", "anchors": ["wind/windmodels.py:JelesnianskiWindProfile", "wind/windmodels.py:RankineWindProfile", "wind/windmodels.py:HollandWindProfile"]}
{"id": "C48", "title": "Radial pressure profiles", "statement": "The Holland pressure profile lies between central and environmental pressure, increases with radius, and the double-vortex profile splits the total deficit into two parts that add up to it.", "quantifier": "every radius and storm parameter", "why_tests_cant": "real-parameter families", "anchors": ["PressureInterface/pressureProfile.py:PrsProfile.holland", "PressureInterface/pressureProfile.py:PrsProfile.doubleHolland", "wind/windmodels.py:DoubleHollandWindProfile"]}
{"id": "C49", "title": "Boundary-layer factors are continuous and bounded", "statement": "The inflow angle and the surface wind reduction factor used by the boundary-layer wind fields are continuous across their piecewise boundaries and stay within their physical bounds.", "quantifier": "every radius and wind speed", "why_tests_cant": "piecewise functions of a real variable", "anchors": ["wind/windmodels.py:McConochieWindField", "wind/windmodels.py:HubbertWindField"]}
{"id": "C50", "title": "Raster segments and worker threads of the multiplier stage", "statement": "The segments used for the threaded multiplier calculation cover the raster exactly once, every segment is processed exactly once in any completed run, the result equals the whole-raster calculation, and the worker pool always finishes.", "quantifier": "every raster size, segment size, thread count and thread interleaving", "why_tests_cant": "thread interleavings", "anchors": ["ProcessMultipliers/processMultipliers.py:processMultV2", "ProcessMultipliers/processMultipliers.py:call_process_multiplier_segment", "ProcessMultipliers/processMultipliers.py:processMultiplierSegment"]}
{"id": "C51", "title": "Directional multiplier selection", "statement": "Every wind bearing in [0,360) selects exactly one directional multiplier, the one of the nearest compass octant, and the band numbering of the combined raster agrees with the per-direction files.", "quantifier": "every bearing, wind speed and multiplier raster", "why_tests_cant": "a continuum of bearings with half-open boundaries", "anchors": ["ProcessMultipliers/processMultipliers.py:processMult", "ProcessMultipliers/processMultipliers.py:processMultiplierSegment", "ProcessMultipliers/processMultipliers.py:calculateBearing"]}
{"id": "C52", "title": "Database queries return the records of the requested location", "statement": "Each location query returns exactly the records of that location satisfying the threshold, with the wind speed recorded at that location.", "quantifier": "every database content, location and threshold", "why_tests_cant": "all table contents", "anchors": ["database/queries.py:locationRecordsExceeding", "database/queries.py:locationPassage", "database/queries.py:locationPassageWindSpeed", "database/queries.py:locationReturnPeriodEvents", "database/__init__.py:_HazardDatabase.processEvents"]}
{"id": "C53", "title": "Track generation works for every positive number of simulations", "statement": "For every positive number of simulations a run of the track generator writes one event set per simulation, unless the generation of an event set itself fails.", "quantifier": "every number of simulations, counts of tracks, seeds, generators", "why_tests_cant": "the failure depends on the configured number of simulations only; all values must be covered", "anchors": ["TrackGenerator/TrackGenerator.py:run"]}
{"id": "C54", "title": "Sampled genesis pressure is below the environmental pressure", "statement": "When the genesis pressure is sampled it is below the environmental pressure used for the track; every track that is returned starts below its environment.", "quantifier": "every pressure table, environmental pressure and random stream", "why_tests_cant": "depends on all tables and pressures, including environments below the whole table", "anchors": ["TrackGenerator/TrackGenerator.py:TrackGenerator.generateTracks"]}
{"id": "C55", "title": "Optional inputs of the track generator are usable", "statement": "With a distribution of radii read from file, or with a prescribed initial radius, the generator can return the requested tracks.", "quantifier": "every environment, random stream and number of tracks", "why_tests_cant": "'never returns' is a statement about all inputs", "anchors": ["TrackGenerator/TrackGenerator.py:TrackGenerator.generateTracks", "TrackGenerator/TrackGenerator.py:TrackGenerator._singleTrack"]}
{"id": "C56", "title": "Local wind fields of several tracks are all kept", "statement": "When wind multipliers are configured, after the wind-field stage the local (multiplier-adjusted) wind field of every processed track is on disk.", "quantifier": "every list of tracks", "why_tests_cant": "a test with a single track cannot see that outputs of successive tracks collide", "anchors": ["wind/__init__.py:WindfieldGenerator.dumpGustsFromTracks", "wind/__init__.py:WindfieldGenerator.calcLocalWindfield", "ProcessMultipliers/processMultipliers.py:processMult"]}
{"id": "C57", "title": "Event records for the peaks-over-threshold fits", "statement": "The record used for the GPD, power-law and empirical fits has exactly one entry per event file, the event's wind speeds on the tile, in an order that does not depend on the directory listing; other files kept in the directory by the same program do not disturb it.", "quantifier": "every directory content and listing order", "why_tests_cant": "all directory contents and listing orders", "anchors": ["hazard/__init__.py:loadFilesFromPath", "hazard/__init__.py:loadFile", "wind/__init__.py:WindfieldGenerator.calculateExtremesFromTrack"]}
{"id": "C58", "title": "GEV fit reproduces the L-moments", "statement": "The GEV distribution with the location, scale and shape returned by the L-moment fit has the first and second L-moments it was fitted to, exactly unless the fitted shape is zero and then to within the rounding of two constants.", "quantifier": "every feasible triple of L-moments", "why_tests_cant": "real-parameter family", "anchors": ["Utilities/lmomentFit.py:pelgev"]}
{"id": "C59", "title": "Empirical levels for all periods up to the simulation length", "statement": "The empirical fit gives a return level for every average recurrence interval from one year up to the number of simulated years.", "quantifier": "every number of simulated years and every record", "why_tests_cant": "the outcome depends on the number of years modulo four", "anchors": ["hazard/evd.py:empfit"]}
{"id": "C60", "title": "Cells that cannot be fitted are marked missing in the hazard output", "statement": "In the hazard grids every cell whose record cannot be fitted (too short, constant, or without any wind) has the missing value.", "quantifier": "every record of a cell", "why_tests_cant": "all records", "anchors": ["hazard/__init__.py:HazardCalculator.calculateHazard", "hazard/__init__.py:calculateGEV"]}
{"id": "C61", "title": "Confidence intervals can be computed", "statement": "With the confidence-interval option on, the hazard calculation completes and gives a lower and an upper bound for each level.", "quantifier": "every record length and sample size", "why_tests_cant": "'never returns a value' is a statement about all inputs", "anchors": ["hazard/__init__.py:calculateCI"]}
{"id": "C62", "title": "An interrupted write to the processed-files register loses at most that entry", "statement": "If the program is stopped at any point while it records a file as processed, later runs can still read the register and see all entries recorded before.", "quantifier": "every history of records, every record and every number of characters written before the stop", "why_tests_cant": "crash points", "anchors": ["Utilities/process.py:pWriteProcessedFile", "Utilities/process.py:pGetProcessedFiles"]}
{"id": "C63", "title": "Deleting the processed-files register", "statement": "After the register has been deleted no file counts as processed, in this and in later runs, and the deletion is reported as successful.", "quantifier": "every register content", "why_tests_cant": "all contents", "anchors": ["Utilities/process.py:pDeleteDatFile"]}
{"id": "C64", "title": "Line and circle against polygons", "statement": "The test of a segment or a circle against a polygon reports an intersection exactly when the segment or circle meets some edge of the polygon, and the points listed are the points where it does.", "quantifier": "every segment, circle and list of polygons", "why_tests_cant": "The edge that is skipped and the lines that miss the polygon are geometric configurations no finite list of examples covers.", "anchors": ["Utilities/Intersections.py: Crossings.LinePolygon", "Utilities/Intersections.py: Crossings.CirclePolygon"]}
{"id": "C65", "title": "CSV track files: one track per storm number and no record lost", "statement": "Reading a CSV track file returns one track for each storm number in the file, in order, and every record of the file is in exactly one of the returned tracks.", "quantifier": "every list of records of a CSV track file", "why_tests_cant": "all files, including one-line files, storm number 0 and files with one malformed line", "anchors": ["Utilities/track.py:readTrackData", "Utilities/track.py:readMultipleTrackData"]}
{"id": "C66", "title": "Loading a directory of track files", "statement": "Loading tracks from a directory gives every track of every file in it whose name begins with \"tracks\" exactly once, files in alphabetical order; an unreadable file is reported, not skipped.", "quantifier": "every directory content", "why_tests_cant": "all directory listings in any order and any content of the files", "anchors": ["Utilities/track.py:loadTracksFromFiles", "Utilities/track.py:loadTracksFromPath", "Utilities/track.py:loadTracks"]}
{"id": "C67", "title": "Saving tracks does not change them", "statement": "Writing tracks to a file leaves the tracks in memory as they were, so that they can be used or saved again.", "quantifier": "every list of tracks", "why_tests_cant": "all track lists; aliasing of the columns between the file and memory", "anchors": ["Utilities/track.py:ncSaveTracks"]}
{"id": "C68", "title": "Sampling a gridded file", "statement": "Sampling a gridded file at a point returns the value stored for the grid point nearest to it.", "quantifier": "every grid file (netCDF or ascii) and every point inside its limits", "why_tests_cant": "all grids, row orders and coordinates", "anchors": ["Utilities/grid.py:SampleGrid", "Utilities/grid.py:grdRead"]}
{"id": "C69", "title": "Initial and later observations partition the record", "statement": "The samples written for initial bearings and speeds are those of the second observation of every track, the other samples those of third and later observations; together with the starts of tracks every observation is used exactly once. Every pressure or radius that is not missing is used exactly once, at a start or elsewhere.", "quantifier": "All records with start markers, including tracks of one observation and consecutive starts", "why_tests_cant": "The index arithmetic on shifted marker arrays must be right for every pattern of track lengths", "anchors": ["DataProcess/DataProcess.py: DataProcess.processData, _bearing, _speed, _pressure, _rmax"]}
{"id": "C70", "title": "Clock times read from the hour column", "statement": "For a file without a minute column, times given as hhmm and times given as whole hours are both read as the time of day they denote.", "quantifier": "All columns of times of day in either notation", "why_tests_cant": "The notation is guessed from the largest value of the whole column", "anchors": ["Utilities/loadData.py: parseDates"]}
{"id": "C71", "title": "Time steps are the times between observations", "statement": "The time step of each observation is the time since the previous observation, zero for the first.", "quantifier": "All sequences of observation times", "why_tests_cant": "Rounding changes the value for arbitrary times", "anchors": ["Utilities/loadData.py: getTimeDelta"]}
{"id": "C72", "title": "Extremes and outer pressure of a loaded track ignore missing values", "statement": "The minimum pressure and maximum wind of a track are the extremes of the values that are not missing; the pressure of the outermost closed isobar is undefined where the central pressure is missing or above the environmental pressure.", "quantifier": "All tracks, with any pattern of missing values", "why_tests_cant": "The mark for missing values is an ordinary number that every function must agree on", "anchors": ["Utilities/loadData.py: getMinPressure, getMaxWind, getPoci, filterPressure, loadTrackFile"]}
{"id": "C73", "title": "The search for the wet bulb temperature ends and solves its equation", "statement": "For every air temperature, dew point not above it and air pressure, computing the wet bulb temperature from the dew point terminates, and (before rounding) the result satisfies the psychrometric equation up to 0.05 hPa and is not below the dew point.", "quantifier": "every air temperature, dew point and pressure", "why_tests_cant": "termination of a step-shrinking search for every input cannot be tested", "anchors": ["Utilities/metutils.py:dewPointToWetBulb", "Utilities/metutils.py:satVapPr"]}
{"id": "C74", "title": "Vorticity belongs to the wind profile", "statement": "The vorticity returned by a radial wind profile at a radius is the vorticity V' + V/R of the wind the same profile returns there.", "quantifier": "every profile, storm and radius", "why_tests_cant": "derivatives of real functions at every radius; tests compare with stored numbers", "anchors": ["wind/windmodels.py:HollandWindProfile.vorticity", "wind/windmodels.py:JelesnianskiWindProfile.vorticity", "wind/windmodels.py:RankineWindProfile.vorticity"]}
{"id": "C75", "title": "Compiled and interpreted code agree", "statement": "Wind, vorticity, surface wind, distance and angle are the same whether the compiled extension is present or the Python fallback is used.", "quantifier": "every storm, forward motion and place", "why_tests_cant": "two programs must agree on all real inputs; a test run has only one of them", "anchors": ["wind/windmodels.f90:fhollandvel", "wind/windmodels.f90:fhollandvort", "wind/windmodels.f90:fkerpert", "wind/windmodels.py:KepertWindField.field", "Utilities/maputils.f90:beardist", "Utilities/maputils.py:makeGrid"]}
{"id": "C76", "title": "Asymmetry of the wind field", "statement": "The wind field of a storm in the other hemisphere is the mirror image, and the strongest wind at a radius is found at the configured angle from the direction of motion in both hemispheres.", "quantifier": "every storm, place and configured angle", "why_tests_cant": "a symmetry over all inputs", "anchors": ["wind/windmodels.py:KepertWindField.field", "wind/windmodels.py:HubbertWindField.field", "wind/windmodels.py:McConochieWindField.field", "wind/__init__.py:run"]}
{"id": "C77", "title": "Documented wind field choices work", "statement": "Every radial profile and boundary-layer model named in the documentation can be selected, in every combination.", "quantifier": "every pair of names", "why_tests_cant": "names are resolved in three places with different spelling rules", "anchors": ["wind/windmodels.py:PROFILES", "wind/__init__.py:WindfieldAroundTrack.localWindField", "wind/__init__.py:WindfieldAroundTrack.pressureProfile"]}
{"id": "C78", "title": "Pressure and wind of a storm use the same shape", "statement": "For a given profile and storm the shape parameter used for the pressure field is the one used for the wind field.", "quantifier": "every storm size, latitude and pressure", "why_tests_cant": "two independent formulas must agree on a continuum", "anchors": ["PressureInterface/pressureProfile.py:PrsProfile.powell", "PressureInterface/pressureProfile.py:PrsProfile.willoughby", "wind/windmodels.py:PowellWindProfile", "wind/windmodels.py:WilloughbyWindProfile"]}
{"id": "C79", "title": "Regional wind is placed at its own latitude before multiplying", "statement": "The raster made from a regional wind field shows at every row the wind whose latitude is that of the row, so that each multiplier is applied to the wind of its own place.", "quantifier": "every grid size, spacing and origin, for wind fields read from gust files and for those passed on directly", "why_tests_cant": "two conventions for the order of rows must agree on every grid; a symmetric test field hides a mirror image", "anchors": ["ProcessMultipliers/processMultipliers.py:createRaster", "ProcessMultipliers/processMultipliers.py:processMult", "wind/__init__.py:WindfieldGenerator.calcLocalWindfield"]}
{"id": "C80", "title": "Combined multiplier is the product, and missing where a factor is missing", "statement": "The combined multiplier of a cell is the product of its terrain, topographic and shielding multipliers, and is marked missing if one of them is.", "quantifier": "every cell value, including the missing mark in any of the three rasters", "why_tests_cant": "all combinations of missing values and real factors", "anchors": ["ProcessMultipliers/processMultipliers.py:getMultipliers.combineDirections", "Utilities/get_multipliers.py:combineDirections"]}
{"id": "C81", "title": "S3 locations are taken apart as written", "statement": "The bucket, key and file name found in a /vsis3/ location are those it was written from, a file of a directory is found under that directory whether or not its name ends with a slash, and locations of another form are refused.", "quantifier": "every location text", "why_tests_cant": "all strings", "anchors": ["ProcessMultipliers/processMultipliers.py:getMultipliers.s3_path_segments_from_vsis3"]}
{"id": "C82", "title": "Extent of the local wind is the overlap of wind and multipliers", "statement": "When no complete extent is configured the output covers exactly the places covered by both the gust raster and the multiplier raster, and rasters without common places are reported.", "quantifier": "every pair of rasters and every geotransform", "why_tests_cant": "a continuum of geotransforms and points", "anchors": ["ProcessMultipliers/processMultipliers.py:getMultipliers.computeOutputExtentIfInvalid"]}
{"id": "C83", "title": "Updating the hazard database again does not duplicate or mix results", "statement": "After any sequence of updates each location, event, wind speed and passage of the latest simulation is recorded exactly once, with the wind at the grid point nearest to the location.", "quantifier": "every set of wind fields, locations and domain, and every sequence of updates", "why_tests_cant": "histories of updates of any length", "anchors": ["database/__init__.py:run", "database/__init__.py:_HazardDatabase.processEvents", "database/__init__.py:_HazardDatabase.processEvent", "database/__init__.py:_HazardDatabase.insertEvents"]}
{"id": "C84", "title": "Tables of the hazard database name events alike", "statement": "The identifier recorded for an event from the name of its wind-field file is the one recorded for its track, different tracks have different identifiers, and other files in the directory do not matter.", "quantifier": "every track number and simulation number, every listing of the directory", "why_tests_cant": "all numbers, including those wider than their field", "anchors": ["database/__init__.py:_HazardDatabase.processEvent", "database/__init__.py:processTrack", "wind/__init__.py:WindfieldGenerator.gustFilename"]}
{"id": "C85", "title": "All locations inside the domain are used", "statement": "The locations put into the hazard database are exactly those of the location file that lie inside the simulation domain, whatever the convention for longitudes.", "quantifier": "every location and domain", "why_tests_cant": "a continuum of coordinates in two conventions", "anchors": ["database/__init__.py:_HazardDatabase.setLocations", "database/__init__.py:buildLocationDatabase"]}
{"id": "C86", "title": "Time series at stations", "statement": "After a run every station has exactly one record for each time step handed over, in order of time; a record holds the wind and pressure of the grid point nearest to the station (no wind when the station is outside the local grid). The table of maxima lists for every station that had wind its first record with the largest wind speed, that of minima its first record with the lowest pressure, and each station's file is its own series, wherever the station list was read from.", "quantifier": "all station lists, all sequences of time steps with any local grids and values", "why_tests_cant": "the number of time steps, the grids and the positions of stations relative to them are unbounded; ties and stations outside the grid only occur for particular combinations", "anchors": ["Utilities/timeseries.py: Station.insideGrid", "Utilities/timeseries.py: Timeseries.sample", "Utilities/timeseries.py: Timeseries.extract", "Utilities/timeseries.py: Timeseries.shutdown"]}
{"id": "C87", "title": "Largest wind of a station's series is the gust field at the station", "statement": "For every track the largest wind speed in a station's time series equals the maximum gust stored for the grid point nearest to the station: no record exceeds it and, unless it is zero, some record attains it.", "quantifier": "all tracks, wind models, domains, margins, resolutions and station positions", "why_tests_cant": "relates two outputs computed along different paths (window of the local grid, running maximum) for all tracks", "anchors": ["wind/__init__.py: WindfieldAroundTrack.regionalExtremes", "Utilities/timeseries.py: Timeseries.extract", "Utilities/maputils.py: find_index"]}
{"id": "C88", "title": "A run's time series cover all its tracks", "statement": "The time series files and the tables of maxima and minima left by a wind field run hold the records of all tracks of the run, whatever the number of processes, their order of completion, and whether the run was resumed after an interruption.", "quantifier": "all numbers of processes, orders of completion, sets of wind fields already complete, and tracks", "why_tests_cant": "depends on the schedule of parallel processes and on the point of interruption", "anchors": ["wind/__init__.py: run", "wind/__init__.py: WindfieldGenerator.dumpGustsFromTracks", "Utilities/timeseries.py: Timeseries.shutdown"]}
{"id": "C89", "title": "Multipliers applied to a time series belong to the wind direction", "statement": "A wind exactly from one of the eight compass directions is multiplied by that direction's multiplier; between two directions the factor changes continuously and lies between their multipliers.", "quantifier": "all sets of eight multipliers, all directions and wind speeds", "why_tests_cant": "ranges over a continuum of directions", "anchors": ["Utilities/tsmultipliers.py: tsmultiply"]}
{"id": "C90", "title": "The file of all wind fields stores each field at its coordinates", "statement": "The file with the evolution of the wind field has one field per time step, in order, with its time; each value handed over is stored at the latitude and longitude it was computed for, and positions outside the local grid hold the fill value.", "quantifier": "all domains, margins, resolutions, sequences of time steps and values", "why_tests_cant": "grids and numbers of steps are unbounded, and the two grids are computed by different formulas", "anchors": ["wind/writer.py: WriteFoliationCallback", "wind/__init__.py: WindfieldAroundTrack.regionalExtremes"]}
{"id": "C91", "title": "Smooth interpolation passes through the observations", "statement": "Akima interpolation of positions succeeds exactly for three or more observations at strictly increasing times and new times within their range. The interpolated positions are those of one motion with continuous velocity that passes through every observation; steady motion along a line is reproduced, changes of unit and origin carry over, and positions stay within the range of the observed ones.", "quantifier": "all observation times, positions and new times", "why_tests_cant": "the number and spacing of observations are unbounded; smoothness is a statement about all times", "anchors": ["Utilities/akima.py: interpolate"]}
{"id": "C92", "title": "Interpolated tracks have a uniform time step over the whole track", "statement": "Interpolating a track to a time step gives records at the time of the first observation and then every time step until the time of the last observation; interpolation of a set of tracks returns one track per input track in the same order, single observations unaltered.", "quantifier": "all tracks, time steps, interpolation methods and processes", "why_tests_cant": "durations and time steps range over all positive numbers", "anchors": ["Evaluate/interpolateTracks.py: interpolate, parseTracks", "tcevent.py: main"]}
{"id": "C93", "title": "Interpolated tracks pass through the observed positions", "statement": "At the time of an observation an interpolated track has the observed position, radius and environmental pressure, and between observations (linear method) it is on the straight line between them, also across the zero meridian.", "quantifier": "all tracks, time steps and interpolation methods", "why_tests_cant": "all tracks and times are quantified", "anchors": ["Evaluate/interpolateTracks.py: interpolate", "Utilities/akima.py: interpolate"]}
{"id": "C94", "title": "Forward speed of interpolated tracks", "statement": "The forward speed of each record of an interpolated track times the time to the next record is the distance between them, and its bearing points to the next record; the last record repeats those of the one before.", "quantifier": "all tracks, time steps and measures of distance", "why_tests_cant": "all tracks and time steps are quantified", "anchors": ["Evaluate/interpolateTracks.py: interpolate"]}
{"id": "C95", "title": "Central pressure of interpolated tracks", "statement": "Between the first and the last known pressure an interpolated track has the linearly interpolated pressure, equal to the observed one at the time of an observation; outside that period it is marked missing. With one known pressure all records have it.", "quantifier": "all tracks, patterns of missing pressures and time steps", "why_tests_cant": "patterns of missing values and times are unbounded", "anchors": ["Evaluate/interpolateTracks.py: interpolate"]}
{"id": "C96", "title": "A step by bearing and distance follows the great circle", "statement": "Moving a position by a bearing and a distance arrives at the point reached by travelling that distance along the great circle that leaves the position in that direction; the distance and bearing measured back from the two positions are those asked for, and a track built of such steps never gets farther from its start than the sum of its steps.", "quantifier": "every starting position, bearing and distance, and every sequence of steps", "why_tests_cant": "The claim is an identity over all positions and directions on the sphere, including the neighbourhood of the poles, the antimeridian and all four quadrants of the arctangent.", "anchors": ["Utilities/maputils.py:bear2LatLon", "Utilities/maputils.py:gridLatLonDist", "Utilities/maputils.py:gridLatLonBear", "TrackGenerator/TrackGenerator.py:TrackGenerator._singleTrack"]}
{"id": "C97", "title": "Distances to grid points are distances over the sphere", "statement": "The distance grid around a point has one row for every latitude and one column for every longitude; each number is the length of the shortest path over a sphere of radius 6367 km. It is symmetric, zero only between equal points, never longer than a detour, unaffected by whole turns of longitude, and agrees with the pairwise great-circle function.", "quantifier": "every centre point and every array of longitudes and latitudes", "why_tests_cant": "Symmetry, the triangle inequality and agreement of the two formulas are claims about all pairs and triples of points.", "anchors": ["Utilities/maputils.py:gridLatLonDist", "Utilities/maputils.py:distGC"]}
{"id": "C98", "title": "Bearings and lengths of the legs of a track describe its displacements", "statement": "For each pair of consecutive positions of a track the bearing (clockwise from north, in [0, 360)) and the length describe the displacement between them; the track can be recovered from its first position and its legs, the length of a leg does not depend on the direction in which it is walked, crossing the meridian where longitudes restart makes no difference, and the length of a leg is the distance its position was moved by.", "quantifier": "every track, every orientation of the axes", "why_tests_cant": "Ranges over all tracks and all directions, including legs across the meridian where the longitude jumps.", "anchors": ["Utilities/maputils.py:latLon2Azi", "Utilities/maputils.py:latLon2XY", "Utilities/maputils.py:xy2r"]}
{"id": "C99", "title": "The distance from a line is available for every grid", "statement": "The distance between the points of a grid and the great circle through two points is returned with one row for every latitude and one column for every longitude, and is zero on the line itself.", "quantifier": "every pair of points and every grid", "why_tests_cant": "Depends on the number of latitudes and on the direction of the line; a test on one grid sees one case.", "anchors": ["Utilities/maputils.py:dist2GC"]}
{"id": "C100", "title": "Density maps count every position of every track in exactly one cell", "statement": "The map of track density holds, for each cell of the grid over the domain, the number of recorded positions of all tracks in the cell; every position inside the domain is counted in exactly one cell, maps of separate sets of tracks add up, and the order of tracks does not matter. The map of genesis density counts every track exactly once, in the cell of its first position.", "quantifier": "every set of tracks, every domain and grid spacing", "why_tests_cant": "Ranges over all tracks, including positions on cell boundaries and on the border of the domain.", "anchors": ["Evaluate/trackDensity.py:TrackDensity.calculate", "Evaluate/genesisDensity.py:GenesisDensity.calculate"]}
{"id": "C101", "title": "Densities per year are counts divided by the number of years", "statement": "The density of the historical tracks is the count of positions in each cell divided by the number of years the record covers; the density of a simulation is the count divided by the number of years simulated.", "quantifier": "every set of tracks and every number of years", "why_tests_cant": "Ranges over all sets of tracks; records of one year and of many years behave differently.", "anchors": ["Evaluate/trackDensity.py:TrackDensity.historic", "Evaluate/trackDensity.py:TrackDensity.synthetic"]}
{"id": "C102", "title": "Pressure maps are the statistics of the recorded pressures of each cell", "statement": "For every cell of the grid the maps of pressure hold the mean, minimum, maximum and median of the pressures recorded inside the cell, missing and zero values excluded, and are masked exactly where there are none; every position of the domain belongs to exactly one cell. The distribution of minimum pressures is that of the tracks starting in the domain.", "quantifier": "every set of tracks, every domain", "why_tests_cant": "Ranges over all tracks; missing values, empty cells and positions on cell boundaries matter.", "anchors": ["Evaluate/pressureDistribution.py:PressureDistribution.calculate", "Evaluate/pressureDistribution.py:PressureDistribution.calcMinPressure", "Utilities/track.py:Track.inRegion"]}
{"id": "C103", "title": "Crossings of meridians are found with latitude and direction", "statement": "At each line of longitude a crossing is reported for each leg of a track that crosses it between the ends of the gate, at the latitude where it does, as eastward or westward according to the direction of the leg; the plotted value is the number of crossings per year in each interval of latitude.", "quantifier": "every set of tracks, every meridian and range of latitudes", "why_tests_cant": "Legs can start or end on the meridian, run along it or cross it outside the gate; rates depend on all tracks together.", "anchors": ["Evaluate/longitudeCrossing.py:LongitudeCrossing.findCrossings", "Utilities/Intersections.py:LineLine"]}
{"id": "C104", "title": "Landfalls are attributed to the gates they cross", "statement": "Of all legs from the sea to the land those gates are recorded that the leg crosses, each once, and likewise for legs from the land to the sea; the rates are the shares of the gates in all landfalls.", "quantifier": "every coast of gates and every set of tracks", "why_tests_cant": "Ranges over all coasts and legs; the last gate is a boundary case.", "anchors": ["Evaluate/landfallRates.py:LandfallRates.processTracks", "Utilities/Intersections.py:inLand"]}
{"id": "C105", "title": "Landfall intensity is reported by gate and category", "statement": "For each gate the number of landfalls across it from its left side, their mean and lowest pressure, and their number in each category of intensity are reported; the same for legs that enter the area of a location.", "quantifier": "every gate, every set of tracks", "why_tests_cant": "Ranges over all tracks and pressures; category boundaries and records on the gate matter.", "anchors": ["Evaluate/landfallIntensity.py:LandfallIntensity.countCrossings", "Evaluate/landfallIntensity.py:LandfallIntensity.isLandfall", "Evaluate/locationLandfallIntensity.py:LandfallIntensity.isLandfall"]}
{"id": "C106", "title": "Summaries of many simulations are means and percentiles of them", "statement": "What is plotted of the values of all simulations in a cell, gate or bin is their mean, median and 5th and 95th percentile: the percentiles have the right rank, lie in this order between the extremes, increase with the percentage, and do not depend on the order of the simulations.", "quantifier": "every non-empty list of values and every percentage", "why_tests_cant": "Ranges over all lists of values; interpolation between neighbours and ties matter.", "anchors": ["Evaluate/trackDensity.py:TrackDensity.calculateMeans", "Evaluate/landfallRates.py:LandfallRates.calculateStats", "Evaluate/longitudeCrossing.py:LongitudeCrossing.calcStats"]}
{"id": "C107", "title": "The stages of a run follow each other on all processes", "statement": "On any number of processes and under every schedule, a stage of the main program begins only after all enabled earlier stages have ended on every process that takes part in them; each enabled stage is run exactly once by each process that takes part in it (serial stages by the first process only), disabled stages never; the run always comes to an end. If a stage fails on one process, the run ends on all of them.", "quantifier": "every configuration of the actions, every number of processes, every interleaving of their steps, every point of failure", "why_tests_cant": "Ranges over all interleavings of any number of processes; a missing barrier shows only on some schedules.", "anchors": ["tcrm.py:main", "Utilities/parallel.py:disableOnWorkers", "Utilities/parallel.py:attemptParallel"]}
{"id": "C108", "title": "The evaluation can be run on several processes", "statement": "Run on several processes, the evaluation of the simulated tracks gets through and gives the same result as on a single process, whatever the number of track files.", "quantifier": "every number of processes, every number of track files, every schedule", "why_tests_cant": "Ranges over all interleavings and all numbers of processes and files; a deadlock cannot be shown absent by a test.", "anchors": ["Evaluate/longitudeCrossing.py:LongitudeCrossing.run", "Evaluate/interpolateTracks.py:parseTracks", "Evaluate/trackDensity.py:TrackDensity.synthetic"]}
{"id": "C109", "title": "Every stage finds the files it needs", "statement": "In an empty directory, with any valid configuration and any supported kind of input, each stage of a run finds all the files it reads, written by a stage before it.", "quantifier": "every kind of input (columns present, format of the output, number of years), every setting, every content of the directory before", "why_tests_cant": "The combinations of input columns, formats and settings are not run together by any test; each function is tested with files prepared for it.", "anchors": ["DataProcess/DataProcess.py:DataProcess.processData", "StatInterface/StatInterface.py:StatInterface", "TrackGenerator/TrackGenerator.py:TrackGenerator.loadInitialConditionDistributions", "tcrm.py:doStatistics", "tcrm.py:doDataPlotting"]}
{"id": "C110", "title": "A run depends on its own input only", "statement": "A run in a directory used before gives the same results as in an empty one: it uses no file written by an earlier run with other data or settings.", "quantifier": "every content of the directory, every input and setting, every earlier run", "why_tests_cant": "Ranges over all histories of the output directory.", "anchors": ["StatInterface/StatInterface.py:StatInterface.cdfCellSize", "TrackGenerator/TrackGenerator.py:TrackGenerator.loadInitialConditionDistributions", "TrackGenerator/TrackGenerator.py:run", "wind/__init__.py:run", "wind/__init__.py:WindfieldGenerator.dumpGustsFromTracks"]}
{"id": "C111", "title": "Selecting seasons keeps whole tracks", "statement": "If a first season is configured, the tracks used for calibration are exactly the tracks of that season and of later ones, each complete.", "quantifier": "every record sequence and every first season", "why_tests_cant": "Ranges over all sequences of records; the test data have no track across the limit.", "anchors": ["DataProcess/DataProcess.py:DataProcess.processData"]}
{"id": "C112", "title": "Counts by year and day account for every track", "statement": "The annual frequencies have a row for each year from the first to the last, with the number of tracks that begin in it, and together count every track once; the histograms of days count every record once.", "quantifier": "every sequence of records", "why_tests_cant": "Ranges over all data; bins of a histogram are closed on one side except the last.", "anchors": ["DataProcess/DataProcess.py:DataProcess._frequency", "DataProcess/DataProcess.py:DataProcess._juliandays"]}
{"id": "C113", "title": "Calibrated distributions cover the observed range and are distribution functions", "statement": "For every cell the calibrated table of a parameter has increasing values inside the range of the observations used (angles in [0,360), days in one period), non-negative densities, and cumulative values that are the shares of the total and end with 1; a table is made exactly if the observations differ by more than a step (angles: if not all are equal; days: if there are any), otherwise an exception ends the calibration; the track generator finds for each cell the table made for it, and a value drawn lies in the range observed.", "quantifier": "every sample of observations, every step, every non-negative density estimator, every set of cells", "why_tests_cant": "Ranges over all samples and steps; behaviour at constant samples or ranges below a step is not tested.", "anchors": ["StatInterface/KDEParameters.py:KDEParameters.generateKDE", "StatInterface/KDEParameters.py:KDEParameters._generatePDF", "StatInterface/GenerateDistributions.py:GenerateDistributions.allDistributions", "TrackGenerator/TrackGenerator.py:TrackGenerator.generateTracks"]}
{"id": "C114", "title": "Densities of days and bearings are circular", "statement": "The calibrated densities of days of the year and of bearings treat the end and the beginning of the period as neighbours.", "quantifier": "every sample, every kernel of finite width up to the period, every point", "why_tests_cant": "Ranges over all samples; the tests have none near the ends of the period.", "anchors": ["StatInterface/KDEParameters.py:KDEParameters.generateKDE", "StatInterface/KDEParameters.py:KDEParameters.generateGenesisDateCDF", "StatInterface/circularKDE.py:circularKDE"]}
{"id": "C115", "title": "Cyclones begin where the calibrated density is positive, in a calibrated cell", "statement": "The stored density at a latitude and longitude is the density there; only observed origins in the domain matter; an origin drawn lies in the domain where the density is positive, and its cell has calibrated tables.", "quantifier": "every domain, step, set of observed origins, estimator and pair of variates", "why_tests_cant": "Ranges over all domains and draws; a transposed grid or a cell without table shows only for some.", "anchors": ["StatInterface/KDEOrigin.py:KDEOrigin", "StatInterface/SamplingOrigin.py:SamplingOrigin", "Utilities/grid.py:grdReadFromNetcdf", "TrackGenerator/TrackGenerator.py:TrackGenerator.generateTracks"]}
{"id": "C116", "title": "The hazard file holds at each place the fit to the winds there", "statement": "With annual maxima chosen, when the hazard calculation ends, the saved longitudes and latitudes are exactly the grid points in the requested region, and the values saved at a longitude and latitude are those of the fit to the list that has, for each simulated year, the greatest wind of the events of that year at that longitude and latitude (zero if it has none); with another method chosen and only the wind fields of the events in the directory, they are those of the fit to the winds of all events at that place; with annual maxima and at least three simulated years no place raises an exception.", "quantifier": "every set of events and order of listing with other files present, all sorted axes, regions, tile sizes, numbers of processes and schedules", "why_tests_cant": "Ranges over all schedules, regions and tilings; a shift by one row shows only off the corners tested.", "anchors": ["hazard/__init__.py:HazardCalculator.calculateHazard", "hazard/__init__.py:TileGrid", "hazard/__init__.py:run", "hazard/__init__.py:aggregateWindFields", "hazard/__init__.py:calculateGEV", "hazard/__init__.py:loadFilesFromPath", "hazard/__init__.py:calculateGPD", "hazard/__init__.py:calculateEMP", "hazard/__init__.py:calculatePower"]}
{"id": "C117", "title": "Return levels have the stated probability under the fitted distribution", "statement": "A wind speed reported for a period of t years from annual maxima is exceeded under the fitted extreme value distribution with probability y/t in a simulation of y years; one reported by the Pareto fit for T years is exceeded on a day with probability one in 365.25 T: the share of simulated days above the threshold times the exceedance probability of the fitted distribution.", "quantifier": "every record, period and fit with levels reported (for the Pareto fit: shape not zero, positive scale, some wind above the threshold)", "why_tests_cant": "Ranges over all records and parameters; sign conventions of the shape differ between libraries.", "anchors": ["hazard/evd.py:gevfit", "hazard/GPD.py:gpdfit", "hazard/GPD.py:gpdReturnLevel"]}
{"id": "C118", "title": "Return periods count all simulated years", "statement": "The period assigned to a level refers to the years simulated, that is the number of simulations times the years of each.", "quantifier": "every number of simulations and of years per simulation, every record and method", "why_tests_cant": "Ranges over all settings; tests have one year per simulation.", "anchors": ["hazard/__init__.py:calculateGEV", "hazard/__init__.py:calculateGPD", "hazard/__init__.py:calculateEMP", "hazard/__init__.py:calculatePower", "TrackGenerator/TrackGenerator.py:run"]}
{"id": "C119", "title": "Levels come from enough observations", "statement": "A method other than the four documented is refused; a level is reported at a place only if at least the least number of records asked for has wind there.", "quantifier": "every record, every least number, every method", "why_tests_cant": "Ranges over all records; the tests call the fits with long records.", "anchors": ["hazard/__init__.py:HazardCalculator.calculateHazard", "hazard/evd.py:gevfit", "hazard/evd.py:powerfit", "hazard/evd.py:empfit", "hazard/GPD.py:gpdfit"]}
{"id": "C120", "title": "Power-law levels increase with the period", "statement": "The levels of the power-law method increase with the period and stay below the fitted limit.", "quantifier": "every record, every answer of the library, every pair of periods", "why_tests_cant": "Ranges over all answers of the optimiser.", "anchors": ["hazard/evd.py:powerfit"]}
{"id": "C121", "title": "Every track near the region gets its wind-field file, on any number of processes", "statement": "For a configured region: every track with a position within the margin of the region is chosen, and a track that is not chosen has no wind on the grid; the processes together write one file for each chosen track, under its name, whose rows of latitudes and field are turned round together, with the extremes along that track; none raises.", "quantifier": "every set of track files with distinct identifiers, every order of listing on each process, every number of processes and every region; margin and resolution in hundredths of a degree with the step dividing twice the margin (C18 says what happens otherwise)", "why_tests_cant": "Ranges over all sets of tracks, listings and numbers of processes.", "anchors": ["wind/__init__.py:inRegion", "wind/__init__.py:filterTracks", "wind/__init__.py:loadTracksFromFiles", "wind/__init__.py:WindfieldGenerator.dumpGustsFromTracks", "wind/__init__.py:WindfieldGenerator.dumpGustsFromTrackfiles"]}
{"id": "C122", "title": "The wind at a place takes account of every storm position within the margin of it", "statement": "At every grid point the wind stored is at least the wind of each position of the track within the margin of that point, taken at less than a grid step from it.", "quantifier": "every track, region, margin, resolution and grid point", "why_tests_cant": "Ranges over all tracks; a storm that passes just outside the region is not among the tests.", "anchors": ["wind/__init__.py:WindfieldAroundTrack.regionalExtremes"]}
{"id": "C123", "title": "Without a configured region the wind field covers the track", "statement": "If no region is configured, the file of each track covers all its positions, whichever process calculates it.", "quantifier": "every set of tracks and number of processes", "why_tests_cant": "Ranges over all sets of tracks and all numbers of processes; one track does not show it.", "anchors": ["wind/__init__.py:WindfieldGenerator.setGridLimit", "wind/__init__.py:WindfieldGenerator.calculateExtremesFromTrack"]}
{"id": "C124", "title": "The hazard comes from the winds of all tracks simulated", "statement": "After the wind-field stage on any number of processes and the hazard stage (annual maxima) on any number of workers, the levels saved at a latitude and longitude are those fitted to the list that has, for each year, the greatest wind that any position of any track of that year brought to that latitude and longitude; with another method, to the list that has, for each track near the region, the greatest wind that any of its positions brought there.", "quantifier": "every set of track files, numbers of processes of both stages, listings, schedules, regions and tilings; margin and resolution in hundredths of a degree with the step dividing twice the margin (C18 says what happens otherwise)", "why_tests_cant": "Ranges over all schedules and sets of tracks; needs both stages together, and the orientation of the files between them.", "anchors": ["wind/__init__.py:run", "hazard/__init__.py:run", "hazard/__init__.py:aggregateWindFields", "hazard/__init__.py:calculateGEV"]}
{"id": "C125", "title": "A cyclone weakens over land in proportion to the time since landfall", "statement": "After a synthetic cyclone crosses the coast, its pressure deficit at each position over land is the deficit of its last position at sea times the exponential of minus the filling rate times the time since that landfall; it weakens from step to step.", "quantifier": "every synthetic track, environment and random stream", "why_tests_cant": "Ranges over all tracks, with several landfalls, and all random variates.", "anchors": ["TrackGenerator/TrackGenerator.py:TrackGenerator._singleTrack", "TrackGenerator/TrackGenerator.py:TrackGenerator._stepPressureChange"]}
{"id": "C126", "title": "The pressure of a synthetic cyclone at sea stays above the floor of the observations", "statement": "At every position at sea after genesis the central pressure is at least the cell minimum less four standard deviations or has risen from the previous position; a cyclone that stays at sea never sinks below the least such floor of its cells.", "quantifier": "every synthetic track, environment and random stream", "why_tests_cant": "Ranges over all tracks and random variates.", "anchors": ["TrackGenerator/TrackGenerator.py:TrackGenerator._stepPressureChange"]}
{"id": "C127", "title": "The environmental pressure of a storm is that of the climatology at its day and position", "statement": "The pressure sampled for a day of the year, latitude and longitude is the value of the climatology file for that day and position.", "quantifier": "every climatology file, day, latitude and longitude", "why_tests_cant": "Ranges over all files and positions; the one unit test uses other scale factors than the code that calls the function.", "anchors": ["Utilities/interp3d.py:interp3d", "TrackGenerator/TrackGenerator.py:SamplePressure.get_pressure", "Utilities/loadData.py:ltmPressure"]}
{"id": "C128", "title": "Loading a best-track file keeps every record, in order, in the track it belongs to", "statement": "Every record of the input appears exactly once and in order in the tracks loaded; a track begins exactly where a record is marked as the first of a storm or lies further from its predecessor than a cyclone can travel; the first row of a track carries no motion, and every other row carries the speed, bearing and wind of the step from the previous record.", "quantifier": "every list of records", "why_tests_cant": "Ranges over all files, of any length and number of storms.", "anchors": ["Utilities/loadData.py:loadTrackFile", "Utilities/loadData.py:getSpeedBearing", "Utilities/loadData.py:getInitialPositions"]}
{"id": "C129", "title": "The wind estimated from pressure is sound", "statement": "The wind given to a record without one is never negative; it is zero if a pressure is missing; a deficit gives a positive wind, the absence of a deficit gives none, and a deeper storm at the same latitude, environment and tendency is stronger. The wind of a deficit is the one of Holland (2008), and no other.", "quantifier": "every record with |latitude| ≤ 40 and the pressures, speeds and tendencies that occur", "why_tests_cant": "Ranges over real latitudes, pressures and speeds.", "anchors": ["Utilities/loadData.py:maxWindSpeed", "Utilities/loadData.py:loadTrackFile"]}
{"id": "C130", "title": "Shapefiles of tracks show every position and step", "statement": "The point file has one point with its record for every position; the line file joins every position to the next; the dissolved file has one line per storm through all its positions; the category is that of the central pressure.", "quantifier": "every list of tracks", "why_tests_cant": "Ranges over all tracks, with any crossings of the meridian.", "anchors": ["Utilities/tracks2shp.py:tracks2point", "Utilities/tracks2shp.py:tracks2line", "Utilities/tracks2shp.py:add_category"]}
{"id": "C131", "title": "Smoothing a hazard map neither creates extremes nor loses wind", "statement": "Every smoothed value lies between the least and the greatest value of the map, and the mean over the map is kept; cells without a value do not change those around them.", "quantifier": "every map and smoothing length", "why_tests_cant": "Ranges over maps of all sizes and values, and over smoothing lengths beyond the size of the map.", "anchors": ["Utilities/smooth.py:smooth", "Utilities/smooth.py:gaussKern"]}
{"id": "C132", "title": "Data passed between stages as text comes back", "statement": "A table written by the processing of observations and read by calibration or track generation has the same rows and columns: whole numbers (origin markers, counts) come back exactly, other numbers to two decimals, missing values stay missing, and each column can be taken from what was read.", "quantifier": "every table of numbers and missing values, every header without line breaks, every field width", "why_tests_cant": "Ranges over all numbers and over files of all sizes.", "anchors": ["Utilities/files.py:flSaveFile", "Utilities/files.py:flLoadFile", "DataProcess/DataProcess.py:DataProcess", "StatInterface/KDEOrigin.py:KDEOrigin", "DataProcess/CalcFrequency.py"]}
{"id": "C133", "title": "The empirical points of a hazard curve are those of the simulation", "statement": "Each point of a hazard curve stands for one simulated wind speed, at the return period given by its rank among all simulated days; there is one point for every event that ranks above the one-year level, and curve and points are in the units named on the axis.", "quantifier": "every location, hazard file and list of recorded winds", "why_tests_cant": "Ranges over all numbers of events and simulated years.", "anchors": ["PlotInterface/AutoPlotHazard.py:AutoPlotHazard.plotHazardCurves", "PlotInterface/curves.py:HazardCurve", "PlotInterface/curves.py:empReturnPeriod"]}
{"id": "C134", "title": "Contour levels of a map", "statement": "The levels of a colour scale start at the least value, increase by one fixed step from a list of round steps, stay below the greatest value and reach it within one step; scales from zero always exist and have between 8 and 14 levels, and a scale is refused exactly when its range is no more than 0.7 of the decade of the greatest value.", "quantifier": "every pair of different limits that are not negative", "why_tests_cant": "Ranges over values of all magnitudes.", "anchors": ["PlotInterface/maps.py:levels"]}
{"id": "C135", "title": "A storm uses the statistics of its own cell", "statement": "After calibration has written the statistics of a variable, the coefficients that the track generator reads for a cell, over sea and over land, are mean, spread and autocorrelation of the valid observations of that class in a window around the cell with more than the minimum of them; the file shows them at the row, column and coordinates of the cell.", "quantifier": "every list of observations and every grid of two or more whole cells whose domain has enough observations over sea; linear and angular variables", "why_tests_cant": "Ranges over all observations, grids and cells.", "anchors": ["StatInterface/generateStats.py:GenerateStats", "StatInterface/StatInterface.py:StatInterface.calcCellStatistics", "TrackGenerator/TrackGenerator.py:TrackGenerator.loadCellStatistics"]}
{"id": "C136", "title": "Mean and spread of bearings respect the circle", "statement": "The mean of a sample of bearings lies within one turn, is the direction closest to the sample (unique unless the bearings cancel), does not depend on whole turns or on the order, and turns with the sample; the spread is between 0 and 1, is 0 exactly for equal bearings and does not change when all are turned.", "quantifier": "every non-empty list of angles", "why_tests_cant": "Ranges over all real angles and sample sizes.", "anchors": ["Utilities/stats.py:circmean", "Utilities/stats.py:circstd", "StatInterface/generateStats.py:GenerateStats.calculate"]}
{"id": "C137", "title": "The distance stored for a track and a location is that of their closest approach", "statement": "After the tracks are loaded into the hazard database, there is exactly one row for each track with positions and each location, and its distance is the length in kilometres from the location to the closest point of the course of the track.", "quantifier": "every list of tracks of any length, every list of locations, all positions", "why_tests_cant": "Ranges over all tracks, locations and positions on the sphere; a test sees a few pairs, and pairs near the equator look right.", "anchors": ["Utilities/track.py:Track.minimumDistance", "database/__init__.py:processTrack"]}
{"id": "C138", "title": "Simulating an event maps the wind field of that event", "statement": "Running an event simulation on an input file calculates the wind field of the event in it and maps that wind field, cut to the region.", "quantifier": "every input file and its events, every region and wind field setting, whatever files earlier runs left", "why_tests_cant": "Ranges over all inputs and all contents of the output directory; the shipped example has one event in a table and starts in a new directory.", "anchors": ["tcevent.py:main", "tcevent.py:doWindfieldPlotting", "Evaluate/interpolateTracks.py:parseTracks", "wind/__init__.py:run"]}
{"id": "C139", "title": "Exporting a grid to text keeps every value at its place", "statement": "The text file exported from a gridded output file places every value at the same longitude and latitude as the source, and reading the text file gives the grid back.", "quantifier": "every grid file: all axes, values and cell sizes, and whatever file has the name of the export", "why_tests_cant": "Ranges over all axes, including descending ones and cells that are not square, and over the state of the output directory; a test exports one grid once.", "anchors": ["Utilities/nc2txt.py:process", "Utilities/grid.py:grdSave", "Utilities/grid.py:grdRead"]}
{"id": "C140", "title": "Each station's time series is plotted to its own image titled with its identifier", "statement": "After plotting the time series of a directory there is, for every station, one image named after it that shows its records under its identifier.", "quantifier": "every set of stations, all identifiers and series", "why_tests_cant": "Ranges over all identifiers, pairs of identifiers and lengths of series; a test plots a few stations with numeric identifiers.", "anchors": ["PlotInterface/plotTimeseries.py:plotTimeseries", "PlotInterface/plotTimeseries.py:loadTimeseriesData", "Utilities/timeseries.py:Timeseries.shutdown"]}
{"id": "C141", "title": "A dataset reported as downloaded is there and complete", "statement": "When the download of the input datasets reports success, every dataset is in its file, unpacked and complete.", "quantifier": "every history of attempts: all responses of the server, broken transfers, and stops of the program at any point, for every set of datasets", "why_tests_cant": "Ranges over all histories with crashes between any two writes; a test cannot stop the program at every byte.", "anchors": ["Utilities/datasets.py:DataSet.download", "Utilities/datasets.py:DataSet.isDownloaded", "Utilities/datasets.py:DataSet.__init__", "Utilities/datasets.py:checkAndDownload"]}
{"id": "C142", "title": "A setting left out takes a default that every stage accepts", "statement": "A configuration file may leave settings out: every stage runs with any file whose own settings are acceptable, the settings left out taking their defaults.", "quantifier": "every configuration file (any sections, options and texts, in any order) and every stage of a run", "why_tests_cant": "Ranges over all subsets of settings left out and all texts given; a test runs one configuration, and the stages read more than a hundred settings.", "anchors": ["Utilities/config.py:DEFAULTS", "Utilities/config.py:_ConfigParser", "StatInterface/StatInterface.py:StatInterface.__init__", "StatInterface/KDEParameters.py:KDEParameters.__init__", "TrackGenerator/TrackGenerator.py:run", "wind/__init__.py:run", "hazard/__init__.py:run", "database/__init__.py:HazardDatabase.__init__", "PlotInterface/AutoPlotHazard.py:AutoPlotHazard.__init__", "Evaluate/longitudeCrossing.py:LongitudeCrossing.__init__", "DataProcess/DataProcess.py:DataProcess.processData"]}
{"id": "C143", "title": "A run that fails says so", "statement": "If a stage fails, the run does not go on to later stages, the failure is logged, and the process ends with a status other than zero.", "quantifier": "every configuration, every choice of stages, every way each stage may end, with and without --debug", "why_tests_cant": "Ranges over all combinations of stages and failures; a test injects one failure into one stage.", "anchors": ["tcrm.py:startup", "tcrm.py:main", "tcevent.py:startup", "tcevent.py:main"]}
{"id": "C144", "title": "The configuration file named on the command line is the one used", "statement": "The settings of a run come from the file named by -c, names being taken from the directory in which the command was given; if there is no such file the run fails.", "quantifier": "every working directory, location of the program, set of existing files and file name", "why_tests_cant": "Ranges over all directories and names; tests run from the root directory of the program.", "anchors": ["tcrm.py:startup", "tcrm.py:main", "tcevent.py:startup", "tcevent.py:main", "Utilities/config.py:_ConfigParser.read"]}
{"id": "C145", "title": "Processes of a run write different log files", "statement": "Any two processes of a parallel run write different log files, with or without the date in the names, even if they are started at different minutes.", "quantifier": "every log file name (any text), number of processes, pair of ranks and dates", "why_tests_cant": "Ranges over all names, with and without extensions, leading full stops, slashes, and all ranks.", "anchors": ["tcrm.py:startup", "Utilities/files.py:flStartLog"]}
{"id": "C146", "title": "Every synthetic track obeys the track model", "statement": "A synthetic track starts with its genesis values and follows, at every time step, the equations of the model: position from bearing and speed, autoregressive pressure rate, bearing and speed with the coefficients of the cell over land or sea, decay of the deficit at the coast with the hours over land, regression for the outer pressure and the radius; it ends exactly when the storm leaves the domain, fills, or reaches the greatest number of steps. The equations and the random numbers determine the track.", "quantifier": "every genesis, every sequence of random numbers, all cell statistics, land masks, pressure fields, domains and numbers of steps", "why_tests_cant": "Tracks are random and of any length; tests check single steps or distributions of samples.", "anchors": ["TrackGenerator/TrackGenerator.py:TrackGenerator._singleTrack", "TrackGenerator/TrackGenerator.py:TrackGenerator._stepPressureChange", "TrackGenerator/TrackGenerator.py:TrackGenerator._stepBearing", "TrackGenerator/TrackGenerator.py:TrackGenerator._stepSpeed", "TrackGenerator/TrackGenerator.py:TrackGenerator._notValidTrackStep", "TrackGenerator/trackSize.py:rmax", "Utilities/loadData.py:getPoci"]}
{"id": "C147", "title": "Genesis conditions are drawn from the fitted distributions", "statement": "Each track of an event set starts at a point drawn from the distribution of origins, with bearing, speed and day drawn from the tables of the cell of that point, an hour of the day, a pressure drawn from the part of the table below the environmental pressure, and a radius of at most 100 km whose random deviation is kept for the whole track.", "quantifier": "every event set, sampling tables, random numbers and numbers of tracks", "why_tests_cant": "Ranges over all tables and all sequences of random numbers.", "anchors": ["TrackGenerator/TrackGenerator.py:TrackGenerator.generateTracks", "TrackGenerator/TrackGenerator.py:ppf", "TrackGenerator/trackSize.py:rmax"]}
{"id": "C148", "title": "The fitted extreme value distribution has the skewness of the record", "statement": "The extreme value distribution fitted to a record has the L-skewness of the record to within 0.005, for every L-skewness between -1 and 1 (to within a millionth below -0.8, where it is found by iteration); with C58 it therefore has the first three L-moments of the record.", "quantifier": "every record of annual winds with L-skewness between -1 and 1", "why_tests_cant": "The shape comes from rational approximations with printed coefficients and from iterations that have to converge for every L-skewness; a test compares a few values with published ones.", "anchors": ["Utilities/lmomentFit.py:pelgev", "hazard/evd.py:gevfit"]}
{"id": "C149", "title": "Sample L-moments of every order", "statement": "Asked for four or more moments, the routine returns the mean, the second sample L-moment and the ratios of all higher sample L-moments to the second, as defined by unbiased probability weighted moments; it returns nothing exactly if the sample is too small, more than 100 moments are asked for, or the second moment is zero.", "quantifier": "every sample and every number of moments", "why_tests_cant": "The recurrence runs over all orders; tests compare the first three or four for one sample.", "anchors": ["Utilities/lmomentFit.py:samlmu"]}
{"id": "C150", "title": "Track files giving ages", "statement": "If the track file gives the age of each observation in hours in place of its date, observations are dated their age after the start of 2000, elapsed times are the ages and the steps between observations are the differences of the ages rounded to whole hours.", "quantifier": "every column of non-negative ages, of any length", "why_tests_cant": "The calendar has to be right for every age, over month ends and leap years; tests use dates.", "anchors": ["Utilities/loadData.py:parseAge", "Utilities/loadData.py:getTimeDelta", "Utilities/loadData.py:julianDays", "Utilities/loadData.py:loadTrackFile"]}
{"id": "C151", "title": "Time of day of the environmental pressure", "statement": "Where the track file has no environmental pressure, each observation gets that of the climatology at its own date, hour and minute.", "quantifier": "every observation of the years 1437 to 2869, every climatology file, every place", "why_tests_cant": "The loss of precision is invisible at the synoptic hours that tests and most records use.", "anchors": ["Utilities/loadData.py:getTime", "Utilities/loadData.py:ltmPressure", "Utilities/loadData.py:julianDays"]}
{"id": "C152", "title": "Wind and pressure of a storm balance", "statement": "At every distance from the centre, the wind of a storm's profile is the one that balances its pressure profile of the same name: centripetal and Coriolis acceleration add up to the pressure force, and no other cyclonic wind does.", "quantifier": "every storm (pressures, radius, latitude, parameters), every distance from the centre", "why_tests_cant": "Balance is an identity between two separately written profiles over all radii and parameters; tests compare each profile with stored numbers.", "anchors": ["wind/windmodels.py:HollandWindProfile.velocity", "wind/windmodels.py:SchloemerWindProfile", "wind/windmodels.py:DoubleHollandWindProfile.velocity", "PressureInterface/pressureProfile.py:PrsProfile.holland", "PressureInterface/pressureProfile.py:PrsProfile.doubleHolland", "wind/__init__.py:WindfieldAroundTrack.localWindField"]}
{"id": "C153", "title": "Gridded data saved to a file come back", "statement": "Axes and fields saved to a grid file can be read back by name with their shapes and numbers (converted to the stored type), whatever was in the file before, and no other file changes; a description that is incomplete or an array with the wrong number of axes is refused, and a refused request leaves an earlier file as it was.", "quantifier": "every list of axes and fields, types of numbers, missing value and earlier content", "why_tests_cant": "The round trip must hold for every set of axes and shapes, and the fate of the earlier file depends on where the first fault is; tests save a few fixed grids.", "anchors": ["Utilities/nctools.py:ncSaveGrid", "Utilities/nctools.py:ncCreateDim", "Utilities/nctools.py:ncGetDims", "Utilities/nctools.py:ncGetData", "Utilities/nctools.py:ncGetVar", "Utilities/nctools.py:ncLoadFile"]}
{"id": "C154", "title": "A hazard map shows the calculated level at each place, and nothing where there is none", "statement": "After a hazard calculation is saved, there is one map for each return period, and each map shows at the latitude and longitude of every grid point the level calculated for that period there, in the units of the plot; a place is left empty exactly if its level is missing.", "quantifier": "every result of a hazard calculation (grid, periods, levels and missing ones), missing value, rounding of the file and unit", "why_tests_cant": "The statement composes writing, reading, masking, slicing by period and shifting of longitudes over grids of every size; a test looks at an image.", "anchors": ["hazard/__init__.py:HazardCalculator.saveHazard", "PlotInterface/AutoPlotHazard.py:AutoPlotHazard.loadFile", "PlotInterface/AutoPlotHazard.py:AutoPlotHazard.plotMap", "Utilities/nctools.py:ncSaveGrid"]}
{"id": "C155", "title": "The hazard file describes its contents", "statement": "The saved hazard file has the calculated levels and parameters on their axes; the range it gives for the levels is that of the levels, and its confidence limits are those of the configured percentiles, missing where none were calculated.", "quantifier": "every result of a hazard calculation", "why_tests_cant": "Has to hold for every grid and every pattern of missing levels; tests do not look at attributes.", "anchors": ["hazard/__init__.py:HazardCalculator.saveHazard", "hazard/__init__.py:HazardCalculator.__init__"]}
{"id": "C156", "title": "The hazard is calculated on the grid of the wind fields", "statement": "The longitudes and latitudes saved with the hazard are those of the wind fields it is calculated from, row by row, whatever other output of the wind-field stage is in the folder and in whatever order the folder is listed.", "quantifier": "every set of tracks, region, grid, choice of optional output and order of listing; every schedule of the hazard calculation", "why_tests_cant": "The order in which a folder is listed is arbitrary, and the effect shows only with optional output; a test reads one folder.", "anchors": ["hazard/__init__.py:setDomain", "hazard/__init__.py:run", "wind/__init__.py:WindfieldGenerator.dumpGustsFromTracks", "wind/writer.py:WriteFoliationCallback"]}
{"id": "C157", "title": "The local winds of the wind-field stage use the configured multipliers", "statement": "With multipliers configured, every track gets its wind field, and its local winds are the regional winds times the configured multipliers.", "quantifier": "every configured path, folder, content of the disk, track and wind field", "why_tests_cant": "Whether the right files are opened depends on the content of the whole disk; the external raster library keeps tests from running this stage.", "anchors": ["wind/__init__.py:WindfieldGenerator.calcLocalWindfield", "wind/__init__.py:WindfieldGenerator.dumpGustsFromTracks", "ProcessMultipliers/processMultipliers.py:processMult"]}
{"id": "C158", "title": "A storm is set up as described by its pressures, radius and maximum wind", "statement": "A wind profile is the same whether each of its pressures is given in hPa or in Pa; a maximum wind that is set is used, otherwise it follows from the pressures, stronger for a deeper storm; a storm without a pressure deficit has none; the radius of maximum wind is in the documented unit.", "quantifier": "every latitude, pressure from 100 to 10000 hPa in either unit, radius, shape and maximum wind; the three models of maximum wind", "why_tests_cant": "The unit is guessed from the size of a number, at two places one after the other; a test tries a few pressures in one unit.", "anchors": ["wind/windmodels.py:WindSpeedModel", "wind/windmodels.py:WilloughbyWindSpeed", "wind/windmodels.py:HollandWindSpeed", "wind/windmodels.py:AtkinsonWindSpeed", "wind/windmodels.py:WindProfileModel"]}
{"id": "C159", "title": "The distribution function of the origins is that of the sampled origins", "statement": "The distribution function offered with the sampler of origins gives, at every location, the probability that a sampled longitude is at most that of the location, and likewise for the latitude given the longitude; it is the inverse of the percent point function, and it can be saved.", "quantifier": "every grid, density on it, location and pair of variates", "why_tests_cant": "A cumulative probability is compared with the samples for all variates at once; a sample of a few points near the middle of a grid does not see the first row, the first column or the points of the grid.", "anchors": ["StatInterface/SamplingOrigin.py:SamplingOrigin.cdf", "StatInterface/SamplingOrigin.py:SamplingOrigin.ppf", "StatInterface/KDEOrigin.py:KDEOrigin.generateCdf", "StatInterface/KDEOrigin.py:KDEOrigin.generateKDE"]}
{"id": "C160", "title": "Sizes fitted to observations reproduce the observations", "statement": "Observed radii of maximum wind that follow the documented form, a constant plus multiples of the pressure deficit and the latitude, are fitted by its coefficients, which given to the size model reproduce the radii; arrays of different lengths are refused.", "quantifier": "every list of observations and all coefficients", "why_tests_cant": "The test compares with numbers calculated by the same program; that the coefficients are those of another form shows only for all observations together.", "anchors": ["TrackGenerator/trackSize.py:fitRmax", "TrackGenerator/trackSize.py:rmax"]}
{"id": "C161", "title": "Archived files are kept", "statement": "Archiving a processed file moves it into the archive folder, if there is one, with its date in the name if this is wanted, and no file archived before is lost.", "quantifier": "every history of calls, changes of files by others, folder, name, content and time", "why_tests_cant": "Loss needs two files whose names meet in the archive; it depends on the whole history.", "anchors": ["Utilities/process.py:pArchiveFile", "Utilities/process.py:pMoveFile", "Utilities/process.py:pArchiveDir", "Utilities/process.py:pArchiveTimestamp", "Utilities/process.py:pArchiveDateFormat", "Utilities/files.py:flModDate"]}
{"id": "C162", "title": "Stations and locations are those of the location files", "statement": "Every place in a station file gives one station, and every place in the location file one row of the location table, with its own coordinates, identifier and attributes; files that cannot be longitudes and latitudes are refused.", "quantifier": "every shape file with any fields, features and points; every text file of stations", "why_tests_cant": "Whether a place is lost depends on how identifiers, fields and the number of lines combine; a sample file has none of these.", "anchors": ["Utilities/shptools.py:shpGetVertices", "Utilities/shptools.py:shpGetField", "Utilities/shptools.py:shpReadShapeFile", "Utilities/timeseries.py:Timeseries.__init__", "Utilities/files.py:flLoadFile", "database/__init__.py:buildLocationDatabase", "database/__init__.py:run"]}
{"id": "C163", "title": "Local time series and tables for every station", "statement": "Applying the multipliers to the time series of a run gives, for every station with a series, a local series with each of its records multiplied by the station's own multipliers, and tables with the record of the largest local gust and of the lowest pressure for each; the original series are kept and repeating it changes nothing.", "quantifier": "every station file (any fields, records and values), every set of series", "why_tests_cant": "Which station gets which multipliers depends on the columns of the file, on repeated and missing records, and on where a run stops; a test has one file.", "anchors": ["Utilities/tsmultipliers.py:process_timeseries", "Utilities/tsmultipliers.py:tsmultiply"]}
{"id": "C164", "title": "Saved evaluation maps have each number at its place and under its name", "statement": "The files saved by the evaluation (density of tracks and of genesis, pressures, crossings of meridians) hold, at the latitude and longitude given by their axes, the numbers calculated for that cell, point or gate, under the name of the statistic they are, with percentiles and units as labelled; what could not be calculated is not passed off as saved.", "quantifier": "every grid, every record of tracks, every set of simulations, every previous content of the files", "why_tests_cant": "A map that is transposed, shifted by a cell, or saved under the name of another statistic looks plausible, and on square or symmetric test grids it is the same.", "anchors": ["Evaluate/trackDensity.py:TrackDensity.save", "Evaluate/genesisDensity.py:GenesisDensity.save", "Evaluate/genesisDensity.py:GenesisDensity._calculate", "Evaluate/pressureDistribution.py:PressureDistribution.save", "Evaluate/longitudeCrossing.py:LongitudeCrossing.save", "Utilities/nctools.py:ncSaveGrid"]}
{"id": "C165", "title": "The output folders are created without touching anything, and an interrupted creation is completed", "statement": "Before a run its output folder and the subfolders it writes to are created: afterwards they all exist and nothing else has changed; files and folders that existed are never altered, whether the creation succeeds, fails or is killed at any point; it fails only if a file is in the way or the system refuses; a later run completes what an interrupted one left; and several processes, or simultaneous runs, do not disturb one another.", "quantifier": "every file system, output path, set of permissions, point of interruption and order of the steps of any number of processes", "why_tests_cant": "Whether a rerun recovers depends on the point of the crash, and whether processes collide on the schedule.", "anchors": ["tcrm.py:doOutputDirectoryCreation", "tcevent.py:doOutputDirectoryCreation", "Utilities/parallel.py:disableOnWorkers"]}
{"id": "C166", "title": "Each column of the attribute tables of exported tracks holds the quantity it is named after", "statement": "In the tables of the point, segment and whole-track shape files every row belongs to one observation (or track), in order, and each column holds the quantity it is named after: identity, date, position, motion, pressures, wind speed, size and the category of the central pressure; the row of a whole track gives its number, its start, its age, its least pressure and its greatest wind speed.", "quantifier": "every list of non-empty tracks, observed or read from netCDF files, with any values", "why_tests_cant": "Values are put into columns by position only: a field added, removed or moved in one of four separate lists of names shifts all columns after it, and the numbers still look plausible.", "anchors": ["Utilities/tracks2shp.py:tracks2point", "Utilities/tracks2shp.py:tracks2line", "Utilities/tracks2shp.py:add_category", "Utilities/tracks2shp.py:add_field", "Utilities/tracks2shp.py:recdropfields", "Utilities/track.py:trackFields", "Utilities/track.py:TCRM_COLS", "Utilities/shptools.py:tracks2point", "Utilities/formatJTWC.py"]}
{"id": "C167", "title": "Dates are read as written in the configured format", "statement": "A date written in the format the configuration gives for a track file is read as that date, component by component, with the components the format does not name set to 1 January 1900, 00:00:00; what is accepted is in the text and a date of the calendar; one unreadable entry or a year of two digits stops the run; and data processing and the loader of track files read the same dates from the same file.", "quantifier": "all dates, all formats of numeric components, separators and blanks, all columns of dates", "why_tests_cant": "Formats are free text and the digits of neighbouring components may run together; a test fixes a format and some dates.", "anchors": ["Utilities/loadData.py:date2ymdh", "Utilities/loadData.py:parseDates", "Utilities/loadData.py:loadTrackFile", "DataProcess/DataProcess.py:processData", "Utilities/columns.py:colReadCSV"]}
{"id": "C168", "title": "Dates given in separate columns", "statement": "A track file that gives year, month, day, hour and minute in separate columns is read with these dates; without minutes the times of day may be given as hhmm or as whole hours, and without years every storm keeps its times between observations.", "quantifier": "all columns of dates, with and without minutes and years, all sequences of storms", "why_tests_cant": "It concerns every combination of present and missing columns, and storms over the turn of the year or of February.", "anchors": ["Utilities/loadData.py:parseDates", "Utilities/columns.py:colReadCSV"]}
{"id": "C169", "title": "Calibration and simulation agree on what is land", "statement": "A position counts as land exactly if the land mask shows land at the grid point nearest to it, both for observations in calibration and for storms in simulation; a storm over land is moved with the statistics of the observations over land and its pressure decays there, a storm over sea with those over sea.", "quantifier": "every land mask, every list of observations, every position and every generated track", "why_tests_cant": "The two stages sample the mask in separate code, at positions that depend on the data and on random numbers; agreement must hold at every position.", "anchors": ["TrackGenerator/trackLandfall.py:LandfallDecay.onLand", "DataProcess/DataProcess.py:DataProcess._lonLat", "Utilities/grid.py:SampleGrid.sampleGrid", "StatInterface/generateStats.py:GenerateStats"]}
{"id": "C170", "title": "The scale bar of a map has the length that it shows", "statement": "On every map a scale bar is drawn; its label is 1, 2 or 5 times a power of ten in kilometres, about a fifth of the width of the map; the geodesic distance between its ends is the label, to within one per cent; the search for its end comes to an end.", "quantifier": "every map width, location, angle, length and tolerance, and every continuous distance along the bar", "why_tests_cant": "Length and end of the bar come from an exponential and a binary search over a map projection; they must end and be right for every map.", "anchors": ["PlotInterface/scalebar.py:_upper_bound", "PlotInterface/scalebar.py:_distance_along_line", "PlotInterface/scalebar.py:_point_along_line", "PlotInterface/scalebar.py:_setlength", "PlotInterface/scalebar.py:scale_bar", "PlotInterface/maps.py:MapFigure.addMapScale"]}
{"id": "C171", "title": "The plots of the input data show the data", "statement": "The scatter plots of a parameter against its value before have a point for every pair of successive observed values of the same storm, at the place that the axis labels promise; the plot of minimum pressure shows the lowest pressure of every storm; the plots of steps of longitude and latitude show the steps of every storm the short way round; probability plots show standardised anomalies.", "quantifier": "all storms, of any number and length, with any values and any pattern of missing values", "why_tests_cant": "Storms are concatenated in one column with a column of marks; whether a plot mixes storms or drops an observation depends on where storms begin and which values are missing.", "anchors": ["PlotInterface/plotStats.py:PlotData.scatterHistogram", "PlotInterface/plotStats.py:PlotData.quantile", "PlotInterface/plotStats.py:PlotPressure.plotPressure", "PlotInterface/plotStats.py:PlotPressure.plotMinPressure", "PlotInterface/plotStats.py:PlotBearing.plotBearing", "PlotInterface/plotStats.py:PlotSpeed.plotSpeed", "PlotInterface/plotStats.py:PlotLonLat.plotLonLat", "tcrm.py:doDataPlotting"]}
{"id": "C172", "title": "Progress is reported as configured", "statement": "If the setting ProgressBar is on and the program runs in a terminal, the completion of a stage is always reported, the percentage reported is that of the work done, the reports are never more than five per cent behind, and at most one line is written for five per cent of progress; if the setting is off nothing is written.", "quantifier": "every sequence of progress updates, of any length, every terminal and every text of the setting", "why_tests_cant": "The throttle keeps state between updates; what it hides or repeats depends on the whole sequence of updates.", "anchors": ["Utilities/progressbar.py:SimpleProgressBar.update", "Utilities/progressbar.py:SimpleProgressBar.__init__", "Utilities/progressbar.py:ProgressBar.__init__", "Utilities/progressbar.py:ProgressBar._percentage", "tcrm.py:doTrackGeneration", "tcrm.py:doHazard"]}
{"id": "C173", "title": "The multipliers merged are those of the configured tiles", "statement": "For each of the three multipliers and eight directions, the files merged are exactly those of the configured tiles for that multiplier and direction, whatever an earlier run has left in the working directory, and the merged file is left in the folder of its kind; from S3 the files of the configured tiles are asked for.", "quantifier": "every list of tiles, every folder of raw multipliers, every state of the working directory and every outcome of the translations", "why_tests_cant": "What is merged is found by matching names in folders that the run itself, and earlier runs, write to; the result depends on all the names present.", "anchors": ["ProcessMultipliers/processMultipliers.py:checkOutputFolders", "ProcessMultipliers/processMultipliers.py:copyTranslateMultipliers", "ProcessMultipliers/processMultipliers.py:mergeWindMultipliers", "ProcessMultipliers/processMultipliers.py:check_if_wm_source_from_s3"]}
{"id": "C174", "title": "Figures show everything that is in them", "statement": "Every sub-figure of a figure has a cell of its own; the graticule of a map has lines at round degrees from edge to edge; the axis of a hazard curve holds the curve and its confidence range; the diverging colours are used exactly for values spread evenly about zero.", "quantifier": "every number of sub-figures, every map extent, every curve and every list of levels", "why_tests_cant": "The arrangement depends on the rounding of square roots and quotients for every count, and the axes on the extremes of arbitrary data.", "anchors": ["PlotInterface/maps.py:MapFigure.plot", "PlotInterface/maps.py:MapFigure.addGraticule", "PlotInterface/maps.py:selectColormap", "PlotInterface/curves.py:CurveFigure.plot", "PlotInterface/curves.py:HazardCurve.subplot", "PlotInterface/figures.py:QuantileFigure.plot"]}
{"id": "C175", "title": "The impact of an event is calculated for each of its wind fields", "statement": "If the impact is configured, each wind-field file is handed to hazimp once with the configured exposure data, and its result is in a file of its own named after it; nothing else is handed over or overwritten; a failure of hazimp is reported. It is calculated exactly if configured.", "quantifier": "every listing of the folder of wind fields, every state of the folder of impacts, every outcome of hazimp and every configuration file", "why_tests_cant": "Depends on all names present in the folder and on the settings left out of the file.", "anchors": ["impact/__init__.py:run", "impact/__init__.py:impact", "impact/__init__.py:run_optional", "tcevent.py:main"]}
{"id": "C176", "title": "The compiled interpolation of positions gives the same tracks as the Python code", "statement": "Where the compiled interpolation has been built it replaces the Python one: it accepts the same data and gives the same positions; it passes through the observations along a smooth curve of cubics with the velocities of Akima's method at the observations; the result depends on the data only, not on other memory.", "quantifier": "every list of observation times and positions, every list of new times, and every content of the memory after the arrays; whole tracks", "why_tests_cant": "Whether the extension is built differs between machines, and the two agree on most tracks; the differences are for special motions, new times and contents of memory.", "anchors": ["Utilities/akima.c:interpolate", "Utilities/akima.c:py_interpolate", "Utilities/akima.py:interpolate", "Evaluate/interpolateTracks.py:interpolate"]}
{"id": "C177", "title": "Multipliers applied at the resolution of the wind fields", "statement": "The program for multipliers at low resolution gives for every wind field of the folder one file beside it, named as it with wm_ in front, in which each gust is multiplied by the multiplier of its place and of the direction the wind comes from (1 where there is none); no wind field is changed, no output replaces another or is taken for a wind field later.", "quantifier": "every folder path and listing, every content of the wind fields and of the multiplier file", "why_tests_cant": "Depends on all names in the folder, the path of the folder and every wind direction at every cell; the program logs its failure and ends as if it had succeeded.", "anchors": ["ProcessMultipliers/lowResProcessMultipliers.py:downscale_multipliers", "ProcessMultipliers/lowResProcessMultipliers.py:run.main", "ProcessMultipliers/lowResProcessMultipliers.py:run.__init__"]}
{"id": "C178", "title": "The fallback distribution of storm sizes", "statement": "When no distribution of radii is available, the table of sizes is that of a log-normal distribution with the configured mean and standard deviation: it can be sampled with every variate, gives whole kilometres below the greatest radius, each with a probability in proportion to the density there, and sizes with the configured mean and standard deviation.", "quantifier": "every mean, deviation and greatest radius, every variate", "why_tests_cant": "Mean and deviation are integrals over all radii; sampling must succeed for every variate.", "anchors": ["Utilities/stats.py:rMaxDist", "Utilities/stats.py:cdf", "TrackGenerator/TrackGenerator.py:loadInitialConditionDistributions", "TrackGenerator/TrackGenerator.py:ppf"]}
{"id": "C179", "title": "Reports on the event set average over all simulations", "statement": "What is reported of the event set at a gate, in an interval of latitude, in a cell or in an interval of pressure is the mean over all simulations of what is found in each, every simulation counting the same, with the 5th and 95th percentile; a simulation without landfall or crossing counts as zero, in the maps of pressure those without a record in the cell are left out, the rates are numbers per year, and the order of the track files does not matter.", "quantifier": "every coast of gates, line of longitude, cell, and every list of simulations", "why_tests_cant": "all numbers of simulations and all combinations of simulations with and without landfalls", "anchors": ["Evaluate/landfallRates.py:processResults", "Evaluate/landfallRates.py:calculateStats", "Evaluate/landfallRates.py:setOutput", "Evaluate/landfallRates.py:synthetic", "Evaluate/longitudeCrossing.py:calcStats", "Evaluate/longitudeCrossing.py:synthetic", "Evaluate/pressureDistribution.py:calculateMeans", "Evaluate/pressureDistribution.py:synthetic"]}
{"id": "C180", "title": "The table of maximum winds belongs to its coordinates", "statement": "Whatever the number of processes and the order in which results arrive, every entry of the table of maximum gradient wind and maximum gust written for validation is that of the cyclone with the latitude, pressures, radius and speed of its own coordinates, in the units of the labels; the run ends, each combination is calculated once, and no combination lacks a pressure deficit.", "quantifier": "all numbers of processes, all schedules, all 969969 combinations, all wind models", "why_tests_cant": "schedules of any number of workers; the run on one process never exercises the message protocol", "anchors": ["Evaluate/windFieldValidation.py:run", "Evaluate/windFieldValidation.py:calculateWindField"]}
{"id": "C181", "title": "The wind field calculation gets through for every margin and resolution", "statement": "With Margin and Resolution given in hundredths of a degree such that the resolution divides twice the margin, the wind field of every track in every domain is calculated, in the double precision the program computes with. This is false: a margin of 2.3 (or 4.1, 4.6, 5.1, 8.2, 8.7, 9.2, 9.7) degrees becomes 229 hundredths but 2300 thousandths, and the calculation raises. It holds when margin and resolution become the right whole numbers, for instance at quarter degrees.", "quantifier": "all margins, resolutions, domains and tracks; all doubles", "why_tests_cant": "which decimal settings fail depends on the rounding of each of them, and then on the position of the storm; tests use margins of whole degrees", "anchors": ["wind/__init__.py:WindfieldAroundTrack.regionalExtremes", "Utilities/maputils.py:makeGrid"]}
{"id": "C182", "title": "The hazard is calculated for every grid point of the region", "statement": "The coordinates of the hazard are the lower limit of the region and the points in steps of the resolution from there to the upper limit, in double precision. This is false: with a region from 16.22°S the row at 16.22°S is left out although the wind fields have it, and with one from 32.3°S the whole grid is 0.01 degrees off. It holds for limits at quarter degrees with a margin that is a multiple of the resolution; in general only a point on the western or southern limit (below zero), or the eastern or northern (above zero), can be left out.", "quantifier": "all limits, margins and resolutions; both axes; all doubles", "why_tests_cant": "which limits lose a row depends on the rounding of each decimal number", "anchors": ["hazard/__init__.py:TileGrid", "wind/__init__.py:WindfieldAroundTrack.regionalExtremes"]}
{"id": "C183", "title": "Interpolated tracks keep their observations in double precision", "statement": "An interpolated track has its records a time step apart from the first observation to the last, and at the time of an observation it has the pressure observed then, in the double precision the program computes times with. The second part is false: the time of the observation two hours after midnight is a billionth of an hour late, and if it is the first with a pressure, the record at that time has none. Times of day that are multiples of 45 minutes (so the usual three- and six-hourly ones) are exact, and all others are right within a millionth of an hour, so observations a minute apart stay in order and the number and spacing of the records are as they should be.", "quantifier": "all tracks with dates up to the year 9999 to the minute, time steps from 0.01 hours, linear and Akima interpolation", "why_tests_cant": "which times are early or late depends on the rounding of fractions of a day at each hour; the tests use six-hourly tracks, for which it is exact", "anchors": ["Evaluate/interpolateTracks.py:interpolate"]}
{"id": "C184", "title": "A tile or file that cannot be processed ends the distributed calculation", "statement": "If the calculation of a hazard tile (or of an event or track file of the database stage) raises an exception, the run ends and the failure is reported, on any number of processes. This is false on several processes: only the worker concerned ends; the master waits for its result for ever, on every schedule, and the results of the other tiles, all of which it may have received, are never saved. On one process the exception ends the loop.", "quantifier": "every number of tiles or files and of workers, every set of failing ones, every schedule", "why_tests_cant": "it takes a failure in one of several processes, and holds whatever the order of messages", "anchors": ["hazard/__init__.py:HazardCalculator.dumpHazardFromTiles", "database/__init__.py:_HazardDatabase.processEvents", "database/__init__.py:_HazardDatabase.processTracks"]}
{"id": "C185", "title": "Positions on the edge of a domain in double precision", "statement": "A number is accepted as lying between two limits if it is between them or outside by not more than the given number (two) of numbers that double precision can represent; in particular everything in the closed range is accepted. Restricting a record to a domain keeps exactly the observations of the tracks whose first position is accepted so.", "quantifier": "every value and limits in double precision, every number of widening steps, every record", "why_tests_cant": "an edge is two numbers wide among 2^64, at a different place for every limit", "anchors": ["Utilities/stats.py:between", "DataProcess/DataProcess.py:DataProcess.extractTracks"]}
{"id": "C186", "title": "Filling in a template", "statement": "Filling in a template writes the text of the template with each placeholder {KEY} that has a value replaced by this value, everything else (placeholders without a value included) unchanged, whatever the order of the values; only the output file changes, and without the input file nothing is written.", "quantifier": "every template, every set of values with word keys, every pair of files, every state of the files", "why_tests_cant": "a value that is itself read as a pattern or placeholder only shows for special characters or a particular order of the dictionary", "anchors": ["Utilities/template.py:replace"]}
{"id": "C187", "title": "Regular grids in double precision", "statement": "In double precision, the grid of the genesis density of a region of whole degrees has exactly ten points in a degree along both axes with the default step of 0.1, in order, all within the region and each at its nominal place; and cell numbers, cell positions and the number of cells are those of exact arithmetic.", "quantifier": "every region of whole degrees (for cells: limits and cell sizes that are whole, half, quarter, … degrees), every position and cell number; every step for the number of points", "why_tests_cant": "whether an extra point appears depends on how one quotient rounds for particular limits", "anchors": ["StatInterface/KDEOrigin.py:KDEOrigin.__init__", "Utilities/stats.py:getCellNum", "Utilities/stats.py:getCellLonLat", "Utilities/stats.py:validCellNum", "Utilities/stats.py:maxCellNum"]}
{"id": "C188", "title": "Times and dates of interpolated tracks", "statement": "Interpolating a track to a time step gives, with the arithmetic the program really uses, one record per time step from the first observation to the last, and each record carries the date, hour and minute of its instant.", "quantifier": "every track of two or more observations at increasing times given to the minute (up to the year 9999), every time step of at least a fiftieth of an hour, every record", "why_tests_cant": "which minutes come out wrong depends on the rounding of the day number with the part of the day, different for each time of the day", "anchors": ["Evaluate/interpolateTracks.py:interpolate", "tcevent.py:main"]}
{"id": "C189", "title": "Summary of landfalls over the simulations", "statement": "The summary of landfall intensity shows for each gate the number of landfalls of all simulations in the directory, their mean number per simulation, their number in each category, their mean and their lowest pressure, whatever the order of the files.", "quantifier": "every list of gates with different numbers, every directory of track files", "why_tests_cant": "a summary depends on all files of the directory, their order and the numbering of the gates", "anchors": ["Evaluate/landfallIntensity.py:loadLandfallRates", "Evaluate/landfallIntensity.py:countCrossings"]}
{"id": "C190", "title": "Quantile plot of lowest pressures", "statement": "The quantile plot of minimum pressures shows a hundred points, the q-th at the q-th percentile of the lowest pressures of the observed tracks that start in the region and of those of the simulated ones in all files; the points go up to the right and end at the highest values, and are on the diagonal if both have the same values. The two lines beside them are, whatever the random numbers, within the range of the data, go up to the right, and do not cross sides. The plot is made exactly if both have a track that starts in the region.", "quantifier": "every set of observed tracks and of files of simulated tracks with positive pressures, every region, every outcome of the random numbers", "why_tests_cant": "the plot depends on all tracks and on 200000 random draws", "anchors": ["PlotInterface/figures.py:QuantileFigure.percentiles", "PlotInterface/figures.py:QuantileFigure.percentilerange", "PlotInterface/figures.py:QuantileFigure.subplot", "Evaluate/pressureDistribution.py:PressureDistribution.plotMinPressureQuantiles"]}
{"id": "C191", "title": "Hazard curves show the events of the run that plots them", "statement": "A run that plots the hazard draws one curve for each location of its domain that has levels, with the levels at the nearest grid point and the gusts of all events of that run, whatever runs were made before in the same output folder and whether or not the database is updated in the same run.", "quantifier": "every history of runs in an output folder, every set of locations, wind fields and hazard files", "why_tests_cant": "the plot depends on the history of a database on disk, across processes", "anchors": ["tcrm.py:main", "tcrm.py:doHazardPlotting", "PlotInterface/AutoPlotHazard.py:AutoPlotHazard.plotCurves", "PlotInterface/AutoPlotHazard.py:AutoPlotHazard.getLocations", "PlotInterface/AutoPlotHazard.py:AutoPlotHazard.plotHazardCurves", "database/__init__.py:HazardDatabase", "database/__init__.py:_HazardDatabase.createDatabase", "database/__init__.py:_HazardDatabase.getLocations"]}
{"id": "C192", "title": "Kepert's surface wind is that of the linear boundary layer", "statement": "The wind returned by Kepert's wind field is the bottom value of the solution of the linear boundary-layer equations under the wind and vorticity of the profile: advection around the storm, rotation and vertical diffusion balance, the boundary layer vanishes aloft, and the stress at the surface is the linearised drag of the total wind of the moving storm. The solution is unique, in both hemispheres, and for storms with Holland's profile compiled and Python code return it.", "quantifier": "every storm, motion and place where wind, Coriolis parameter and absolute vorticity have the same sense and the waves are not in resonance; for Holland's profile every storm off the equator with a shape parameter of at most 2 and a Rossby number above one half, at every radius", "why_tests_cant": "a differential equation over all heights and directions, for all real storms", "anchors": ["wind/windmodels.py:KepertWindField.field", "wind/windmodels.f90:fkerpert", "wind/windmodels.py:HollandWindProfile.velocity", "wind/windmodels.py:HollandWindProfile.vorticity"]}
{"id": "C193", "title": "Vorticity of a sampled wind field is that of the field", "statement": "The vorticity the library computes from winds on a grid of longitudes and latitudes, even or not, is the vorticity of the wind field with its derivatives taken between the neighbouring grid points; for rotating air it is exact up to the square of the spacing, for linear winds on a plane it is exact, also at the edges. It is missing exactly where a wind it is made of is missing and within two degrees of the poles, and absolute vorticity adds the turning of the earth.", "quantifier": "every differentiable wind field, grid, place on the grid and pattern of missing values", "why_tests_cant": "all differentiable functions and all grids, with real derivatives", "anchors": ["Utilities/vorticity.py:deriv", "Utilities/vorticity.py:curl_2d", "Utilities/vorticity.py:relative", "Utilities/vorticity.py:absolute", "Utilities/metutils.py:coriolis"]}
{"id": "C194", "title": "Coordinates of the grid around a storm are those of its points", "statement": "The matrices of longitudes and latitudes the library returns for the grid around a storm have one entry for every point whose distance and bearing from the storm it computes for the same centre, margin and resolution, and give the coordinates of that point.", "quantifier": "every centre, margin and resolution in thousandths of a degree, and every row and column", "why_tests_cant": "the two functions truncate in different orders, so whether they agree depends on divisibility and on the sign of every edge of the grid", "anchors": ["Utilities/maputils.py:meshLatLon", "Utilities/maputils.py:makeGrid", "Evaluate/windFieldValidation.py:meshGrid", "Evaluate/windFieldValidation.py:polarGridAroundEye"]}
{"id": "C195", "title": "Durations in the log are the time that has passed", "statement": "The duration logged for a timed stage shows hours, minutes and seconds (minutes and seconds below 60, two digits each) that add up to the time between its start and its end in whole seconds, however long it ran; two durations are logged with the same text exactly if they are the same number of whole seconds. Timing a stage changes neither its result nor its exceptions, and a stage that raises logs no duration. The progress bar writes durations in the same way, and for work at a constant rate its remaining time is the time until the end.", "quantifier": "every duration, also of more than a day and after the clock was put back, every stage and every outcome of it", "why_tests_cant": "unbounded durations; a round trip through text", "anchors": ["tcrm.py:timer", "tcevent.py:timer", "database/__init__.py:timer", "database/queries.py:timer", "ProcessMultipliers/processMultipliers.py:timer", "Utilities/progressbar.py:ProgressBar._formatTime", "Utilities/progressbar.py:ProgressBar._getTimeStr"]}
{"id": "C196", "title": "Every model of the wind can be selected by its name and gets its settings", "statement": "Every class derived from the base class of the radial profiles (or of the boundary layers), directly or not, can be selected in the configuration by what stands before the common ending of its name, in lower case, and no other name is accepted; with distinct names a name selects the class of that name. A class gets the settings of the track for its arguments, each for its own, exactly if it declares these before its other arguments and the others have defaults, as all profiles of the package do.", "quantifier": "every tree of classes of any depth, every name, every list of arguments of a constructor and every set of settings", "why_tests_cant": "all trees of classes a developer may add, and all signatures", "anchors": ["wind/windmodels.py:allSubclasses", "wind/windmodels.py:profile", "wind/windmodels.py:profileParams", "wind/windmodels.py:field", "wind/windmodels.py:fieldParams", "wind/windmodels.py:PROFILES", "wind/__init__.py:WindfieldAroundTrack.localWindField", "hazard/evd.py:allSubclasses"]}
{"id": "C197", "title": "Simulated rates, bearings and speeds have the mean, autocorrelation and spread of the calibration", "statement": "The pressure rates and bearings simulated in a cell have the mean and the standard deviation calibrated for the cell, and successive values have the calibrated autocorrelation.", "quantifier": "every sequence of cells with their coefficients, every initial value and every number of steps, with probability over independent uniform random numbers", "why_tests_cant": "a statement about means and variances over all random numbers, exact in every step; no finite number of runs settles it", "anchors": ["TrackGenerator/TrackGenerator.py:TrackGenerator._stepPressureChange", "TrackGenerator/TrackGenerator.py:TrackGenerator._stepBearing", "TrackGenerator/TrackGenerator.py:TrackGenerator._stepSpeed", "TrackGenerator/TrackGenerator.py:logistic", "Utilities/tcrandom.py:Random.logisticvariate", "StatInterface/generateStats.py:GenerateStats.calculate"]}
{"id": "C198", "title": "Storms begin at the places and with the values at the frequencies estimated from the observations", "statement": "The place at which a simulated storm begins, and its initial bearing, speed, day and pressure, are drawn with the probabilities that the densities estimated from the observations give them (the pressure: among the pressures below that of the surroundings); among many storms, the shares of places and values approach these probabilities. Hours of the day, and years, are equally likely.", "quantifier": "every density on a grid and table of values, every grid point and value, with probability over independent uniform random numbers; every number of storms", "why_tests_cant": "a statement about probabilities and limits over all random numbers; no finite number of runs settles it", "anchors": ["StatInterface/SamplingOrigin.py:SamplingOrigin.ppf", "StatInterface/SamplingOrigin.py:SamplingOrigin._calculateCDF", "TrackGenerator/TrackGenerator.py:TrackGenerator.generateTracks", "TrackGenerator/TrackGenerator.py:ppf", "TrackGenerator/TrackGenerator.py:uniform", "Utilities/stats.py:cdf", "Utilities/tcrandom.py:Random.uniform"]}
{"id": "C199", "title": "The sizes of simulated storms have the fitted distribution", "statement": "The radius of maximum wind of a simulated storm is that of the fitted relation to pressure deficit and latitude with a normally distributed deviation of mean 0, which is drawn when the storm begins (again and again while the radius is larger than 100 km) and kept; drawing ends.", "quantifier": "every pressure deficit and latitude, every measurable set of deviations, with probability over independent normal random numbers; any number of repetitions", "why_tests_cant": "termination with probability one of a loop without bound, and the distribution of its result; no finite number of runs settles it", "anchors": ["TrackGenerator/TrackGenerator.py:TrackGenerator.generateTracks", "TrackGenerator/trackSize.py:rmax"]}
{"id": "C200", "title": "Sample L-moments are unbiased", "statement": "The expected values of the sample L-moments computed from independent values of one distribution are the L-moments of that distribution, whatever the distribution and the number of values; hence the mean and the L-scale of the distribution fitted at a cell have the right expected values.", "quantifier": "every distribution with a mean, every number of values (at least three, and at least the number of moments), every order of L-moment, every order of the record", "why_tests_cant": "a statement about expected values over all samples from all distributions", "anchors": ["Utilities/lmomentFit.py:samlmu", "Utilities/lmomentFit.py:samlmu3", "hazard/evd.py:gevfit", "hazard/__init__.py:calculateGEV"]}
{"id": "C201", "title": "As many storms are simulated as the annual frequency says", "statement": "The numbers of storms of the simulations are independent Poisson counts with expected value years per simulation times annual frequency; the files of a run hold just as many storms, whatever the number of processes; and the number of storms per simulated year approaches the annual frequency as the number of simulations grows.", "quantifier": "every frequency, number of years per simulation and number of simulations, every number of processes, every model of storms; with probability over independent Poisson numbers", "why_tests_cant": "a statement about probabilities and a limit over unboundedly many simulations", "anchors": ["TrackGenerator/TrackGenerator.py:run", "TrackGenerator/TrackGenerator.py:TrackGenerator.generateTracks", "TrackGenerator/TrackGenerator.py:balanced"]}
{"id": "C202", "title": "Random variates have the distribution their name says", "statement": "For valid parameters the random variates for the tracks are always defined: one has the logistic, the other the lognormal distribution with the given location, scale and shape; other parameters are refused.", "quantifier": "all parameters, all bounds; with probability over a uniform random number between 0 and 1, and every number the generator can deliver", "why_tests_cant": "the distribution is a statement about all random numbers at once; the exceptional number has a chance of 2^-53", "anchors": ["Utilities/tcrandom.py:Random.logisticvariate", "Utilities/tcrandom.py:Random.lognormvariate", "Utilities/tcrandom.py:Random.random"]}
{"id": "C203", "title": "Longer simulations give better hazard estimates", "statement": "As the number of simulated years grows, the statistics computed from the annual values approach, with probability one, those of the distribution of the annual values; the distribution fitted at a cell gets its mean, spread and skewness; and the return levels of the cell are reported.", "quantifier": "every distribution of the annual values that has a mean, almost every sequence of random numbers, every order of the record, every choice of periods and minimum number of records", "why_tests_cant": "a limit over ever longer simulations, for almost all sequences of random numbers and all distributions", "anchors": ["Utilities/lmomentFit.py:samlmu", "Utilities/lmomentFit.py:samlmu3", "hazard/evd.py:gevfit", "hazard/__init__.py:calculateGEV"]}
{"id": "C204", "title": "Chance of an exceedance within a year", "statement": "The annual maximum at a place, as the hazard calculation reads it from the wind-field files of the simulated storms, exceeds a speed with the probability 1 - exp(-r), where r is the expected number of storms per year that exceed the speed; and with ever more simulated years the share of years with an exceedance approaches this probability.", "quantifier": "all distributions of the wind speeds of storms, all expected numbers of storms, all speeds from 0, all cells and tiles, all orders in which the directory is listed, any number of years; almost every outcome", "why_tests_cant": "probability over all numbers of storms and all wind speeds, and a limit over ever longer simulations", "anchors": ["hazard/__init__.py:aggregateWindFields", "hazard/__init__.py:loadFile", "TrackGenerator/TrackGenerator.py:run", "wind/__init__.py:WindfieldGenerator.gustFilename"]}
{"id": "C205", "title": "From storms to the fitted hazard", "statement": "With ever more simulated years, the annual maxima that the hazard calculation reads at a place from the storms' wind-field files have in the limit the L-moments of the distribution that the storms' frequency and the distribution of their winds determine, and the GEV distribution fitted to them gets its mean, L-scale and L-skewness; then all return levels of periods longer than a year are reported.", "quantifier": "all distributions of the wind speeds of storms (0 or more) for which annual maxima have a mean, all expected numbers of storms, all cells and tiles, all orders in which the directory is listed, all return periods; almost every outcome", "why_tests_cant": "a limit over ever longer simulations, over all distributions of winds and almost all outcomes", "anchors": ["hazard/__init__.py:aggregateWindFields", "hazard/__init__.py:calculateGEV", "hazard/evd.py:gevfit", "Utilities/lmomentFit.py:samlmu", "Utilities/lmomentFit.py:pelgev", "TrackGenerator/TrackGenerator.py:run"]}
{"id": "C206", "title": "Colours on the map of tracks", "statement": "On a map of tracks each track is drawn as the lines between its successive positions; each line has the colour that the legend gives to the category (Australian scale) of the wind speed at its start, and 'No data' in the legend marks the lines without a wind speed.", "quantifier": "all tracks of all lengths, all wind speeds, also missing ones", "why_tests_cant": "all wind speeds including those at the bounds of the categories, and all tracks", "anchors": ["PlotInterface/tracks.py:makeSegments", "PlotInterface/tracks.py:TrackMapFigure.colorline", "PlotInterface/tracks.py:TrackMapFigure.subplot"]}
{"id": "C207", "title": "The download stage fetches the listed datasets", "statement": "When the configuration asks for the download of data, every dataset named in its comma-separated list is fetched to the directory and file of its section unless it is there already; nothing else on the disk changes, and the run stops if a dataset is not described or cannot be fetched.", "quantifier": "every configuration, list of names, answer of the server for every address, and state of the disk", "why_tests_cant": "all configurations and all disks, and repeated runs in one process, whose list of datasets grows", "anchors": ["Utilities/datasets.py:loadDatasets", "Utilities/datasets.py:checkAndDownload", "tcrm.py:doDataDownload"]}
{"id": "C208", "title": "Bounds that make cells evenly spaced", "statement": "The upper bound returned for a range and a step is the first of the points from the lower end by that step that reaches the upper end, and the lower bound likewise from the upper end; bounds in the wrong order or a step that is not positive are rejected.", "quantifier": "all ranges and steps, in double precision", "why_tests_cant": "all doubles as bounds and steps", "anchors": ["Utilities/stats.py:statMaxRange", "Utilities/stats.py:statMinRange"]}
{"id": "C209", "title": "Polygons written to a shape file keep their rings", "statement": "Every polygon written to a shape file has there the rings it was given with, each with all its points, and the record of the same position; this does not depend on how many rings the polygon has.", "quantifier": "all lists of polygons with any number of rings of any length, and all records", "why_tests_cant": "all numbers and lengths of rings: the code cuts the flat list of points by position", "anchors": ["Utilities/shptools.py:shpWriteShapeFile"]}
{"id": "C210", "title": "Tiles of raw multipliers fetched from remote storage", "statement": "When the tiles of the raw wind multipliers are fetched from remote storage, in one thread for each type, the program goes on once all have been fetched, whatever the schedule, and does not go on without a tile.", "quantifier": "every number of threads, list of files, set of files that cannot be fetched, and schedule of the threads", "why_tests_cant": "all interleavings of the threads and all failures", "anchors": ["ProcessMultipliers/processMultipliers.py:getMultipliers.check_if_wm_source_from_s3", "ProcessMultipliers/processMultipliers.py:getMultipliers.download_files_from_s3", "Utilities/AsyncRun.py:AsyncRun.run"]}
{"id": "C211", "title": "The grid over a domain covers it, and its coordinates are those of its points", "statement": "The distances and bearings the library computes over a whole domain are those of points that cover the domain and its margins at the given resolution; the matrices of longitudes and latitudes it returns for the same domain, margin and resolution have one entry for each of these points and give its coordinates.", "quantifier": "every domain, margin and resolution in thousandths of a degree, every place in the domain, and every row and column", "why_tests_cant": "the two functions truncate in different orders and end their axes differently, so whether they agree depends on divisibility and signs for every domain", "anchors": ["Utilities/maputils.py:makeGridDomain", "Utilities/maputils.py:meshLatLonDomain"]}
{"id": "C212", "title": "Local wind with input and output in remote storage", "statement": "With the gust file in remote storage it is the stored content that is used, and with the working directory in remote storage the six files of results are stored under that directory, each complete, and nothing else there is changed, also if storing is refused half way. A working directory that does not exist yet is made.", "quantifier": "every location of the gust file and the working directory, every content of the storage, calculation and set of refused places", "why_tests_cant": "all location texts, storage contents and points of failure", "anchors": ["ProcessMultipliers/processMultipliers.py:run.main", "ProcessMultipliers/processMultipliers.py:getMultipliers.check_if_working_dir_in_s3", "ProcessMultipliers/processMultipliers.py:getMultipliers.check_if_gust_file_from_s3", "ProcessMultipliers/processMultipliers.py:getMultipliers.download_from_s3", "ProcessMultipliers/processMultipliers.py:getMultipliers.upload_files_to_s3"]}
{"id": "C213", "title": "The script that collects multipliers merges those of the configured tiles", "statement": "The separate script for collecting multipliers makes, for each of the three multipliers and eight directions, one merge of exactly the files of the configured tiles, whatever earlier runs have left in the output folder; the sub-folders that are missing are made.", "quantifier": "every history of runs with the same output folder, each with its own list of tiles, every initial state of that folder and every outcome of the translations", "why_tests_cant": "What is merged is found by matching names in folders that this run and all earlier ones have written to.", "anchors": ["Utilities/get_multipliers.py:checkOutputFolders", "Utilities/get_multipliers.py:copyTranslateMultipliers", "Utilities/get_multipliers.py:mergeWindMultipliers", "Utilities/get_multipliers.py:main"]}
{"id": "C214", "title": "The seasonal mean of the sea level pressure", "statement": "For a selection of months the seasonal grid holds at each point the mean of the monthly pressures over these months, each counted once whatever the order and repetitions, and between the smallest and largest of them; months that do not exist and an empty selection are refused. Sampling it at a place gives the value at the nearest point of the grid.", "quantifier": "every file of monthly means, every selection of months and every place", "why_tests_cant": "all selections of months and all places, including those on and beyond the edges of the grid", "anchors": ["MSLP/mslp_seasonal_clim.py:MSLPGrid.__init__", "MSLP/mslp_seasonal_clim.py:MSLPGrid.sampleGrid", "MSLP/mslp_seasonal_clim.py:MSLPGrid.returnGrid"]}
{"id": "C215", "title": "The table of events lists the wind fields of the folder", "statement": "Filling the table of events records each wind field of the folder as one event, numbered by the order of the names whatever the order of the listing, with the identifier of its name and the extremes of its content, and the events listed are these, ordered by maximum wind. A folder with any other file is refused and nothing is changed. Filling it again brings it up to date, and a call that fails leaves nothing behind.", "quantifier": "every folder listing, content of the files and state of the table", "why_tests_cant": "all sets of files and listings, and all states of the table left by earlier calls", "anchors": ["database/__init__.py:_HazardDatabase.generateEventTable", "database/queries.py:selectEvents"]}
{"id": "C216", "title": "Cyclones fill over land", "statement": "The filling of a cyclone over land leaves the pressure as it is over the sea, never brings it above that of the environment, fills the cyclone the more the longer it is over land and the more intense it is, and never makes it more intense, whatever the random term; so does any sequence of steps over land and sea.", "quantifier": "every time over land, pressure and random term, and every sequence of steps over land and sea", "why_tests_cant": "all real pressures, times and random terms, and sequences of steps of any length", "anchors": ["TrackGenerator/trackLandfall.py:LandfallDecay.pChange", "TrackGenerator/trackLandfall.py:LandfallDecay.onLand"]}
{"id": "C217", "title": "Positions of the best track files are read in degrees", "statement": "A position of a best track file, written in tenths of a degree with a letter for the hemisphere, is read as a latitude that is negative in the south and positive in the north, and as a longitude from 0 to 360 degrees east, so that different positions get different coordinates and the same meridian one longitude; a text that holds no number is refused.", "quantifier": "every text of letters around a number, and every meaning of number texts", "why_tests_cant": "texts of any length and any number in them", "anchors": ["Utilities/formatJTWC.py:fmtlon", "Utilities/formatJTWC.py:fmtlat"]}
{"id": "C218", "title": "Annual probability of a return period", "statement": "The annual probability of a return period is the probability of at least one event in a year when events come at random with one in that period on average: between 0 and 1, below one in the period and above one in a year more, smaller for longer periods, consistent over several years, and the return period can be found again from it. A return period of 0 is refused.", "quantifier": "every return period", "why_tests_cant": "all real return periods and numbers of years", "anchors": ["Utilities/stats.py:probability"]}
{"id": "C219", "title": "Latitude bands of the UTM grid", "statement": "Each latitude from 80 degrees south to 84 degrees north has the letter of its band of the UTM grid (8 degrees high, letters from C to X without I and O, the last band 12 degrees high), latitudes outside have the letter Z, and the letter tells the hemisphere: letters from N on are northern.", "quantifier": "every latitude", "why_tests_cant": "all rational latitudes, with the boundaries of the bands", "anchors": ["Utilities/lat_long_UTM_conversion.py:_UTMLetterDesignator"]}
