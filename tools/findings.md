## Findings

Places where the code does not have the property one would expect. Those marked with a property are proved (theorems
`…_fails…`, `…_counterexample` and the like); the others were seen while reading and are not modelled.

*Hazard.* Cells without any wind are fitted as 0 instead of being marked missing (C60). The empirical fit refuses the
period equal to the number of simulated years unless that is a multiple of four (C59). The confidence intervals always
end in a TypeError (C61). Any file without `vmax` in the wind field directory stops the calculation (C57).

*Configuration.* A path that exists but cannot be opened is accepted and blocks later reads (C26). A list default is
replaced by None, a dictionary default admits any type, and capitals in an option name bypass the formatter (C27).

*Register of processed files.* A name with the separator corrupts the register (C28); an interrupted write makes it
unreadable for all later runs (C62); deleting it returns 0 and keeps the entries in memory (C63).

*Track generation.* The tracks of a simulation depend on the division over ranks (C04); the environmental pressure of
the first candidate is used for all tracks of a call and prescribed zeros are ignored (C15); streams of different seeds
coincide (C16); one simulation is a division by zero (C53); the lowest pressure index can be −1 (C54); radii from a file
or prescribed cannot be used (C55).

*Wind fields.* The local field and the window have different shapes unless the resolution divides twice the margin
(C18); combined tracks keep bearing and components of the first track (C19); torn files count as complete if readable,
and the grid limit is taken from the first track computed (C22); one file name is used for the local wind of all tracks
(C56).

*Profiles.* The core of the Holland profile has a step at the radius of maximum wind and exceeds the maximum; the double
vortex grows without bound south of the equator and its core has another curvature than its outer part; the profile of
2010 exceeds 1000 m/s with its default radius of gales (C47); vorticities of the outer Holland, Jelesnianski, Rankine
and double profiles are wrong (C74); interpreted and compiled code differ on the equator and for steep profiles (C75); Hubbert's
asymmetry is reversed in the northern hemisphere and the configured angle is converted to radians three times (C76);
`jelesnianski` and `doubleHolland` cannot be selected (C77); pressure and wind of powell and willoughby use different
shapes (C78), that of willoughby can be negative, so that pressure falls with radius (C48); jumps in the surface wind
reduction and the inflow angle (C49); atkinson is not invertible unless the environmental pressure is 1010 hPa (C46).

*Geometry.* Tangents are never reported (C30), the winding number never counts downward crossings (C31), a line always
intersects a polygon and a list of polygons loses its last edge (C64).

*Input data.* The track domain does not cover tracks after they leave (C34); the last year is not counted (C35); records
before the first mark are lost (C37); jumps west or south never split a track, a step west over 0° always does (C38);
rates after a missing radius are garbage and negative speeds are kept (C39); elapsed time does not restart at split
tracks, day numbers are wrong before 1900 and in centuries (C40); times before 01:00 in hhmm are misread (C70); steps are
rounded to hours (C71); the outer pressure is computed from missing pressures (C72). Not modelled: an input with a usable
`age` column ends in an UnboundLocalError (DataProcess.py L348); season filtering after marking can merge tracks (L227-235).

*Track files.* Other time units than the default are not stated in the file, fractions of seconds are lost, and an
empty list leaves an older file (C32); a second save fails (C67); one bad line of a csv file loses the whole file (C65).

*Grids.* Out of range on a descending axis the farthest index is returned (C33); sampling takes the next point instead
of the nearest, and wrong ones for ascii grids and western longitudes (C68).

*Units and humidity.* Unknown pairs of units are returned unchanged, Kelvin is 273, F→C changes the argument (C42);
wet bulb conversions mix hPa and kPa (C43).

*Multipliers.* The worker pool can hang (C50); a bearing rounded to 360 gets no multiplier (C51); the directly computed
local wind is a mirror image (C79); missing topography or shielding counts as 1 (C80); rasters with south at the top or
without overlap give an empty extent silently (C82). Failed downloads in threads go unnoticed (C210).

*Database.* `locationPassage` mixes the winds of all locations, `locationReturnPeriodEvents` raises IndexError without
level (C52); a second update duplicates everything but keeps the old events (C83); any other file in the wind field
directory ends the update (C84); no locations are found in domains with negative longitudes (C85).

*Time series.* In parallel and resumed runs the series lack the tracks of the other processes or of the earlier run
(C88); the multipliers are applied with interchanged weights, a north wind gets the multiplier of north-east (C89);
stations just outside the local grid record no wind where the gust field has some (C87); stations of csv files in
western longitudes record nothing, while those of shape files do (C86); the coordinates in the file of all wind fields
are wrong unless the resolution divides the domain (C90).

*Interpolated tracks.* Unless the time step divides the duration the final step is longer (up to twice), and the forward
speed of the last two records is wrong; a step longer than the track loses its start (C92, C94); on tracks of four or more
observations the pressure of the last record is that of the one before, and with three
observations one missing pressure hides the interpolated ones (C95); tracks across 0° go round the world (C93).
Not modelled: a track without `Datetime` or `Speed` column raises instead of taking the other branch (`hasattr` only
catches AttributeError).

*Positions on the sphere.* Steps by bearing and distance are exact on the sphere except from a pole, where the bearing is
ignored (C96). The bearings and lengths extracted from tracks use the parallel of the end point: walking a leg backwards
gives another length, a leg across the meridian where longitudes restart is measured around the world, and a generated
step is not measured with the length it was generated with (C98). `dist2GC` interchanges latitudes and longitudes, takes
degrees for radians and fails for grids of three or more latitudes (C99).
*Evaluation of tracks.* If the grid spacing does not divide the domain, positions beyond the last edge are in no cell (C100).
Historic rates divide by the last year minus the first one, which is one year too few; a record of a single year is
divided by zero (C101). A record on the last edge is in the density maps but not in the pressure maps (C102). Crossings of
meridians are normalised, so that the number of tracks does not matter although the result is labelled as a number per
year; a record on the meridian is counted twice (C103). Landfalls across the last two sides of the gates are never recorded
(C104). The landfalls of category `c` are stored in the column of category `c + 1`, those of category 5 in none; a record on
the gate is missed; `locationLandfallIntensity` fails as soon as a leg crosses an area (C105). The branches of these modules
for several processes use the buffer methods `Send` and `Recv` with strings and tuples, and misspelt names; they are not modelled.
*The main program.* A failure on one of several processes is logged and ends that process only; all others wait at the next
barrier for ever (C107). The evaluation of longitude crossings on two or more processes always ends in a deadlock: `historic` runs on the
first process only but contains a barrier, so that the workers have passed the next barrier and wait for work while the
first process waits for them at it (C108). The parallel branches of all five evaluations fail if there are fewer track files than workers (C108).
*Files between the stages.* With `Format=nc`, which `DataProcess` announces to support, data processing fails on every input (`origin_year` is defined for `txt`
only); with the column `age` it fails on every input (`year` and `jdays` are not defined); the plots of the data fail if all records are of one year (C109).
A run in a directory used before takes over: the distribution of radii of an earlier run, although the model of radii is asked for; radii of an earlier input;
annual frequencies in the plots; track files of higher numbers; and every finished wind field of the same simulation and track number, whatever the new tracks are (C110).
A track that begins before the first season selected and goes on into it is joined to the track before it (C111).
*Calibration by kernel densities.* A cell whose observations differ by no more than one step ends the calibration of all cells with `ValueError` (C113). The bandwidth computed
in `generateKDE` is checked but not handed to the estimator. Bearings are treated as points on a line: bearings just west of north give no density just east of it, while days do reach over the
new year; `generateGenesisDateCDF` ignores the days it is given; `circularKDE` adds to uninitialised memory (C114).
*Years per simulation.* The hazard from annual maxima allows for simulations of several years; the Pareto, empirical and power-law methods count each simulation as one year (C118). They also ignore the least number of records or count
events without wind as records (C119), and the power law uses whatever parameters the library finds, also ones for which levels fall with the period (C120). The classes of `hazard/evd.py` (`EVFUNCS`) cannot be used: `nodata` and `intervals` are not defined there; nothing calls them.
*Storms passing outside the region.* Tracks within the margin of the region are chosen, but only positions inside the region itself are used for the wind field (`timesInRegion` has no margin), so a storm that passes a hundredth of a degree outside it leaves no wind
inside (C122). Without a configured region all tracks of a process get the domain of its first track; those outside it have no wind, and which they are depends on the number of processes (C123).
*Landfall.* The time over land is never reset when a cyclone returns to sea, so at a second landfall the deficit drops at once by the decay of all earlier time ashore; and the random part of the filling rate can exceed the rest, which makes cyclones deepen over land (C125).
*Environmental pressure.* The climatology is read one day late, displaced in latitude, and, in the files the configuration names (rows from the north), in the other hemisphere (C127).
*Shapefiles.* A dissolved track that crosses 0°E eastward loses the position before the crossing; one that crosses westward is drawn round the globe; positions without a pressure become category 5 (C130).
*Smoothed hazard maps.* Missing cells are smoothed with their fill value, so wind speeds near them are far too low (C131).
*Files of one storm.* A data set with a single genesis position is read back as a vector, and calibration stops with an IndexError (C132).
*Hazard curves.* The points for simulated events stay in m/s whatever the plot units, ignore YearsPerSimulation, and the unit kmh only changes the label (C133).
*Domains of one cell.* Calibration fails on a grid of one cell (plots use one column too few), and the plots never show cell 0; a statistics file of another grid is accepted silently (C135).
*Distances in degrees.* The closest approach of tracks to locations is measured in degrees in the plane and then scaled, so east-west distances are too large by 1/cos(latitude), and wrong across Greenwich; queries by distance miss events (C137).
*Maps of single events.* The event simulation guesses the name of the wind field to map: for an event taken from a TCRM track file the guess never exists, for several events it does not exist either, and after an earlier event the old wind field is kept and mapped (C138). The failure is logged and the program still ends with status 0.
*Text exports.* The export of gridded files to text flips the rows although the files already begin in the north, so exported wind fields are upside down; it takes one cell size for both directions, and it cannot replace an existing file because of a removed builtin (C139).
*Plots of time series.* Extensions are removed with `rstrip('.csv')` and prefixes with `lstrip('ts.')`, which remove sets of characters: the plots of stations such as Cairns and Cairn overwrite each other (C140).
*Downloads of input data.* A dataset counts as downloaded as soon as its file exists: after a broken transfer, a stop of the program or the failure that every zipped dataset causes, a partial or empty file is used for good (C141).
*Defaults.* The default `kdeType=Gaussian` is not a name the calibration accepts, nor are the documented kernels; the example configuration leaves it out. `YearsPerSimulation` is optional for track generation but has no default for the hazard and evaluation stages; `[Process]` has no defaults but the database needs it (C142).
*Exit status.* Without `--debug`, `tcrm.py` and `tcevent.py` end with status 0 after any exception in a stage (C143).
*Relative configuration names.* `tcrm.py` changes to its own directory before it reads the file named by `-c`, so a relative name given elsewhere picks up another file or none; `tcevent.py` reads first (C144).
The climatological environmental pressure is looked up with single precision day numbers, so that 01:00 and 02:59 both use 01:30.
The second radius of the double vortex is 150 metres for the wind unless given (the documentation says 250 km) and 250 km for the pressure, so that the two do not balance.
ncSaveGrid empties an existing file before it checks its arguments, so a refused request destroys the earlier results.
The hazard file's actual_range includes the missing value, the percentile attributes are fixed, and uncalculated confidence limits are stored as 0 rather than missing.
setDomain takes the grid from the first file os.listdir returns. If wind fields of all time steps are kept, that may be an evolution file, whose latitudes ascend while those of gust files descend: the hazard map is then saved upside down without any error.
calcLocalWindfield hands the configured multipliers over as the raster to match only; processMult reads m4_<direction>.tif from the wind-field folder. A run with Input/Multipliers fails after its first track unless those files were put there by hand.
WindProfileModel documents rMax in km but compares it with distances in metres; a profile made as documented has its maximum within metres of the centre. Setting vMax = 0 is ignored (truth test in the getter).
SamplingOrigin.cdf uses searchsorted(x)-1: at or west of the first grid longitude the index is -1 and the value 1; at grid points the latitude distribution of the neighbouring column is used. KDEOrigin.generateCdf(save=True) passes a flat array for two dimensions and always raises ValueError.
fitRmax fits without an intercept (no column of ones) although the form documented, and used by rmax, has one; its result has three entries (b, c, sigma), which rmax takes as (a, b, c).
pArchiveFile replaces an archived file of the same name and minute of modification (os.rename) and reports success; pArchiveTimestamp(False) has no effect; with no archive directory set files are moved to the working directory.
shpGetVertices keeps one feature per key value, so stations that share an identifier are lost; a station file (csv) with a single line raises IndexError; names of stations in a csv file are read as NaN and all stations write the same file; locations.db is never rebuilt when LocationFile changes.
Utilities/tsmultipliers.py imports shapefile from Utilities, where there is none, so it cannot be imported; it takes the stations from Input/LocationFile although the series are collected for Timeseries/LocationFile, and skips stations without a record silently.
longitudeCrossing.py labels the upper percentiles of crossings 90 but calculates the 95th; genesisDensity.py labels a probability density 'TCs per 1-degree grid per year' (division by the number of years is commented out).
tcevent.py creates its output folders on every process with a test followed by os.makedirs without exist_ok: of two processes that both find a folder missing, one ends with FileExistsError.
Utilities/shptools.py tracks2point/tracks2line write records that still contain the date into 16 columns without one, shifting all columns from the longitude on; tracks2shp.py with dissolve writes the first record as the attributes of a whole netCDF track.
DataProcess.processData calls parseDates without the configured DateFormat (DataProcess/DataProcess.py L239-240), so any file whose dates are not in the default format stops the run; the loader of track files (loadTrackFile) passes the format. Dates such as %d%m%Y are read as numbers by numpy.genfromtxt, lose their leading zero and can be read as another day.
parseDates (Utilities/loadData.py L433-435) catches only KeyError for a missing 'date' column, but the structured array of numpy returned by colReadCSV raises ValueError, so files with separate year, month, day and hour columns cannot be loaded. Files without years are dated in 2000 and 2001: a storm over the end of February is a day too long, or refused if it began in January and saw a 29 February.
LandfallDecay keeps its time over land from one storm to the next (TrackGenerator/trackLandfall.py L70, L86); only the debug output shows it, since the decay uses its own count. An observation east or north of the land mask, even far outside the domain, ends data processing with an IndexError.
_setlength (PlotInterface/scalebar.py L134-142) has no suitable length below 1 km: on a map narrower than 4.75 km scale_number recurses without end (or, by rounding, returns 0 and _upper_bound raises ValueError). _upper_bound loops for ever when no point in the direction is as far as the length asked for.
Plots of the input data (PlotInterface/plotStats.py): plotPressure (L250-254) pairs the first pressure of a storm with the last of the storm before; plotMinPressure (L278) leaves out the last observation; plotLonLat (L391-397) unwraps only steps below -180 degrees and swaps the labels t and t-1; plotBearing (L305-306) takes np.cos of half a bearing in degrees; quantile (L243) prints the correlation coefficient r as r^2.
config.get('Logging', 'ProgressBar') (tcrm.py L120, L192, L220, L247, L274, L358, L412, L440, tcevent.py L196) returns the text 'False', which is true, so the progress bar cannot be turned off by the setting.
os.makedirs('{0}/{1}') but copyfile(..., working_dir + wm + '/' ...) (processMultipliers.py L214, L246): without a slash at the end of working_dir the copies go to a folder that does not exist; the tiles of processMultipliers.ini end with an underscore, to which check_if_wm_source_from_s3 (L372) adds another.
The upper end of the axis of a hazard curve is taken from the curve only (curves.py L404), so the upper confidence limit may be outside; the range is drawn according to the first period only (L399); selectColormap (maps.py L69) fails for numpy float32 or integer levels and for equal levels.
impact.run_optional (impact/__init__.py L71-74) asks for the section Impact only if there is no section Actions, but the defaults always have one: a configuration with exposure data and without ExecuteImpact calculates nothing.
Utilities/akima.c and akima.py differ at an observation between two steady motions (mean of the two velocities against the velocity before), in the threshold for that case (1e-9 absolute against 1e-9 of the largest change), and in their checks (akima.c accepts new times outside the data and needs them in order); akima.c L164-185 reads one element beyond both arrays, without effect on the result.
lowResProcessMultipliers.downscale_multipliers (L32) calls os.path.path.isdir: AttributeError for every input, logged by run, so the program never produces a file; main (L175) replaces 'gust' in the whole path, including folders.
TrackGenerator builds the fallback table of sizes (L390) and selects its columns (L643), but no size is ever drawn from it: the radius at genesis comes from trackSize.rmax.
A single simulation without landfall makes the mean landfall rate of every gate nan, because the histogram of an empty list with density=True is nan and np.mean does not skip it; the same happens to the distribution of minimum pressure.
wind/__init__.py L241: `int(100. * self.margin)` is 229 for a margin of 2.3, where maputils.makeGrid has `int(1000 * margin)` = 2300: the local field does not fit its window and NumPy raises ValueError. With the full domain a limit such as 128.2 is enough.
hazard/__init__.py L107-116: `int(gridLimit['yMin']*1000)` cuts towards zero, so for yMin = -16.22 (-16219.999...) the southernmost row is dropped; `np.round` is used for the coordinates but not for the limits.
Evaluate/interpolateTracks.py L79-94: day numbers in floating point are off by up to 10^-9 hours, and the pressure at the first record with a pressure is compared with `newtime`: for an hourly track it is marked missing where the time is rounded up (2:00, 5:00, ...).
hazard/__init__.py L392-401 and database/__init__.py L405-416: an exception in a worker is not sent to the master, which then waits at `comm.recv` for ever; nothing is saved.
The autoregressive models draw their noise from a logistic distribution of scale 1, whose standard deviation is 1.81: simulated pressure rates, bearings and speeds spread 1.81 times as wide as the calibrated standard deviations.
The deviation of the size of a storm from the fitted relation is drawn again until the initial radius is at most 100 km, and then kept for the whole storm: sizes are smaller in the mean than fitted at all later times too, also where a radius of more than 100 km would not occur.
The generator can deliver 0, for which logisticvariate raises ValueError (logarithm of zero) and ends the run. (Chance 2^-53 per number.)
Where the annual maxima have an L-skewness above 0.17 (a heavier tail than the Gumbel distribution), more simulated years do not help: with probability one all return levels are missing from some length of the simulation on.
Legend of the track map: 'No data' is the label of all winds below 17.5 m/s, and lines with missing wind speed get no colour (C206).
A blank after a comma in the list of datasets: the section is not found, the download stage fails (C207).
statMaxRange(1, 1.2, 0.1) is 1.3: rounding adds a step (C208).
Shape files: the last point of a ring that is not closed is lost if the shape has several parts (C209).
Raw multipliers from remote storage: a tile that cannot be fetched ends its thread, and the program goes on without it and the rest of its type (C210).
Grid over a domain: if the resolution does not divide its size the coordinates have a column (row) more than the distances (C211).
Gust file in remote storage: it is downloaded into the working directory before that directory is made, so a run with a new directory fails (C212).
Collecting multipliers with the separate script (Utilities/get_multipliers.py): tiles of earlier runs left in the output folder are merged too (C213).
Seasonal pressure (MSLP/mslp_seasonal_clim.py): rows are reversed but latitudes are not, so samples are taken at the mirrored latitude; west of the grid the last longitude is used (C214).
Table of events: filling it again always fails on the first number, and a failed call leaves rows in the open transaction (C215).
C217: `fmtlon` reads `0W` as 360 degrees and `0E` as 0.
Initial pressure: where the table of a cell has no pressure below that of the surroundings, index -1 selects the whole table, and the storm begins with a pressure not below that of the surroundings (C198).
Letters of the UTM grid: latitudes south of 80 degrees south have the letter Z, after N, that is of the northern hemisphere (C219); the conversion LLtoUTM always raises TypeError (`int` written for the longitude).
