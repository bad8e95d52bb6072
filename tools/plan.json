{
 "C01": [
  "Tiles",
  "tile bounds as integer functions; exact cover by Euclidean division on the cell index"
 ],
 "C02": [
  "Dispatch, HazardOutput",
  "master/worker protocol as a transition system with FIFO mailboxes; token invariant, termination measure, deadlock freedom, order independence of the output"
 ],
 "C03": [
  "Balanced",
  "`islice(l, rank, None, P)`; index characterisation, hence partition by residues"
 ],
 "C04": [
  "TrackGen",
  "ranks thread a process-global generator state; counterexample to independence and partial theorem"
 ],
 "C05": [
  "Cdf",
  "running sums over ℚ"
 ],
 "C06": [
  "Cdf",
  "searchsorted on lists; quantile characterisation"
 ],
 "C07": [
  "Cdf",
  "marginal and conditional tables as in the code; positivity by telescoping"
 ],
 "C08": [
  "Cdf",
  "the recurrence as code; equality with the double sum by induction"
 ],
 "C09": [
  "Cells",
  "whole degrees as integers, points rational; round trip on one side of the origin, counterexamples for straddling domains"
 ],
 "C10": [
  "Cells",
  "iff for whole-degree limits, exact behaviour and counterexample otherwise"
 ],
 "C11": [
  "Extract",
  "window expansion loop; measure is the distance of the window to the limits"
 ],
 "C12": [
  "Acf",
  "Cauchy–Schwarz on lists over ℝ"
 ],
 "C13": [
  "TrackGen",
  "the stepping loop with arbitrary draws; invariant on the produced prefix"
 ],
 "C14": [
  "TrackGen",
  "rejection loop over a stream of candidates; invariant, partial correctness, non-termination witness"
 ],
 "C15": [
  "TrackGen",
  "state kept between tracks; counterexample and partial theorem"
 ],
 "C16": [
  "TrackGen",
  "key = seed + stream; injectivity for one seed, collision for two"
 ],
 "C17": [
  "Windfield, WindfieldAll",
  "fold of masked updates; invariant relating the state to maximum and arg max"
 ],
 "C18": [
  "Windfield",
  "integer index arithmetic of the pasting window"
 ],
 "C19": [
  "Windfield",
  "fold with masks computed after the update; negation and partial theorem"
 ],
 "C20": [
  "GustFiles",
  "zero-padded decimals and shell patterns on character lists"
 ],
 "C21": [
  "GustFiles",
  "yearly maxima; permutation invariance"
 ],
 "C22": [
  "GustFiles",
  "disk states, crash after any prefix of writes, skip test; idempotence"
 ],
 "C23": [
  "Evd",
  "decision structure over L-moments; monotonicity over ℝ"
 ],
 "C24": [
  "Evd",
  "`Real.rpow`"
 ],
 "C25": [
  "Evd",
  "ranks over ℚ"
 ],
 "C26": [
  "Config",
  "state machine over lists of operations"
 ],
 "C27": [
  "Config",
  "split and join on character lists; look-up with default"
 ],
 "C28": [
  "Register",
  "memory and file; refinement to a map"
 ],
 "C29": [
  "Geometry",
  "determinants over an ordered field; soundness and completeness"
 ],
 "C30": [
  "Geometry",
  "ℝ with `Real.sqrt`"
 ],
 "C31": [
  "Geometry",
  "both tests as written; negation and the cases in which they agree"
 ],
 "C32": [
  "TrackFiles",
  "group names, order and filtering; round trip"
 ],
 "C33": [
  "Grid",
  "first minimiser of the distance with the shortcuts for the range"
 ],
 "C34": [
  "DataProc",
  "running limits; containment, minimality and counterexample"
 ],
 "C35": [
  "DataProc",
  "year range and counting"
 ],
 "C36": [
  "DataProc",
  "flag fold equals filtering of track groups"
 ],
 "C37": [
  "DataProc",
  "markers, cumulative numbers and grouping"
 ],
 "C38": [
  "DataProc",
  "signed threshold test"
 ],
 "C39": [
  "Rates",
  "wrapping and screening"
 ],
 "C40": [
  "Dates",
  "elapsed-time fold; Gregorian day numbers for all years"
 ],
 "C41": [
  "DynArray",
  "refinement to list append"
 ],
 "C42": [
  "Units",
  "tables as data; laws over ℚ"
 ],
 "C43": [
  "Humidity",
  "ℝ"
 ],
 "C44": [
  "Angles",
  "ℝ with real modulus"
 ],
 "C45": [
  "LMoments",
  "both routines as written, equality by algebra on sums"
 ],
 "C46": [
  "Vmax",
  "ℝ"
 ],
 "C47": [
  "Profiles",
  "ℝ, derivatives by `HasDerivAt`"
 ],
 "C48": [
  "Pressure",
  "ℝ"
 ],
 "C49": [
  "Boundary",
  "piecewise, ℝ"
 ],
 "C50": [
  "Multipliers",
  "segment list; thread pool as a transition system with the check-then-get race"
 ],
 "C51": [
  "Multipliers",
  "table of octants; exact cover of [0,360)"
 ],
 "C52": [
  "Database",
  "tables as lists, joins as list comprehensions, NULL as `none`"
 ],
 "C53": [
  "TrackGen",
  "division of the random number space"
 ],
 "C54": [
  "TrackGen",
  "table look-up for the pressure"
 ],
 "C55": [
  "TrackGen",
  "unreachable success of the size branch"
 ],
 "C56": [
  "GustFiles",
  "fixed name of the local wind file"
 ],
 "C57": [
  "GustFiles",
  "listing of all regular files"
 ],
 "C58": [
  "LMoments",
  "Gamma function identities"
 ],
 "C59": [
  "Evd",
  "index arithmetic of the empirical levels"
 ],
 "C60": [
  "Evd",
  "case analysis of a cell"
 ],
 "C61": [
  "HazardOutput",
  "call with the wrong arguments"
 ],
 "C62": [
  "Register",
  "all prefixes of the written text"
 ],
 "C63": [
  "Register",
  "state machine"
 ],
 "C64": [
  "Geometry",
  "loops over edges"
 ],
 "C65": [
  "TrackFiles",
  "grouping by number"
 ],
 "C66": [
  "TrackFiles",
  "sorted listing"
 ],
 "C67": [
  "TrackFiles",
  "mutation of the saved record"
 ],
 "C68": [
  "Grid",
  "binary search on the axes"
 ],
 "C69": [
  "Rates",
  "marks of first and second observations"
 ],
 "C70": [
  "Dates",
  "hhmm test"
 ],
 "C71": [
  "Dates",
  "rounding"
 ],
 "C72": [
  "Dates",
  "folds over values that are not missing"
 ],
 "C73": [
  "Humidity",
  "bisection; measure and invariant"
 ],
 "C74": [
  "Profiles",
  "`HasDerivAt` of the wind against the vorticity formula"
 ],
 "C75": [
  "Compiled",
  "Fortran and Python routines side by side"
 ],
 "C76": [
  "Boundary, Profiles",
  "symmetry of the formulas"
 ],
 "C77": [
  "Selection",
  "finite table of names, all combinations"
 ],
 "C78": [
  "Pressure",
  "difference of two formulas"
 ],
 "C79": [
  "Multipliers",
  "row order conventions"
 ],
 "C80": [
  "MultiplierFiles, Multipliers",
  "masked products"
 ],
 "C81": [
  "MultiplierFiles",
  "split and join"
 ],
 "C82": [
  "MultiplierFiles",
  "affine maps"
 ],
 "C83": [
  "Database",
  "sequence of updates; key invariants"
 ],
 "C84": [
  "Database",
  "scanner for numbers, padding"
 ],
 "C85": [
  "Database",
  "residue of longitudes"
 ],
 "C86": [
  "Stations",
  "state of the stations as a fold over the time steps; first maximum and minimum of lists"
 ],
 "C87": [
  "Stations, Windfield",
  "simulation between the series and the running maximum; nearest point of a part of an axis"
 ],
 "C88": [
  "Stations, Balanced",
  "sequence of processes writing the same files"
 ],
 "C89": [
  "Stations",
  "piecewise linear function"
 ],
 "C90": [
  "Foliation, Windfield",
  "both axes as arithmetic progressions; placement of tables"
 ],
 "C91": [
  "Akima",
  "piecewise cubics glued at the nodes; derivatives from Mathlib"
 ],
 "C92": [
  "TrackInterp",
  "arithmetic of `arange` with ceilings; totality by cases"
 ],
 "C93": [
  "TrackInterp, Akima",
  "linear interpolation as bisection of an increasing table"
 ],
 "C94": [
  "TrackInterp",
  "legs between consecutive records; distance is a parameter"
 ],
 "C95": [
  "TrackInterp",
  "slices of the list of new times; convexity for the mask"
 ],
 "C96": [
  "Model/Sphere, Spec/Sphere, Lemmas/Sphere, Props/Sphere",
  "Unit vectors of three-dimensional space as the specification; trigonometric identities, the polar form of the arctangent of two arguments, induction over the steps of a track."
 ],
 "C97": [
  "Model/Sphere, Spec/Sphere, Lemmas/Sphere, Props/Sphere",
  "The haversine formula is rewritten as the angle between unit vectors, for which symmetry and the triangle inequality are in Mathlib."
 ],
 "C98": [
  "Model/Sphere, Props/Azimuth",
  "Rotation identities; induction over the track for recovery; concrete counterexamples evaluated exactly."
 ],
 "C99": [
  "Model/Sphere, Props/Azimuth",
  "Case analysis on the number of rows under numpy's broadcasting; irrationality of pi for the counterexample."
 ],
 "C100": [
  "Evaluate",
  "Half-open cells; recursion over the edges shows that exactly one cell contains a value; double counting over cells and records."
 ],
 "C101": [
  "Evaluate",
  "First and last year by induction over the tracks; comparison of the two quotients."
 ],
 "C102": [
  "Evaluate, EvaluateStats",
  "The values of a cell as a filtered list; ranks in the sorted list for the median."
 ],
 "C103": [
  "Evaluate, Crossing",
  "The common point of two segments (C29); sides of the gate; sums of normalised histograms."
 ],
 "C104": [
  "Evaluate, LandfallGates",
  "Membership in the list of gates; unit bins of the histogram."
 ],
 "C105": [
  "Evaluate, LandfallGates",
  "Parameters of the common point of two segments; the categories partition the pressures."
 ],
 "C106": [
  "EvaluateStats",
  "Position in the sorted list; counting in prefixes and suffixes of it."
 ],
 "C107": [
  "Pipeline",
  "Transition system of processes with barriers; the number of barriers left is the same for all processes, and a suffix of a program with as many barriers as follow a stage lies behind that stage."
 ],
 "C108": [
  "Pipeline",
  "All states reachable up to the deadlock are described by an invariant; recursion over the list of files."
 ],
 "C109": [
  "Rerun",
  "Programs of file operations; which files are needed from outside is computed and shown sound for all directories."
 ],
 "C110": [
  "Rerun, GustFiles",
  "The needed files outside a run are computed and shown sound; wind fields use the restart theorems of C22."
 ],
 "C111": [
  "Seasons, DataProc",
  "Induction over the list of tracks; markers and identifiers form a chain."
 ],
 "C112": [
  "Seasons",
  "Sizes of the classes of a partition add up."
 ],
 "C113": [
  "Kde, Cdf, Extract",
  "arange membership and length; C05 for the cumulative values; induction over the cells."
 ],
 "C114": [
  "Kde",
  "Terms of repetitions two or more periods away vanish."
 ],
 "C115": [
  "Kde, Cdf, Cells",
  "Row-major layout of a grid; C07 for the draw, C09 for the cell, C113 for the table."
 ],
 "C116": [
  "HazardRun, Tiles, Dispatch, GustFiles, Evd, HazardEvents",
  "Composition of C01, C02 and C21; the saved axes by the bounds of the grid."
 ],
 "C117": [
  "HazardRun, Evd",
  "Algebra of the quantile function; real powers and logarithms."
 ],
 "C118": [
  "HazardRun",
  "Case analysis of the method; monotonicity of the empirical interval."
 ],
 "C119": [
  "HazardRun, Evd",
  "Case analysis of the method; a record with a single wind."
 ],
 "C120": [
  "HazardRun",
  "Monotonicity of real powers."
 ],
 "C121": [
  "WindRun, Windfield, Balanced, GustFiles",
  "Composition of C03 (sharing), C17 (extremes) and C20 (names)."
 ],
 "C122": [
  "WindRun, Windfield",
  "C17, C18; a track east of the region."
 ],
 "C123": [
  "WindRun",
  "Bounds of floor and ceiling; two tracks 20 degrees apart."
 ],
 "C124": [
  "WindRun, HazardRun, Windfield, WindRunEvents",
  "Composition of C121 and C116; rows of the files in descending latitude."
 ],
 "C125": [
  "TrackGen, Landfall",
  "Invariant of the track loop: landfall state is that of the last position at sea."
 ],
 "C126": [
  "TrackGen, Landfall",
  "Case analysis of a step; induction along the track."
 ],
 "C127": [
  "Climate",
  "Arithmetic of the indices; wrap of scipy as contract."
 ],
 "C128": [
  "LoadTrack",
  "The loaded tracks characterised by predicates on neighbouring records; induction on the file."
 ],
 "C129": [
  "LoadTrack, PressureWind",
  "Real analysis: bounds of the exponent and monotonicity of the power law."
 ],
 "C130": [
  "Shapes",
  "Elementwise characterisation of the features written."
 ],
 "C131": [
  "Smooth",
  "Weights positive, symmetric and summing to one; the reflected axis has every index twice in a period."
 ],
 "C132": [
  "TextFiles",
  "Writing and reading as functions on characters; splitting undoes joining by induction."
 ],
 "C133": [
  "Plots, Units, Grid",
  "Order statistics of the sorted days; counting of the points above a level."
 ],
 "C134": [
  "Plots",
  "The decade by the integer logarithm; case analysis over the six steps."
 ],
 "C135": [
  "CellStats, Extract, Acf, Circular, Cells",
  "Composition of C11, C12, C136 with a round trip through the reshaped file."
 ],
 "C136": [
  "Circular",
  "Polar form of the resultant; equality case of the triangle inequality."
 ],
 "C137": [
  "Closest",
  "Segment distance of GEOS as minimum over all fractions, induction on the course; convexity of cos of a square root for the comparison with the sphere."
 ],
 "C138": [
  "Event, WindRun, GustFiles",
  "Case analysis over the run; names of wind fields are injective (C20)."
 ],
 "C139": [
  "TextGrid, Grid",
  "Index arithmetic over lists; minimum of an arithmetic progression."
 ],
 "C140": [
  "SeriesPlots",
  "Induction over the listing; laws of stripping."
 ],
 "C141": [
  "Datasets",
  "Induction over the history with an invariant of the disk."
 ],
 "C142": [
  "Defaults, Config",
  "Decision over the finite tables of settings lifted to all files by lookup lemmas."
 ],
 "C143": [
  "Startup, Pipeline",
  "Induction on the list of stages with a sorted-order characterisation of the prefix performed."
 ],
 "C144": [
  "Startup",
  "Case analysis on paths; cancellation of common suffixes."
 ],
 "C145": [
  "Startup",
  "Appending a suffix without full stops or slashes commutes with splitext; decimal numerals are injective."
 ],
 "C146": [
  "TrackModel, TrackGen",
  "States of the loop as a trajectory; invariants for position, age, hours over land, last step at sea, day and number of variates by induction; uniqueness by strong induction."
 ],
 "C147": [
  "TrackModel, TrackGen, Cdf",
  "Inversion of the sampling chain and of the rejection loop for the radius; loop invariant over attempts."
 ],
 "C148": [
  "LMoments, Evd, GevSkew, GevNewton, GevStart, LogIntegral",
  "Integrals by the substitution u = exp(-t) and the Gamma function; the L-skewness decreases with the shape (secants of a convex function) and the approximations with the L-skewness (Bernstein form of a polynomial); on a grid of 722 points the shape and its L-skewness are enclosed by comparing powers of whole numbers in the kernel, and monotonicity covers the points between. Below -0.8: the ratio minus one decays with exponent between 0.58 and 0.6932, so one Newton step at least halves the error (mean value theorem), by induction over the iterations; starting values enclosed by a further table and by the exponential."
 ],
 "C149": [
  "LMoments, LMomentsAll",
  "Three-term recurrence of the discrete Legendre polynomials, coefficient by coefficient; parity; pairing of the sum from both ends."
 ],
 "C150": [
  "Ages, Dates",
  "Induction over the years of a date; finite table of the days of a year; rounding bounds."
 ],
 "C151": [
  "Ages, Climate, Dates",
  "Rounding to sixteenths of a day; shift by whole days."
 ],
 "C152": [
  "Balance, Profiles, Pressure",
  "Derivative of the pressure profile, uniqueness of the non-negative root of the balance equation, monotonicity of x exp(-x)."
 ],
 "C153": [
  "NcGrid",
  "Induction over dimensions and variables; look-up in lists with different names."
 ],
 "C154": [
  "NcGrid",
  "Composition of the saved file (C153) with reading, masking and slicing; index arithmetic for row-major arrays."
 ],
 "C155": [
  "NcGrid",
  "As for C153, with the minimum and maximum of the array."
 ],
 "C156": [
  "WindDir",
  "Membership in the permuted folder; composition with C116 for the mirrored levels."
 ],
 "C157": [
  "LocalWind",
  "Case analysis on the files opened; C51 for the choice of direction; induction over tracks."
 ],
 "C158": [
  "Storms",
  "Case analysis on the unit; monotonicity of square root and power."
 ],
 "C159": [
  "OriginCdf",
  "Position in a sorted table is equivalent to a comparison; tables from C05; files from C153."
 ],
 "C160": [
  "SizeFit",
  "Normal equations of least squares from minimality along lines; exact data force zero residuals."
 ],
 "C161": [
  "Archive",
  "State machine over histories; names read from the end, the last two full stops."
 ],
 "C162": [
  "Places TextFiles Database",
  "Dictionary lemma (last writer, order of first insertion) by induction over the features; reading of text files from C132."
 ],
 "C163": [
  "LocalSeries Stations",
  "Invariant of the loop over the records: the inputs are unchanged, each path has what the last record wrote, tables grow by one row per record with a series; first columns by name."
 ],
 "C164": [
  "EvalSave NcGrid Evaluate EvaluateStats",
  "Index calculation for transposed row-major arrays, composed with the theorems on counts, cells and gates and with the theorem on saved grids."
 ],
 "C165": [
  "Folders",
  "File system as a function from paths; extension as a preorder preserved by every step; possibility of creation is invariant under extension; step induction for schedules."
 ],
 "C166": [
  "ShapeTable Dates Shapes",
  "Records as ordered lists of named values; the arrangement of the symbolic record is computed for each of the two array types and lifted to all tracks by Forall₂."
 ],
 "C167": [
  "DateText Dates",
  "regular expressions of strptime as ordered lists of matches; the first match of a written text by induction over the format; soundness by induction over all matches"
 ],
 "C168": [
  "DateText DateColumns Dates",
  "decision logic; induction over storms and observations for the years"
 ],
 "C169": [
  "LandMask Grid CellStats TrackModel",
  "the sampled grid point by C68; composed with the theorems on cell statistics (C135) and on tracks (C146); induction over the calls for the time over land"
 ],
 "C170": [
  "ScaleBar",
  "invariant of the binary search; termination by uniform continuity on the interval found by the exponential search; case analysis on the leading digit"
 ],
 "C171": [
  "StatPlots Rates",
  "induction over the storms of a column; irrationality of pi for the bearings"
 ],
 "C172": [
  "Progress",
  "invariants of the mark of the last report over the sequence of updates"
 ],
 "C173": [
  "MultiplierTiles",
  "folds over tiles, kinds and directions; uniqueness of the last underscore of a name"
 ],
 "C174": [
  "Figures",
  "rounding of quotients and square roots; floor and ceiling inequalities"
 ],
 "C175": [
  "Impact, GustFiles, Defaults",
  "induction over the files; the defaults as a table"
 ],
 "C176": [
  "AkimaC, AkimaTracks, AkimaSmooth",
  "induction over the passes of each loop; refinement to the cubic of the interval; calculus over the reals"
 ],
 "C177": [
  "LowRes, LocalWind, Multipliers",
  "induction over the files and over the characters of paths; C51 for the directions"
 ],
 "C178": [
  "SizeTable, Cdf",
  "change of variables to the normal density and its moment generating function; partial sums; C05 and C06"
 ],
 "C179": [
  "SimRates, Evaluate",
  "Rows of nan are carried as `none`; the statistics of each column are computed, and the sums are exchanged by induction over the simulations."
 ],
 "C180": [
  "WindTable, Dispatch, Units",
  "The protocol is that of C02, so the results received are a permutation of the combinations, and filling by index does not depend on their order."
 ],
 "C181": [
  "Binary64, Windfield",
  "Rounding to nearest is monotone and exact on doubles, with an error of at most 2^-53 of the number; so products are cut to the right whole number or the next towards zero. The settings that fail are computed by the kernel, over complete lists."
 ],
 "C182": [
  "Binary64, Tiles",
  "The saved coordinates keep their place in thousandths (the error of two roundings is below one half); the limits are cut to the right whole number or the next towards zero."
 ],
 "C183": [
  "Times64, Binary64, TrackInterp",
  "The error of each of the five roundings is bounded by 2^-53 of the number, which gives a bound below 10^-6 hours; multiples of 45 minutes are 32nds of a day, which are doubles. The theorems of C92 hold for any increasing times starting at zero."
 ],
 "C184": [
  "DispatchFail, Dispatch",
  "A failed worker is one that never sends its result, so that the invariant of C02 goes on to hold; the four facts added to it (nothing raised is sent or stored, a worker is stopped only when all is handed out) are invariants of every action."
 ],
 "C185": [
  "Fuzzy, DataProc",
  "The value is strictly monotone in the bit pattern and its range is the representable numbers, so counting representable numbers is subtraction of bit patterns; the extraction is that of C36 on the widened domain."
 ],
 "C186": [
  "Template",
  "Substitution of one key maps the pieces of a template; induction over the values; lines can be treated together since no pattern contains a newline."
 ],
 "C187": [
  "Arange64 Binary64 Cells",
  "Rounded quotients of whole numbers keep their ceiling; error bounds of rounding; sums and products of short dyadic numbers are exact."
 ],
 "C188": [
  "TrackDates Times64 Arange64 TrackInterp",
  "Error bounds of rounding for the times; day numbers are whole multiples of 2^-33 days, so the error at five-minute steps depends on the count modulo nine only."
 ],
 "C189": [
  "LandfallSummary Evaluate",
  "Grouping of rows by induction; permutations of the files."
 ],
 "C190": [
  "QuantilePlot Evaluate",
  "Order statistics are monotone in the data (counting); percentiles as in C106; induction over tracks and files."
 ],
 "C191": [
  "CurveRuns Database Grid",
  "Invariant of the database over the history; induction over runs, events and locations."
 ],
 "C192": [
  "Boundary Compiled Profiles Ekman EkmanUnique EkmanHolland",
  "Explicit waves; complex algebra for the surface conditions; uniqueness by differentiating the energy under the integral; strict positivity of Holland's wind and vorticity."
 ],
 "C193": [
  "WindCurl Profiles",
  "Case analysis of the stencil; mean value theorem; trigonometric identities and bounds."
 ],
 "C194": [
  "Mesh Windfield",
  "Arithmetic of truncation and of floor division; closed form of both axes."
 ],
 "C195": [
  "Timing",
  "Floor division; digits read back; uniqueness of what a text shows."
 ],
 "C196": [
  "Registry Selection",
  "Induction on the tree and on the list of arguments; finite tables by kernel evaluation."
 ],
 "C197": [
  "Autoreg",
  "Moment generating function of the logistic variate by the beta integral and the reflection formula, differentiated three times; independence of the noise from the past; induction on the steps."
 ],
 "C198": [
  "Draws",
  "A table of the distribution function selects a position for an interval of numbers of the length of its probability; independence for the two numbers of an origin; strong law of large numbers for the shares."
 ],
 "C199": [
  "SizeDraw",
  "The events that the n-th number is the first to be accepted are disjoint; their probabilities form a geometric series. The integral of a centred normal variable over a lower tail is negative."
 ],
 "C200": [
  "Unbiased",
  "The sum over the sorted sample is a sum over the sample with ranks; a binomial coefficient of the rank counts the sets of smaller values; the expected value for each set by independence and Fubini."
 ],
 "C201": [
  "Counts",
  "Product of probabilities of independent counts; Poisson sums by induction; rejected tracks are replaced (C14, C53), so the files hold what was drawn; strong law of large numbers."
 ],
 "C202": [
  "Variates",
  "Each event is the event that the uniform number is at most the distribution function at the bound."
 ],
 "C203": [
  "Lemmas/Consistent, Unbiased",
  "The ranks of the random numbers are spread evenly (uniformly in the number, from the law of large numbers at rational points), the weights of the sample moments approach powers of the relative rank, and the law of large numbers gives the limit of the sum of values weighted by powers."
 ],
 "C204": [
  "Spec/Annual, Model/GustFiles",
  "The annual maximum is at most v exactly if all storms of the year are (C21); summed over the numbers of storms this is the exponential series. Years depend on disjoint sets of independent quantities; the strong law of large numbers gives the share."
 ],
 "C205": [
  "Spec/AnnualFit, Spec/Annual, Model/GustFiles, Model/Evd",
  "Order statistics are measurable functions of the sequence, so that 'the sample L-moments converge' is an event. The years are blocks of independent quantities, the annual maxima independent with the distribution of Q of a uniform number; what is almost surely true of Q at independent uniform numbers (C203) is therefore almost surely true of the annual maxima."
 ],
 "C206": [
  "Model/TrackMap",
  "List lemmas on zip, dropLast and tail; the colour index in closed form by counting bounds, then all six intervals."
 ],
 "C207": [
  "Model/DataDownload",
  "Induction over the names (registering) and over the registered datasets (fetching), with the lemmas of C141 for one download."
 ],
 "C208": [
  "Model/StatRange",
  "The points of np.arange from C187; the last one before the end plus one step is the first that reaches it."
 ],
 "C209": [
  "Model/RingFile",
  "Induction over the rings: cutting the concatenation at the starts gives every ring without its last point, which closing restores."
 ],
 "C210": [
  "Model/RawTiles",
  "Transition system of the threads; an invariant relating the files fetched and those left; a variant for termination."
 ],
 "C211": [
  "Model/DomainMesh",
  "Closed form of both axes by integer division; cover by the floor of the offset."
 ],
 "C212": [
  "Model/RemoteRun",
  "Case analysis of the run; induction over the uploads with the part done so far."
 ],
 "C213": [
  "Model/TileScript",
  "Induction over the history of runs, with the contents of the folders that match a direction as the invariant; the copying and merging are those of C173."
 ],
 "C214": [
  "Model/SeasonalPressure",
  "The sum over the list of distinct months as a sum over a finite set; induction over the axis for the search."
 ],
 "C215": [
  "Model/EventTable",
  "Induction over the sorted list of files and over the rows inserted."
 ],
 "C216": [
  "Model/LandDecay",
  "Monotonicity of the exponential function; induction over the steps."
 ],
 "C217": [
  "Model/JtwcPosition",
  "Induction over the letters at both ends of the text; arithmetic."
 ],
 "C218": [
  "Model/AnnualProb",
  "The Poisson measure of Mathlib; inequalities of the exponential function."
 ],
 "C219": [
  "UtmBand",
  "Case distinction over the bands; the number of the band is a whole part."
 ]
}