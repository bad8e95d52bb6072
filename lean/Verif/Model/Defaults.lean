import Verif.Model.Config
/-!
The settings each stage reads, and the defaults of settings left out (Utilities/config.py).
-/
namespace Tcrm.Defaults

open Tcrm.Config

def t (s : String) : Text := s.toList

/-- Utilities/config.py L143-253 (`DEFAULTS`).  (The keys of the sections of the data sets that name
the address of the server, L238 and L250, are left out.) -/
def defaults : Entries :=
  [(t "Actions", [(t "DataProcess", t "True"), (t "ExecuteStat", t "True"),
      (t "ExecuteTrackGenerator", t "True"), (t "ExecuteWindfield", t "True"),
      (t "ExecuteHazard", t "True"), (t "ExecuteEvaluate", t "True"), (t "PlotData", t "True"),
      (t "PlotHazard", t "True"), (t "CreateDatabase", t "True"), (t "DownloadData", t "True")]),
    (t "Region", [(t "gridSpace", t "{'x':1.0,'y':1.0}"), (t "gridInc", t "{'x':1.0,'y':0.5}")]),
    (t "DataProcess", [(t "StartSeason", t "1981"), (t "FilterSeasons", t "True"),
      (t "InputFile", t "Allstorms.ibtracs_wmo.v03r10.csv"), (t "Source", t "IBTRACS")]),
    (t "StatInterface", [(t "kdeType", t "Gaussian"), (t "kde2DType", t "Gaussian"),
      (t "kdeStep", t "0.2"), (t "minSamplesCell", t "100")]),
    (t "TrackGenerator", [(t "NumSimulations", t "500"), (t "NumTimeSteps", t "360"),
      (t "TimeStep", t "1.0"), (t "Format", t "csv"), (t "SeasonSeed", t "1"),
      (t "TrackSeed", t "1")]),
    (t "WindfieldInterface", [(t "profileType", t "holland"), (t "windFieldType", t "kepert"),
      (t "beta", t "1.3"), (t "beta1", t "1.3"), (t "beta2", t "1.3"), (t "thetaMax", t "70.0"),
      (t "Margin", t "2"), (t "Resolution", t "0.05"), (t "PlotOutput", t "False"),
      (t "Domain", t "bounded")]),
    (t "Hazard", [(t "Years", t "2,5,10,20,25,50,100,200,250,500,1000"),
      (t "MinimumRecords", t "50"), (t "CalculateCI", t "True"), (t "PercentileRange", t "90"),
      (t "SampleSize", t "50"), (t "PlotSpeedUnits", t "mps"),
      (t "ExtremeValueDistribution", t "GPD"), (t "SmoothPlots", t "True")]),
    (t "RMW", [(t "GetRMWDistFromInputData", t "False")]),
    (t "Input", [(t "LocationFile", t "input/stationlist.shp"), (t "LandMask", t "input/landmask.nc"),
      (t "MSLPFile", t "MSLP/slp.day.ltm.nc"), (t "MSLPVariableName", t "slp"),
      (t "Datasets", t "IBTRACS,LTMSLP")]),
    (t "Output", [(t "Path", t "output"), (t "Format", t "txt")]),
    (t "Timeseries", [(t "Extract", t "False"), (t "StationID", t "WMO"),
      (t "LocationFile", t "./input/stationlist.shp"), (t "Windfields", t "False")]),
    (t "Logging", [(t "ProgressBar", t "False"), (t "LogFile", t "main.log"), (t "LogLevel", t "INFO"),
      (t "Verbose", t "False"), (t "Datestamp", t "False")]),
    (t "Source", [(t "FieldDelimiter", t ","), (t "NumberOfHeadingLines", t "0"),
      (t "SpeedUnits", t "mps"), (t "PressureUnits", t "hPa"), (t "LengthUnits", t "km")]),
    (t "IBTRACS", [(t "path", t "input"), (t "filename", t "Allstorms.ibtracs_wmo.v03r10.csv"),
      (t "Columns", t "tcserialno,season,num,skip,skip,skip,date,skip,lat,lon,skip,pressure"),
      (t "FieldDelimiter", t ","), (t "NumberOfHeadingLines", t "3"), (t "PressureUnits", t "hPa"),
      (t "LengthUnits", t "km"), (t "DateFormat", t "%Y-%m-%d %H:%M:%S"), (t "SpeedUnits", t "kph")]),
    (t "LTMSLP", [(t "path", t "MSLP"), (t "filename", t "slp.day.ltm.nc")])]

/-- What is done with the text of a setting. `oneOf`: it is looked up among the given names.
`floats`: it is split at commas, and the parts are taken for numbers. -/
inductive Kind where
  | text
  | int
  | float
  | bool
  | eval
  | oneOf (names : List Text)
  | floats

/-- A use of a setting. -/
inductive Item where
  /-- `config.get…(s, o)` -/
  | get (s o : Text) (k : Kind)
  /-- the same after `config.has_option(s, o)` -/
  | ifSet (s o : Text) (k : Kind)
  /-- `config.get…(s, o)` if `config.getboolean(s', o')` -/
  | ifTrue (s' o' s o : Text) (k : Kind)
  /-- `config.get…(config.get(s', o'), o)` -/
  | via (s' o' o : Text) (k : Kind)

/-- The use of a value. Values that do not come from a file have no place here. -/
def useAs (c : Conv) (k : Kind) (v : Val) : Except Err Unit :=
  match v with
  | .str x =>
    match k with
    | .text => .ok ()
    | .int => (asInt c v).map fun _ => ()
    | .float => (asFloat c v).map fun _ => ()
    | .bool => (asBool v).map fun _ => ()
    | .eval => (asEval c v).map fun _ => ()
    | .oneOf names => if x ∈ names then .ok () else .error .otherError
    | .floats => if (parseList x).all fun w => (c.float w).isSome then .ok () else .error .valueError
  | _ => .error .typeError

def useOption (c : Conv) (p : Parser) (s o : Text) (k : Kind) : Except Err Unit :=
  match getOption p s o with
  | .error e => .error e
  | .ok v => useAs c k v

def useItem (c : Conv) (p : Parser) : Item → Except Err Unit
  | .get s o k => useOption c p s o k
  | .ifSet s o k =>
    match getOption p s o with
    | .error _ => .ok ()
    | .ok v => useAs c k v
  | .ifTrue s' o' s o k =>
    match getOption p s' o' with
    | .error e => .error e
    | .ok v =>
      match asBool v with
      | .ok (.bool true) => useOption c p s o k
      | .ok _ => .ok ()
      | .error e => .error e
  | .via s' o' o k =>
    match getOption p s' o' with
    | .ok (.str s) => useOption c p s o k
    | .ok _ => .error .noSection
    | .error e => .error e

/-- The settings are used in order; the first error ends the stage. -/
def use (c : Conv) (p : Parser) : List Item → Except Err Unit
  | [] => .ok ()
  | i :: is =>
    match useItem c p i with
    | .error e => .error e
    | .ok _ => use c p is

/-- DataProcess/DataProcess.py L79, L86, L90, L171-200, Utilities/columns.py L34-36. (`InputFile` and
`Source` have defaults, so that the tests in L171 and L177 hold, and L182-183 is not reached. That
the units are known to `metutils.convert` is not required here.) -/
def dataProcess : List Item :=
  [.get (t "Output") (t "Path") .text, .get (t "Input") (t "LandMask") .text,
    .get (t "Output") (t "Format") .text, .get (t "DataProcess") (t "InputFile") .text,
    .get (t "DataProcess") (t "Source") .text,
    .via (t "DataProcess") (t "Source") (t "FieldDelimiter") .text,
    .via (t "DataProcess") (t "Source") (t "NumberOfHeadingLines") .int,
    .via (t "DataProcess") (t "Source") (t "Columns") .text,
    .via (t "DataProcess") (t "Source") (t "SpeedUnits") .text,
    .via (t "DataProcess") (t "Source") (t "PressureUnits") .text,
    .via (t "DataProcess") (t "Source") (t "LengthUnits") .text,
    .get (t "DataProcess") (t "StartSeason") .int]

/-- The keys of `kernel_switch` of statsmodels (StatInterface/KDEParameters.py L29, L61-69). -/
def kernels : List Text :=
  [t "gau", t "epa", t "uni", t "tri", t "biw", t "triw", t "cos", t "cos2", t "tric"]

/-- tcrm.py L358-369 (`doStatistics`), DataProcess/CalcTrackDomain.py L48-49,
StatInterface/StatInterface.py L53-77, KDEParameters.py L61-69. (The setting `gridLimit` of the
section `StatInterface`, L62-74, is left out: an error in it is logged and ignored at that point.) -/
def calibration : List Item :=
  [.get (t "Logging") (t "ProgressBar") .text, .get (t "RMW") (t "GetRMWDistFromInputData") .bool,
    .get (t "Output") (t "Path") .text, .get (t "Region") (t "gridLimit") .eval,
    .get (t "StatInterface") (t "kdeType") .text, .get (t "StatInterface") (t "minSamplesCell") .int,
    .get (t "StatInterface") (t "kdeStep") .float, .ifSet (t "StatInterface") (t "MissingValue") .int,
    .get (t "Region") (t "gridSpace") .eval, .get (t "Region") (t "gridInc") .eval,
    .get (t "StatInterface") (t "kdeType") (.oneOf kernels)]

/-- TrackGenerator/TrackGenerator.py L1754-1802, trackLandfall.py L67. -/
def trackGeneration : List Item :=
  [.get (t "Output") (t "Path") .text, .get (t "TrackGenerator") (t "NumSimulations") .int,
    .get (t "TrackGenerator") (t "NumTimeSteps") .int, .get (t "TrackGenerator") (t "TimeStep") .float,
    .get (t "TrackGenerator") (t "Format") .text, .get (t "Region") (t "GridSpace") .eval,
    .get (t "Region") (t "GridInc") .eval, .get (t "Region") (t "gridLimit") .eval,
    .get (t "Input") (t "MSLPFile") .text, .get (t "Input") (t "MSLPVariableName") .text,
    .ifSet (t "TrackGenerator") (t "gridLimit") .eval,
    .ifSet (t "TrackGenerator") (t "Frequency") .float,
    .ifSet (t "TrackGenerator") (t "SeasonSeed") .int,
    .ifSet (t "TrackGenerator") (t "TrackSeed") .int,
    .ifSet (t "TrackGenerator") (t "YearsPerSimulation") .int,
    .get (t "Input") (t "LandMask") .text]

/-- wind/windmodels.py L1217-1218: names of the profiles, from the classes derived from
`WindProfileModel` -/
def profiles : List Text :=
  [t "jelesnianski", t "holland", t "rankine", t "doubleholland", t "newholland", t "willoughby",
    t "schloemer", t "powell"]

/-- wind/windmodels.py L1220-1221 -/
def fields : List Text := [t "hubbert", t "mcconochie", t "kepert"]

/-- wind/__init__.py L905-935, and the profile and the field (windmodels.py L1179-1203). The time
series (L925) are left out. -/
def windFields : List Item :=
  [.get (t "WindfieldInterface") (t "profileType") .text,
    .get (t "WindfieldInterface") (t "windFieldType") .text,
    .get (t "WindfieldInterface") (t "beta") .float, .get (t "WindfieldInterface") (t "beta1") .float,
    .get (t "WindfieldInterface") (t "beta2") .float,
    .get (t "WindfieldInterface") (t "thetaMax") .float,
    .get (t "WindfieldInterface") (t "Margin") .float,
    .get (t "WindfieldInterface") (t "Resolution") .float,
    .get (t "WindfieldInterface") (t "Domain") .text, .get (t "Output") (t "Path") .text,
    .ifSet (t "Region") (t "gridLimit") .eval, .ifSet (t "WindfieldInterface") (t "gridLimit") .eval,
    .ifSet (t "Timeseries") (t "Extract") .bool,
    .get (t "WindfieldInterface") (t "profileType") (.oneOf profiles),
    .get (t "WindfieldInterface") (t "windFieldType") (.oneOf fields)]

/-- hazard/__init__.py L994-1001, L223-236 and L295-299 -/
def hazard : List Item :=
  [.get (t "Output") (t "Path") .text, .get (t "Region") (t "gridLimit") .eval,
    .get (t "TrackGenerator") (t "NumSimulations") .int,
    .get (t "TrackGenerator") (t "YearsPerSimulation") .int,
    .get (t "Hazard") (t "MinimumRecords") .int, .get (t "Hazard") (t "CalculateCI") .bool,
    .get (t "Hazard") (t "ExtremeValueDistribution") .text, .get (t "Hazard") (t "Years") .floats,
    .ifTrue (t "Hazard") (t "CalculateCI") (t "Hazard") (t "SampleSize") .int,
    .ifTrue (t "Hazard") (t "CalculateCI") (t "Hazard") (t "PercentileRange") .int,
    .get (t "Hazard") (t "ExtremeValueDistribution") (.oneOf [t "GPD", t "GEV", t "power", t "emp"])]

/-- database/__init__.py L159-168 -/
def database : List Item :=
  [.get (t "Output") (t "Path") .text, .get (t "Region") (t "gridLimit") .eval,
    .get (t "Process") (t "DatFile") .text, .get (t "Process") (t "ExcludePastProcessed") .bool]

/-- PlotInterface/AutoPlotHazard.py L51-70, L79-96. (An error for `LocalityID`, L81-84, is caught.) -/
def hazardPlots : List Item :=
  [.get (t "Output") (t "Path") .text,
    .get (t "Hazard") (t "PlotSpeedUnits") (.oneOf [t "mps", t "mph", t "kts", t "kph", t "kmh"]),
    .get (t "Hazard") (t "CalculateCI") .bool, .get (t "Hazard") (t "ExtremeValueDistribution") .text,
    .get (t "TrackGenerator") (t "NumSimulations") .int, .get (t "Hazard") (t "SmoothPlots") .bool] ++
  database

/-- Evaluate/longitudeCrossing.py L62-82; the same settings in another order in genesisDensity.py
L92-114, pressureDistribution.py L86-103 and trackDensity.py L60-87. -/
def evaluation : List Item :=
  [.get (t "Region") (t "gridLimit") .eval, .get (t "Region") (t "GridSpace") .eval,
    .get (t "Output") (t "Path") .text, .get (t "TrackGenerator") (t "yearspersimulation") .int]

/-- Evaluate/landfallRates.py L58-75 -/
def landfallRates : List Item :=
  [.get (t "Output") (t "Path") .text, .get (t "TrackGenerator") (t "yearspersimulation") .int,
    .get (t "Input") (t "CoastlineGates") .text]

/-- The stages of a run (tcrm.py L522-569) and the evaluation of landfalls. -/
inductive Stage where
  | dataProcess | calibration | trackGeneration | windFields | hazard | database | hazardPlots
  | evaluation | landfallRates
  deriving DecidableEq

def items : Stage → List Item
  | .dataProcess => Defaults.dataProcess
  | .calibration => Defaults.calibration
  | .trackGeneration => Defaults.trackGeneration
  | .windFields => Defaults.windFields
  | .hazard => Defaults.hazard
  | .database => Defaults.database
  | .hazardPlots => Defaults.hazardPlots
  | .evaluation => Defaults.evaluation
  | .landfallRates => Defaults.landfallRates

/-- A stage of a run with a configuration file: the settings are read over the defaults, and used. -/
def runStage (c : Conv) (file : Entries) (st : Stage) : Except Err Unit :=
  let fs : Text → FileState := fun _ => .good file
  use c (readFile fs (newParser defaults) (some (t "tcrm.ini"))).1 (items st)

end Tcrm.Defaults
