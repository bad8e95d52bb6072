import Verif.Model.GustFiles

/-!
Model of the files through which the stages of a run depend on each other: which ones are
written and read, and what is found of earlier runs (DataProcess/DataProcess.py,
StatInterface/StatInterface.py, TrackGenerator/TrackGenerator.py, wind/__init__.py, tcrm.py).
The contents of the text files are not part of this model, only the run that wrote them.
-/

namespace Tcrm.Rerun

/-- Files of the directory `process`. -/
inductive F where
  | originYear | originLonLat | initLonLat | allLonLat | cycloneTracks
  | allBearing | initBearing | bearingNoInit | bearingRate
  | allSpeed | initSpeed | speedNoInit | speedRate
  | allPressure | initPressure | pressureNoInit | pressureRate
  | windSpeed | allRmax | initRmax | rmaxNoInit | rmaxRate
  | frequency | jdayGenesis | jdayObs | jdays
  | cdfDay | originPDF | cdfBearing | cdfSpeed | cdfPressure | cdfRmax
  | speedStats | speedRateStats | pressureStats | pressureRateStats | bearingStats
  | bearingRateStats
  deriving DecidableEq, Repr

/-- The option `Format` of the section `Output`: DataProcess/DataProcess.py L90-114. -/
inductive Fmt where
  | txt | nc | other
  deriving DecidableEq, Repr

/-- What matters of the input: the format of the output, whether the columns `age`, `season` and
`rmax` are there, and whether the records are of more than one year. -/
structure Input where
  format : Fmt
  age : Bool
  season : Bool
  rmax : Bool
  severalYears : Bool
  deriving DecidableEq, Repr

/-- What matters of the configuration: `GetRMWDistFromInputData`, and whether `gridLimit` and
`Frequency` are given for the track generator. -/
structure Settings where
  rmwFromInput : Bool
  trackLimit : Bool
  frequency : Bool
  deriving DecidableEq, Repr

/-- What a stage does with the directory. -/
inductive Op where
  /-- the files are read; a missing one ends the run with an exception -/
  | need (fs : List F)
  /-- the file is read if it is there -/
  | optional (f : F)
  /-- the files are written -/
  | write (fs : List F)
  /-- an exception -/
  | stop
  deriving DecidableEq, Repr

/-- The directory: for every file that is there, the run that wrote it. -/
abbrev Dir := F → Option ℕ

/-- What became of a run. -/
structure Outcome where
  dir : Dir
  /-- the files read, with the run that wrote them -/
  used : List (F × ℕ)
  completed : Bool

/-- Execution of run number `run`; the first exception ends it (tcrm.py L644-658). -/
def runOps (run : ℕ) : List Op → Dir → Outcome
  | [], d => ⟨d, [], true⟩
  | .stop :: _, d => ⟨d, [], false⟩
  | .write fs :: r, d => runOps run r fun f => if f ∈ fs then some run else d f
  | .need fs :: r, d =>
    if fs.all fun f => (d f).isSome then
      let o := runOps run r d
      { o with used := (fs.filterMap fun f => (d f).map (f, ·)) ++ o.used }
    else ⟨d, [], false⟩
  | .optional f :: r, d =>
    let o := runOps run r d
    { o with used := ([f].filterMap fun f => (d f).map (f, ·)) ++ o.used }

/-- DataProcess/DataProcess.py L156-351 `processData`: with the column `age` the names `year` and
`jdays` are not defined (L221-246, used in L266, L348, L349, where the `UnboundLocalError` is not
among the exceptions caught); `self.origin_year` is defined for the format `txt` only (L114, used
in L269); the radii are written if there are any (L301-310); the frequency needs more than one
year (L792). -/
def dataOps (i : Input) : List Op :=
  if i.age && !i.season then [.stop]
  else if i.format ≠ .txt then [.stop]
  else
    [.write [.originYear]] ++
    (if i.rmax then [.write [.allRmax, .initRmax, .rmaxNoInit, .rmaxRate]] else []) ++
    [.write [.originLonLat, .initLonLat, .allLonLat, .cycloneTracks, .allBearing, .initBearing,
      .bearingNoInit, .bearingRate, .allSpeed, .initSpeed, .speedNoInit, .speedRate, .allPressure,
      .initPressure, .pressureNoInit, .pressureRate, .windSpeed]] ++
    (if i.age then [.stop]
     else (if i.severalYears then [.write [.frequency]] else []) ++
       [.write [.jdayGenesis, .jdayObs, .jdays]])

/-- tcrm.py L345-395 `doStatistics` with StatInterface/StatInterface.py L89-250 (and
DataProcess/CalcTrackDomain.py L138, StatInterface/KDEOrigin.py L90, L165). -/
def statOps (s : Settings) : List Op :=
  [.need [.cycloneTracks],
   .need [.originLonLat, .jdays], .write [.cdfDay],
   .need [.initLonLat], .write [.originPDF],
   .need [.initLonLat, .initBearing], .write [.cdfBearing],
   .need [.initLonLat, .initSpeed], .write [.cdfSpeed],
   .need [.originLonLat, .initPressure], .write [.cdfPressure],
   .need [.allLonLat, .allSpeed], .write [.speedStats],
   .need [.allLonLat, .speedRate], .write [.speedRateStats],
   .need [.allLonLat, .allPressure], .write [.pressureStats],
   .need [.allLonLat, .pressureRate], .write [.pressureRateStats],
   .need [.allLonLat, .allBearing], .write [.bearingStats],
   .need [.allLonLat, .bearingRate], .write [.bearingRateStats]] ++
  (if s.rmwFromInput then [.need [.originLonLat, .initRmax], .write [.cdfRmax]] else [])

/-- TrackGenerator/TrackGenerator.py L1772-1786 (domain and frequency), L309 (origins), L314-392
`loadInitialConditionDistributions`, L394-438 `loadCellStatistics`. -/
def trackOps (s : Settings) : List Op :=
  (if s.trackLimit then [] else [.need [.cycloneTracks]]) ++
  (if s.frequency then [] else [.need [.originYear, .originLonLat]]) ++
  [.need [.originPDF], .need [.cdfBearing], .need [.cdfSpeed], .need [.cdfPressure],
   .need [.cdfDay], .optional .cdfRmax,
   .need [.speedStats], .need [.pressureStats], .need [.bearingStats], .need [.pressureRateStats]]

/-- tcrm.py L280-299 `doDataPlotting`: the files are read before anything is plotted. -/
def plotOps : List Op :=
  [.need [.pressureRate, .allPressure, .bearingRate, .allBearing, .speedRate, .allSpeed, .frequency,
    .cycloneTracks, .jdayObs, .jdayGenesis]]

/-- Data processing, calibration and the beginning of the generation of tracks. -/
def modelRun (i : Input) (s : Settings) : List Op := dataOps i ++ statOps s ++ trackOps s

/-- Data processing and its plots. -/
def plotRun (i : Input) : List Op := dataOps i ++ plotOps

/-! Tracks and wind fields. -/

/-- The directory `tracks`: `tracks.%05d.nc` for the number of a simulation. -/
abbrev TrackDir (T : Type) := ℕ → Option (List T)

/-- TrackGenerator/TrackGenerator.py L1877-1891: the files of simulations 0 to `n - 1` are
written; others are left as they are. -/
def writeTracks {T : Type} (n : ℕ) (sims : ℕ → List T) (d : TrackDir T) : TrackDir T :=
  fun k => if k < n then some (sims k) else d k

/-- wind/__init__.py L966-968 and L808-837 on one process: all files whose names begin with
`tracks`.  `N` bounds the numbers that occur.  Tracks outside the region are dropped before;
the order of the files is that of their numbers. -/
def tracksFound {T : Type} (N : ℕ) (d : TrackDir T) : List T :=
  (List.range N).flatMap fun k => (d k).getD []

/-- wind/__init__.py L889-983 `run`, after the tracks have been written: the wind fields of all
tracks that are found. -/
def windStage {T L D X : Type} (S : GustFiles.Stage T L D X) (N : ℕ) (td : TrackDir T)
    (lim : Option L) (d : GustFiles.Disk D X) : GustFiles.Disk D X :=
  GustFiles.runFinal S (tracksFound N td) lim d

end Tcrm.Rerun
