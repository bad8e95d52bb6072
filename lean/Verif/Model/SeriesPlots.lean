import Mathlib.Data.List.Basic
/-!
Plots of the time series of all stations (PlotInterface/plotTimeseries.py).  Names are lists of characters.
-/
namespace Tcrm.SeriesPlots

abbrev Name := List Char

/-- `str.rstrip(chars)` -/
def rstrip (chars s : Name) : Name := (s.reverse.dropWhile (· ∈ chars)).reverse

/-- `str.lstrip(chars)` -/
def lstrip (chars s : Name) : Name := s.dropWhile (· ∈ chars)

/-- A plot: the name of the image, the station named in its title, and the series drawn -/
structure Plot (R : Type) where
  image : Name
  station : Name
  series : List R
  deriving DecidableEq

/-- PlotInterface/plotTimeseries.py L45-55 and L94-103: a series of fewer than two records cannot be indexed (an empty file gives
an empty array, a file of one record an array without dimensions), which raises IndexError -/
def loadable {R : Type} (series : List R) : Bool := decide (2 ≤ series.length)

/-- PlotInterface/plotTimeseries.py L89-121 (`plotTimeseries` for all stations): the plots saved in order, and whether the loop
came to its end. `files` is the listing of the directory with the records of each file. -/
def plotAll {R : Type} : List (Name × List R) → List (Plot R) × Bool
  | [] => ([], true)
  | (f, series) :: rest =>
    if "ts.".toList.isPrefixOf f then
      if loadable series then
        let base := rstrip ".csv".toList f
        let station := lstrip "ts.".toList base
        let (plots, done) := plotAll rest
        (⟨base ++ ".png".toList, station, series⟩ :: plots, done)
      else ([], false)
    else plotAll rest

/-- The images in the directory at the end: of plots saved under one name the last remains. -/
def images {R : Type} (plots : List (Plot R)) (name : Name) : Option (Plot R) := plots.reverse.find? (·.image = name)

/-- Utilities/timeseries.py L234-256 (`shutdown`): file of the series of a station -/
def fileName (station : Name) : Name := "ts.".toList ++ station ++ ".csv".toList

end Tcrm.SeriesPlots
