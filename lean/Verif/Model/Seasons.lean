import Verif.Model.DataProc

/-!
Model of the selection of seasons and of the counts by year and day in
DataProcess/DataProcess.py.
-/

namespace Tcrm.DataProc

/-- DataProcess/DataProcess.py L227-235: records of seasons before `startSeason` are dropped, with
their markers; the markers were found before (L202).  A row is a marker, a season and the rest. -/
def selectSeasons {α : Type} (startSeason : ℤ) (rows : List (ℤ × ℤ × α)) : List (ℤ × ℤ × α) :=
  rows.filter fun r => decide (r.2.1 ≥ startSeason)

/-- DataProcess/DataProcess.py L783-801 (`_frequency`): years and markers of all records; `none`:
nothing is written, since all records are of one year (an empty input raises, as does the minimum
of an empty array; the rows are the years and the number of tracks that begin in them). The years are
whole numbers, so that the bins of `np.histogram` are the years; the last bin, which is closed, is
empty in its last point, as no record is of the year after the last one. -/
def yearFrequency (rows : List (ℤ × ℤ)) : Except Err (Option (List (ℤ × ℕ))) :=
  match rows with
  | [] => .error .valueError
  | r :: rs =>
    let lo := rs.foldl (fun m x => min m x.2) r.2
    let hi := rs.foldl (fun m x => max m x.2) r.2
    if lo = hi then .ok none
    else .ok (some ((List.range (hi - lo + 1).toNat).map fun (k : ℕ) =>
      (lo + k, ((r :: rs).filter fun x => decide (x.1 ≠ 0) && decide (x.2 = lo + k)).length)))

/-- DataProcess/DataProcess.py L821-830 (`_juliandays`): the histogram of whole days (after the
correction for leap years, see C40); bins are the edges 1, 2, ..., 366, so that the last bin takes
days 365 and 366 together.  Rows are the day and the number of records. -/
def dayCounts (days : List ℤ) : List (ℤ × ℕ) :=
  (List.range 365).map fun (k : ℕ) =>
    let d : ℤ := k + 1
    (d, (days.filter fun x => decide (x = d) || (decide (d = 365) && decide (x = 366))).length)

end Tcrm.DataProc
