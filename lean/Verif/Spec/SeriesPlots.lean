import Verif.Model.SeriesPlots
/-!
Station identifiers that survive the removal of `ts.` and `.csv` by sets of characters.
-/
namespace Tcrm.SeriesPlots

/-- The identifier does not end with a full stop or one of the letters c, s and v. -/
def EndsWell (id : Name) : Prop := ∃ w c, id = w ++ [c] ∧ c ≠ '.' ∧ c ≠ 'c' ∧ c ≠ 's' ∧ c ≠ 'v'

/-- The identifier does not begin with a full stop or one of the letters t and s. -/
def BeginsWell (id : Name) : Prop := ∃ c w, id = c :: w ∧ c ≠ '.' ∧ c ≠ 't' ∧ c ≠ 's'

/-- The name that the image of a station is to have -/
def imageName (id : Name) : Name := "ts.".toList ++ id ++ ".png".toList

end Tcrm.SeriesPlots
