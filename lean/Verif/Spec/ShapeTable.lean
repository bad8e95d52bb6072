import Verif.Model.ShapeTable
/-!
What the columns of the attribute tables stand for.
-/
namespace Tcrm.ShapeTable

/-- A record of an observed track: all fields, with numbers but for the date -/
def Observed (r : Record) : Prop :=
  r.map (·.1) = trackFields ∧ ∀ n v, r.lookup n = some v → n ≠ "Datetime" → ∃ x, v = .num x

/-- A record of a track from a netCDF file -/
def Simulated (r : Record) : Prop :=
  r.map (·.1) = tcrmCols ∧ ∀ n v, r.lookup n = some v → n ≠ "Datetime" → ∃ x, v = .num x

/-- Columns for observed tracks and the quantities they stand for -/
def obsMeaning : List (String × String) :=
  [("Indicator", "Indicator"), ("TCID", "CycloneNumber"), ("Year", "Year"), ("Month", "Month"), ("Day", "Day"),
   ("Hour", "Hour"), ("Minute", "Minute"), ("TElapsed", "TimeElapsed"), ("Longitude", "Longitude"),
   ("Latitude", "Latitude"), ("Speed", "Speed"), ("Bearing", "Bearing"), ("Pcentre", "CentralPressure"),
   ("MaxWind", "WindSpeed"), ("rMax", "rMax"), ("Penv", "EnvPressure")]

/-- Columns for tracks from netCDF files -/
def tcrmMeaning : List (String × String) :=
  ["CycloneNumber", "TimeElapsed", "Longitude", "Latitude", "Speed", "Bearing", "CentralPressure", "EnvPressure",
   "rMax"].map fun n => (n, n)

/-- The categories of central pressure -/
def OfCategory (c : ℕ) (p : ℚ) : Prop :=
  (c = 5 ∧ p < 930) ∨ (c = 4 ∧ 930 ≤ p ∧ p < 955) ∨ (c = 3 ∧ 955 ≤ p ∧ p < 970) ∨ (c = 2 ∧ 970 ≤ p ∧ p < 985) ∨
    (c = 1 ∧ 985 ≤ p ∧ p < 999) ∨ (c = 0 ∧ 999 ≤ p)

/-- The row gives the record: its columns are those of the table and the category, each with a value, and each column
holds what it stands for. -/
def Gives (meaning : List (String × String)) (record row : Record) : Prop :=
  row.map (·.1) = meaning.map (·.1) ++ ["Category"] ∧
  (∀ m ∈ meaning, row.lookup m.1 = record.lookup m.2 ∧ record.lookup m.2 ≠ none) ∧
  ∃ c p, record.lookup "CentralPressure" = some (.num p) ∧ row.lookup "Category" = some (.num ((c : ℕ) : ℚ)) ∧ OfCategory c p

end Tcrm.ShapeTable
