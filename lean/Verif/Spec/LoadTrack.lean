import Verif.Model.LoadTrack
/-!
What the rows of a loaded track should be, in terms of the records of the file.
-/
namespace Tcrm.LoadTrack
open Tcrm.DataProc Tcrm.Dates

/-- The longitude between 0 and 360 -/
def east (r : Rec) : ℚ := mod360 r.lon

/-- The program takes `b` for the beginning of another track. -/
def Jump (a b : Rec) : Prop := 10 < east b - east a ∨ 5 < b.lat - a.lat

/-- Hours between two records, rounded -/
def hours (a b : Rec) : ℤ := npRound (b.time - a.time)

/-- Bearing and length (km) of the leg between two records, by C98 -/
noncomputable def leg (a b : Rec) : ℝ × ℝ := Sphere.latLon2Azi a.lat (east a) b.lat (east b) 1 0

/-- Kilometres per hour from one record to the next -/
noncomputable def pace (a b : Rec) : ℝ := (leg a b).2 / hours a b

/-- The speed is a number from 0 to 200. -/
def Plausible (a b : Rec) : Prop := hours a b ≠ 0 ∧ 0 ≤ pace a b ∧ pace a b ≤ 200

/-- The pressure if it lies between 600 and 1100 hPa -/
def screened (missing : ℚ) (r : Rec) : ℚ := if 600 ≤ r.pressure ∧ r.pressure ≤ 1100 then r.pressure else missing

/-- The row repeats the position and pressure of the record. -/
def Copies (missing : ℚ) (r : Rec) (w : Row) : Prop :=
  w.lon = east r ∧ w.lat = r.lat ∧ w.pressure = screened missing r

/-- The wind estimated for `r` with the given change of pressure (hPa per hour) and speed (metres per second) -/
noncomputable def windFor (missing : ℚ) (r : Rec) (change speed : ℝ) : ℝ :=
  windOf 0.9524 r.lat (screened missing r) (r.poci.map fun q : ℚ => (q : ℝ)) change speed

/-- The row of a record that begins a track -/
def First (missing : ℚ) (x : Rec × Row) : Prop :=
  Copies missing x.1 x.2 ∧ x.2.speed = missing ∧ x.2.bearing = missing ∧ x.2.wind = windFor missing x.1 0 0

/-- `c` is the change of the pressure per hour if that is plausible, otherwise 0. -/
def Change (missing : ℚ) (a b : Rec) (c : ℝ) : Prop :=
  let d : ℝ := (screened missing b - screened missing a : ℚ)
  (hours a b ≠ 0 ∧ |d / hours a b| ≤ 5 → c = d / hours a b) ∧
  (¬(hours a b ≠ 0 ∧ |d / hours a b| ≤ 5) → c = 0)

/-- `y` is the row after `x` in a track. -/
def Follows (missing : ℚ) (x y : Rec × Row) : Prop :=
  y.1.marker = 0 ∧ ¬Jump x.1 y.1 ∧ Copies missing y.1 y.2 ∧ y.2.bearing = (leg x.1 y.1).1 ∧
  (Plausible x.1 y.1 → y.2.speed = pace x.1 y.1) ∧ (¬Plausible x.1 y.1 → y.2.speed = missing) ∧
  ∃ c, Change missing x.1 y.1 c ∧
    (Plausible x.1 y.1 → y.2.wind = windFor missing y.1 c (pace x.1 y.1 * 0.2777778)) ∧
    (¬Plausible x.1 y.1 → y.2.wind = windFor missing y.1 c 0)

end Tcrm.LoadTrack
