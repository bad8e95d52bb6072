import Mathlib.Analysis.Real.Pi.Bounds
/-!
Unit conversion, Utilities/metutils.py. Values and factors are exact reals.
-/
namespace Tcrm.Units

/-- The nested dictionaries of factors, Utilities/metutils.py L398-457: from, to, a decimal `q` and the
power `k` of pi, for the factor `q * pi ^ k`. -/
def table : List (String × String × ℚ × ℤ) := [
  ("mps", "kph", 3.6, 0), ("mps", "kts", 1.944, 0), ("mps", "mph", 2.2369, 0),
  ("mph", "kph", 1.60934, 0), ("mph", "kts", 0.86898, 0), ("mph", "mps", 0.44704, 0),
  ("kph", "kts", 0.539957, 0), ("kph", "mps", 0.2777778, 0), ("kph", "mph", 0.621371, 0),
  ("kts", "kph", 1.852, 0), ("kts", "mps", 0.5144, 0), ("kts", "mph", 1.15, 0),
  ("C", "F", 1.8, 0), ("C", "K", 1, 0), ("F", "C", 0.5556, 0), ("K", "C", 1, 0),
  ("kPa", "hPa", 10, 0), ("kPa", "Pa", 1000, 0), ("kPa", "inHg", 0.295299831, 0), ("kPa", "mmHg", 7.500615613, 0),
  ("kPa", "Pascals", 1000, 0),
  ("hPa", "kPa", 0.1, 0), ("hPa", "Pa", 100, 0), ("hPa", "inHg", 0.02953, 0), ("hPa", "mmHg", 0.750061561, 0),
  ("hPa", "Pascals", 100, 0),
  ("Pa", "kPa", 0.001, 0), ("Pa", "hPa", 0.01, 0), ("Pa", "inHg", 0.0002953, 0), ("Pa", "mmHg", 0.007500616, 0),
  ("Pa", "Pascals", 1, 0),
  ("inHg", "kPa", 3.386388667, 0), ("inHg", "hPa", 33.863886667, 0), ("inHg", "Pa", 3386.388666667, 0),
  ("inHg", "mmHg", 25.4, 0),
  ("mmHg", "kPa", 0.13332239, 0), ("mmHg", "hPa", 1.3332239, 0), ("mmHg", "Pa", 133.32239, 0),
  ("mmHg", "inHg", 0.0394, 0),
  ("Pascals", "kPa", 0.001, 0), ("Pascals", "hPa", 0.01, 0), ("Pascals", "inHg", 0.0002953, 0),
  ("Pascals", "mmHg", 0.007500616, 0), ("Pascals", "Pa", 1, 0),
  ("km", "m", 1000, 0), ("km", "mi", 0.621371192, 0), ("km", "deg", 0.00899886, 0), ("km", "nm", 0.539957, 0),
  ("km", "rad", 0.0001570783, 0),
  ("deg", "km", 111.1251, 0), ("deg", "m", 111125.1, 0), ("deg", "mi", 69.0499358, 0), ("deg", "nm", 60, 0),
  ("deg", "rad", 1 / 180, 1),
  ("m", "km", 0.001, 0), ("m", "mi", 0.000621371, 0), ("m", "deg", 0.00000899886, 0), ("m", "nm", 0.000539957, 0),
  ("m", "rad", 0.0000001570783, 0),
  ("mi", "km", 1.60934, 0), ("mi", "m", 1609.34, 0), ("mi", "deg", 0.014482, 0),
  ("nm", "km", 1.852, 0), ("nm", "m", 1852, 0), ("nm", "deg", 0.01666, 0), ("nm", "rad", 1 / 10800, 1),
  ("rad", "nm", 10800, -1), ("rad", "km", 6366.248653, 0), ("rad", "deg", 180, -1),
  ("gkg", "kgkg", 0.001, 0), ("kgkg", "gkg", 1000, 0)]

/-- A lookup in the nested dictionaries, Utilities/metutils.py L469-470 -/
def lookup (a b : String) : Option (ℚ × ℤ) := (table.find? fun e => decide (e.1 = a ∧ e.2.1 = b)).map (·.2.2)

/-- Utilities/metutils.py L393-396: other names, for the input unit only -/
def standardName (u : String) : String := if u = "kmh" then "kph" else if u = "m/s" then "mps" else u

/-- Utilities/metutils.py L460 and L465-467 -/
def pre (a b : String) : ℚ := if a = "F" ∧ b = "C" then -32 else 0

/-- Utilities/metutils.py L462-463 and L473-475 -/
def post (a b : String) : ℚ :=
  if a = "C" ∧ b = "K" then 273 else if a = "C" ∧ b = "F" then 32 else if a = "K" ∧ b = "C" then -273 else 0

/-- Utilities/metutils.py L469-471; without an entry the value stays as it is. -/
noncomputable def scale (a b : String) (x : ℝ) : ℝ :=
  match lookup a b with
  | some f => x * (f.1 * Real.pi ^ f.2)
  | none => x

/-- Utilities/metutils.py L377-477 (`convert`) -/
noncomputable def convert (x : ℝ) (inu outu : String) : ℝ :=
  if inu = outu then x
  else scale (standardName inu) outu (x + pre (standardName inu) outu) + post (standardName inu) outu

/-- What the caller's array of floats holds after the call: `ma.array` does not copy it, and the addition
in L467 is made in place. -/
noncomputable def argumentAfter (x : ℝ) (inu outu : String) : ℝ :=
  if inu = outu then x else x + pre (standardName inu) outu

end Tcrm.Units
