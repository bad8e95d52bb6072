import Mathlib.Data.Rat.Defs
import Mathlib.Data.Rat.Cast.Defs
/-!
Sizes of the units in SI units, for C42. Angles stand for distances on the surface of the earth (a minute
of arc is a nautical mile).
-/
namespace Tcrm.Units

/-- Kind (speed, pressure, length or mixing ratio) and size of a unit; not of temperatures. -/
def unit (u : String) : Option (String × ℚ) :=
  [("mps", "speed", 1), ("kph", "speed", 1000 / 3600), ("kts", "speed", 1852 / 3600),
   ("mph", "speed", 1609.344 / 3600), ("kmh", "speed", 1000 / 3600), ("m/s", "speed", 1),
   ("Pa", "pressure", 1), ("Pascals", "pressure", 1), ("hPa", "pressure", 100), ("kPa", "pressure", 1000),
   ("inHg", "pressure", 3386.389), ("mmHg", "pressure", 133.3224),
   ("m", "length", 1), ("km", "length", 1000), ("mi", "length", 1609.344), ("nm", "length", 1852),
   ("deg", "length", 60 * 1852), ("rad", "length", 6366707),
   ("gkg", "ratio", 0.001), ("kgkg", "ratio", 1)].lookup u

def names : List String := ["mps", "kph", "kts", "mph", "kmh", "m/s", "Pa", "Pascals", "hPa", "kPa", "inHg", "mmHg",
  "m", "km", "mi", "nm", "deg", "rad", "gkg", "kgkg"]

/-- Pairs of units of one kind which `convert` does not know. -/
def unknown (a b : String) : Bool :=
  (b == "kmh" && a ≠ "kmh" && a ≠ "kph") || (b == "m/s" && a ≠ "m/s" && a ≠ "mps") ||
  (a, b) ∈ [("inHg", "Pascals"), ("mmHg", "Pascals"), ("mi", "nm"), ("mi", "rad"), ("nm", "mi"), ("rad", "m"),
    ("rad", "mi")]

end Tcrm.Units
