import Mathlib.Data.Rat.Floor
import Mathlib.Data.Nat.Sqrt
/-!
Arrangement, axes and colours of figures: PlotInterface/maps.py, PlotInterface/curves.py, PlotInterface/figures.py.
Numbers are exact; drawing itself is not modelled.
-/
namespace Tcrm.Figures

inductive Err where
  | zeroDivision | valueError | typeError
  deriving DecidableEq

/-- `int(np.ceil(np.sqrt(n)))` -/
def ceilSqrt (n : ℕ) : ℕ := if Nat.sqrt n * Nat.sqrt n = n then Nat.sqrt n else Nat.sqrt n + 1

/-- PlotInterface/maps.py L295-297, PlotInterface/curves.py L119-121, PlotInterface/figures.py L198-200 (the same L263-265):
rows and columns for `n` sub-figures. -/
def layout (n : ℕ) : Except Err (ℕ × ℕ) :=
  let r := ceilSqrt n
  if r = 0 then .error .zeroDivision else .ok (r, (⌈(n : ℚ) / r⌉).toNat)

/-- `add_subplot(r, c, i + 1)`: row and column (from zero) of the sub-figure `i`, PlotInterface/maps.py L301-303,
PlotInterface/curves.py L125-127. matplotlib counts along the rows. -/
def cell (c i : ℕ) : ℕ × ℕ := (i / c, i % c)

/-- PlotInterface/maps.py L187 -/
def gridOptions : List ℚ := [30, 10, 5, 4, 2]

/-- PlotInterface/maps.py L184-192: the spacing of the graticule, from the larger span. -/
def spacing (dd : ℚ) : ℚ := (gridOptions.find? fun o => decide (5 ≤ dd / o)).getD 2

/-- `np.arange(lo // dl * dl, hi + dl, dl)`, PlotInterface/maps.py L194-195 -/
def lines (lo hi dl : ℚ) : List ℚ :=
  let start := (⌊lo / dl⌋ : ℚ) * dl
  (List.range (⌈(hi + dl - start) / dl⌉).toNat).map fun i : ℕ => start + i * dl

/-- PlotInterface/maps.py L171-195 (`addGraticule`): meridians and parallels of the map `xmin, xmax, ymin, ymax`. -/
def graticule (xmin xmax ymin ymax : ℚ) : List ℚ × List ℚ :=
  let dl := spacing (max |xmin - xmax| |ymin - ymax|)
  (lines xmin xmax dl, lines ymin ymax dl)

/-- PlotInterface/curves.py L404 (the same L338, L484): the upper end of the axis of wind speeds; `max()` of nothing is an
error. -/
def upperLimit (mean : List ℚ) : Except Err ℚ :=
  match mean.max? with
  | none => .error .valueError
  | some m => .ok (max 100 (⌈m / 10⌉ * 10))

/-- PlotInterface/curves.py L399-400 (the same L332-333): the confidence range is drawn. The arrays are not empty. -/
def drawsRange (lower upper : List ℚ) : Bool := decide (lower.headD 0 > 0) && decide (upper.headD 0 > 0)

/-- The two colour maps -/
inductive ColourMap where
  | diverging | sequential
  deriving DecidableEq

/-- PlotInterface/maps.py L69-116 (`selectColormap`) for lists of numbers of the Python types `int` and `float` (`numeric`;
`numpy.float64` is a `float`, other numpy types are not). With equal ends the Python division fails. -/
def selectColormap (numeric : Bool) (range : List ℚ) (percent : ℚ) : Except Err ColourMap :=
  match range.max?, range.min? with
  | some hi, some lo =>
    if numeric = false then .error .typeError
    else if hi - lo = 0 then .error .zeroDivision
    else if |(|hi| - |lo|) / (hi - lo)| < percent then .ok .diverging
    else .ok .sequential
  | _, _ => .error .valueError

end Tcrm.Figures
