import Verif.Model.GustFiles
import Mathlib.Data.Rat.Floor
/-!
The text files through which the processing of observations passes its data to calibration and track
generation: Utilities/files.py with `numpy.savetxt` and `numpy.genfromtxt`.  A number is a rational number or NaN
(`none`).
-/
namespace Tcrm.TextFiles

abbrev Text := List Char

/-- To the nearest integer, ties to even, as the C library rounds when it prints. -/
def nearest (x : ℚ) : ℤ :=
  let f := ⌊x⌋
  if x - f < 1 / 2 then f else if 1 / 2 < x - f then f + 1 else if f % 2 = 0 then f else f + 1

/-- Blanks in front, up to `w` characters. -/
def blanks (w : ℕ) (t : Text) : Text := List.replicate (w - t.length) ' ' ++ t

/-- `'%w.2f' % x`, the format of DataProcess/DataProcess.py L404-781 -/
def fixed (w : ℕ) : Option ℚ → Text
  | none => blanks w "nan".toList
  | some x =>
    let m := (nearest (100 * |x|)).toNat
    blanks w ((if x < 0 then ['-'] else []) ++ Nat.toDigits 10 (m / 100) ++ '.' :: GustFiles.pad 2 (m % 100))

/-- `'%d' % n`, the format of DataProcess/DataProcess.py L269-270 and L828-836 -/
def whole (n : ℤ) : Text := (if n < 0 then ['-'] else []) ++ Nat.toDigits 10 n.natAbs

/-- The fields of a row with commas between them. -/
def join : List Text → Text
  | [] => []
  | [a] => a
  | a :: b :: l => a ++ ',' :: join (b :: l)

/-- Utilities/files.py L94-117 (`flSaveFile`, `np.savetxt(…, comments='%')`) for the formatted fields of the
rows; a one-dimensional array is a table with one column. -/
def save (header : Text) (rows : List (List Text)) : Text :=
  (if header = [] then [] else '%' :: header ++ ['\n']) ++ rows.flatMap fun r => join r ++ ['\n']

/-- Python `str.split(c)` -/
def split (c : Char) : Text → List Text
  | [] => [[]]
  | a :: l =>
    if a = c then [] :: split c l
    else match split c l with
      | [] => [[a]]
      | h :: t => (a :: h) :: t

/-- Python `str.strip` of blanks and line ends -/
def strip (t : Text) : Text :=
  let blank := fun c : Char => c = ' ' ∨ c = '\n' ∨ c = '\r'
  ((t.dropWhile blank).reverse.dropWhile blank).reverse

/-- `LineSplitter._delimited_splitter` of numpy: the text before the comment, without blanks at the ends, at
the commas; no fields for an empty line. -/
def fields (line : Text) : List Text :=
  let t := strip (line.takeWhile (· ≠ '%'))
  if t = [] then [] else split ',' t

/-- `float(t)` without blanks around and without sign: digits, or digits with a point. (Exponents, and
numbers that begin or end with the point, are not written by the formats above and not modelled.) -/
def unsigned (t : Text) : Option ℚ :=
  match split '.' t with
  | [a] => if a ≠ [] ∧ a.all Char.isDigit then some (Nat.ofDigitChars 10 a 0) else none
  | [a, b] =>
    if a ≠ [] ∧ b ≠ [] ∧ a.all Char.isDigit ∧ b.all Char.isDigit then
      some (Nat.ofDigitChars 10 a 0 + Nat.ofDigitChars 10 b 0 / 10 ^ b.length)
    else none
  | _ => none

/-- The conversion of a field by `genfromtxt`: `float`, and NaN for everything else. -/
def number (t : Text) : Option ℚ :=
  match strip t with
  | '-' :: s => (unsigned s).map fun q => -q
  | s => unsigned s

/-- What `genfromtxt` returns: an array without its axes of length 1 (`np.squeeze`), or ValueError for rows of
different lengths. -/
inductive Loaded where
  | table (rows : List (List (Option ℚ)))
  | vector (entries : List (Option ℚ))
  | scalar (x : Option ℚ)
  | bad
  deriving DecidableEq

/-- Drop the axes of length 1. -/
def squeeze : List (List (Option ℚ)) → Loaded
  | [] => .vector []
  | [[x]] => .scalar x
  | [row] => .vector row
  | rows => if rows.all (·.length = 1) then .vector rows.flatten else .table rows

/-- Utilities/files.py L77-91 (`flLoadFile`, `np.genfromtxt(…, comments='%', delimiter=',')`) -/
def load (text : Text) : Loaded :=
  let rows := ((split '\n' text).map fields).filter (· ≠ [])
  match rows with
  | [] => .vector []
  | r :: l => if l.all (·.length = r.length) then squeeze ((r :: l).map (·.map number)) else .bad

/-- StatInterface/KDEOrigin.py L90-91 (`ll[:, 0:2]`) and DataProcess/CalcFrequency.py L79-80: a column of a
loaded file; an array with one axis raises IndexError (`none`). -/
def column (k : ℕ) : Loaded → Option (List (Option ℚ))
  | .table rows => some (rows.map fun r => (r[k]?).getD none)
  | _ => none

end Tcrm.TextFiles
