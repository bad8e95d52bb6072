import Mathlib.Data.Rat.Defs
import Mathlib.Algebra.Order.Ring.Unbundled.Rat

/-!
Positions in the best track files of the Joint Typhoon Warning Center: Utilities/formatJTWC.py `fmtlon`, `fmtlat`
(L21-33). Texts are lists of characters. Python's `float` is a parameter: the number that a text stands for, or nothing
when it raises ValueError. Numbers are exact rationals.
-/
namespace Tcrm.Jtwc

abbrev Text := List Char

inductive Err | valueError
deriving DecidableEq

/-- The characters removed by `strip('NSEW')` (L23, L25, L30, L32). -/
def letter (c : Char) : Bool := c = 'N' || c = 'S' || c = 'E' || c = 'W'

/-- Python's `str.strip('NSEW')`: the letters are removed at both ends (L23, L25, L30, L32). -/
def strip (t : Text) : Text := ((t.dropWhile letter).reverse.dropWhile letter).reverse

/-- Python's `str.endswith` for one character (L22, L29). -/
def endsWith (t : Text) (c : Char) : Bool := t.getLast? = some c

/-- `float(text.strip('NSEW'))` (L23, L25, L30, L32). -/
def number (float : Text → Option ℚ) (t : Text) : Except Err ℚ :=
  match float (strip t) with
  | some x => .ok x
  | none => .error .valueError

/-- Utilities/formatJTWC.py L21-26 (`fmtlon`). -/
def fmtlon (float : Text → Option ℚ) (t : Text) : Except Err ℚ :=
  if endsWith t 'W' then
    match number float t with
    | .ok x => .ok (360 + x / (-10))
    | .error e => .error e
  else
    match number float t with
    | .ok x => .ok (x / 10)
    | .error e => .error e

/-- Utilities/formatJTWC.py L28-33 (`fmtlat`). -/
def fmtlat (float : Text → Option ℚ) (t : Text) : Except Err ℚ :=
  if endsWith t 'S' then
    match number float t with
    | .ok x => .ok (x / (-10))
    | .error e => .error e
  else
    match number float t with
    | .ok x => .ok (x / 10)
    | .error e => .error e

end Tcrm.Jtwc
