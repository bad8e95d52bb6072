import Mathlib.Data.Rat.Defs
import Mathlib.Algebra.Order.Field.Rat
import Mathlib.Algebra.Order.Group.Abs
/-!
Screening and rates of change, DataProcess/DataProcess.py. A column is a function of the row number (all
columns have the length `n`, checked by the assertions in L296-298 and L329-330). Numbers are exact, with
the infinities and NaN that division by zero gives. `indicator` is not zero at the start of a track. The
values that `np.empty` leaves in row 0 are arguments (`u`).
-/
namespace Tcrm.Rates

/-- A floating point number: finite, an infinity (`true`: positive), or NaN. -/
inductive Num where
  | fin (x : ℚ)
  | inf (pos : Bool)
  | nan
  deriving DecidableEq

/-- `sys.maxsize` converted to floating point, the mark for a missing value. -/
def M : ℚ := 2 ^ 63

def missing : Num := .fin M

/-- Division of a finite number (numpy: no exception). -/
def qdiv (x y : ℚ) : Num :=
  if y ≠ 0 then .fin (x / y) else if x > 0 then .inf true else if x < 0 then .inf false else .nan

/-- Division by a finite number. -/
def Num.div : Num → ℚ → Num
  | .fin x, y => qdiv x y
  | .inf s, y => .inf (if y < 0 then !s else s)
  | .nan, _ => .nan

def Num.sub : Num → Num → Num
  | .fin x, .fin y => .fin (x - y)
  | .fin _, .inf s => .inf (!s)
  | .inf s, .fin _ => .inf s
  | .inf s, .inf t => if s = t then .nan else .inf s
  | _, _ => .nan

/-- `a > y` -/
def Num.gt : Num → ℚ → Bool
  | .fin x, y => decide (x > y)
  | .inf s, _ => s
  | .nan, _ => false

/-- `a >= y` -/
def Num.ge : Num → ℚ → Bool
  | .fin x, y => decide (x ≥ y)
  | .inf s, _ => s
  | .nan, _ => false

/-- `a < y` -/
def Num.lt : Num → ℚ → Bool
  | .fin x, y => decide (x < y)
  | .inf s, _ => !s
  | .nan, _ => false

/-- `a <= y` -/
def Num.le : Num → ℚ → Bool
  | .fin x, y => decide (x ≤ y)
  | .inf s, _ => !s
  | .nan, _ => false

/-- `np.abs` -/
def Num.abs : Num → Num
  | .fin x => .fin |x|
  | .inf _ => .inf true
  | .nan => .nan

/-- One element of `np.putmask(a, cond, sys.maxsize)` -/
def mask (cond : Bool) (a : Num) : Num := if cond then missing else a

/-- `np.diff` put after an element that is not set, as in DataProcess/DataProcess.py L577-579 -/
def diffAt (u : Num) (x : ℕ → Num) : ℕ → Num
  | 0 => u
  | i + 1 => (x (i + 1)).sub (x i)

/-- DataProcess/DataProcess.py L280 -/
def screenPressure (p : ℚ) : ℚ := if p < 600 ∨ p > 1100 then M else p

/-- DataProcess/DataProcess.py L695 (`_windSpeed`) -/
def screenWind (v : ℚ) : ℚ := if v > 200 then M else v

/-- DataProcess/DataProcess.py L559-593 (`_pressureRate`) -/
def pressureRate (u : Num) (pressure dt : ℕ → ℚ) (indicator : ℕ → ℤ) (i : ℕ) : Num :=
  let r0 := (diffAt u (fun k => .fin (pressure k)) i).div (dt i)
  let r1 := mask (decide (indicator i ≠ 0)) r0
  let r2 := mask (decide (pressure i ≥ M)) r1
  let r3 := mask (decide (r2 = .nan)) r2
  mask (r3.abs.gt 10) r3

/-- DataProcess/DataProcess.py L740-774 (`_rmaxRate`) -/
def rmaxRate (u : Num) (rmax dt : ℕ → ℚ) (indicator : ℕ → ℤ) (i : ℕ) : Num :=
  let r0 := (diffAt u (fun k => .fin (rmax k)) i).div (dt i)
  let r1 := mask (decide (indicator i ≠ 0)) r0
  let r2 := mask (decide (rmax i ≥ M)) r1
  let r3 := mask (r2.ge M || r2.le (-M)) r2
  mask (decide (r3 = .nan)) r3

/-- DataProcess/DataProcess.py L438: bearings of the starts of tracks are replaced (in place). -/
def maskBearing (bear : ℕ → ℚ) (indicator : ℕ → ℤ) (i : ℕ) : ℚ := if indicator i ≠ 0 then M else bear i

/-- Change of bearing brought back by 360 degrees, DataProcess/DataProcess.py L619-623 -/
def wrapChange (d : ℚ) : ℚ := if d > 180 then d - 360 else if d < -180 then d + 360 else d

/-- DataProcess/DataProcess.py L603-635 (`_bearingRate`), called with the bearings as changed by
`_bearing`. -/
def bearingRate (u : ℚ) (bear dt : ℕ → ℚ) (indicator : ℕ → ℤ) (i : ℕ) : Num :=
  let change := match i with
    | 0 => u
    | k + 1 => wrapChange (maskBearing bear indicator (k + 1) - maskBearing bear indicator k)
  let r0 := qdiv change (dt i)
  let r1 := mask (decide (indicator i ≠ 0)) r0
  let r2 := mask (decide (0 < i ∧ indicator (i - 1) ≠ 0)) r1
  let r3 := mask (r2.ge M || r2.le (-M)) r2
  mask (decide (r3 = .nan)) r3

/-- DataProcess/DataProcess.py L468-488 (`_speed`) -/
def speed (dist dt : ℕ → ℚ) (indicator : ℕ → ℤ) (i : ℕ) : Num :=
  let s0 := qdiv (dist i) (dt i)
  let s1 := mask (s0.lt 0 || s0.gt 200 || decide (indicator i ≠ 0)) s0
  mask (decide (s1 = .nan)) s1

/-- DataProcess/DataProcess.py L668-669 -/
def badSpeed (dist dt : ℕ → ℚ) (indicator : ℕ → ℤ) (i : ℕ) : Bool :=
  (qdiv (dist i) (dt i)).lt 0 || (qdiv (dist i) (dt i)).gt 200 || decide (indicator i ≠ 0)

/-- DataProcess/DataProcess.py L645-678 (`_speedRate`) -/
def speedRate (u : Num) (dist dt : ℕ → ℚ) (indicator : ℕ → ℤ) (i : ℕ) : Num :=
  let r0 := (diffAt u (fun k => qdiv (dist k) (dt k)) i).div (dt i)
  let r1 := mask (badSpeed dist dt indicator i) r0
  let r2 := mask (decide (0 < i) && badSpeed dist dt indicator (i - 1)) r1
  let r3 := mask (r2.ge M || r2.le (-M)) r2
  mask (decide (r3 = .nan)) r3

/-! ### Initial and later observations -/

/-- DataProcess/DataProcess.py L322-324 and L441, L490: rows following the start of a track with more than
one observation, for `n` rows. -/
def initRows (n : ℕ) (indicator : ℕ → ℤ) : List ℕ :=
  ((List.range (n - 1)).filter fun i => decide (indicator i > 0 ∧ ¬ indicator (i + 1) > 0)).map (· + 1)

/-- DataProcess/DataProcess.py L441-442 and L490-491: initial bearings or speeds -/
def initial {α : Type} (n : ℕ) (indicator : ℕ → ℤ) (x : ℕ → α) : List α := (initRows n indicator).map x

/-- DataProcess/DataProcess.py L445-447 and L492-494: the other bearings or speeds -/
def notInitial {α : Type} (n : ℕ) (indicator : ℕ → ℤ) (x : ℕ → α) : List α :=
  ((List.range n).filter fun i => decide (i ∉ initRows n indicator ∧ indicator i = 0)).map x

/-- DataProcess/DataProcess.py L532 and L714: values at the starts of tracks -/
def atStart (n : ℕ) (indicator : ℕ → ℤ) (x : ℕ → ℚ) : List ℚ :=
  ((List.range n).filter fun i => decide (indicator i ≠ 0)).map x

/-- DataProcess/DataProcess.py L533-534 and L715-716: values elsewhere, without missing ones -/
def notAtStart (n : ℕ) (indicator : ℕ → ℤ) (x : ℕ → ℚ) : List ℚ :=
  (((List.range n).filter fun i => decide (indicator i = 0)).map x).filter fun v => decide (v < M)

end Tcrm.Rates
