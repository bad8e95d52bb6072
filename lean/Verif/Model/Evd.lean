import Verif.Model.LMoments
/-!
Extreme-value fits at one grid cell, hazard/evd.py, hazard/GPD.py and the cell loops of
hazard/__init__.py, over the exact reals. Missing values are `none` here (the number `nodata` in
Python).
-/
namespace Tcrm.Evd

/-- A fit: return levels for the intervals, location, scale and shape. -/
structure Fit where
  levels : List (Option ℝ)
  loc : Option ℝ
  scale : Option ℝ
  shape : Option ℝ

/-- The fit with nothing but missing values. -/
def Fit.missing (k : ℕ) : Fit := ⟨List.replicate k none, none, none, none⟩

/-- hazard/evd.py L325-330 for one interval `t > 0` and block length `yrs > 0`: the logarithm of a
number that is not positive, and powers of it, are not finite. -/
noncomputable def gevLevel (loc scale shp yrs t : ℝ) : Option ℝ :=
  if 1 - yrs / t ≤ 0 then none
  else some (loc + scale / shp * (1 - (-1 * Real.log (1 - yrs / t)) ^ shp))

/-- hazard/evd.py L256-332 (`gevfit`), data in ascending order. In exact arithmetic the location is
always finite. `data.max()` of an empty array raises ValueError. -/
noncomputable def gevfit (data : List ℝ) (intervals : List ℝ) (minrecords : ℕ) (yrs : ℝ) :
    Except Err Fit :=
  if data = [] then .error .valueError
  else if ∃ x ∈ data, x > 0 then
    let nz := data.filter (· ≠ 0)
    if (∃ x ∈ nz, ∃ y ∈ nz, x ≠ y) ∧ nz.length ≥ minrecords then
      match samlmu3 data with
      | .error e => .error e
      | .ok m =>
        if m.2.1 ≤ 0 ∨ |m.2.2| ≥ 1 then .ok (.missing intervals.length)
        else
          let p := pelgev m.1 m.2.1 m.2.2
          .ok ⟨intervals.map fun t => if p.2.2 ≤ 0 then none else gevLevel p.1 p.2.1 p.2.2 yrs t,
            some p.1, some p.2.1, some p.2.2⟩
    else .ok (.missing intervals.length)
  else .ok (.missing intervals.length)

/-- hazard/__init__.py L605-626 (`calculateGEV`) at one cell: the record is sorted first; the outputs
start as zeros and are replaced only if some value is positive. -/
noncomputable def gevCell (record : List ℝ) (intervals : List ℝ) (minrecords : ℕ) (yrs : ℝ) :
    Except Err Fit :=
  if record = [] then .error .valueError
  else if ∃ x ∈ record, x > 0 then
    gevfit (record.mergeSort fun a b => decide (a ≤ b)) intervals minrecords yrs
  else .ok ⟨List.replicate intervals.length (some 0), some 0, some 0, some 0⟩

/-- hazard/GPD.py L25-44 and hazard/evd.py L444-463 (`gpdReturnLevel`), `shape ≠ 0`. -/
noncomputable def gpdReturnLevel (interval mu shape scale rate npyr : ℝ) : ℝ :=
  mu + scale / shape * ((interval * npyr * rate) ^ shape - 1)

/-- hazard/GPD.py L47-65 (`gpdRecurrenceIntervals`) -/
noncomputable def gpdRecurrenceInterval (level mu shape scale rate npyr : ℝ) : ℝ :=
  ((level - mu) * (shape / scale) + 1) ^ (1 / shape) / (npyr * rate)

/-- `datafilled`, hazard/GPD.py L101-104: zeros for all days of the simulation, the last of them
replaced by the data. Assigning to a slice of another length (also `[-0:]`) raises ValueError. -/
noncomputable def fillDays (data : List ℝ) (days : ℕ) : Except Err (List ℝ) :=
  if data.length = 0 ∧ days ≠ 0 then .error .valueError
  else if days < data.length then .error .valueError
  else .ok (List.replicate (days - data.length) 0 ++ data)

/-- hazard/GPD.py L68-123 (`gpdfit`; the same as hazard/evd.py L465-519). `fit` is
`genpareto.fit(·, floc = mu)`, `none` if it raises, giving shape and scale; `mu` is the percentile of the
data. A shape of exactly 0 gives NaN levels in Python and is excluded where this is used. -/
noncomputable def gpdfit (fit : List ℝ → Option (ℝ × ℝ)) (mu : ℝ) (data intervals : List ℝ) (numsim : ℕ)
    (minrecords : ℕ) : Except Err Fit :=
  if data.length < minrecords then .ok (.missing intervals.length)
  else
    match fillDays data ⌊(numsim : ℝ) * 365.25⌋₊ with
    | .error e => .error e
    | .ok filled =>
      let above := filled.filter (· > mu)
      let rate : ℝ := above.length / filled.length
      match fit above with
      | none => .ok (.missing intervals.length)
      | some (shape, scale) =>
        if shape > 0 then .ok (.missing intervals.length)
        else .ok ⟨intervals.map fun t => some (gpdReturnLevel t mu shape scale rate 365.25), some mu,
          some scale, some shape⟩

/-- Empirical average recurrence interval of rank `k` (from 1), hazard/evd.py L431 (`nobs` is the
number of days, 365.25 times the number of simulated years). -/
noncomputable def emprp (nobs : ℝ) (k : ℕ) : ℝ := 1 / (1 - k / (nobs + 1)) / 365.25

/-- Contract of `scipy.interpolate.interp1d(x, y, kind='linear')` (not extrapolating) at `t`, with
`x 1 < ... < x n`: ValueError outside the knots; otherwise the interval is found by bisection
(`searchsorted`, leftmost, at least the second knot) and interpolated. A single knot does not occur in
the use below (there are at least 365). -/
noncomputable def interpLinear (n : ℕ) (x y : ℕ → ℝ) (t : ℝ) : Except Err ℝ :=
  if n = 0 ∨ t < x 1 ∨ x n < t then .error .valueError
  else
    let hi := max 2 (((List.range n).filter fun i => x (i + 1) < t).length + 1)
    if n < hi then .ok (y 1)
    else .ok (y (hi - 1) + (y hi - y (hi - 1)) / (x hi - x (hi - 1)) * (t - x (hi - 1)))

/-- hazard/evd.py L396-442 (`empfit`): return levels. Simulated years `numsim`. -/
noncomputable def empfit (data intervals : List ℝ) (numsim : ℕ) : Except Err (List ℝ) :=
  let nobs : ℝ := 365.25 * numsim
  match fillDays (data.mergeSort fun a b => decide (a ≤ b)) ⌊nobs⌋₊ with
  | .error e => .error e
  | .ok wspd =>
    intervals.mapM fun t => interpLinear ⌊nobs⌋₊ (emprp nobs) (fun k => wspd.getD (k - 1) 0) t

/-- Numbers as Python has them. -/
inductive PyNum where
  | int (n : ℤ)
  | float (x : ℚ)
  deriving DecidableEq

/-- Python `a / b` on integers, `b ≠ 0`: always a float. -/
def pyDiv (a b : ℤ) : PyNum := .float (a / b)

/-- `np.zeros(n)`: dimensions must be integers. -/
def npZeros (n : PyNum) : Except Err (List ℚ) :=
  match n with
  | .int n => if n < 0 then .error .valueError else .ok (List.replicate n.toNat 0)
  | .float _ => .error .typeError

/-- hazard/__init__.py L824-835, the beginning of `calculateCI` for a record of `nrecords` years (the
second dimension of `w`); `rest` is the remainder of the function. -/
def calculateCI {R : Type} (nrecords sampleSize : ℤ) (rest : List ℚ → Except Err R) : Except Err R :=
  match npZeros (pyDiv nrecords sampleSize) with
  | .error e => .error e
  | .ok w => rest w

end Tcrm.Evd
