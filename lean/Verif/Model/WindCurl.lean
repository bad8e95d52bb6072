import Verif.Model.Profiles
/-!
Numerical derivatives and vorticity, Utilities/vorticity.py, over the exact reals. An array of size `n` is a function of
the index, read below `n` only; two-dimensional arrays take the row first. An element of a masked array is `none` where
it is masked. The spectral algorithms, which call the package `sphere`, are not modelled.
-/
namespace Tcrm.Vorticity
open Real

/-- `ma.masked_values(a, missing)` for one element, with the default tolerances -/
noncomputable def masked (missing v : ℝ) : Option ℝ :=
  if |v - missing| ≤ 1e-8 + 1e-5 * |missing| then none else some v

/-- `ma.filled(a, missing)` for one element -/
def filled (missing : ℝ) (v : Option ℝ) : ℝ := v.getD missing

/-- `a - b` for masked elements -/
def sub : Option ℝ → Option ℝ → Option ℝ
  | some a, some b => some (a - b)
  | _, _ => none

/-- `a * b` for a masked element and a number -/
def mul (a : Option ℝ) (b : ℝ) : Option ℝ := a.map (· * b)

open Classical in
/-- `a / b` for masked elements: a zero divisor gives a masked element (so do, in floating-point numbers, divisors below
`tiny` times the dividend). -/
noncomputable def divide : Option ℝ → Option ℝ → Option ℝ
  | some a, some b => if b = 0 then none else some (a / b)
  | _, _ => none

/-- Utilities/vorticity.py L156-169: the array with both ends repeated -/
def endpadded {α : Type} (n : ℕ) (a : ℕ → α) (k : ℕ) : α :=
  if k = 0 then a 0 else if k ≤ n then a (k - 1) else a (n - 1)

/-- Utilities/vorticity.py L7-188 (`deriv`) with abscissas, for arrays of the same size `n > 0` and the algorithm
'order1' (or 'default'): element `i` of the result -/
noncomputable def deriv (missing : ℝ) (n : ℕ) (x y : ℕ → ℝ) (i : ℕ) : ℝ :=
  let mx := fun k => masked missing (x k)
  let my := fun k => masked missing (y k)
  filled missing (divide (sub (endpadded n my (i + 2)) (endpadded n my i))
    (sub (endpadded n mx (i + 2)) (endpadded n mx i)))

/-- Utilities/vorticity.py L613-638 (`_order1_cartesian_curl`) and L786 (`ma.filled`) -/
noncomputable def cartesianCurl (missing : ℝ) (nx ny : ℕ) (x y : ℕ → ℝ) (Fx Fy : ℕ → ℕ → ℝ) (iy ix : ℕ) : ℝ :=
  let dFy := masked missing (deriv missing nx x (Fy iy) ix)
  let dFx := masked missing (deriv missing ny y (fun k => Fx k ix) iy)
  filled missing (sub dFy dFx)

/-- Utilities/vorticity.py L645-713 (`_order1_spherical_curl`) and L786, for a number as `R_sphere` -/
noncomputable def sphericalCurl (missing R : ℝ) (nx ny : ℕ) (x y : ℕ → ℝ) (Fx Fy : ℕ → ℕ → ℝ) (iy ix : ℕ) : ℝ :=
  let xrad := fun k => x k * π / 180
  let yrad := fun k => y k * π / 180
  let ddFy := masked missing (deriv missing nx xrad (Fy iy) ix)
  let tmp := fun k => filled missing (mul (masked missing (Fx k ix)) (cos (yrad k)))
  let ddFx := masked missing (deriv missing ny yrad tmp iy)
  let tmpr := divide (sub ddFy ddFx) (some (R * cos (yrad iy)))
  filled missing (if y iy > 88 ∨ y iy < -88 then none else tmpr)

/-- Utilities/vorticity.py L788-791 (`relative`) -/
noncomputable def relative (nx ny : ℕ) (u v : ℕ → ℕ → ℝ) (x y : ℕ → ℝ) (iy ix : ℕ) : ℝ :=
  sphericalCurl 1e20 6378137 nx ny x y u v iy ix

/-- Utilities/vorticity.py L793-801 (`absolute`) -/
noncomputable def absolute (nx ny : ℕ) (u v : ℕ → ℕ → ℝ) (x y : ℕ → ℝ) (iy ix : ℕ) : ℝ :=
  relative nx ny u v x y iy ix + Profiles.coriolis (y iy)

end Tcrm.Vorticity
