import Mathlib.Analysis.SpecialFunctions.Pow.NNReal
/-!
Autocorrelation of a sample and the coefficients derived from it (over ℝ).
-/
namespace Tcrm.Acf

/-- `Σ p[i+k]·p[i]`, the value of `np.correlate(p, p, 'full')` at lag `k ≥ 0`; the array is
symmetric in the lag. -/
noncomputable def lag (p : List ℝ) (k : ℕ) : ℝ := (List.zipWith (· * ·) (p.drop k) p).sum

/-- `np.correlate(p, p, 'full')` for non-empty `p`: lags `-(n-1), …, 0, …, n-1`. -/
noncomputable def correlateFull (p : List ℝ) : List ℝ :=
  ((List.range (p.length - 1)).reverse.map fun j => lag p (j + 1)) ++
    (List.range p.length).map (lag p)

/-- StatInterface/generateStats.py L27-40 (`acf`): `none` for an empty sample, for which
`np.correlate` raises ValueError. `ar.max()` of a non-empty array is `max?`. Division is the
real division; the code divides by zero (nan) only for an all-zero sample. -/
noncomputable def acf (p : List ℝ) (nlags : ℕ) : Option (List ℝ) :=
  let ar := correlateFull p
  match ar.max? with
  | none => none
  | some m =>
    some ((((ar.take (p.length + nlags)).drop (p.length - 1))).map (· / m))

/-- StatInterface/generateStats.py L245-247 (`calculate`): `alpha = acf(p)[-1]`,
`phi = sqrt(1 - alpha**2)`; `none` if the square root is of a negative number (nan) or the
sample is empty. -/
noncomputable def coefficients (p : List ℝ) : Option (ℝ × ℝ) :=
  match acf p 1 with
  | none => none
  | some l =>
    match l.getLast? with
    | none => none
    | some alpha => if 1 - alpha ^ 2 < 0 then none else some (alpha, Real.sqrt (1 - alpha ^ 2))

end Tcrm.Acf
