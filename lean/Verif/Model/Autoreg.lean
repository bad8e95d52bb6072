import Mathlib.Analysis.SpecialFunctions.Log.Basic
/-!
The autoregressive models of a synthetic track with random numbers, TrackGenerator/TrackGenerator.py and
Utilities/tcrandom.py. Real numbers. The bookkeeping of the track around them is modelled in `Verif.Model.TrackGen`.
-/
namespace Tcrm.Autoreg

/-- Coefficients of a cell, over land or sea: TrackGenerator/TrackGenerator.py L1089-1098, L1129-1138, L1174-1183 -/
structure Coeff where
  mu : ℝ
  sig : ℝ
  alpha : ℝ
  phi : ℝ

/-- Utilities/tcrandom.py L53-66 (`logisticvariate`) for a uniform number `u1`; the check of `sigma` is left out. -/
noncomputable def logisticvariate (mu sigma u1 : ℝ) : ℝ := mu + sigma * Real.log (u1 / (1 - u1))

/-- TrackGenerator/TrackGenerator.py L1660-1664 (`logistic`) -/
noncomputable def logistic (u1 : ℝ) : ℝ := logisticvariate 0 1 u1

/-- The state of a model after `n` steps: TrackGenerator/TrackGenerator.py L941-946 (`dpChi = 0`, ...), L1102 (`dpChi`),
L1142 (`bChi`), L1187 (`vChi`). `c k` are the coefficients and `u k` the random number used in step `k + 1`. -/
noncomputable def chi (c : ℕ → Coeff) (u : ℕ → ℝ) : ℕ → ℝ
  | 0 => 0
  | n + 1 => (c n).alpha * chi c u n + (c n).phi * logistic (u n)

/-- The pressure rate after `n` steps from `dp0`, TrackGenerator/TrackGenerator.py L1104-1107. The bearing of L1146-1150
is this in degrees, before it is wrapped to the circle. -/
noncomputable def rate (c : ℕ → Coeff) (dp0 : ℝ) (u : ℕ → ℝ) : ℕ → ℝ
  | 0 => dp0
  | 1 => dp0 + (c 0).sig * chi c u 1
  | n + 2 => (c (n + 1)).mu + (c (n + 1)).sig * chi c u (n + 2)

/-- The speed after `n` steps from `v0`, TrackGenerator/TrackGenerator.py L1191-1195 -/
noncomputable def speed (c : ℕ → Coeff) (v0 : ℝ) (u : ℕ → ℝ) : ℕ → ℝ
  | 0 => v0
  | 1 => v0 + |(c 0).sig * chi c u 1|
  | n + 2 => |(c (n + 1)).mu + (c (n + 1)).sig * chi c u (n + 2)|

end Tcrm.Autoreg
