import Verif.Model.TrackGen
import Mathlib.Data.Real.Basic
/-!
Numbers of storms of the simulations, `run` in TrackGenerator/TrackGenerator.py.
-/
namespace Tcrm.Counts
open Tcrm.TrackGen

/-- Exceptions: those of the track generation, or ValueError of numpy -/
inductive Err where
  | valueError
  | run (e : TrackGen.Err)
  deriving DecidableEq

/-- TrackGenerator/TrackGenerator.py L1838: `np.random.poisson(yrsPerSim * meanFreq, nSimulations)`; `poisson lam i` is number `i`
drawn from numpy's generator. A negative expected value and a negative number of simulations are ValueErrors. -/
noncomputable def nCyclones (poisson : ℝ → ℕ → ℕ) (yrsPerSim : ℤ) (meanFreq : ℝ) (nSimulations : ℤ) : Except Err (List ℕ) :=
  if yrsPerSim * meanFreq < 0 ∨ nSimulations < 0 then .error .valueError
  else .ok ((List.range nSimulations.toNat).map fun i => poisson (yrsPerSim * meanFreq) i)

/-- TrackGenerator/TrackGenerator.py L1808-1895 (`run`) on rank `p` of `P`, from the check of the seeds on: the numbers of storms
are drawn, and the simulations generated (`TrackGen.runRank`). -/
noncomputable def run {G N : Type} (R : Rng G) (env : Env N) (fuel : ℕ) (seasonSeed trackSeed : ℤ) (poisson : ℝ → ℕ → ℕ)
    (yrsPerSim : ℤ) (meanFreq : ℝ) (nSimulations : ℤ) (g0 : G) (n0 : N) (P p : ℕ) : Except Err (List (ℕ × List Track)) :=
  if 1 < P ∧ (seasonSeed = 0 ∨ trackSeed = 0) then .error (.run .systemExit)
  else
    match nCyclones poisson yrsPerSim meanFreq nSimulations with
    | .error e => .error e
    | .ok counts =>
      match runRank R env fuel seasonSeed trackSeed counts g0 n0 P p with
      | .error e => .error (.run e)
      | .ok files => .ok files

end Tcrm.Counts
