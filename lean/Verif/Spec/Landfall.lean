import Verif.Model.TrackGen
/-!
Specification vocabulary for the intensity of generated tracks.
-/
namespace Tcrm.TrackGen

variable {G N : Type}

/-- The position of the row is on land. -/
def ashore (env : Env N) (r : Row) : Bool := env.onLand r.lon r.lat

/-- The time (hours) a track has been on land since its genesis. -/
def timeAshore (env : Env N) (rows : List Row) : ℚ := env.dt * (rows.tail.countP (ashore env) : ℕ)

/-- The last position at sea; the genesis counts as one. -/
def lastOffshore (env : Env N) : List Row → Option Row
  | [] => none
  | g :: t => (g :: t.filter fun r => !ashore env r).getLast?

/-- `o` has the pressure deficit `d`. -/
def Deficit (o : Row) (d : ℚ) : Prop := ∃ p e, o.pressure = some p ∧ o.poci = some e ∧ d = e - p

/-- The rate (per hour) at which a cyclone fills that was last at sea at `o` with deficit `d`. -/
def fillingRate (lfeps d : ℚ) (o : Row) : ℚ := 0.03515 + 0.000435 * d + 0.002865 * o.speed + lfeps

/-- The variate of the filling rate, drawn when a track begins with the generator in state `g`, after the
one of the outer pressure. -/
def fillingVariate (R : Rng G) (g : G) : ℚ := (R.lognorm 0.69527 (-0.06146) 0.0471 (R.normal 0 2.5717 g).2).1

end Tcrm.TrackGen
