import Mathlib.Analysis.SpecialFunctions.Pow.Real
/-!
C129: the relation between pressure and wind of Holland (2008), stated without reference to the program.
Temperatures in degrees Celsius, pressures in hPa, speeds in m/s, tendencies in hPa per hour.
-/
namespace Tcrm.LoadTrack.Spec

/-- The surface temperature falls by 3 degrees in 20 degrees of latitude, from 28 degrees at latitude 10. -/
def SurfaceTemperature (lat T : ℝ) : Prop := 20 * (28 - T) = 3 * (|lat| - 10)

/-- `q` is the mixing ratio at pressure `m` and temperature `T` of air with a relative humidity of 90 per
cent. -/
def MixingRatio (T m q : ℝ) : Prop := q * m = 0.9 * 3.802 * Real.exp (17.67 * T / (243.5 + T))

/-- `ρ` is the density at pressure `m` of air with temperature `T` and mixing ratio `q` (gas law). -/
def GasLaw (T m q ρ : ℝ) : Prop := 100 * m = ρ * 287.04 * ((T + 273.15) * (1 + 0.81 * q))

/-- The exponent of the profile for the deficit `d`, its tendency, the latitude and the speed of the storm. -/
def Exponent (lat d dpdt s b : ℝ) : Prop :=
  b = 1 - 4.4e-5 * d ^ 2 + 0.01 * d + 0.03 * dpdt - 0.014 * |lat| + 0.15 * s ^ (0.6 - 0.6 * d / 215)

/-- `v` is the ten-minute wind of the storm with central pressure `p` in the environment `e`: cyclostrophic
balance at the radius of maximum winds gives the one-minute wind `w`, and `v` is 95.24 per cent of it. -/
def Holland2008 (lat p e dpdt s v : ℝ) : Prop :=
  ∃ T q ρ b w m : ℝ, 3.7 * (m - p) = e - p ∧ SurfaceTemperature lat T ∧ MixingRatio T m q ∧ GasLaw T m q ρ ∧
    Exponent lat (e - p) dpdt s b ∧ 0 ≤ w ∧ ρ * Real.exp 1 * w ^ 2 = 100 * (e - p) * b ∧ v = 0.9524 * w

end Tcrm.LoadTrack.Spec
