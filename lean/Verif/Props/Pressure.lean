import Verif.Model.Pressure
import Verif.Props.Units
import Mathlib.Analysis.SpecialFunctions.Pow.Asymptotics
import Mathlib.Analysis.SpecialFunctions.Pow.Continuity
import Mathlib.Analysis.Complex.ExponentialBounds
/-!
C48: radial pressure profiles. C78: the shape parameters of pressure and wind.
-/
namespace Tcrm.Pressure
open Real

/-- C48: the pressure is above the central and below the environmental pressure at every radius. -/
theorem C48_bounds (pc penv rMax beta R : ℝ) (h : pc < penv) (hr : 0 < rMax) (hR : 0 < R) :
    pc < holland pc penv rMax beta R ∧ holland pc penv rMax beta R < penv := by
  unfold holland
  have d : 0 < penv - pc := by linarith
  have p : 0 < (rMax / R) ^ beta := rpow_pos_of_pos (by positivity) _
  have e1 : exp (-(rMax / R) ^ beta) < 1 := by rw [exp_lt_one_iff]; linarith
  have e0 := exp_pos (-(rMax / R) ^ beta)
  constructor <;> nlinarith

theorem exp_mono {rMax beta : ℝ} (hb : 0 < beta) (hr : 0 < rMax) {R R' : ℝ} (hR : 0 < R) (h : R < R') :
    exp (-(rMax / R) ^ beta) < exp (-(rMax / R') ^ beta) := by
  rw [exp_lt_exp]
  have : (rMax / R') ^ beta < (rMax / R) ^ beta :=
    rpow_lt_rpow (by have : 0 < R' := hR.trans h
                     positivity) (div_lt_div_of_pos_left hr hR h) hb
  linarith

/-- C48: the pressure increases with the distance from the centre. -/
theorem C48_increasing (pc penv rMax beta : ℝ) (h : pc < penv) (hr : 0 < rMax) (hb : 0 < beta) {R R' : ℝ} (hR : 0 < R)
    (hlt : R < R') : holland pc penv rMax beta R < holland pc penv rMax beta R' := by
  unfold holland
  have := exp_mono hb hr hR hlt
  have d : 0 < penv - pc := by linarith
  nlinarith

/-- C48: towards the centre the pressure approaches the central pressure, far away the environmental pressure. -/
theorem C48_limits (pc penv rMax beta : ℝ) (hr : 0 < rMax) (hb : 0 < beta) :
    Filter.Tendsto (holland pc penv rMax beta) (nhdsWithin 0 (Set.Ioi 0)) (nhds pc) ∧
    Filter.Tendsto (holland pc penv rMax beta) Filter.atTop (nhds penv) := by
  constructor
  · have h1 : Filter.Tendsto (fun R : ℝ => rMax / R) (nhdsWithin 0 (Set.Ioi 0)) Filter.atTop := by
      simp only [div_eq_mul_inv]
      exact Filter.Tendsto.const_mul_atTop hr tendsto_inv_nhdsGT_zero
    have h2 := (tendsto_rpow_atTop hb).comp h1
    have h3 := tendsto_exp_neg_atTop_nhds_zero.comp h2
    have h4 := (h3.const_mul (penv - pc)).const_add pc
    simp only [mul_zero, add_zero] at h4
    exact h4
  · have h1 : Filter.Tendsto (fun R : ℝ => rMax / R) Filter.atTop (nhds 0) := by
      simp only [div_eq_mul_inv]
      have := tendsto_inv_atTop_zero (𝕜 := ℝ) |>.const_mul rMax
      simpa using this
    have h2 : Filter.Tendsto (fun R : ℝ => (rMax / R) ^ beta) Filter.atTop (nhds 0) := by
      have := h1.rpow_const (p := beta) (Or.inr hb.le)
      rwa [zero_rpow hb.ne'] at this
    have h3 : Filter.Tendsto (fun R : ℝ => exp (-(rMax / R) ^ beta)) Filter.atTop (nhds 1) := by
      have := (continuous_exp.tendsto _).comp h2.neg
      simpa [Function.comp_def] using this
    have h4 := (h3.const_mul (penv - pc)).const_add pc
    have e : pc + (penv - pc) * 1 = penv := by ring
    rw [e] at h4
    exact h4

/-- A negative shape parameter turns the profile round. -/
theorem C48_decreasing (pc penv rMax beta : ℝ) (h : pc < penv) (hr : 0 < rMax) (hb : beta < 0) {R R' : ℝ} (hR : 0 < R)
    (hlt : R < R') : holland pc penv rMax beta R' < holland pc penv rMax beta R := by
  unfold holland
  have d : 0 < penv - pc := by linarith
  have : (rMax / R) ^ beta < (rMax / R') ^ beta :=
    rpow_lt_rpow_of_neg (by have : 0 < R' := hR.trans hlt
                            positivity) (div_lt_div_of_pos_left hr hR hlt) hb
  have : exp (-(rMax / R') ^ beta) < exp (-(rMax / R) ^ beta) := by rw [exp_lt_exp]; linarith
  nlinarith

/-- C48 fails for the profile of Willoughby and Rahn: for a weak and large storm (1 hPa, 100 km) the pressure falls
with the distance from the centre. -/
theorem C48_willoughby_fails : ∀ R R' : ℝ, 0 < R → R < R' →
    willoughby 101200 101300 100 (-15) R' < willoughby 101200 101300 100 (-15) R := by
  intro R R' hR hlt
  apply C48_decreasing _ _ _ _ (by norm_num) (by norm_num) _ hR hlt
  unfold willoughbyBeta
  have s : √(101300 - 101200 : ℝ) = 10 := by
    rw [show (101300 - 101200 : ℝ) = 10 ^ 2 by norm_num, sqrt_sq (by norm_num)]
  have l : (4 : ℝ) < log 100 := by
    rw [lt_log_iff_exp_lt (by norm_num)]
    have e := exp_one_lt_d9
    have e4 : exp 4 = exp 1 ^ 4 := by rw [← exp_nat_mul]; norm_num
    rw [e4]
    have e0 := exp_pos 1
    calc exp 1 ^ 4 ≤ 2.72 ^ 4 := by gcongr; linarith
      _ < 100 := by norm_num
  rw [s, abs_of_neg (by norm_num)]
  linarith

/-- C48: the two deficits of the double vortex add up to the whole and are positive. -/
theorem C48_deficits (dP : ℝ) (h : 0 < dP) : dp1 dP + dp2 dP = dP ∧ 0 < dp1 dP ∧ 0 < dp2 dP := by
  refine ⟨by unfold dp1; ring, ?_, ?_⟩
  · unfold dp1 dp2
    split_ifs with c
    · nlinarith
    · linarith
  · unfold dp2
    split_ifs with c
    · have : 0 < 800 + (dP - 800) / 2000 := by linarith
      positivity
    · linarith

/-- C48: the pressure of the double vortex is above the central and below the environmental pressure at every
radius. -/
theorem C48_double_bounds (pc penv rMax rMax2 : ℝ) (beta1 beta2 : Option ℝ) (R : ℝ) (h : pc < penv) (hr : 0 < rMax)
    (hr2 : 0 < rMax2) (hR : 0 < R) :
    pc < doubleHolland pc penv rMax rMax2 beta1 beta2 R ∧ doubleHolland pc penv rMax rMax2 beta1 beta2 R < penv := by
  obtain ⟨s, p1, p2⟩ := C48_deficits (penv - pc) (by linarith)
  unfold doubleHolland
  generalize beta1.getD _ = b1
  generalize beta2.getD _ = b2
  have q1 : 0 < (rMax / R) ^ b1 := rpow_pos_of_pos (by positivity) _
  have q2 : 0 < (rMax2 / R) ^ b2 := rpow_pos_of_pos (by positivity) _
  have e1 : exp (-(rMax / R) ^ b1) < 1 := by rw [exp_lt_one_iff]; linarith
  have e2 : exp (-(rMax2 / R) ^ b2) < 1 := by rw [exp_lt_one_iff]; linarith
  have z1 := mul_pos p1 (exp_pos (-(rMax / R) ^ b1))
  have z2 := mul_pos p2 (exp_pos (-(rMax2 / R) ^ b2))
  constructor <;> nlinarith

/-- C48: the pressure of the double vortex increases with the distance from the centre. -/
theorem C48_double_increasing (pc penv rMax rMax2 : ℝ) (beta1 beta2 : Option ℝ) (h : pc < penv) (hr : 0 < rMax)
    (hr2 : 0 < rMax2) (hpc : pc < 115200) (hb1 : ∀ b ∈ beta1, 0 < b) (hb2 : ∀ b ∈ beta2, 0 < b) {R R' : ℝ} (hR : 0 < R)
    (hlt : R < R') :
    doubleHolland pc penv rMax rMax2 beta1 beta2 R < doubleHolland pc penv rMax rMax2 beta1 beta2 R' := by
  obtain ⟨-, p1, p2⟩ := C48_deficits (penv - pc) (by linarith)
  have k1 : 0 < beta1.getD (defaultBeta1 pc) := by
    cases beta1 with
    | none => simp only [Option.getD_none, defaultBeta1]; linarith
    | some b => exact hb1 b rfl
  have k2 : 0 < beta2.getD (defaultBeta2 pc) := by
    cases beta2 with
    | none => simp only [Option.getD_none, defaultBeta2]; linarith
    | some b => exact hb2 b rfl
  unfold doubleHolland
  have e1 := mul_lt_mul_of_pos_left (exp_mono k1 hr hR hlt) p1
  have e2 := mul_lt_mul_of_pos_left (exp_mono k2 hr2 hR hlt) p2
  linarith

/-- C48: with Powell's or Schloemer's shape parameter the pressure increases with radius for every storm. -/
theorem C48_powell_increasing (pc penv rMax lat : ℝ) (h : pc < penv) (hr : 0 < rMax) {R R' : ℝ} (hR : 0 < R)
    (hlt : R < R') : powell pc penv rMax lat R < powell pc penv rMax lat R' ∧
      schloemer pc penv rMax R < schloemer pc penv rMax R' := by
  refine ⟨C48_increasing _ _ _ _ h hr ?_ hR hlt, C48_increasing _ _ _ _ h hr one_pos hR hlt⟩
  unfold powellBeta
  simp only
  split_ifs <;> linarith

/-- The profile of Willoughby and Rahn increases exactly if its shape parameter is positive. -/
theorem C48_willoughby_partial (pc penv rMax lat : ℝ) (h : pc < penv) (hr : 0 < rMax) {R R' : ℝ} (hR : 0 < R)
    (hlt : R < R') : willoughby pc penv rMax lat R < willoughby pc penv rMax lat R' ↔
      0.313 * log rMax < 1.0036 + 0.0173 * (0.6252 * √(penv - pc)) + 0.0087 * |lat| := by
  unfold willoughby
  have e : (0.313 * log rMax < 1.0036 + 0.0173 * (0.6252 * √(penv - pc)) + 0.0087 * |lat|) ↔
      0 < willoughbyBeta pc penv rMax lat := by
    unfold willoughbyBeta
    constructor <;> intro h <;> linarith
  rw [e]
  constructor
  · intro hl
    by_contra hn
    rcases lt_or_eq_of_le (not_lt.1 hn) with hb | hb
    · exact absurd hl (not_lt.2 (C48_decreasing _ _ _ _ h hr hb hR hlt).le)
    · rw [hb] at hl
      simp [holland] at hl
  · intro hb
    exact C48_increasing _ _ _ _ h hr hb hR hlt

example : (98000 : ℝ) < 101000 ∧ (0 : ℝ) < 30 ∧ (0 : ℝ) < 1.3 ∧ (98000 : ℝ) < 115200 := by norm_num

example : 0.313 * log 30 < 1.0036 + 0.0173 * (0.6252 * √(101000 - 98000)) + 0.0087 * |(-15 : ℝ)| := by
  have l : log 30 < 3.5 := by
    rw [log_lt_iff_lt_exp (by norm_num)]
    have e := exp_one_gt_d9
    have e7 : exp 3.5 ^ 2 = exp 1 ^ 7 := by rw [← exp_nat_mul, ← exp_nat_mul]; norm_num
    have : (30 : ℝ) ^ 2 < exp 3.5 ^ 2 := by
      rw [e7]
      calc (30 : ℝ) ^ 2 < 2.7 ^ 7 := by norm_num
        _ ≤ exp 1 ^ 7 := by gcongr; linarith
    exact lt_of_pow_lt_pow_left₀ 2 (exp_pos _).le this
  have : (0 : ℝ) ≤ √(101000 - 98000) := sqrt_nonneg _
  have a : |(-15 : ℝ)| = 15 := by norm_num
  rw [a]
  generalize √(101000 - 98000 : ℝ) = y at *
  generalize log 30 = z at *
  norm_num at *
  linarith

/-- C78 fails for Powell's profile: the pressure field takes the radius of maximum wind in kilometres, the wind field
in nautical miles, so that the shape parameter of the pressure is always lower. -/
theorem C78_powell_fails (lat rMax : ℝ) (hl : |lat| ≤ 30) (h0 : 0 < rMax) (h1 : rMax ≤ 100) :
    powellBeta lat rMax = 1.881093 - 0.010917 * |lat| - 0.005567 * rMax ∧
    Profiles.powellBeta lat (1000 * rMax) = 1.881093 - 0.010917 * |lat| - 0.005567 * (0.539957 * rMax) ∧
    powellBeta lat rMax < Profiles.powellBeta lat (1000 * rMax) := by
  have a := abs_nonneg lat
  rw [← and_assoc]
  suffices h : _ ∧ _ by
    refine ⟨h, ?_⟩
    rw [h.1, h.2]
    linarith
  constructor
  · unfold powellBeta
    simp only
    rw [if_neg (by linarith), if_neg (by linarith)]
  · have e : Units.convert (1000 * rMax) "m" "nm" = 0.539957 * rMax := by
      rw [Units.convert_of (f := (0.000539957, 0)) (by decide) (by decide) (by decide +kernel)]
      rw [show Units.pre "m" "nm" = 0 by decide +kernel, show Units.post "m" "nm" = 0 by decide +kernel]
      norm_num
      ring
    unfold Profiles.powellBeta
    simp only [e]
    rw [if_neg (by linarith : ¬1.881093 - 0.010917 * |lat| - 0.005567 * (0.539957 * rMax) < 0.8), if_neg (by linarith)]

/-- C78 fails for Willoughby's profile: the pressure field has ten times the coefficient of the wind field. -/
theorem C78_willoughby_fails (pc penv rMax lat : ℝ) :
    willoughbyBeta pc penv rMax lat = windWilloughbyBeta pc penv (1000 * rMax) lat - 0.2817 * log rMax ∧
    (1 < rMax → willoughbyBeta pc penv rMax lat < windWilloughbyBeta pc penv (1000 * rMax) lat) := by
  suffices h : _ by
    refine ⟨h, fun h1 => ?_⟩
    rw [h]
    have := log_pos h1
    linarith
  unfold willoughbyBeta windWilloughbyBeta
  rw [mul_div_cancel_left₀ _ (by norm_num)]
  ring

/-- C78 holds for the double vortex: pressure and wind have the same two deficits and, unless the configuration gives
them, the same two shape parameters. -/
theorem C78_double_partial (dP pc : ℝ) :
    dp2 dP = Profiles.dp2 dP ∧ dp1 dP = dP - Profiles.dp2 dP ∧
    defaultBeta1 pc = (windDefaultBetas pc).1 ∧ defaultBeta2 pc = (windDefaultBetas pc).2 ∧
    defaultBeta1 pc - defaultBeta2 pc = 0.1 ∧ (defaultBeta2 pc = 1 ↔ pc = 99200) := by
  refine ⟨rfl, rfl, rfl, rfl, ?_, ?_⟩
  · unfold defaultBeta1 defaultBeta2; ring
  · unfold defaultBeta2
    constructor <;> intro h <;> linarith

/-- C48: Powell's shape parameter is the regression limited to [0.8, 2.2]. -/
theorem C48_powell_parameter (lat rMax : ℝ) :
    powellBeta lat rMax = max 0.8 (min 2.2 (1.881093 - 0.010917 * |lat| - 0.005567 * rMax)) := by
  unfold powellBeta
  simp only
  split_ifs with h1 h2
  · rw [max_eq_left]
    exact (min_le_right _ _).trans h1.le
  · rw [min_eq_left (le_of_lt h2), max_eq_right (by norm_num)]
  · rw [min_eq_right (not_lt.1 h2), max_eq_right (not_lt.1 h1)]

end Tcrm.Pressure
