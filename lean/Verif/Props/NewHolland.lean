import Verif.Model.Profiles
import Mathlib.Analysis.SpecialFunctions.Pow.Real
/-!
C47: the profile of 2010 with a radius of gales in the unit of the other distances.
-/
namespace Tcrm.Profiles
open Real

theorem mul_exp_le (t : ℝ) : t * exp (-t) ≤ exp (-1) := by
  have h := add_one_le_exp (t - 1)
  have : exp (-1) = exp (t - 1) * exp (-t) := by rw [← exp_add]; congr 1; ring
  rw [this]
  have := exp_pos (-t)
  nlinarith

theorem mul_exp_mono {a t : ℝ} (h : a ≤ t) (h0 : 0 ≤ t) (h1 : t ≤ 1) : a * exp (-a) ≤ t * exp (-t) := by
  have e : exp (-t) = exp (a - t) * exp (-a) := by rw [← exp_add]; congr 1; ring
  rw [e]
  have h2 := add_one_le_exp (a - t)
  have h3 := exp_pos (-a)
  have h4 : a ≤ t * exp (a - t) := by
    have h5 : t * (a - t + 1) ≤ t * exp (a - t) := mul_le_mul_of_nonneg_left h2 h0
    nlinarith [mul_nonneg (sub_nonneg.2 h) (sub_nonneg.2 h1)]
  nlinarith

/-- C47 for the profile of 2010, with a radius of gales `g` beyond the radius of maximum wind where the profile with the
square root is still above gales: the wind never exceeds the wind at the radius of maximum wind, it is 17 m/s at the
radius of gales, and nowhere less in between. -/
theorem C47_newHolland_partial (s : Storm) (lat g b : ℝ) (hf : 0 < s.f) (hp : 0 < s.dP) (hrho : 0 < s.rho)
    (hr : 0 < s.rMax) (hg : s.rMax < g)
    (hb : b = -0.000044 * (s.dP / 100) ^ 2 + 0.01 * (s.dP / 100) - 0.014 * |lat| + 1) (hb0 : 0 < b)
    (hgale : 17 ≤ √(b * s.dP / s.rho * (s.rMax / g) ^ b * exp (-(s.rMax / g) ^ b))) :
    newHolland s lat g s.rMax = √(b * s.dP / (s.rho * exp 1)) ∧ newHolland s lat g g = 17 ∧
    (∀ R, s.rMax ≤ R → R ≤ g → 17 ≤ newHolland s lat g R) ∧
    (∀ R, 0 < R → R ≤ g → 0 < newHolland s lat g R ∧ newHolland s lat g R ≤ newHolland s lat g s.rMax) := by
  have hg0 : 0 < g := hr.trans hg
  have hk : 0 < s.dP * b / s.rho := by positivity
  have hdg : 0 < (s.rMax / g) ^ b := rpow_pos_of_pos (by positivity) _
  have hrg : 289 ≤ s.dP * b / s.rho * ((s.rMax / g) ^ b * exp (-(s.rMax / g) ^ b)) := by
    rw [le_sqrt' (by norm_num)] at hgale
    rw [mul_comm s.dP, ← mul_assoc]
    linarith
  have ebase : b * s.dP * (s.rMax / g) ^ b * exp (-1 * (s.rMax / g) ^ b) / s.rho =
      s.dP * b / s.rho * ((s.rMax / g) ^ b * exp (-(s.rMax / g) ^ b)) := by
    rw [neg_one_mul]
    ring
  have hlog : 0 < log (s.dP * b / s.rho * ((s.rMax / g) ^ b * exp (-(s.rMax / g) ^ b))) := log_pos (by linarith)
  have hxn : log 17 / log (s.dP * b / s.rho * ((s.rMax / g) ^ b * exp (-(s.rMax / g) ^ b))) ≤ 1 / 2 := by
    rw [div_le_iff₀ hlog]
    have : 2 * log 17 ≤ log (s.dP * b / s.rho * ((s.rMax / g) ^ b * exp (-(s.rMax / g) ^ b))) := by
      have e : 2 * log 17 = log 289 := by
        rw [show (289 : ℝ) = 17 ^ 2 by norm_num, log_pow]
        norm_num
      rw [e]
      exact log_le_log (by norm_num) hrg
    linarith
  have hval : ∀ R, newHolland s lat g R = (s.dP * b / s.rho * ((s.rMax / R) ^ b * exp (-(s.rMax / R) ^ b))) ^
      (if s.rMax < R then 0.5 + (R - s.rMax) *
        (log 17 / log (s.dP * b / s.rho * ((s.rMax / g) ^ b * exp (-(s.rMax / g) ^ b))) - 0.5) / (g - s.rMax) else 0.5) := by
    intro R
    simp only [newHolland, ← hb, ebase]
    rw [sign_of_pos hf, one_mul, mul_assoc (s.dP * b / s.rho)]
  have h17 : (s.dP * b / s.rho * ((s.rMax / g) ^ b * exp (-(s.rMax / g) ^ b))) ^
      (log 17 / log (s.dP * b / s.rho * ((s.rMax / g) ^ b * exp (-(s.rMax / g) ^ b)))) = 17 := by
    rw [rpow_def_of_pos (by linarith), mul_div_cancel₀ _ hlog.ne', exp_log (by norm_num)]
  generalize hxe : log 17 / log (s.dP * b / s.rho * ((s.rMax / g) ^ b * exp (-(s.rMax / g) ^ b))) = xn at *
  have hgr : 0 < g - s.rMax := sub_pos.2 hg
  have hmax : newHolland s lat g s.rMax = √(b * s.dP / (s.rho * exp 1)) := by
    rw [hval, if_neg (lt_irrefl _), div_self hr.ne', one_rpow, one_mul, sqrt_eq_rpow, exp_neg]
    norm_num
    congr 1
    field_simp
  have hbase : ∀ R, s.rMax ≤ R → R ≤ g →
      s.dP * b / s.rho * ((s.rMax / g) ^ b * exp (-(s.rMax / g) ^ b)) ≤
        s.dP * b / s.rho * ((s.rMax / R) ^ b * exp (-(s.rMax / R) ^ b)) := by
    intro R h1 h2
    have hR0 : 0 < R := hr.trans_le h1
    apply mul_le_mul_of_nonneg_left _ hk.le
    apply mul_exp_mono
    · gcongr
    · positivity
    · exact rpow_le_one (by positivity) ((div_le_one hR0).2 h1) hb0.le
  have hx : ∀ R, s.rMax ≤ R → R ≤ g → xn ≤ 0.5 + (R - s.rMax) * (xn - 0.5) / (g - s.rMax) ∧
      0.5 + (R - s.rMax) * (xn - 0.5) / (g - s.rMax) ≤ 0.5 := by
    intro R h1 h2
    have q1 : (R - s.rMax) / (g - s.rMax) ≤ 1 := (div_le_one hgr).2 (by linarith)
    have q2 : 0 ≤ (R - s.rMax) / (g - s.rMax) := div_nonneg (by linarith) hgr.le
    have e : (R - s.rMax) * (xn - 0.5) / (g - s.rMax) = (R - s.rMax) / (g - s.rMax) * (xn - 0.5) := by ring
    rw [e]
    norm_num
    constructor <;> nlinarith
  refine ⟨hmax, ?_, ?_, ?_⟩
  · rw [hval, if_pos hg, mul_comm (g - s.rMax), mul_div_cancel_right₀ _ hgr.ne']
    rw [show (0.5 : ℝ) + (xn - 0.5) = xn by ring]
    exact h17
  · intro R h1 h2
    have hbR := hbase R h1 h2
    obtain ⟨x1, x2⟩ := hx R h1 h2
    have hxn0 : 0 ≤ xn := by
      rw [← hxe]
      exact div_nonneg (log_nonneg (by norm_num)) hlog.le
    have low : (17 : ℝ) ≤ (s.dP * b / s.rho * ((s.rMax / R) ^ b * exp (-(s.rMax / R) ^ b))) ^ xn := by
      rw [← h17]
      exact rpow_le_rpow (by linarith) hbR hxn0
    rw [hval]
    refine low.trans (rpow_le_rpow_of_exponent_le (by linarith) ?_)
    split
    · exact x1
    · norm_num; linarith
  · intro R h0 h2
    have hpos : 0 < (s.rMax / R) ^ b := rpow_pos_of_pos (by positivity) _
    have hpe : 0 < (s.rMax / R) ^ b * exp (-(s.rMax / R) ^ b) := mul_pos hpos (exp_pos _)
    refine ⟨by rw [hval]; exact rpow_pos_of_pos (mul_pos hk hpe) _, ?_⟩
    have up : (s.dP * b / s.rho * ((s.rMax / R) ^ b * exp (-(s.rMax / R) ^ b))) ^ (0.5 : ℝ) ≤ newHolland s lat g s.rMax := by
      rw [hval s.rMax, if_neg (lt_irrefl _), div_self hr.ne', one_rpow, one_mul]
      exact rpow_le_rpow (mul_pos hk hpe).le (mul_le_mul_of_nonneg_left (mul_exp_le _) hk.le) (by norm_num)
    refine le_trans ?_ up
    rw [hval]
    split
    · next h =>
      exact rpow_le_rpow_of_exponent_le (by have := hbase R h.le h2; linarith) (hx R h.le h2).2
    · exact le_rfl

/-- A storm of 50 hPa with gales out to 150 km meets the hypotheses. -/
example : newHolland ⟨1 / 20000, 5000, 30000, 1.15, 1, 0⟩ (195 / 7) 150000 150000 = 17 := by
  refine (C47_newHolland_partial ⟨1 / 20000, 5000, 30000, 1.15, 1, 0⟩ (195 / 7) 150000 1 (by norm_num) (by norm_num)
    (by norm_num) (by norm_num) (by norm_num) (by rw [abs_of_pos (by norm_num)]; norm_num) one_pos ?_).2.1
  rw [le_sqrt' (by norm_num), rpow_one]
  have h := add_one_le_exp (-(30000 / 150000) : ℝ)
  have : (289 : ℝ) ≤ 1 * 5000 / 1.15 * (30000 / 150000) * (-(30000 / 150000) + 1) := by norm_num
  norm_num at this h ⊢
  linarith

end Tcrm.Profiles
