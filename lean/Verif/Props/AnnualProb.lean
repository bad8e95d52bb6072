import Verif.Model.AnnualProb
import Mathlib.Analysis.SpecialFunctions.Log.Basic
import Mathlib.Probability.Distributions.Poisson.Basic
import Mathlib.Tactic.Linarith
import Mathlib.Tactic.FieldSimp
import Mathlib.Tactic.Positivity
/-!
C218: the annual probability of a return period.
-/
namespace Tcrm.AnnualProb
open MeasureTheory ProbabilityTheory

/-- C218: the probability for a return period is that of one event or more in a year, when the events come at random with
one in that period on average (a Poisson distribution). -/
theorem C218_poisson {T : ℝ} (hT : 0 < T) :
    ∃ p, probability T = .ok p ∧ poissonMeasure (1 / T).toNNReal {k | 1 ≤ k} = ENNReal.ofReal p := by
  refine ⟨_, if_neg hT.ne', ?_⟩
  have e : {k : ℕ | 1 ≤ k} = {0}ᶜ := by ext k; simp; omega
  rw [e, prob_compl_eq_one_sub (measurableSet_singleton 0), poissonMeasure_singleton, Real.coe_toNNReal _ (by positivity)]
  rw [pow_zero, Nat.factorial_zero, Nat.cast_one, div_one, mul_one, ← ENNReal.ofReal_one,
    ← ENNReal.ofReal_sub _ (Real.exp_pos _).le, neg_div]

/-- C218: it is between 0 and 1, and between the parts 1 of T + 1 and 1 of T. -/
theorem C218_bounds {T : ℝ} (hT : 0 < T) :
    ∃ p, probability T = .ok p ∧ 0 < p ∧ p < 1 ∧ 1 / (T + 1) < p ∧ p < 1 / T := by
  refine ⟨_, if_neg hT.ne', ?_⟩
  have h1 : -1 / T + 1 < Real.exp (-1 / T) := Real.add_one_lt_exp (by rw [neg_div]; exact neg_ne_zero.2 (one_div_pos.2 hT).ne')
  have h2 : 1 / T + 1 < Real.exp (1 / T) := Real.add_one_lt_exp (one_div_pos.2 hT).ne'
  have h3 : Real.exp (-1 / T) < T / (T + 1) := by
    rw [neg_div, Real.exp_neg, inv_lt_comm₀ (Real.exp_pos _) (by positivity), inv_div]
    calc (T + 1) / T = 1 / T + 1 := by field_simp; ring
      _ < _ := h2
  have h4 : T / (T + 1) = 1 - 1 / (T + 1) := by field_simp; ring
  have h5 : -1 / T = -(1 / T) := by rw [neg_div]
  have h6 : 0 < 1 / (T + 1) := by positivity
  have h7 := Real.exp_pos (-1 / T)
  refine ⟨?_, ?_, ?_, ?_⟩ <;> linarith

/-- C218: the longer the return period, the smaller the probability. -/
theorem C218_decreasing {S T p q : ℝ} (hS : 0 < S) (hT : 0 < T) (hp : probability S = .ok p) (hq : probability T = .ok q) :
    q < p ↔ S < T := by
  rw [probability, if_neg hS.ne', Except.ok.injEq] at hp
  rw [probability, if_neg hT.ne', Except.ok.injEq] at hq
  rw [← hp, ← hq, sub_lt_sub_iff_left, Real.exp_lt_exp, neg_div, neg_div, neg_lt_neg_iff, one_div_lt_one_div hT hS]

/-- C218: no event in each of `n` years is no event in the `n` years together. -/
theorem C218_years {T p q : ℝ} {n : ℕ} (hn : 0 < n) (hT : 0 < T) (hp : probability T = .ok p)
    (hq : probability (T / n) = .ok q) : (1 - p) ^ n = 1 - q := by
  have hn' : (0 : ℝ) < n := by exact_mod_cast hn
  rw [probability, if_neg hT.ne', Except.ok.injEq] at hp
  rw [probability, if_neg (div_pos hT hn').ne', Except.ok.injEq] at hq
  rw [← hp, ← hq, sub_sub_cancel, sub_sub_cancel, ← Real.exp_nat_mul]
  congr 1
  field_simp

/-- C218: the return period can be found again from the probability. -/
theorem C218_inverse {T p : ℝ} (hp : probability T = .ok p) : T = -1 / Real.log (1 - p) := by
  by_cases hT : T = 0
  · rw [probability, if_pos hT] at hp; cases hp
  rw [probability, if_neg hT, Except.ok.injEq] at hp
  rw [← hp, sub_sub_cancel, Real.log_exp]
  field_simp

/-- C218: a return period of 0 is refused, and no other; a negative one is not refused, and its result is no probability. -/
theorem C218_refused (T : ℝ) :
    (probability T = .error .zeroDivision ↔ T = 0) ∧ (T < 0 → ∃ p, probability T = .ok p ∧ p < 0) := by
  unfold probability
  refine ⟨by split_ifs with h <;> simp [h], fun h => ?_⟩
  refine ⟨_, if_neg h.ne, ?_⟩
  have : 0 < -1 / T := div_pos_of_neg_of_neg (by norm_num) h
  have := Real.one_lt_exp_iff.2 this
  linarith

/-- The event of 100 years: less than one in 100, more than one in 101 -/
example : ∃ p, probability 100 = .ok p ∧ 1 / 101 < p ∧ p < 1 / 100 := by
  obtain ⟨p, h, -, -, h1, h2⟩ := C218_bounds (T := 100) (by norm_num)
  norm_num at h1 h2 ⊢
  exact ⟨p, h, h1, h2⟩

end Tcrm.AnnualProb
