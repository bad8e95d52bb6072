import Mathlib.Probability.CDF
import Verif.Model.Variates
import Verif.Spec.Variates
import Verif.Props.Draws
/-!
C202: random variates have the distribution their name says.
-/
namespace Tcrm.Variates
open Tcrm.Autoreg MeasureTheory ProbabilityTheory Filter

variable {Ω : Type} [MeasurableSpace Ω] {P : Measure Ω} {U : ℕ → Ω → ℝ}

/-- The variate made of number `n` is defined and at most `x`. -/
def Spec.atMost (f : ℝ → Except Err ℝ) (U : ℕ → Ω → ℝ) (n : ℕ) (x : ℝ) : Set Ω := {ω | ∃ v, f (U n ω) = .ok v ∧ v ≤ x}

theorem atMost_of (hU : Spec.Uniform P U) {f : ℝ → Except Err ℝ} {x p : ℝ} (h1 : p ≤ 1)
    (h : ∀ u, 0 < u → u < 1 → ((∃ v, f u = .ok v ∧ v ≤ x) ↔ u ≤ p)) (n : ℕ) :
    P (Spec.atMost f U n x) = ENNReal.ofReal p := by
  have e : P (Spec.atMost f U n x) = P (U n ⁻¹' Set.Ioc 0 p) := by
    refine measure_congr ?_
    filter_upwards [Draws.Spec.Uniform.ae hU n] with ω hω
    refine propext ?_
    exact ((h _ hω.1 hω.2).trans ⟨fun a => ⟨hω.1, a⟩, fun a => a.2⟩)
  rw [e, Draws.Spec.Uniform.interval hU n le_rfl h1, sub_zero]

theorem logistic_ok {mu sigma u : ℝ} (hs : 0 < sigma) (h0 : 0 < u) (h1 : u < 1) :
    logisticvariate mu sigma u = .ok (mu + sigma * Real.log (u / (1 - u))) := by
  have : 0 < 1 - u := by linarith
  have h2 : 0 < u / (1 - u) := by positivity
  unfold logisticvariate
  rw [if_neg (not_le.2 hs), if_neg this.ne', if_neg (not_le.2 h2)]

/-- C202: `logisticvariate(mu, sigma)` has the logistic distribution. -/
theorem C202_logistic (hU : Spec.Uniform P U) {mu sigma : ℝ} (hs : 0 < sigma) (n : ℕ) (x : ℝ) :
    P (Spec.atMost (logisticvariate mu sigma) U n x) = ENNReal.ofReal (Spec.logistic mu sigma x) := by
  have hE := Real.exp_pos (-(x - mu) / sigma)
  refine atMost_of hU ?_ ?_ n
  · unfold Spec.logistic
    rw [div_le_one (by positivity)]; linarith
  · intro u h0 h1
    have hu : 0 < 1 - u := by linarith
    have h2 : 0 < u / (1 - u) := by positivity
    rw [logistic_ok hs h0 h1]
    simp only [Except.ok.injEq, exists_eq_left']
    have e1 : mu + sigma * Real.log (u / (1 - u)) ≤ x ↔ Real.log (u / (1 - u)) ≤ (x - mu) / sigma := by
      rw [le_div_iff₀ hs]; constructor <;> intro h <;> linarith
    rw [e1, Real.log_le_iff_le_exp h2, div_le_iff₀ hu]
    unfold Spec.logistic
    rw [le_div_iff₀ (by positivity), neg_div, Real.exp_neg]
    have hp := Real.exp_pos ((x - mu) / sigma)
    constructor
    · intro h
      have : u * (Real.exp ((x - mu) / sigma))⁻¹ ≤ 1 - u := by
        rw [← div_eq_mul_inv, div_le_iff₀ hp]; linarith
      linarith
    · intro h
      have : u * (Real.exp ((x - mu) / sigma))⁻¹ ≤ 1 - u := by linarith
      rw [← div_eq_mul_inv, div_le_iff₀ hp] at this
      linarith

/-- C202: `lognormvariate(xi, mu, sigma)` has the lognormal distribution, moved by `mu`. -/
theorem C202_lognormal (hU : Spec.Uniform P U) {q : ℝ → ℝ} (hq : Spec.Quantile q) {xi mu sigma : ℝ} (hx : 0 < xi) (hs : 0 < sigma)
    (n : ℕ) (x : ℝ) :
    P (Spec.atMost (lognormvariate q xi mu sigma) U n x) = ENNReal.ofReal (Spec.lognormal xi mu sigma x) := by
  refine atMost_of hU ?_ ?_ n
  · unfold Spec.lognormal
    split
    · exact zero_le_one
    · exact measureReal_le_one
  · intro u h0 h1
    unfold lognormvariate
    rw [if_neg (not_le.2 hx), if_neg (not_le.2 hs), if_neg h0.ne']
    simp only [Except.ok.injEq, exists_eq_left']
    unfold Spec.lognormal
    have hp := Real.exp_pos (xi * q u)
    split
    · next h =>
      have : 0 < sigma * Real.exp (xi * q u) := by positivity
      constructor <;> intro h' <;> linarith
    · next h =>
      have hpos : 0 < (x - mu) / sigma := by
        have : 0 < x - mu := by linarith
        positivity
      rw [← hq u h0 h1, le_div_iff₀ hx, Real.le_log_iff_exp_le hpos, le_div_iff₀ hs, mul_comm (q u)]
      constructor <;> intro h' <;> linarith

/-- C202: of the numbers the generator can deliver just one, zero, raises an exception in `logisticvariate` with a positive scale:
the variate is not always defined. -/
theorem C202_zero_fails {mu sigma u : ℝ} (hs : 0 < sigma) (h0 : 0 ≤ u) (h1 : u < 1) :
    (logisticvariate mu sigma u = .error .valueError ↔ u = 0) ∧ ((∃ v, logisticvariate mu sigma u = .ok v) ↔ 0 < u) := by
  rcases h0.eq_or_lt with rfl | h0
  · simp [logisticvariate, not_le.2 hs]
  · rw [logistic_ok hs h0 h1]
    simp [h0, h0.ne']

/-- C202: what the check of the parameters refuses -/
theorem C202_refused {q : ℝ → ℝ} {xi mu sigma u : ℝ} (h0 : 0 < u) (h1 : u < 1) :
    (logisticvariate mu sigma u = .error .valueError ↔ sigma ≤ 0) ∧
    (lognormvariate q xi mu sigma u = .error .valueError ↔ xi ≤ 0 ∨ sigma ≤ 0) := by
  constructor
  · rcases le_or_gt sigma 0 with h | h
    · simp [logisticvariate, h]
    · rw [logistic_ok h h0 h1]; simp [h]
  · unfold lognormvariate
    rw [if_neg h0.ne']
    split
    · simp [*]
    · split <;> simp [*]

/-- The quantile function exists. -/
example : ∃ q, Spec.Quantile q := by
  have hPhi : ∀ z, Spec.Phi z = cdf (gaussianReal 0 1) z := fun z => (cdf_eq_real _ z).symm
  refine ⟨fun u => sInf {z | u ≤ Spec.Phi z}, fun u h0 h1 z => ?_⟩
  have hbdd : BddBelow {z | u ≤ Spec.Phi z} := by
    have := (tendsto_cdf_atBot (gaussianReal 0 1)).eventually (gt_mem_nhds h0)
    obtain ⟨a, ha⟩ := this.exists
    refine ⟨a, fun w hw => ?_⟩
    by_contra hlt
    push Not at hlt
    have := monotone_cdf (gaussianReal 0 1) hlt.le
    have hw' : u ≤ cdf (gaussianReal 0 1) w := by rw [← hPhi]; exact hw
    linarith
  have hne : {z | u ≤ Spec.Phi z}.Nonempty := by
    have := (tendsto_cdf_atTop (gaussianReal 0 1)).eventually (lt_mem_nhds h1)
    obtain ⟨a, ha⟩ := this.exists
    exact ⟨a, by rw [Set.mem_setOf_eq, hPhi]; exact ha.le⟩
  constructor
  · intro h
    have hinf : u ≤ cdf (gaussianReal 0 1) (sInf {z | u ≤ Spec.Phi z}) := by
      have hr := (cdf (gaussianReal 0 1)).right_continuous (sInf {z | u ≤ Spec.Phi z})
      have ht := (hr.mono Set.Ioi_subset_Ici_self).tendsto
      refine ge_of_tendsto ht ?_
      filter_upwards [self_mem_nhdsWithin] with w hw
      obtain ⟨v, hv, hvw⟩ := exists_lt_of_csInf_lt hne hw
      have hv' : u ≤ cdf (gaussianReal 0 1) v := by rw [← hPhi]; exact hv
      exact hv'.trans (monotone_cdf _ hvw.le)
    rw [hPhi]
    exact hinf.trans (monotone_cdf _ h)
  · intro h
    exact csInf_le hbdd h

end Tcrm.Variates
