import Verif.Model.Autoreg
import Mathlib.Probability.Distributions.Beta
import Mathlib.Probability.Moments.MGFAnalytic
import Mathlib.Probability.Moments.Variance
import Mathlib.Probability.Moments.Covariance
/-!
Moments of the logistic variate.
-/
namespace Tcrm.Autoreg
open MeasureTheory ProbabilityTheory Set

/-- The uniform distribution on the interval from 0 to 1 -/
noncomputable abbrev unit : Measure ℝ := volume.restrict (Ioo 0 1)

instance : IsProbabilityMeasure unit := ⟨by simp [unit]⟩

theorem exp_logistic {t u : ℝ} (hu : u ∈ Ioo (0 : ℝ) 1) :
    Real.exp (t * logistic u) = u ^ ((1 + t) - 1) * (1 - u) ^ ((1 - t) - 1) := by
  have h1 : 0 < u := hu.1
  have h2 : 0 < 1 - u := by linarith [hu.2]
  unfold logistic logisticvariate
  rw [Real.rpow_def_of_pos h1, Real.rpow_def_of_pos h2, ← Real.exp_add, Real.log_div h1.ne' h2.ne']
  congr 1
  ring

theorem re_beta {a b u : ℝ} (hu : u ∈ Ioo (0 : ℝ) 1) :
    ((u : ℂ) ^ ((a : ℂ) - 1) * (1 - (u : ℂ)) ^ ((b : ℂ) - 1)).re = u ^ (a - 1) * (1 - u) ^ (b - 1) := by
  have h1 : 0 < u := hu.1
  have h2 : 0 < 1 - u := by linarith [hu.2]
  rw [← Complex.ofReal_one, ← Complex.ofReal_sub, ← Complex.ofReal_sub, ← Complex.ofReal_sub,
    ← Complex.ofReal_cpow h1.le, ← Complex.ofReal_cpow h2.le, ← Complex.ofReal_mul, Complex.ofReal_re]

theorem integrable_beta {a b : ℝ} (ha : 0 < a) (hb : 0 < b) :
    IntegrableOn (fun u : ℝ => (u : ℂ) ^ ((a : ℂ) - 1) * (1 - (u : ℂ)) ^ ((b : ℂ) - 1)) (Ioo 0 1) := by
  have hc := Complex.betaIntegral_convergent (u := (a : ℂ)) (v := (b : ℂ)) (by simpa using ha) (by simpa using hb)
  rwa [intervalIntegrable_iff_integrableOn_Ioo_of_le zero_le_one] at hc

theorem integrable_exp {t : ℝ} (h1 : -1 < t) (h2 : t < 1) : Integrable (fun u => Real.exp (t * logistic u)) unit := by
  have hc := (integrable_beta (a := 1 + t) (b := 1 - t) (by linarith) (by linarith)).re
  refine IntegrableOn.congr_fun hc ?_ measurableSet_Ioo
  intro u hu
  simp only [RCLike.re_eq_complex_re]
  rw [re_beta hu, exp_logistic hu]

theorem mgf_logistic {t : ℝ} (h1 : -1 < t) (h2 : t < 1) :
    mgf logistic unit t = Real.Gamma (1 + t) * Real.Gamma (1 - t) := by
  have hb := beta_eq_betaIntegralReal (1 + t) (1 - t) (by linarith) (by linarith)
  unfold beta at hb
  rw [show (1 + t) + (1 - t) = (1 : ℝ) + 1 by ring, Real.Gamma_add_one one_ne_zero, Real.Gamma_one, mul_one, div_one] at hb
  rw [hb]
  unfold mgf Complex.betaIntegral
  rw [intervalIntegral.integral_of_le zero_le_one, integral_Ioc_eq_integral_Ioo, ← RCLike.re_eq_complex_re,
    ← integral_re (integrable_beta (by linarith) (by linarith))]
  refine setIntegral_congr_fun measurableSet_Ioo ?_
  intro u hu
  simp only [RCLike.re_eq_complex_re]
  rw [re_beta hu, exp_logistic hu]

theorem mgf_sin {t : ℝ} (h1 : -1 < t) (h2 : t < 1) : mgf logistic unit t * Real.sin (Real.pi * t) = Real.pi * t := by
  rw [mgf_logistic h1 h2]
  by_cases h0 : t = 0
  · simp [h0]
  have hp := Real.pi_pos
  have hs : Real.sin (Real.pi * t) ≠ 0 := by
    rw [Real.sin_ne_zero_iff]
    intro n hn
    have : (n : ℝ) = t := by
      have : (n : ℝ) * Real.pi = t * Real.pi := by linarith
      exact mul_right_cancel₀ hp.ne' this
    rw [← this] at h0 h1 h2
    have a1 : -1 < n := by exact_mod_cast h1
    have a2 : n < 1 := by exact_mod_cast h2
    exact h0 (by exact_mod_cast (by omega : n = 0))
  rw [add_comm, Real.Gamma_add_one h0, mul_assoc t, Real.Gamma_mul_Gamma_one_sub, mul_assoc, div_mul_cancel₀ _ hs]
  ring

theorem interior_exp {t : ℝ} (h1 : -1 < t) (h2 : t < 1) : t ∈ interior (integrableExpSet logistic unit) := by
  rw [mem_interior]
  exact ⟨Ioo (-1) 1, fun x hx => integrable_exp hx.1 hx.2, isOpen_Ioo, h1, h2⟩

/-- Moments with an exponential weight -/
noncomputable def M (n : ℕ) (t : ℝ) : ℝ := ∫ u, logistic u ^ n * Real.exp (t * logistic u) ∂unit

theorem hasDerivAt_M (n : ℕ) {t : ℝ} (h : t ∈ Ioo (-1 : ℝ) 1) : HasDerivAt (M n) (M (n + 1) t) t :=
  hasDerivAt_integral_pow_mul_exp_real (interior_exp h.1 h.2) n

theorem deriv_zero {f : ℝ → ℝ} (h : ∀ t ∈ Ioo (-1 : ℝ) 1, f t = 0) {t f' : ℝ} (ht : t ∈ Ioo (-1 : ℝ) 1)
    (hf : HasDerivAt f f' t) : f' = 0 := by
  have e : f =ᶠ[nhds t] fun _ => 0 := by
    filter_upwards [isOpen_Ioo.mem_nhds ht] with x hx using h x hx
  exact hf.unique ((hasDerivAt_const t (0 : ℝ)).congr_of_eventuallyEq e)

theorem moments : M 0 0 = 1 ∧ M 1 0 = 0 ∧ M 2 0 = Real.pi ^ 2 / 3 := by
  have hp := Real.pi_pos
  have ds : ∀ t : ℝ, HasDerivAt (fun t => Real.sin (Real.pi * t)) (Real.cos (Real.pi * t) * Real.pi) t := by
    intro t
    have h := ((hasDerivAt_id' t).const_mul Real.pi).sin
    rwa [mul_one] at h
  have dc : ∀ t : ℝ, HasDerivAt (fun t => Real.cos (Real.pi * t)) (-Real.sin (Real.pi * t) * Real.pi) t := by
    intro t
    have h := ((hasDerivAt_id' t).const_mul Real.pi).cos
    rwa [mul_one] at h
  have h0 : ∀ t ∈ Ioo (-1 : ℝ) 1, M 0 t * Real.sin (Real.pi * t) - Real.pi * t = 0 := by
    intro t ht
    have := mgf_sin ht.1 ht.2
    unfold mgf at this
    unfold M
    simp only [pow_zero, one_mul]
    linarith
  have h1 : ∀ t ∈ Ioo (-1 : ℝ) 1,
      (M 1 t * Real.sin (Real.pi * t) + M 0 t * (Real.cos (Real.pi * t) * Real.pi)) - Real.pi = 0 := by
    intro t ht
    refine deriv_zero h0 ht ?_
    have h := ((hasDerivAt_M 0 ht).mul (ds t)).sub ((hasDerivAt_id' t).const_mul Real.pi)
    rwa [mul_one] at h
  have h2 : ∀ t ∈ Ioo (-1 : ℝ) 1, (M 2 t * Real.sin (Real.pi * t) + M 1 t * (Real.cos (Real.pi * t) * Real.pi)) +
      (M 1 t * (Real.cos (Real.pi * t) * Real.pi) + M 0 t * (-Real.sin (Real.pi * t) * Real.pi * Real.pi)) = 0 := by
    intro t ht
    refine deriv_zero h1 ht ?_
    exact (((hasDerivAt_M 1 ht).mul (ds t)).add ((hasDerivAt_M 0 ht).mul ((dc t).mul_const Real.pi))).sub_const Real.pi
  have z : (0 : ℝ) ∈ Ioo (-1 : ℝ) 1 := ⟨by norm_num, by norm_num⟩
  have h3 := deriv_zero h2 z
    ((((hasDerivAt_M 2 z).mul (ds 0)).add ((hasDerivAt_M 1 z).mul ((dc 0).mul_const Real.pi))).add
      (((hasDerivAt_M 1 z).mul ((dc 0).mul_const Real.pi)).add
        ((hasDerivAt_M 0 z).mul (((ds 0).neg.mul_const Real.pi).mul_const Real.pi))))
  have e1 := h1 0 z
  have e2 := h2 0 z
  simp only [mul_zero, Real.sin_zero, Real.cos_zero, zero_mul, neg_zero, one_mul, zero_add, add_zero] at e1 e2 h3
  have m0 : M 0 0 = 1 := by
    have : (M 0 0 - 1) * Real.pi = 0 := by linarith
    rcases mul_eq_zero.1 this with h | h
    · linarith
    · exact absurd h hp.ne'
  have m1 : M 1 0 = 0 := by
    have : M 1 0 * Real.pi = 0 := by linarith
    rcases mul_eq_zero.1 this with h | h
    · exact h
    · exact absurd h hp.ne'
  refine ⟨m0, m1, ?_⟩
  rw [m0] at h3
  have : (3 * M 2 0 - Real.pi ^ 2) * Real.pi = 0 := by
    ring_nf at h3 ⊢
    linarith
  rcases mul_eq_zero.1 this with h | h
  · linarith
  · exact absurd h hp.ne'

theorem memLp_logistic : MemLp logistic 2 unit :=
  memLp_of_mem_interior_integrableExpSet (interior_exp (by norm_num) (by norm_num)) 2

theorem mean_logistic : ∫ u, logistic u ∂unit = 0 := by
  have := moments.2.1
  simpa [M] using this

theorem variance_logistic : Var[logistic; unit] = Real.pi ^ 2 / 3 := by
  rw [variance_of_integral_eq_zero memLp_logistic.1.aemeasurable mean_logistic]
  have := moments.2.2
  simpa [M] using this

end Tcrm.Autoreg
