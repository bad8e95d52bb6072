import Mathlib.Analysis.MellinTransform
import Mathlib.NumberTheory.Harmonic.GammaDeriv
import Mathlib.NumberTheory.Harmonic.Bounds
import Mathlib.Analysis.SpecialFunctions.Gamma.Deriv
import Mathlib.Analysis.Complex.ExponentialBounds
/-!
The integral of `log t * exp (-r t)` and a numerical enclosure of Euler's constant, used for the L-moments
of the Gumbel distribution.
-/
namespace Tcrm.Evd

open MeasureTheory Set Filter Asymptotics Topology

theorem log_exp_integral {r : ℝ} (hr : 0 < r) :
    IntegrableOn (fun t : ℝ => Real.log t * Real.exp (-(r * t))) (Ioi 0) ∧
    ∫ t in Ioi (0 : ℝ), Real.log t * Real.exp (-(r * t)) = -(Real.eulerMascheroniConstant + Real.log r) / r := by
  let f : ℝ → ℂ := fun t => ((Real.exp (-(r * t)) : ℝ) : ℂ)
  have hc : Continuous f := by
    have : Continuous fun t : ℝ => Real.exp (-(r * t)) := by fun_prop
    exact Complex.continuous_ofReal.comp this
  have key := mellin_hasDerivAt_of_isBigO_rpow (a := 2) (b := 0) (f := f) (s := 1)
    (hc.locallyIntegrable.locallyIntegrableOn _) ?_ (by norm_num) ?_ (by norm_num)
  · obtain ⟨hconv, hder⟩ := key
    have hfun : ∀ t ∈ Ioi (0 : ℝ), (t : ℂ) ^ ((1 : ℂ) - 1) • (Real.log t • f t) =
        ((Real.log t * Real.exp (-(r * t)) : ℝ) : ℂ) := by
      intro t ht
      simp [f]
    have hint : IntegrableOn (fun t : ℝ => Real.log t * Real.exp (-(r * t))) (Ioi 0) := by
      have h0 : IntegrableOn (fun t : ℝ => (t : ℂ) ^ ((1 : ℂ) - 1) • (Real.log t • f t)) (Ioi 0) := hconv
      have h1 := h0.congr_fun hfun measurableSet_Ioi
      have h2 := Integrable.re h1
      exact h2
    refine ⟨hint, ?_⟩
    have hval : mellin (fun t => Real.log t • f t) 1 =
        ((∫ t in Ioi (0 : ℝ), Real.log t * Real.exp (-(r * t)) : ℝ) : ℂ) := by
      unfold mellin
      rw [setIntegral_congr_fun measurableSet_Ioi hfun]
      exact integral_ofReal
    have hmel : mellin f =ᶠ[𝓝 1] fun s => (1 / (r : ℂ)) ^ s * Complex.Gamma s := by
      have hopen : {s : ℂ | 0 < s.re} ∈ 𝓝 (1 : ℂ) :=
        (isOpen_lt continuous_const Complex.continuous_re).mem_nhds (by simp)
      filter_upwards [hopen] with s hs
      have h1 := Complex.integral_cpow_mul_exp_neg_mul_Ioi (a := s) (r := r) hs (by simpa using hr)
      rw [← h1]
      unfold mellin
      refine setIntegral_congr_fun measurableSet_Ioi fun t _ => ?_
      simp [f, Complex.ofReal_exp]
    have hd1 : HasDerivAt (fun s : ℂ => (1 / (r : ℂ)) ^ s * Complex.Gamma s)
        ((1 / (r : ℂ)) ^ (1 : ℂ) * Complex.log (1 / (r : ℂ)) * 1 * Complex.Gamma 1 +
          (1 / (r : ℂ)) ^ (1 : ℂ) * (-(Real.eulerMascheroniConstant : ℂ))) 1 := by
      have hne : (1 / (r : ℂ)) ≠ 0 := by
        simpa using hr.ne'
      have hp : HasDerivAt (fun s : ℂ => (1 / (r : ℂ)) ^ s)
          ((1 / (r : ℂ)) ^ (1 : ℂ) * Complex.log (1 / (r : ℂ)) * 1) 1 :=
        (hasDerivAt_id (1 : ℂ)).const_cpow (Or.inl hne)
      exact hp.mul Complex.hasDerivAt_Gamma_one
    have heq := (hder.congr_of_eventuallyEq hmel.symm).unique hd1
    rw [hval] at heq
    have hlog : Complex.log (1 / (r : ℂ)) = ((-Real.log r : ℝ) : ℂ) := by
      rw [show (1 / (r : ℂ)) = ((1 / r : ℝ) : ℂ) by push_cast; rfl, ← Complex.ofReal_log (by positivity)]
      congr 1
      rw [one_div, Real.log_inv]
    rw [hlog, Complex.cpow_one, Complex.Gamma_one] at heq
    have h3 : (∫ t in Ioi (0 : ℝ), Real.log t * Real.exp (-(r * t))) =
        1 / r * -Real.log r * 1 * 1 + 1 / r * (-Real.eulerMascheroniConstant) := by
      exact_mod_cast heq
    rw [h3]
    field_simp
    ring
  · have h := isLittleO_exp_neg_mul_rpow_atTop hr (-2)
    have h' := h.isBigO
    refine IsBigO.trans ?_ h'
    refine IsBigO.of_bound 1 (Eventually.of_forall fun t => ?_)
    simp only [f, Complex.norm_real, one_mul, neg_mul]
    exact le_rfl
  · refine IsBigO.of_bound 1 ?_
    filter_upwards [self_mem_nhdsWithin] with t ht
    have ht : 0 < t := ht
    simp only [f, Complex.norm_real, neg_zero, Real.rpow_zero, norm_one, mul_one, Real.norm_eq_abs, abs_of_pos (Real.exp_pos _)]
    rw [Real.exp_le_one_iff]
    have := mul_pos hr ht
    linarith

/-- Euler's constant to three digits. -/
theorem euler_bounds : (0.5767 : ℝ) < Real.eulerMascheroniConstant ∧ Real.eulerMascheroniConstant < 0.5778 := by
  have h1 := Real.eulerMascheroniSeq_lt_eulerMascheroniConstant 1023
  have h2 := Real.eulerMascheroniConstant_lt_eulerMascheroniSeq' 1024
  unfold Real.eulerMascheroniSeq at h1
  unfold Real.eulerMascheroniSeq' at h2
  rw [if_neg (by norm_num)] at h2
  have hl : Real.log (1024 : ℝ) = 10 * Real.log 2 := by
    rw [show (1024 : ℝ) = 2 ^ 10 by norm_num, Real.log_pow]; norm_num
  have e1 : ((1023 : ℕ) : ℝ) + 1 = 1024 := by norm_num
  have e2 : ((1024 : ℕ) : ℝ) = 1024 := by norm_num
  rw [e1, hl] at h1
  rw [e2, hl] at h2
  have b1 := Real.log_two_gt_d9
  have b2 := Real.log_two_lt_d9
  have c1 : (7.50819 : ℚ) < harmonic 1023 := by decide +kernel
  have c2 : harmonic 1024 < (7.50918 : ℚ) := by decide +kernel
  generalize harmonic 1023 = a at *
  generalize harmonic 1024 = b at *
  have c1' : ((7.50819 : ℚ) : ℝ) < (a : ℝ) := by exact_mod_cast c1
  have c2' : (b : ℝ) < ((7.50918 : ℚ) : ℝ) := by exact_mod_cast c2
  norm_num at c1' c2'
  constructor <;> linarith

end Tcrm.Evd
