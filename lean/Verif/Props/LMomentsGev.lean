import Verif.Props.HazardRun
import Verif.Spec.LMomentsGev
import Verif.Lemmas.GevSkew
import Verif.Lemmas.LogIntegral
import Mathlib.MeasureTheory.Function.JacobianOneDim
import Mathlib.Analysis.SpecialFunctions.Gaussian.GaussianIntegral
import Mathlib.Analysis.SpecialFunctions.Gamma.Basic
/-!
C58: the extreme value distribution fitted to a record has the mean and the L-scale of the record. C148: its
L-skewness is that of the record to within 0.005.
-/
namespace Tcrm.Evd

open MeasureTheory Set

/-- `exp (-t)` maps the positive numbers onto the numbers between 0 and 1. -/
theorem image_exp_neg : (fun t : ℝ => Real.exp (-t)) '' Ioi 0 = Ioo 0 1 := by
  ext u
  constructor
  · rintro ⟨t, ht, rfl⟩
    exact ⟨Real.exp_pos _, by rw [Real.exp_lt_one_iff]; simpa using ht⟩
  · rintro ⟨h0, h1⟩
    refine ⟨-Real.log u, ?_, ?_⟩
    · have := Real.log_neg h0 h1
      simp only [mem_Ioi]; linarith
    · simp only [neg_neg]; exact Real.exp_log h0

theorem log_power_subst (k r : ℝ) (t : ℝ) (ht : t ∈ Ioi (0 : ℝ)) :
    |-Real.exp (-t)| • ((-Real.log (Real.exp (-t))) ^ k * Real.exp (-t) ^ r) = t ^ k * Real.exp (-((r + 1) * t)) := by
  rw [abs_neg, abs_of_pos (Real.exp_pos _), Real.log_exp, neg_neg, smul_eq_mul, ← Real.exp_mul]
  rw [mul_left_comm, ← Real.exp_add]
  congr 2
  ring

theorem deriv_exp_neg (t : ℝ) (_ : t ∈ Ioi (0 : ℝ)) :
    HasDerivWithinAt (fun t : ℝ => Real.exp (-t)) (-Real.exp (-t)) (Ioi 0) t := by
  have h : HasDerivAt (fun t : ℝ => Real.exp (-t)) (Real.exp (-t) * -1) t := ((hasDerivAt_id' t).neg).exp
  exact (h.congr_deriv (by ring)).hasDerivWithinAt

theorem inj_exp_neg : InjOn (fun t : ℝ => Real.exp (-t)) (Ioi 0) := by
  intro a _ b _ h
  have := Real.exp_injective h
  linarith

/-- The integral of powers of the logarithm. -/
theorem log_power_integral (k r : ℝ) (hk : -1 < k) (hr : 0 ≤ r) :
    IntervalIntegrable (fun u : ℝ => (-Real.log u) ^ k * u ^ r) volume 0 1 ∧
    ∫ u in (0 : ℝ)..1, (-Real.log u) ^ k * u ^ r = Real.Gamma (1 + k) / (r + 1) ^ (1 + k) := by
  have hr1 : 0 < r + 1 := by linarith
  constructor
  · rw [intervalIntegrable_iff_integrableOn_Ioo_of_le zero_le_one, ← image_exp_neg,
      integrableOn_image_iff_integrableOn_abs_deriv_smul measurableSet_Ioi deriv_exp_neg inj_exp_neg]
    have := integrableOn_rpow_mul_exp_neg_mul_rpow (p := 1) (s := k) (b := r + 1) hk one_pos hr1
    refine this.congr_fun (fun t ht => ?_) measurableSet_Ioi
    simp only
    rw [log_power_subst k r t ht, Real.rpow_one, neg_mul]
  · rw [intervalIntegral.integral_of_le zero_le_one, integral_Ioc_eq_integral_Ioo, ← image_exp_neg,
      integral_image_eq_integral_abs_deriv_smul measurableSet_Ioi deriv_exp_neg inj_exp_neg]
    rw [setIntegral_congr_fun measurableSet_Ioi (log_power_subst k r)]
    have := Real.integral_rpow_mul_exp_neg_mul_Ioi (a := 1 + k) (r := r + 1) (by linarith) hr1
    rw [show 1 + k - 1 = k by ring] at this
    rw [this, Real.div_rpow zero_le_one hr1.le, Real.one_rpow]
    ring

theorem gev_integral (loc scale k : ℝ) (hk0 : k ≠ 0) (hk : -1 < k) (a b c : ℝ) :
    ∫ u in (0 : ℝ)..1, gevQuantile loc scale k u * (a + b * u + c * u ^ 2) =
      (loc + scale / k) * (a + b / 2 + c / 3) -
        scale / k * Real.Gamma (1 + k) * (a + b / 2 ^ (1 + k) + c / 3 ^ (1 + k)) := by
  have e : ∀ u : ℝ, gevQuantile loc scale k u * (a + b * u + c * u ^ 2) =
      ((loc + scale / k) * a + (loc + scale / k) * b * u + (loc + scale / k) * c * u ^ 2) -
        (scale / k * a * ((-Real.log u) ^ k * u ^ (0 : ℝ)) + scale / k * b * ((-Real.log u) ^ k * u ^ (1 : ℝ)) +
          scale / k * c * ((-Real.log u) ^ k * u ^ (2 : ℝ))) := by
    intro u
    unfold gevQuantile
    rw [if_neg hk0, Real.rpow_zero, Real.rpow_one, Real.rpow_two]
    ring
  simp only [e]
  obtain ⟨i0, v0⟩ := log_power_integral k 0 hk le_rfl
  obtain ⟨i1, v1⟩ := log_power_integral k 1 hk zero_le_one
  obtain ⟨i2, v2⟩ := log_power_integral k 2 hk zero_le_two
  have j0 := i0.const_mul (scale / k * a)
  have j1 := i1.const_mul (scale / k * b)
  have j2 := i2.const_mul (scale / k * c)
  have cc : ∀ f : ℝ → ℝ, Continuous f → IntervalIntegrable f volume 0 1 := fun f hf => hf.intervalIntegrable 0 1
  rw [intervalIntegral.integral_sub (cc _ (by fun_prop)) ((j0.add j1).add j2),
    intervalIntegral.integral_add (j0.add j1) j2, intervalIntegral.integral_add j0 j1,
    intervalIntegral.integral_const_mul, intervalIntegral.integral_const_mul, intervalIntegral.integral_const_mul,
    v0, v1, v2, intervalIntegral.integral_add (cc _ (by fun_prop)) (cc _ (by fun_prop)),
    intervalIntegral.integral_add (cc _ (by fun_prop)) (cc _ (by fun_prop)),
    intervalIntegral.integral_const, intervalIntegral.integral_const_mul,
    intervalIntegral.integral_const_mul, integral_id, integral_pow]
  norm_num
  ring

/-- The first three L-moments of an extreme value distribution. -/
theorem gev_moments (loc scale k : ℝ) (hk0 : k ≠ 0) (hk : -1 < k) :
    L1 (gevQuantile loc scale k) = loc + scale * (1 - Real.Gamma (1 + k)) / k ∧
    L2 (gevQuantile loc scale k) = scale / k * Real.Gamma (1 + k) * (1 - 2 ^ (-k)) ∧
    L3 (gevQuantile loc scale k) = scale / k * Real.Gamma (1 + k) * (2 * (1 - 3 ^ (-k)) - 3 * (1 - 2 ^ (-k))) := by
  have p2 : (2 : ℝ) ^ (1 + k) = 2 / 2 ^ (-k) := by
    rw [Real.rpow_add two_pos, Real.rpow_one, Real.rpow_neg two_pos.le, div_inv_eq_mul]
  have p3 : (3 : ℝ) ^ (1 + k) = 3 / 3 ^ (-k) := by
    rw [Real.rpow_add three_pos, Real.rpow_one, Real.rpow_neg three_pos.le, div_inv_eq_mul]
  have q2 : (2 : ℝ) ^ (-k) ≠ 0 := (Real.rpow_pos_of_pos two_pos _).ne'
  have q3 : (3 : ℝ) ^ (-k) ≠ 0 := (Real.rpow_pos_of_pos three_pos _).ne'
  refine ⟨?_, ?_, ?_⟩
  · have := gev_integral loc scale k hk0 hk 1 0 0
    unfold L1
    simp only [zero_mul, add_zero, mul_one] at this
    rw [this]
    ring
  · have := gev_integral loc scale k hk0 hk (-1) 2 0
    unfold L2
    have e : ∀ u : ℝ, gevQuantile loc scale k u * (2 * u - 1) =
        gevQuantile loc scale k u * (-1 + 2 * u + 0 * u ^ 2) := fun u => by ring
    simp only [e]
    rw [this, p2]
    field_simp
    ring
  · have := gev_integral loc scale k hk0 hk 1 (-6) 6
    unfold L3
    have e : ∀ u : ℝ, gevQuantile loc scale k u * (6 * u ^ 2 - 6 * u + 1) =
        gevQuantile loc scale k u * (1 + -6 * u + 6 * u ^ 2) := fun u => by ring
    simp only [e]
    rw [this, p2, p3]
    field_simp
    ring

/-! ### Shape 0 -/

theorem log_log_subst (r : ℝ) (t : ℝ) (_ : t ∈ Ioi (0 : ℝ)) :
    |-Real.exp (-t)| • (Real.log (-Real.log (Real.exp (-t))) * Real.exp (-t) ^ r) =
      Real.log t * Real.exp (-((r + 1) * t)) := by
  rw [abs_neg, abs_of_pos (Real.exp_pos _), Real.log_exp, neg_neg, smul_eq_mul, ← Real.exp_mul]
  rw [mul_left_comm, ← Real.exp_add]
  congr 2
  ring

theorem log_log_integral (r : ℝ) (hr : 0 ≤ r) :
    IntervalIntegrable (fun u : ℝ => Real.log (-Real.log u) * u ^ r) volume 0 1 ∧
    ∫ u in (0 : ℝ)..1, Real.log (-Real.log u) * u ^ r =
      -(Real.eulerMascheroniConstant + Real.log (r + 1)) / (r + 1) := by
  have hr1 : 0 < r + 1 := by linarith
  obtain ⟨h1, h2⟩ := log_exp_integral hr1
  constructor
  · rw [intervalIntegrable_iff_integrableOn_Ioo_of_le zero_le_one, ← image_exp_neg,
      integrableOn_image_iff_integrableOn_abs_deriv_smul measurableSet_Ioi deriv_exp_neg inj_exp_neg]
    exact h1.congr_fun (fun t ht => (log_log_subst r t ht).symm) measurableSet_Ioi
  · rw [intervalIntegral.integral_of_le zero_le_one, integral_Ioc_eq_integral_Ioo, ← image_exp_neg,
      integral_image_eq_integral_abs_deriv_smul measurableSet_Ioi deriv_exp_neg inj_exp_neg]
    rw [setIntegral_congr_fun measurableSet_Ioi (log_log_subst r), h2]

theorem gumbel_integral (loc scale : ℝ) (a b c : ℝ) :
    ∫ u in (0 : ℝ)..1, gevQuantile loc scale 0 u * (a + b * u + c * u ^ 2) =
      loc * (a + b / 2 + c / 3) + scale * (a * Real.eulerMascheroniConstant +
        b * ((Real.eulerMascheroniConstant + Real.log 2) / 2) +
        c * ((Real.eulerMascheroniConstant + Real.log 3) / 3)) := by
  have e : ∀ u : ℝ, gevQuantile loc scale 0 u * (a + b * u + c * u ^ 2) =
      (loc * a + loc * b * u + loc * c * u ^ 2) -
        (scale * a * (Real.log (-Real.log u) * u ^ (0 : ℝ)) + scale * b * (Real.log (-Real.log u) * u ^ (1 : ℝ)) +
          scale * c * (Real.log (-Real.log u) * u ^ (2 : ℝ))) := by
    intro u
    unfold gevQuantile
    rw [if_pos rfl, Real.rpow_zero, Real.rpow_one, Real.rpow_two]
    ring
  simp only [e]
  obtain ⟨i0, v0⟩ := log_log_integral 0 le_rfl
  obtain ⟨i1, v1⟩ := log_log_integral 1 zero_le_one
  obtain ⟨i2, v2⟩ := log_log_integral 2 zero_le_two
  have j0 := i0.const_mul (scale * a)
  have j1 := i1.const_mul (scale * b)
  have j2 := i2.const_mul (scale * c)
  have cc : ∀ f : ℝ → ℝ, Continuous f → IntervalIntegrable f volume 0 1 := fun f hf => hf.intervalIntegrable 0 1
  rw [intervalIntegral.integral_sub (cc _ (by fun_prop)) ((j0.add j1).add j2),
    intervalIntegral.integral_add (j0.add j1) j2, intervalIntegral.integral_add j0 j1,
    intervalIntegral.integral_const_mul, intervalIntegral.integral_const_mul, intervalIntegral.integral_const_mul,
    v0, v1, v2, intervalIntegral.integral_add (cc _ (by fun_prop)) (cc _ (by fun_prop)),
    intervalIntegral.integral_add (cc _ (by fun_prop)) (cc _ (by fun_prop)),
    intervalIntegral.integral_const, intervalIntegral.integral_const_mul,
    intervalIntegral.integral_const_mul, integral_id, integral_pow]
  norm_num
  ring

/-- The first three L-moments of the Gumbel distribution. -/
theorem gumbel_moments (loc scale : ℝ) :
    L1 (gevQuantile loc scale 0) = loc + scale * Real.eulerMascheroniConstant ∧
    L2 (gevQuantile loc scale 0) = scale * Real.log 2 ∧
    L3 (gevQuantile loc scale 0) = scale * (2 * Real.log 3 - 3 * Real.log 2) := by
  refine ⟨?_, ?_, ?_⟩
  · have := gumbel_integral loc scale 1 0 0
    unfold L1
    simp only [zero_mul, add_zero, mul_one] at this
    rw [this]
    ring
  · have := gumbel_integral loc scale (-1) 2 0
    unfold L2
    have e : ∀ u : ℝ, gevQuantile loc scale 0 u * (2 * u - 1) =
        gevQuantile loc scale 0 u * (-1 + 2 * u + 0 * u ^ 2) := fun u => by ring
    simp only [e]
    rw [this]
    ring
  · have := gumbel_integral loc scale 1 (-6) 6
    unfold L3
    have e : ∀ u : ℝ, gevQuantile loc scale 0 u * (6 * u ^ 2 - 6 * u + 1) =
        gevQuantile loc scale 0 u * (1 + -6 * u + 6 * u ^ 2) := fun u => by ring
    simp only [e]
    rw [this]
    ring

/-- C58: the quantile function and the distribution function are inverse to each other. -/
theorem C58_quantile {loc scale k u : ℝ} (hs : scale ≠ 0) (hk : k ≠ 0) (h0 : 0 < u) (h1 : u < 1) :
    HazardRun.gevDistribution loc scale k (gevQuantile loc scale k u) = u := by
  unfold HazardRun.gevDistribution gevQuantile
  rw [if_neg hk]
  have hl : 0 < -Real.log u := by have := Real.log_neg h0 h1; linarith
  have e : 1 - k * (loc + scale * (1 - (-Real.log u) ^ k) / k - loc) / scale = (-Real.log u) ^ k := by
    field_simp; ring
  rw [e, ← Real.rpow_mul hl.le, mul_one_div_cancel hk, Real.rpow_one, neg_neg, Real.exp_log h0]

/-- C58: the distribution with the returned parameters has the mean and the second L-moment it was fitted
to, both as integrals of its quantile function, and its L-skewness is a function of the shape. -/
theorem C58_distribution {l1 l2 t3 loc scale k : ℝ} (h : pelgev l1 l2 t3 = (loc, scale, k)) (hk : k ≠ 0)
    (hk1 : -1 < k) :
    L1 (gevQuantile loc scale k) = l1 ∧ L2 (gevQuantile loc scale k) = l2 ∧
    L3 (gevQuantile loc scale k) = l2 * (2 * ((1 - 3 ^ (-k)) / (1 - 2 ^ (-k))) - 3) := by
  have hr := C58_moments_reproduced (l1 := l1) (l2 := l2) (t3 := t3) (by rw [h]; exact hk) (by rw [h]; exact hk1)
  obtain ⟨m1, m2, m3⟩ := gev_moments loc scale k hk hk1
  rw [h] at hr
  simp only [gevL1, gevL2] at hr
  have e2 : L2 (gevQuantile loc scale k) = l2 := by rw [m2, ← hr.2]; ring
  have hx : (1 : ℝ) - 2 ^ (-k) ≠ 0 := by
    intro e
    have e' : (2 : ℝ) ^ (-k) = 1 := by linarith
    rcases lt_or_gt_of_ne hk with h | h
    · have := Real.one_lt_rpow (show (1 : ℝ) < 2 by norm_num) (show 0 < -k by linarith)
      linarith
    · have := Real.rpow_lt_one_of_one_lt_of_neg (show (1 : ℝ) < 2 by norm_num) (show -k < 0 by linarith)
      linarith
  refine ⟨by rw [m1]; exact hr.1, e2, ?_⟩
  rw [m3, ← e2, m2]
  field_simp

/-- C58: the shape is above -1, so that the mean exists, for every L-skewness from -0.8 on. -/
theorem C58_shape {l1 l2 t3 : ℝ} (h : -0.8 ≤ t3) : -1 < (pelgev l1 l2 t3).2.2 := by
  unfold pelgev
  split
  · norm_num
  split
  · norm_num
  rename_i hl ha
  push Not at ha
  obtain ⟨ha1, ha2⟩ := abs_lt.1 ha
  split
  · rename_i ht
    simp only
    split
    · norm_num
    · simp only [withShape, approxPos]
      rw [lt_div_iff₀]
      · nlinarith [mul_pos ht (sub_pos.2 ha2), mul_pos (mul_pos ht ht) (sub_pos.2 ha2)]
      · nlinarith [mul_pos ht (sub_pos.2 ha2), mul_pos (mul_pos ht ht) (sub_pos.2 ha2)]
  · rename_i ht
    push Not at ht
    simp only
    rw [if_neg (not_lt.2 h)]
    simp only [withShape, approxNeg]
    obtain ⟨s, rfl⟩ : ∃ s, t3 = -s := ⟨-t3, by ring⟩
    have s0 : 0 ≤ s := by linarith
    have s1 : s ≤ 0.8 := by linarith
    rw [lt_div_iff₀]
    · nlinarith [mul_nonneg s0 (sub_nonneg.2 s1), mul_nonneg (mul_nonneg s0 s0) (sub_nonneg.2 s1), mul_nonneg s0 (mul_self_nonneg (0.8 - s))]
    · nlinarith [mul_nonneg s0 (sub_nonneg.2 s1), mul_nonneg (mul_nonneg s0 s0) (sub_nonneg.2 s1), mul_nonneg s0 (mul_self_nonneg (0.8 - s))]

theorem approxNeg_pos {t : ℝ} (h0 : -0.8 ≤ t) (h1 : t ≤ 0) : 0 < approxNeg t := by
  have := approxNeg_anti ⟨h0, h1⟩ (show (0 : ℝ) ∈ Icc (-0.8) 0 by constructor <;> norm_num) h1
  refine lt_of_lt_of_le ?_ this
  unfold approxNeg
  norm_num

/-- The two kinds of fit for valid moments with L-skewness from -0.8 on. -/
theorem pelgev_cases {l1 l2 t3 : ℝ} (hl : 0 < l2) (h0 : -0.8 ≤ t3) (h1 : t3 < 1) :
    (∃ G, G ≠ 0 ∧ pelgev l1 l2 t3 = withShape l1 l2 G ∧ |skew G - t3| ≤ 1 / 200) ∨
    (pelgev l1 l2 t3 = (l1 - 0.57721566 * (l2 / 0.69314718), l2 / 0.69314718, 0) ∧ |skew 0 - t3| ≤ 1 / 200) := by
  have ha : |t3| < 1 := abs_lt.2 ⟨by norm_num at h0; linarith, h1⟩
  unfold pelgev
  rw [if_neg (not_le.2 hl), if_neg (not_le.2 ha)]
  by_cases ht : t3 > 0
  · rw [if_pos ht]
    simp only
    split
    · next hg => exact Or.inr ⟨rfl, approxPos_accuracy ht.le h1.le (sameSide_zero hg)⟩
    · next hg =>
      refine Or.inl ⟨_, ?_, rfl, approxPos_accuracy ht.le h1.le (sameSide_self _)⟩
      intro e
      rw [e] at hg
      norm_num at hg
  · rw [if_neg ht]
    simp only
    rw [if_neg (not_lt.2 h0)]
    exact Or.inl ⟨_, (approxNeg_pos h0 (not_lt.1 ht)).ne', rfl, approxNeg_accuracy h0 (not_lt.1 ht) (sameSide_self _)⟩

/-- C58 for the shape 0: the distribution is the Gumbel distribution, and its mean and second L-moment
differ from the given ones by the rounding of the constants only. -/
theorem C58_gumbel {l1 l2 t3 loc scale : ℝ} (hl : 0 < l2) (h0 : -0.8 ≤ t3) (h1 : t3 < 1)
    (h : pelgev l1 l2 t3 = (loc, scale, 0)) :
    |L1 (gevQuantile loc scale 0) - l1| ≤ l2 / 1000 ∧ |L2 (gevQuantile loc scale 0) - l2| ≤ l2 / 10 ^ 8 := by
  obtain ⟨m1, m2, -⟩ := gumbel_moments loc scale
  rcases pelgev_cases (l1 := l1) hl h0 h1 with ⟨G, hG, e, -⟩ | ⟨e, -⟩
  · rw [e] at h
    simp only [withShape, Prod.mk.injEq] at h
    exact absurd h.2.2 hG
  · rw [e] at h
    simp only [Prod.mk.injEq] at h
    obtain ⟨rfl, rfl, -⟩ := h
    rw [m1, m2]
    obtain ⟨g1, g2⟩ := euler_bounds
    have b1 := Real.log_two_gt_d9
    have b2 := Real.log_two_lt_d9
    constructor
    · have e1 : l1 - 0.57721566 * (l2 / 0.69314718) + l2 / 0.69314718 * Real.eulerMascheroniConstant - l1 =
          l2 * ((Real.eulerMascheroniConstant - 0.57721566) / 0.69314718) := by ring
      rw [e1, abs_mul, abs_of_pos hl, div_eq_mul_inv l2]
      refine mul_le_mul_of_nonneg_left ?_ hl.le
      rw [abs_le]
      constructor
      · rw [le_div_iff₀ (by norm_num)]; norm_num at g1 ⊢; linarith
      · rw [div_le_iff₀ (by norm_num)]; norm_num at g2 ⊢; linarith
    · have e1 : l2 / 0.69314718 * Real.log 2 - l2 = l2 * ((Real.log 2 - 0.69314718) / 0.69314718) := by
        field_simp
      rw [e1, abs_mul, abs_of_pos hl, div_eq_mul_inv l2]
      refine mul_le_mul_of_nonneg_left ?_ hl.le
      rw [abs_le]
      constructor
      · rw [le_div_iff₀ (by norm_num)]; norm_num at b1 ⊢; linarith
      · rw [div_le_iff₀ (by norm_num)]; norm_num at b2 ⊢; linarith

/-- C148: the fitted distribution has the L-skewness it was fitted to, to within 0.005, for every
L-skewness from -0.8 to 1. -/
theorem C148_skewness {l1 l2 t3 loc scale k : ℝ} (hl : 0 < l2) (h0 : -0.8 ≤ t3) (h1 : t3 < 1)
    (h : pelgev l1 l2 t3 = (loc, scale, k)) :
    |L3 (gevQuantile loc scale k) / L2 (gevQuantile loc scale k) - t3| ≤ 1 / 200 := by
  rcases pelgev_cases (l1 := l1) hl h0 h1 with ⟨G, hG, e, hs⟩ | ⟨e, hs⟩
  · have hk : k = G := by
      rw [e] at h
      simp only [withShape, Prod.mk.injEq] at h
      exact h.2.2.symm
    subst hk
    have hk1 := C58_shape (l1 := l1) (l2 := l2) h0
    rw [h] at hk1
    obtain ⟨-, e2, e3⟩ := C58_distribution h hG hk1
    rw [e3, e2, mul_div_cancel_left₀ _ hl.ne']
    rwa [skew, if_neg hG] at hs
  · rw [e] at h
    simp only [Prod.mk.injEq] at h
    obtain ⟨rfl, rfl, rfl⟩ := h
    obtain ⟨-, m2, m3⟩ := gumbel_moments (l1 - 0.57721566 * (l2 / 0.69314718)) (l2 / 0.69314718)
    rw [m3, m2, mul_div_mul_left _ _ (div_pos hl (by norm_num)).ne']
    rw [skew, if_pos rfl] at hs
    have hlog : Real.log 2 ≠ 0 := (Real.log_pos (by norm_num)).ne'
    have e4 : (2 * Real.log 3 - 3 * Real.log 2) / Real.log 2 = 2 * Real.logb 2 3 - 3 := by
      unfold Real.logb; field_simp
    rwa [e4]

/-- The hypotheses hold for the record 1, 2, 3: mean 2, second L-moment 2/3, L-skewness 0. -/
example : ∃ loc scale, pelgev 2 (2 / 3) 0 = (loc, scale, 0.28377530) := by
  have hp : (pelgev 2 (2 / 3) 0).2.2 = 0.28377530 := by
    unfold pelgev
    rw [if_neg (by norm_num), if_neg (by norm_num), if_neg (by norm_num)]
    simp only
    rw [if_neg (by norm_num), withShape_shape]
    unfold approxNeg
    norm_num
  exact ⟨_, _, Prod.ext rfl (Prod.ext rfl hp)⟩

/-- C148 for a record of annual winds, together with its mean and L-scale (C58): the fitted distribution
has the L-moments of the record. -/
theorem C148_record {data intervals : List ℝ} {m : ℕ} {yrs : ℝ} {f : Fit} {loc scale shape : ℝ}
    (h : gevfit data intervals m yrs = .ok f) (hl : f.loc = some loc) (hs : f.scale = some scale)
    (hk : f.shape = some shape)
    (h8 : -0.8 ≤ sampleL3 data.length (data.getD · 0) / sampleL2 data.length (data.getD · 0)) :
    |L3 (gevQuantile loc scale shape) / L2 (gevQuantile loc scale shape) -
      sampleL3 data.length (data.getD · 0) / sampleL2 data.length (data.getD · 0)| ≤ 1 / 200 := by
  rcases gevfit_ok h with rfl | ⟨-, -, -, hlen, l1, l2, t3, he, hl2, ht3, rfl⟩
  · simp [Fit.missing] at hl
  · rw [C45_sample_moments data hlen] at he
    simp only [Except.ok.injEq, Prod.mk.injEq] at he
    simp only [Option.some.injEq] at hl hs hk
    obtain ⟨rfl, rfl, rfl⟩ := he
    exact C148_skewness hl2 h8 (abs_lt.1 ht3).2 (Prod.ext hl (Prod.ext hs hk))

/-- C58 for a record of annual winds: the fitted distribution has the mean and the L-scale of the
record. -/
theorem C58_record {data intervals : List ℝ} {m : ℕ} {yrs : ℝ} {f : Fit} {loc scale shape : ℝ}
    (h : gevfit data intervals m yrs = .ok f) (hl : f.loc = some loc) (hs : f.scale = some scale)
    (hk : f.shape = some shape) (h0 : shape ≠ 0) (h1 : -1 < shape) :
    L1 (gevQuantile loc scale shape) = sampleL1 data.length (data.getD · 0) ∧
    L2 (gevQuantile loc scale shape) = sampleL2 data.length (data.getD · 0) := by
  rcases gevfit_ok h with rfl | ⟨-, -, -, hlen, l1, l2, t3, he, -, -, rfl⟩
  · simp [Fit.missing] at hl
  · rw [C45_sample_moments data hlen] at he
    simp only [Except.ok.injEq, Prod.mk.injEq] at he
    simp only [Option.some.injEq] at hl hs hk
    obtain ⟨rfl, rfl, rfl⟩ := he
    have := C58_distribution (loc := loc) (scale := scale) (k := shape) (Prod.ext hl (Prod.ext hs hk)) h0 h1
    exact ⟨this.1, this.2.1⟩

end Tcrm.Evd
