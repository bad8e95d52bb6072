import Verif.Lemmas.Autoreg
import Verif.Spec.Autoreg
import Mathlib.Probability.Independence.InfinitePi
import Mathlib.Analysis.Real.Pi.Bounds
/-!
C197: pressure rates, bearings and speeds of synthetic tracks have the mean, the autocorrelation and the spread of the
calibration.
-/
namespace Tcrm.Autoreg
open MeasureTheory ProbabilityTheory Set
open Spec (Uniform)

variable {Ω : Type} [MeasurableSpace Ω] {P : Measure Ω} {U : ℕ → Ω → ℝ}

theorem measurable_logistic : Measurable logistic := by
  unfold logistic logisticvariate
  fun_prop

theorem measurable_chi (c : ℕ → Coeff) : ∀ n, Measurable fun u : ℕ → ℝ => chi c u n
  | 0 => measurable_const
  | n + 1 => by
    have h1 := measurable_chi c n
    have h2 : Measurable fun u : ℕ → ℝ => logistic (u n) := measurable_logistic.comp (measurable_pi_apply n)
    exact (h1.const_mul _).add (h2.const_mul _)

theorem chi_congr (c : ℕ → Coeff) {u u' : ℕ → ℝ} : ∀ {n : ℕ}, (∀ k < n, u k = u' k) → chi c u n = chi c u' n
  | 0, _ => rfl
  | n + 1, h => by
    rw [chi, chi, chi_congr c fun k hk => h k (by omega), h n (by omega)]

theorem Spec.Uniform.probability (h : Uniform P U) : IsProbabilityMeasure P := by
  have hp : P.map (U 0) univ = 1 := by rw [h.law 0]; simp
  rw [Measure.map_apply (h.measurable 0) MeasurableSet.univ, preimage_univ] at hp
  exact ⟨hp⟩

theorem Spec.Uniform.preserving (h : Uniform P U) (n : ℕ) : MeasurePreserving (U n) P unit := ⟨h.measurable n, h.law n⟩

/-- The state after `n` steps as a random variable -/
noncomputable abbrev X (c : ℕ → Coeff) (U : ℕ → Ω → ℝ) (n : ℕ) : Ω → ℝ := fun ω => chi c (fun k => U k ω) n

theorem X_succ (c : ℕ → Coeff) (n : ℕ) :
    X c U (n + 1) = (fun ω => (c n).alpha * X c U n ω) + fun ω => (c n).phi * logistic (U n ω) := by
  funext ω
  rfl

theorem noise_memLp (h : Uniform P U) (n : ℕ) : MemLp (fun ω => logistic (U n ω)) 2 P :=
  memLp_logistic.comp_measurePreserving (h.preserving n)

theorem noise_mean (h : Uniform P U) (n : ℕ) : ∫ ω, logistic (U n ω) ∂P = 0 := by
  have : ∫ u, logistic u ∂(P.map (U n)) = ∫ ω, logistic (U n ω) ∂P :=
    integral_map (h.measurable n).aemeasurable (measurable_logistic.aestronglyMeasurable)
  rw [← this, h.law n]
  exact mean_logistic

theorem noise_variance (h : Uniform P U) (n : ℕ) : Var[fun ω => logistic (U n ω); P] = Real.pi ^ 2 / 3 := by
  rw [(h.preserving n).variance_fun_comp measurable_logistic.aemeasurable]
  exact variance_logistic

theorem X_indep (h : Uniform P U) (c : ℕ → Coeff) (n : ℕ) : IndepFun (X c U n) (fun ω => logistic (U n ω)) P := by
  have hi := h.independent.indepFun_finset (Finset.range n) {n} (by simp) h.measurable
  let ext : ((i : Finset.range n) → ℝ) → ℕ → ℝ := fun v k => if hk : k ∈ Finset.range n then v ⟨k, hk⟩ else 0
  have hext : Measurable ext := by
    refine measurable_pi_iff.2 fun k => ?_
    by_cases hk : k ∈ Finset.range n
    · simp only [ext, hk, dif_pos]
      exact measurable_pi_apply _
    · simp only [ext, hk, dif_neg, not_false_eq_true]
      exact measurable_const
  have hc := hi.comp ((measurable_chi c n).comp hext)
    (measurable_logistic.comp (measurable_pi_apply (⟨n, by simp⟩ : ({n} : Finset ℕ))))
  convert hc using 1
  · funext ω
    refine chi_congr c fun k hk => ?_
    simp only [ext]
    rw [dif_pos (Finset.mem_range.2 hk)]
  · rfl

theorem X_memLp (h : Uniform P U) (c : ℕ → Coeff) : ∀ n, MemLp (X c U n) 2 P
  | 0 => by
    have := h.probability
    exact memLp_const 0
  | n + 1 => by
    rw [X_succ]
    exact ((X_memLp h c n).const_mul _).add ((noise_memLp h n).const_mul _)

theorem X_mean (h : Uniform P U) (c : ℕ → Coeff) : ∀ n, ∫ ω, X c U n ω ∂P = 0
  | 0 => by simp [X, chi]
  | n + 1 => by
    have := h.probability
    have i1 := ((X_memLp h c n).integrable one_le_two).const_mul (c n).alpha
    have i2 := ((noise_memLp h n).integrable one_le_two).const_mul (c n).phi
    rw [X_succ]
    simp only [Pi.add_apply]
    rw [integral_add i1 i2, integral_const_mul, integral_const_mul, X_mean h c n, noise_mean h n]
    simp

theorem X_variance (h : Uniform P U) {c : ℕ → Coeff} (hc : ∀ k, (c k).phi ^ 2 = 1 - (c k).alpha ^ 2) :
    ∀ n, Var[X c U n; P] = Real.pi ^ 2 / 3 * (1 - ∏ k ∈ Finset.range n, (c k).alpha ^ 2)
  | 0 => by
    have : X c U 0 = (0 : Ω → ℝ) := rfl
    rw [this, variance_zero]
    simp
  | n + 1 => by
    have hind := (X_indep h c n).comp (measurable_const_mul (c n).alpha) (measurable_const_mul (c n).phi)
    rw [X_succ]
    have := IndepFun.variance_add ((X_memLp h c n).const_mul (c n).alpha) ((noise_memLp h n).const_mul (c n).phi) hind
    rw [this, variance_const_mul, variance_const_mul, X_variance h hc n, noise_variance h n, hc n, Finset.prod_range_succ]
    ring

/-- C197: the noise has mean zero, and variance π²/3. -/
theorem C197_noise (h : Uniform P U) (n : ℕ) :
    ∫ ω, logistic (U n ω) ∂P = 0 ∧ Var[fun ω => logistic (U n ω); P] = Real.pi ^ 2 / 3 :=
  ⟨noise_mean h n, noise_variance h n⟩

/-- C197, partial: the mean of the pressure rate (and of the bearing before it is wrapped) is the calibrated mean of the
cell at every step after the first, and at the first step the initial value. -/
theorem C197_mean_partial (h : Uniform P U) (c : ℕ → Coeff) (dp0 : ℝ) (n : ℕ) :
    ∫ ω, rate c dp0 (fun k => U k ω) 1 ∂P = dp0 ∧
    ∫ ω, rate c dp0 (fun k => U k ω) (n + 2) ∂P = (c (n + 1)).mu := by
  have := h.probability
  constructor
  · simp only [rate]
    have i := ((X_memLp h c 1).integrable one_le_two).const_mul (c 0).sig
    rw [integral_add (integrable_const _) i, integral_const_mul, X_mean h c 1]
    simp
  · simp only [rate]
    have i := ((X_memLp h c (n + 2)).integrable one_le_two).const_mul (c (n + 1)).sig
    rw [integral_add (integrable_const _) i, integral_const_mul, X_mean h c (n + 2)]
    simp

theorem rate_eq (c : ℕ → Coeff) (dp0 : ℝ) (n : ℕ) :
    (fun ω => rate c dp0 (fun k => U k ω) (n + 2)) = fun ω => (c (n + 1)).mu + (c (n + 1)).sig * X c U (n + 2) ω := rfl

theorem rate_variance (h : Uniform P U) (c : ℕ → Coeff) (dp0 : ℝ) (n : ℕ) :
    Var[fun ω => rate c dp0 (fun k => U k ω) (n + 2); P] = (c (n + 1)).sig ^ 2 * Var[X c U (n + 2); P] := by
  have := h.probability
  rw [rate_eq, variance_const_add ((X_memLp h c (n + 2)).const_mul _).1, variance_const_mul]

/-- C197, partial: the regression of the next value on the last one is the calibrated autocorrelation (in units of the
standard deviations of the cells). -/
theorem C197_lag_partial (h : Uniform P U) (c : ℕ → Coeff) (dp0 : ℝ) (n : ℕ) :
    (c (n + 1)).sig * cov[fun ω => rate c dp0 (fun k => U k ω) (n + 3), fun ω => rate c dp0 (fun k => U k ω) (n + 2); P] =
      (c (n + 2)).sig * (c (n + 2)).alpha * Var[fun ω => rate c dp0 (fun k => U k ω) (n + 2); P] := by
  have := h.probability
  have hX := X_memLp h c
  rw [rate_variance h, rate_eq, rate_eq, covariance_const_add_left (((hX (n + 3)).const_mul _).integrable one_le_two),
    covariance_const_add_right (((hX (n + 2)).const_mul _).integrable one_le_two), covariance_const_mul_left,
    covariance_const_mul_right, X_succ (U := U) c (n + 2),
    covariance_add_left ((hX (n + 2)).const_mul _) ((noise_memLp h (n + 2)).const_mul _) (hX (n + 2)),
    covariance_const_mul_left, covariance_const_mul_left, covariance_self (hX (n + 2)).1.aemeasurable,
    (X_indep h c (n + 2)).symm.covariance_eq_zero (noise_memLp h (n + 2)) (hX (n + 2))]
  ring

/-- C197: the variance of the pressure rate at every step after the first, where `c k` are the coefficients of the cell
in which step `k + 1` is taken -/
theorem C197_spread (h : Uniform P U) {c : ℕ → Coeff} (hc : ∀ k, (c k).phi ^ 2 = 1 - (c k).alpha ^ 2) (dp0 : ℝ) (n : ℕ) :
    Var[fun ω => rate c dp0 (fun k => U k ω) (n + 2); P] =
      (c (n + 1)).sig ^ 2 * (Real.pi ^ 2 / 3 * (1 - ∏ k ∈ Finset.range (n + 2), (c k).alpha ^ 2)) := by
  rw [rate_variance h, X_variance h hc]

/-- C197 fails: the variance exceeds the calibrated one as soon as the product of the squared autocorrelations is at most
two thirds; for autocorrelations up to 0.9 it does so from the second step on. -/
theorem C197_spread_fails (h : Uniform P U) {c : ℕ → Coeff} (hc : ∀ k, (c k).phi ^ 2 = 1 - (c k).alpha ^ 2) (dp0 : ℝ)
    (n : ℕ) (hs : (c (n + 1)).sig ≠ 0) (ha : ∏ k ∈ Finset.range (n + 2), (c k).alpha ^ 2 ≤ 2 / 3) :
    (c (n + 1)).sig ^ 2 < Var[fun ω => rate c dp0 (fun k => U k ω) (n + 2); P] := by
  rw [C197_spread h hc]
  have h1 : 0 < (c (n + 1)).sig ^ 2 := by positivity
  have h2 : 9 < Real.pi ^ 2 := by nlinarith [Real.pi_gt_three]
  refine lt_mul_of_one_lt_right h1 ?_
  generalize ∏ k ∈ Finset.range (n + 2), (c k).alpha ^ 2 = p at ha
  nlinarith

/-- C197 fails: in a cell where a storm stays the variance tends to π²/3 times the calibrated one, more than three
times. -/
theorem C197_limit_fails (h : Uniform P U) {k : Coeff} (hc : k.phi ^ 2 = 1 - k.alpha ^ 2) (ha : |k.alpha| < 1) (dp0 : ℝ) :
    Filter.Tendsto (fun n => Var[fun ω => rate (fun _ => k) dp0 (fun k => U k ω) (n + 2); P]) Filter.atTop
      (nhds (Real.pi ^ 2 / 3 * k.sig ^ 2)) ∧ 3 < Real.pi ^ 2 / 3 := by
  constructor
  · have e : ∀ n : ℕ, Var[fun ω => rate (fun _ => k) dp0 (fun k => U k ω) (n + 2); P] =
        k.sig ^ 2 * (Real.pi ^ 2 / 3 * (1 - (k.alpha ^ 2) ^ (n + 2))) := by
      intro n
      rw [C197_spread h (fun _ => hc)]
      simp
    simp only [e]
    have h0 : Filter.Tendsto (fun n : ℕ => (k.alpha ^ 2) ^ (n + 2)) Filter.atTop (nhds 0) :=
      (tendsto_pow_atTop_nhds_zero_of_lt_one (sq_nonneg _) ((sq_lt_one_iff_abs_lt_one _).2 ha)).comp
        (Filter.tendsto_add_atTop_nat 2)
    have := ((h0.const_sub 1).const_mul (Real.pi ^ 2 / 3)).const_mul (k.sig ^ 2)
    convert this using 2
    ring
  · nlinarith [Real.pi_gt_three]

/-- C197: the mean square of the speed -/
theorem C197_speed (h : Uniform P U) {c : ℕ → Coeff} (hc : ∀ k, (c k).phi ^ 2 = 1 - (c k).alpha ^ 2) (v0 : ℝ) (n : ℕ) :
    ∫ ω, speed c v0 (fun k => U k ω) (n + 2) ^ 2 ∂P = (c (n + 1)).mu ^ 2 +
      (c (n + 1)).sig ^ 2 * (Real.pi ^ 2 / 3 * (1 - ∏ k ∈ Finset.range (n + 2), (c k).alpha ^ 2)) := by
  have := h.probability
  have hv := C197_spread h hc v0 n
  have hm := (C197_mean_partial h c v0 n).2
  have hl : MemLp (fun ω => rate c v0 (fun k => U k ω) (n + 2)) 2 P := by
    have h1 : MemLp (fun _ : Ω => (c (n + 1)).mu) 2 P := memLp_const _
    have h2 : MemLp (fun ω => (c (n + 1)).sig * X c U (n + 2) ω) 2 P := (X_memLp h c (n + 2)).const_mul _
    exact h1.add h2
  rw [variance_eq_sub hl, hm] at hv
  have e : (fun ω => speed c v0 (fun k => U k ω) (n + 2) ^ 2) = (fun ω => rate c v0 (fun k => U k ω) (n + 2)) ^ 2 := by
    funext ω
    simp only [speed, rate, sq_abs, Pi.pow_apply]
  rw [e]
  linarith

/-- C197: in the first step the speed never falls below the initial speed, whatever the random number; its mean square
excess -/
theorem C197_speed_first (h : Uniform P U) {c : ℕ → Coeff} (hc : ∀ k, (c k).phi ^ 2 = 1 - (c k).alpha ^ 2) (v0 : ℝ) :
    (∀ ω, v0 ≤ speed c v0 (fun k => U k ω) 1) ∧
    ∫ ω, (speed c v0 (fun k => U k ω) 1 - v0) ^ 2 ∂P = (c 0).sig ^ 2 * (Real.pi ^ 2 / 3 * (1 - (c 0).alpha ^ 2)) := by
  have := h.probability
  constructor
  · intro ω
    simp only [speed]
    have := abs_nonneg ((c 0).sig * chi c (fun k => U k ω) 1)
    linarith
  · have e : (fun ω => (speed c v0 (fun k => U k ω) 1 - v0) ^ 2) = fun ω => (c 0).sig ^ 2 * X c U 1 ω ^ 2 := by
      funext ω
      simp only [speed, add_sub_cancel_left, sq_abs, mul_pow]
    have hv := X_variance h hc 1
    rw [variance_of_integral_eq_zero (X_memLp h c 1).1.aemeasurable (X_mean h c 1)] at hv
    rw [e, integral_const_mul, hv]
    simp

/-- There are independent uniform numbers; and a storm in a cell with the autocorrelation 0.6, where the spread is
wrong from the second step on -/
example : Uniform (Measure.infinitePi fun _ : ℕ => unit) (fun n ω => ω n) where
  measurable n := measurable_pi_apply n
  law n := Measure.infinitePi_map_eval _ n
  independent := iIndepFun_infinitePi (X := fun _ x => x) fun _ => measurable_id

example : (4 / 5 : ℝ) ^ 2 = 1 - (3 / 5) ^ 2 ∧ ∏ k ∈ Finset.range (0 + 2), (3 / 5 : ℝ) ^ 2 ≤ 2 / 3 := by
  constructor
  · norm_num
  · norm_num [Finset.prod_range_succ]

end Tcrm.Autoreg
