import Verif.Model.SizeTable
import Verif.Spec.SizeTable
import Verif.Props.Cdf
import Mathlib.Probability.Distributions.Gaussian.Real
import Mathlib.MeasureTheory.Function.JacobianOneDim
/-!
C178: the fallback distribution of storm sizes.
-/
namespace Tcrm.SizeTable
open Real MeasureTheory ProbabilityTheory

theorem density_eq {sig : ℝ} (hs : 0 < sig) (mean x : ℝ) : density mean sig x = sizes mean sig x := by
  unfold density sizes logNormal
  rw [one_div, div_eq_inv_mul]
  congr 2
  field_simp
  ring

theorem sizes_pos (mean sig x : ℝ) (hs : 0 < sig) (hx : 0 < x) : 0 < sizes mean sig x := by
  unfold sizes logNormal
  positivity

theorem sizes_exp {mean sig : ℝ} (hs : 0 < sig) (t : ℝ) :
    exp t * sizes mean sig (exp t) =
      gaussianPDFReal (log mean - 0.5 * sig ^ 2) (sig ^ 2).toNNReal t := by
  rw [← density_eq hs]
  unfold density gaussianPDFReal
  simp only [log_exp, Real.coe_toNNReal _ (sq_nonneg sig)]
  have h1 : √(2 * π * sig ^ 2) = sig * √(2 * π) := by
    rw [mul_comm (2 * π), Real.sqrt_mul (sq_nonneg _), Real.sqrt_sq hs.le]
  have h2 : (0 : ℝ) < √(2 * π) := by positivity
  have h3 := exp_pos t
  rw [h1]
  field_simp

/-- C178: all moments of the density (over all positive radii). -/
theorem C178_moments {mean sig : ℝ} (hm : 0 < mean) (hs : 0 < sig) (n : ℕ) :
    ∫ x in Set.Ioi 0, x ^ n * sizes mean sig x = mean ^ n * exp (sig ^ 2 * (n ^ 2 - n) / 2) := by
  have e1 : Set.Ioi (0 : ℝ) = exp '' Set.univ := by rw [Set.image_univ, Real.range_exp]
  rw [e1, integral_image_eq_integral_abs_deriv_smul MeasurableSet.univ
    (fun x _ => (Real.hasDerivAt_exp x).hasDerivWithinAt) Real.exp_injective.injOn]
  simp only [abs_of_pos (exp_pos _), smul_eq_mul, Measure.restrict_univ]
  have hv : ((sig ^ 2).toNNReal : NNReal) ≠ 0 := by
    have : 0 < (sig ^ 2).toNNReal := Real.toNNReal_pos.2 (by positivity)
    exact this.ne'
  have h := congrFun (mgf_id_gaussianReal (μ := log mean - 0.5 * sig ^ 2) (v := (sig ^ 2).toNNReal)) (n : ℝ)
  simp only [mgf, id, integral_gaussianReal_eq_integral_smul hv, smul_eq_mul, Real.coe_toNNReal _ (sq_nonneg sig)] at h
  have e2 : ∀ t, exp t * (exp t ^ n * sizes mean sig (exp t)) =
      gaussianPDFReal (log mean - 0.5 * sig ^ 2) (sig ^ 2).toNNReal t * exp (n * t) := by
    intro t
    rw [← sizes_exp hs, exp_nat_mul]
    ring
  simp only [e2, h]
  rw [← exp_log (pow_pos hm n), ← exp_add, log_pow]
  congr 1
  ring

/-- C178: the density is that of a distribution with mean `mean`, and the standard deviation is not `sig` but
`mean · √(exp(sig²) - 1)`. -/
theorem C178_mean_partial {mean sig : ℝ} (hm : 0 < mean) (hs : 0 < sig) :
    ∫ x in Set.Ioi 0, sizes mean sig x = 1 ∧ ∫ x in Set.Ioi 0, x * sizes mean sig x = mean ∧
    ∫ x in Set.Ioi 0, x ^ 2 * sizes mean sig x = mean ^ 2 + (mean * √(exp (sig ^ 2) - 1)) ^ 2 := by
  refine ⟨?_, ?_, ?_⟩
  · simpa using C178_moments hm hs 0
  · simpa using C178_moments hm hs 1
  · rw [C178_moments hm hs 2, mul_pow, Real.sq_sqrt (by have := add_one_le_exp (sig ^ 2); nlinarith)]
    have : sig ^ 2 * (((2 : ℕ) : ℝ) ^ 2 - (2 : ℕ)) / 2 = sig ^ 2 := by norm_num
    rw [this]
    ring

theorem weight_lt {mean sig : ℝ} (hs : 0 < sig) {m n : ℕ} (h : m < n) : weight mean sig m < weight mean sig n := by
  induction n, h using Nat.le_induction with
  | base =>
    have := sizes_pos mean sig ((m : ℝ) + 1) hs (by positivity)
    simp only [weight, Finset.sum_range_succ]
    linarith
  | succ n _ ih =>
    have := sizes_pos mean sig ((n : ℝ) + 1) hs (by positivity)
    simp only [weight, Finset.sum_range_succ] at ih ⊢
    linarith

theorem take_sum (mean : ℝ) {sig : ℝ} (hs : 0 < sig) (N n : ℕ) (h : n ≤ N) :
    ((((List.range N).map fun (k : ℕ) => 1 + (k : ℝ)).map (density mean sig)).take n).sum = weight mean sig n := by
  rw [List.map_map, ← List.map_take, List.take_range, min_eq_left h, weight]
  clear h
  induction n with
  | zero => simp
  | succ n ih =>
    rw [List.range_succ, List.map_append, List.sum_append, ih, Finset.sum_range_succ]
    simp [add_comm, density_eq hs]

/-- C178: the table of sizes has the radii 1, 2, …, 119 km; the value beside a radius is the share of the radii up to it
in the total weight, where the weight of a radius is the density there. -/
theorem C178_table {mean sig : ℝ} (hs : 0 < sig) : ∃ table, sizeTable mean sig = .ok table ∧ table.length = 119 ∧
    ∀ k : ℕ, 1 ≤ k → k ≤ 119 → table[k - 1]? = some ((k : ℝ), weight mean sig k / weight mean sig 119) := by
  have hr : radii 120 = (List.range 119).map fun (k : ℕ) => 1 + (k : ℝ) := by
    unfold radii
    have : ⌈(120 : ℝ) - 1⌉₊ = 119 := by
      rw [show (120 : ℝ) - 1 = ((119 : ℕ) : ℝ) by norm_num, Nat.ceil_natCast]
    rw [this]
  have hsplit : (List.range 119).map (fun (k : ℕ) => 1 + (k : ℝ)) =
      1 :: 2 :: (List.range 117).map fun (k : ℕ) => 3 + (k : ℝ) := by
    rw [List.range_succ_eq_map, List.range_succ_eq_map]
    simp only [List.map_cons, List.map_map]
    refine List.cons_eq_cons.2 ⟨by simp, List.cons_eq_cons.2 ⟨by norm_num, ?_⟩⟩
    apply List.map_congr_left
    intro a _
    simp only [Function.comp, Nat.succ_eq_add_one]
    push_cast
    ring
  have hsum : (((List.range 119).map fun (k : ℕ) => 1 + (k : ℝ)).map (density mean sig)).sum = weight mean sig 119 := by
    have := take_sum mean hs 119 119 le_rfl
    rwa [List.take_of_length_le (by simp)] at this
  have hpos : 0 < weight mean sig 119 := by
    have := weight_lt (mean := mean) hs (show 0 < 119 by norm_num)
    simpa [weight] using this
  obtain ⟨c, hc, hcl, hci, -⟩ := Cdf.C05_cdf_is_distribution_function (1 : ℝ) 2 ((List.range 117).map fun (k : ℕ) => 3 + (k : ℝ))
    (((List.range 119).map fun (k : ℕ) => 1 + (k : ℝ)).map (density mean sig)) (by norm_num)
    (by
      intro v hv
      simp only [List.mem_map] at hv
      obtain ⟨x, ⟨k, -, rfl⟩, rfl⟩ := hv
      rw [density_eq hs]
      exact (sizes_pos _ _ _ hs (by positivity)).le)
    (by rw [hsum]; exact hpos)
  rw [← hsplit] at hc
  refine ⟨((List.range 119).map fun (k : ℕ) => 1 + (k : ℝ)).zip c, ?_, ?_, ?_⟩
  · simp only [sizeTable, rMaxDist, hr, hc]
    rfl
  · rw [List.length_zip, hcl]; simp
  · intro k h1 h2
    have h3 := hci (k - 1) (by simp; omega)
    rw [hsum, Nat.sub_add_cancel h1, take_sum _ hs _ _ h2] at h3
    rw [List.getElem?_zip_eq_some]
    refine ⟨?_, h3⟩
    rw [List.getElem?_map, List.getElem?_range (by omega)]
    simp only [Option.map_some, Option.some.injEq]
    rw [Nat.cast_sub h1]
    push_cast
    ring

/-- C178: of the variates in (0, 1] those that give a radius are an interval, as long as the share of the radius in the
total weight; no other sizes than whole kilometres from 1 to 119 are drawn. -/
theorem C178_sampled {mean sig : ℝ} (hs : 0 < sig) {table : List (ℝ × ℝ)} (h : sizeTable mean sig = .ok table)
    {u : ℝ} (h0 : 0 < u) (h1 : u ≤ 1) (r : ℝ) : Cdf.ppf u table = .ok r ↔
      ∃ k : ℕ, 1 ≤ k ∧ k ≤ 119 ∧ r = k ∧
        weight mean sig (k - 1) / weight mean sig 119 < u ∧
        u ≤ weight mean sig (k - 1) / weight mean sig 119 + sizes mean sig k / weight mean sig 119 := by
  obtain ⟨t, ht, hl, hk⟩ := C178_table (mean := mean) hs
  rw [h] at ht
  cases ht
  have hpos : 0 < weight mean sig 119 := by
    have := weight_lt (mean := mean) hs (show 0 < 119 by norm_num)
    simpa [weight] using this
  have hstep : ∀ k : ℕ, 1 ≤ k → weight mean sig k / weight mean sig 119 =
      weight mean sig (k - 1) / weight mean sig 119 + sizes mean sig k / weight mean sig 119 := by
    intro k hk
    obtain ⟨j, rfl⟩ : ∃ j, k = j + 1 := ⟨k - 1, by omega⟩
    rw [← add_div]
    simp [weight, Finset.sum_range_succ]
  rw [Cdf.C06_quantile]
  constructor
  · rintro ⟨i, c, hi, hu, hj⟩
    have hi' : i < table.length := (List.getElem?_eq_some_iff.1 hi).1
    have e := hk (i + 1) (by omega) (by omega)
    rw [Nat.add_sub_cancel, hi] at e
    simp only [Option.some.injEq, Prod.mk.injEq] at e
    refine ⟨i + 1, by omega, by omega, e.1, ?_, ?_⟩
    · rw [Nat.add_sub_cancel]
      rcases Nat.eq_zero_or_pos i with rfl | h
      · simpa [weight] using h0
      · exact hj (i - 1) _ (by omega) (hk i h (by omega))
    · rw [← hstep (i + 1) (by omega), ← e.2]
      exact hu
  · rintro ⟨k, k1, k2, rfl, hlo, hhi⟩
    refine ⟨k - 1, _, hk k k1 k2, by rw [hstep k k1]; exact hhi, ?_⟩
    intro j p hj hp
    rw [show j = (j + 1) - 1 from rfl, hk (j + 1) (by omega) (by omega)] at hp
    cases hp
    refine lt_of_le_of_lt ?_ hlo
    refine div_le_div_of_nonneg_right ?_ hpos.le
    rcases Nat.lt_or_eq_of_le (show j + 1 ≤ k - 1 by omega) with h | h
    · exact (weight_lt hs h).le
    · rw [h]

/-- C178: every variate in (0, 1] gives a size. -/
theorem C178_total {mean sig : ℝ} (hs : 0 < sig) {table : List (ℝ × ℝ)} (h : sizeTable mean sig = .ok table)
    {u : ℝ} (h1 : u ≤ 1) : ∃ r, Cdf.ppf u table = .ok r := by
  obtain ⟨t, ht, hl, hk⟩ := C178_table (mean := mean) hs
  rw [h] at ht
  cases ht
  have hpos : 0 < weight mean sig 119 := by
    have := weight_lt (mean := mean) hs (show 0 < 119 by norm_num)
    simpa [weight] using this
  cases e : Cdf.ppf u table with
  | ok r => exact ⟨r, rfl⟩
  | error x =>
    exfalso
    have hx : x = .indexError := by
      unfold Cdf.ppf at e
      split at e <;> simp_all
    subst hx
    have := (Cdf.C06_index_error_iff table u).1 e _ (List.mem_of_getElem? (hk 119 (by norm_num) le_rfl))
    simp only [div_self hpos.ne'] at this
    linarith

/-- C178 fails for a configured mean of 119 km or more: no size drawn is above it, and the mean of the sizes drawn is
below it. -/
theorem C178_mean_fails {mean sig : ℝ} (hs : 0 < sig) (hm : 119 ≤ mean) :
    ∑ k ∈ Finset.range 119, ((k : ℝ) + 1) * (sizes mean sig ((k : ℝ) + 1) / weight mean sig 119) < mean := by
  have hpos : 0 < weight mean sig 119 := by
    have := weight_lt (mean := mean) hs (show 0 < 119 by norm_num)
    simpa [weight] using this
  have : ∑ k ∈ Finset.range 119, ((k : ℝ) + 1) * (sizes mean sig ((k : ℝ) + 1) / weight mean sig 119) <
      ∑ k ∈ Finset.range 119, mean * (sizes mean sig ((k : ℝ) + 1) / weight mean sig 119) := by
    have hd : ∀ k : ℕ, 0 < sizes mean sig ((k : ℝ) + 1) / weight mean sig 119 := fun k =>
      div_pos (sizes_pos _ _ _ hs (by positivity)) hpos
    refine Finset.sum_lt_sum (fun k hk => ?_) ⟨0, by simp, ?_⟩
    · have : (k : ℝ) + 1 ≤ 119 := by
        have := Finset.mem_range.1 hk
        exact_mod_cast this
      exact mul_le_mul_of_nonneg_right (this.trans hm) (hd k).le
    · refine mul_lt_mul_of_pos_right ?_ (hd 0)
      simp
      linarith
  rw [← Finset.mul_sum, ← Finset.sum_div] at this
  have e : (∑ i ∈ Finset.range 119, sizes mean sig ((i : ℝ) + 1)) / weight mean sig 119 = 1 := div_self hpos.ne'
  rw [e, mul_one] at this
  exact this

/-- C178 fails for the standard deviation: that of the distribution of the default configuration (46.5 and 0.5) is more
than 20 km. -/
theorem C178_deviation_fails : 20 < 46.5 * √(exp (0.5 ^ 2) - 1) := by
  have h1 : (0.25 : ℝ) + 1 ≤ exp (0.5 ^ 2) := by
    have := add_one_le_exp ((0.5 : ℝ) ^ 2)
    norm_num at this ⊢
    linarith
  have h2 : (0.5 : ℝ) ≤ √(exp (0.5 ^ 2) - 1) := by
    apply Real.le_sqrt_of_sq_le
    norm_num at h1 ⊢
    linarith
  linarith

/-- The default configuration meets the hypotheses. -/
example : ∃ table r, sizeTable 46.5 0.5 = .ok table ∧ Cdf.ppf 0.3 table = .ok r := by
  obtain ⟨t, ht, -⟩ := C178_table (mean := 46.5) (sig := 0.5) (by norm_num)
  obtain ⟨r, hr⟩ := C178_total (by norm_num) ht (u := 0.3) (by norm_num)
  exact ⟨t, r, ht, hr⟩

/-- C178: the three columns of the distribution for any greatest radius above 2: the radii are 1, 2, … below it, the
second column is the density there, and the third its normalised partial sums. -/
theorem C178_columns {mean sig maxrad : ℝ} (hs : 0 < sig) (hr : 2 < maxrad) : ∃ x pdf cy,
    rMaxDist mean sig maxrad = .ok (x, pdf, cy) ∧ pdf = x.map (sizes mean sig) ∧
    (∀ r, r ∈ x ↔ ∃ k : ℕ, 1 ≤ k ∧ (k : ℝ) < maxrad ∧ r = k) ∧ x.Pairwise (· < ·) ∧
    cy.length = x.length ∧ ∀ i, i < x.length → cy[i]? = some (weight mean sig (i + 1) / weight mean sig x.length) := by
  set N := ⌈maxrad - 1⌉₊ with hN
  have hN2 : 2 ≤ N := by
    have : (1 : ℝ) < N := lt_of_lt_of_le (by linarith) (Nat.le_ceil (maxrad - 1))
    exact_mod_cast this
  obtain ⟨M, hM⟩ : ∃ M, N = M + 2 := ⟨N - 2, by omega⟩
  have hrad : radii maxrad = (List.range N).map fun (k : ℕ) => 1 + (k : ℝ) := rfl
  have hsplit : (List.range N).map (fun (k : ℕ) => 1 + (k : ℝ)) =
      1 :: 2 :: (List.range M).map fun (k : ℕ) => 3 + (k : ℝ) := by
    rw [hM, List.range_succ_eq_map, List.range_succ_eq_map]
    simp only [List.map_cons, List.map_map]
    refine List.cons_eq_cons.2 ⟨by simp, List.cons_eq_cons.2 ⟨by norm_num, ?_⟩⟩
    apply List.map_congr_left
    intro a _
    simp only [Function.comp, Nat.succ_eq_add_one]
    push_cast
    ring
  have hsum : (((List.range N).map fun (k : ℕ) => 1 + (k : ℝ)).map (density mean sig)).sum = weight mean sig N := by
    have := take_sum mean hs N N le_rfl
    rwa [List.take_of_length_le (by simp)] at this
  have hpos : 0 < weight mean sig N := by
    have := weight_lt (mean := mean) hs (show 0 < N by omega)
    simpa [weight] using this
  obtain ⟨c, hc, hcl, hci, -⟩ := Cdf.C05_cdf_is_distribution_function (1 : ℝ) 2 ((List.range M).map fun (k : ℕ) => 3 + (k : ℝ))
    (((List.range N).map fun (k : ℕ) => 1 + (k : ℝ)).map (density mean sig)) (by norm_num)
    (by
      intro v hv
      simp only [List.mem_map] at hv
      obtain ⟨x, ⟨k, -, rfl⟩, rfl⟩ := hv
      rw [density_eq hs]
      exact (sizes_pos _ _ _ hs (by positivity)).le)
    (by rw [hsum]; exact hpos)
  rw [← hsplit] at hc
  refine ⟨(List.range N).map fun (k : ℕ) => 1 + (k : ℝ),
    ((List.range N).map fun (k : ℕ) => 1 + (k : ℝ)).map (density mean sig), c, ?_, ?_, ?_, ?_, ?_, ?_⟩
  · simp only [rMaxDist, hrad, hc]
    rfl
  · exact List.map_congr_left fun a _ => density_eq hs mean a
  · intro r
    simp only [List.mem_map, List.mem_range]
    constructor
    · rintro ⟨k, hk, rfl⟩
      refine ⟨k + 1, by omega, ?_, by push_cast; ring⟩
      have := Nat.lt_ceil.1 hk
      push_cast
      linarith
    · rintro ⟨k, h1, h2, rfl⟩
      refine ⟨k - 1, Nat.lt_ceil.2 ?_, ?_⟩
      · rw [Nat.cast_sub h1]; push_cast; linarith
      · rw [Nat.cast_sub h1]; push_cast; ring
  · rw [List.pairwise_map]
    refine List.pairwise_lt_range.imp ?_
    intro a b h
    have : (a : ℝ) < b := by exact_mod_cast h
    linarith
  · rw [hcl]; simp
  · intro i hi
    simp only [List.length_map, List.length_range] at hi ⊢
    have h3 := hci i (by simpa using hi)
    rwa [hsum, take_sum _ hs _ _ (by omega)] at h3

end Tcrm.SizeTable
