import Verif.Lemmas.LMoments
import Mathlib.Analysis.SpecialFunctions.Integrals.Basic
import Mathlib.Tactic.NormNum
/-!
C45: sample L-moments and the generalised Pareto fit; C58: the GEV fit reproduces the moments.
-/
namespace Tcrm.Evd

open Finset

/-- C45: the routine returns the first two sample L-moments and the ratio of the third to the second,
as defined by averages over pairs and triples; data of at most two values is refused. -/
theorem C45_sample_moments (data : List ℝ) (h : 2 < data.length) :
    samlmu3 data = .ok (sampleL1 data.length (data.getD · 0), sampleL2 data.length (data.getD · 0),
      sampleL3 data.length (data.getD · 0) / sampleL2 data.length (data.getD · 0)) := by
  have h0 : (data.length : ℝ) ≠ 0 := by
    have : (2 : ℝ) < data.length := by exact_mod_cast h
    intro h; linarith
  rw [samlmu3_eq h, sampleL2_eq h, sampleL3_eq h]
  congr 3
  rw [div_div_div_cancel_right₀ h0]

theorem C45_too_few (data : List ℝ) (h : data.length ≤ 2) : samlmu3 data = .error .valueError :=
  if_pos h

/-- Sorted data in terms of neighbours. -/
theorem sorted_step {data : List ℝ} (hs : data.Pairwise (· ≤ ·)) {j : ℕ} (hj : j + 1 < data.length) :
    data.getD j 0 ≤ data.getD (j + 1) 0 := by
  have h1 : j < data.length := by omega
  simp only [List.getD_eq_getElem?_getD, List.getElem?_eq_getElem h1, List.getElem?_eq_getElem hj,
    Option.getD_some]
  exact List.pairwise_iff_getElem.1 hs j (j + 1) h1 hj (by omega)

/-- C45: for sorted data the second L-moment is not negative, and it is positive if and only if the
values are not all equal. -/
theorem C45_second_nonneg {data : List ℝ} (hs : data.Pairwise (· ≤ ·)) (h : 2 < data.length) :
    0 ≤ sampleL2 data.length (data.getD · 0) := by
  rw [sampleL2_eq h, weighted_p1 h]
  refine div_nonneg (sum_nonneg fun j hj => ?_) (Nat.cast_nonneg _)
  have hj' := mem_range.1 hj
  exact mul_nonneg (neg_P1_pos (by omega)).le (sub_nonneg.2 (sorted_step hs (by omega)))

theorem C45_second_pos_iff {data : List ℝ} (hs : data.Pairwise (· ≤ ·)) (h : 2 < data.length) :
    0 < sampleL2 data.length (data.getD · 0) ↔ ∃ x ∈ data, ∃ y ∈ data, x ≠ y := by
  have hn : (0 : ℝ) < data.length := by exact_mod_cast (by omega : 0 < data.length)
  have hterm : ∀ j ∈ range (data.length - 1),
      0 ≤ -P1 data.length (j + 1) * (data.getD (j + 1) 0 - data.getD j 0) := fun j hj => by
    have hj' := mem_range.1 hj
    exact mul_nonneg (neg_P1_pos (by omega)).le (sub_nonneg.2 (sorted_step hs (by omega)))
  rw [sampleL2_eq h, weighted_p1 h, lt_div_iff₀ hn, zero_mul]
  constructor
  · intro hp
    obtain ⟨j, hj, hne⟩ := exists_ne_zero_of_sum_ne_zero hp.ne'
    have hj' := mem_range.1 hj
    have h1 : j < data.length := by omega
    have h2 : j + 1 < data.length := by omega
    refine ⟨data[j], List.getElem_mem h1, data[j + 1], List.getElem_mem h2, fun e => hne ?_⟩
    simp [List.getD_eq_getElem?_getD, h1, h2, e]
  · rintro ⟨x, hx, y, hy, hne⟩
    by_contra hcon
    have hz : ∑ j ∈ range (data.length - 1),
        -P1 data.length (j + 1) * (data.getD (j + 1) 0 - data.getD j 0) = 0 :=
      le_antisymm (not_lt.1 hcon) (sum_nonneg hterm)
    rw [sum_eq_zero_iff_of_nonneg hterm] at hz
    have hall : ∀ i, i < data.length → data.getD i 0 = data.getD 0 0 := by
      intro i
      induction i with
      | zero => intro _; rfl
      | succ i ih =>
        intro hi
        have h1 := hz i (mem_range.2 (by omega))
        rcases mul_eq_zero.1 h1 with h2 | h2
        · exact absurd h2 (neg_P1_pos hi).ne'
        · rw [← ih (by omega)]; linarith
    obtain ⟨i, hi, rfl⟩ := List.getElem_of_mem hx
    obtain ⟨j, hj, rfl⟩ := List.getElem_of_mem hy
    apply hne
    have h1 := hall i hi
    have h2 := hall j hj
    simp only [List.getD_eq_getElem?_getD, List.getElem?_eq_getElem hi, List.getElem?_eq_getElem hj,
      Option.getD_some] at h1 h2
    rw [h1, h2]

/-- C45: the L-skewness of sorted data that is not constant lies between -1 and 1. -/
theorem C45_skewness_bound {data : List ℝ} (hs : data.Pairwise (· ≤ ·)) (h : 2 < data.length)
    (hne : ∃ x ∈ data, ∃ y ∈ data, x ≠ y) :
    |sampleL3 data.length (data.getD · 0) / sampleL2 data.length (data.getD · 0)| ≤ 1 := by
  have hp := (C45_second_pos_iff hs h).2 hne
  rw [abs_div, abs_of_pos hp, div_le_one hp, sampleL2_eq h, sampleL3_eq h, abs_div,
    abs_of_nonneg (Nat.cast_nonneg data.length : (0 : ℝ) ≤ data.length)]
  refine div_le_div_of_nonneg_right ?_ (Nat.cast_nonneg _)
  rw [weighted_p2 h, weighted_p1 h]
  refine (abs_sum_le_sum_abs _ _).trans (sum_le_sum fun j hj => ?_)
  have hj' := mem_range.1 hj
  have hd := sub_nonneg.2 (sorted_step hs (show j + 1 < data.length by omega))
  rw [abs_mul, abs_neg, abs_of_nonneg hd]
  exact mul_le_mul_of_nonneg_right (abs_P2_le h (by omega)) hd

/-- C45: changing the unit and the origin of the data (`a > 0`) changes the mean and the second moment
accordingly and not the L-skewness. -/
theorem C45_shift_scale (data : List ℝ) (a b : ℝ) (ha : 0 < a) {l1 l2 t3 : ℝ}
    (h : samlmu3 data = .ok (l1, l2, t3)) :
    samlmu3 (data.map fun x => a * x + b) = .ok (a * l1 + b, a * l2, t3) := by
  have hl : 2 < data.length := by
    by_contra hl
    rw [C45_too_few data (by omega)] at h
    cases h
  have hl' : 2 < (data.map fun x => a * x + b).length := by simpa using hl
  have hn : (data.length : ℝ) ≠ 0 := by
    have : (2 : ℝ) < data.length := by exact_mod_cast hl
    intro h; linarith
  have hget : ∀ j ∈ range data.length,
      (data.map fun x => a * x + b).getD j 0 = a * data.getD j 0 + b := fun j hj => by
    have := mem_range.1 hj
    simp [List.getD_eq_getElem?_getD, this]
  rw [samlmu3_eq hl] at h
  simp only [Except.ok.injEq, Prod.mk.injEq] at h
  obtain ⟨rfl, rfl, rfl⟩ := h
  have zero : ∀ (w : ℕ → ℝ), ∑ j ∈ range data.length, w j = 0 →
      ∑ j ∈ range data.length, w j * (data.map fun x => a * x + b).getD j 0 =
        a * ∑ j ∈ range data.length, w j * data.getD j 0 := by
    intro w hw
    have : ∀ j ∈ range data.length, w j * (data.map fun x => a * x + b).getD j 0 =
        a * (w j * data.getD j 0) + w j * b := fun j hj => by rw [hget j hj]; ring
    rw [sum_congr rfl this, sum_add_distrib, ← mul_sum, ← sum_mul, hw, zero_mul, add_zero]
  have w1 : ∑ j ∈ range data.length, p1 data.length j = 0 := by
    have := weighted_p1 hl (fun _ => 1)
    simpa using this
  have w2 : ∑ j ∈ range data.length, p2 data.length j = 0 := by
    have := weighted_p2 hl (fun _ => 1)
    simpa using this
  rw [samlmu3_eq hl', List.length_map, zero _ w1, zero _ w2, sum_congr rfl hget, sum_add_distrib,
    ← mul_sum, sum_const, card_range, nsmul_eq_mul]
  congr 2
  · field_simp
  · congr 1
    · ring
    · exact mul_div_mul_left _ _ ha.ne'

theorem momentSum_eq (data : List ℝ) (j : ℕ) : momentSum data j =
    (∑ i ∈ range (data.length / 2), legendre data.length (-(data.length : ℝ) - 1 + 2 * (i + 1)) j *
      (if j % 2 = 1 then data.getD i 0 + data.getD (data.length - 1 - i) 0
        else data.getD i 0 - data.getD (data.length - 1 - i) 0)) +
    if data.length ≠ data.length / 2 + data.length / 2 ∧ j % 2 = 1 then
      legendreMid data.length j * data.getD (data.length / 2) 0 else 0 := by
  unfold momentSum
  simp only [sum_map_range]
  split
  · rfl
  · rw [add_zero]

theorem momentSum_one (data : List ℝ) :
    momentSum data 1 = ∑ j ∈ range data.length, data.getD j 0 := by
  rw [← pairs_one, momentSum_eq]
  congr 1
  · exact sum_congr rfl fun i _ => by rw [if_pos (by norm_num)]; simp [legendre]
  · simp only [legendreMid, one_mul]
    congr 1
    simp

theorem momentSum_two (data : List ℝ) :
    momentSum data 2 = ∑ j ∈ range data.length, p1 data.length j * data.getD j 0 := by
  rw [← pairs_p1 data.length (fun j => data.getD j 0), momentSum_eq, if_neg (by norm_num), add_zero]
  refine sum_congr rfl fun i _ => ?_
  rw [if_neg (by norm_num)]
  simp only [legendre, p1]
  ring

theorem momentSum_three (data : List ℝ) :
    momentSum data 3 = ∑ j ∈ range data.length, p2 data.length j * data.getD j 0 := by
  rw [← pairs_p2 data.length (fun j => data.getD j 0), momentSum_eq]
  have hc : ∀ n : ℝ, 1 / ((3 - 1) * (n - 3 + 1)) = 1 / (2 * n - 4) := fun n => by congr 1; ring
  have hmid : legendreMid data.length 3 =
      -(((data.length : ℝ) + 1) * (1 / (2 * (data.length : ℝ) - 4))) := by
    rw [← hc]
    simp only [legendreMid]
    push_cast
    ring_nf
  congr 1
  · refine sum_congr rfl fun i _ => ?_
    rw [if_pos (by norm_num)]
    congr 1
    unfold p2
    rw [← hc]
    simp only [legendre]
    push_cast
    ring_nf
  · rw [hmid]
    congr 1
    simp

/-- C45: the first three values of the general routine, for any larger number of moments, are those of
the fast routine. -/
theorem C45_fast_equals_general {data ms : List ℝ} {nmom : ℕ} (hk : 3 < nmom)
    (h : samlmu data nmom = .ok (some ms)) :
    samlmu data 3 = .ok (some (ms.take 3)) := by
  unfold samlmu at h ⊢
  by_cases hl : data.length ≤ 2
  · rw [if_pos hl] at h; cases h
  rw [if_neg hl, if_neg (by omega)] at h
  rw [if_neg hl, if_pos rfl, samlmu3_eq (by omega)]
  split at h
  · cases h
  · simp only at h
    rw [if_neg (by omega)] at h
    split at h
    · cases h
    · split at h
      · cases h
      · simp only [Except.ok.injEq, Option.some.injEq] at h ⊢
        obtain ⟨k, rfl⟩ : ∃ k, nmom = k + 3 := ⟨nmom - 3, by omega⟩
        rw [← h, show k + 3 - 2 = k + 1 by omega, List.range_succ_eq_map]
        simp [momentSum_one, momentSum_two, momentSum_three]

/-- The general routine does return for a concrete sample: with four moments of four values. -/
example : ∃ ms, samlmu [1, 2, 3, 5] 4 = .ok (some ms) ∧ ms.length = 4 := by
  have h2 : momentSum [1, 2, 3, 5] 2 ≠ 0 := by
    rw [momentSum_two]
    simp [sum_range_succ, p1]
    norm_num
  refine ⟨[momentSum [1, 2, 3, 5] 1 / ([1, 2, 3, 5] : List ℝ).length,
    momentSum [1, 2, 3, 5] 2 / ([1, 2, 3, 5] : List ℝ).length] ++
      (List.range (4 - 2)).map fun i => momentSum [1, 2, 3, 5] (i + 3) / momentSum [1, 2, 3, 5] 2, ?_, ?_⟩
  · unfold samlmu
    rw [if_neg (by simp), if_neg (by norm_num), if_neg (by norm_num)]
    simp only
    rw [if_neg (by norm_num), if_neg (by simp), if_neg h2]
  · simp

/-- A concrete sample: 1, 2, 6 has mean 3, second moment 5/3 and L-skewness 3/5. -/
example : samlmu3 [1, 2, 6] = .ok (3, 5 / 3, 3 / 5) := by
  rw [samlmu3_eq (by simp)]
  simp [sum_range_succ, p1, p2]
  norm_num

/-! ### Generalised Pareto distribution -/

theorem integral_pow_log (n : ℕ) : ∫ v in (0 : ℝ)..1, v ^ n * Real.log v = -(1 / ((n : ℝ) + 1) ^ 2) := by
  have hn : (n : ℝ) + 1 ≠ 0 := by positivity
  have key := intervalIntegral.integral_eq_sub_of_hasDerivAt_of_le (a := 0) (b := 1) zero_le_one
    (f := fun v : ℝ => v ^ n * (v * Real.log v) / (n + 1) - v ^ (n + 1) / ((n : ℝ) + 1) ^ 2)
    (f' := fun v : ℝ => v ^ n * Real.log v) ?_ ?_ ?_
  · rw [key]
    simp
  · exact (((continuous_pow n).mul Real.continuous_mul_log).div_const _ |>.sub
      ((continuous_pow (n + 1)).div_const _)).continuousOn
  · intro v hv
    have hv0 : v ≠ 0 := hv.1.ne'
    have h1 : HasDerivAt (fun v : ℝ => v ^ (n + 1) * Real.log v) (((n + 1 : ℕ) : ℝ) * v ^ n * Real.log v + v ^ (n + 1) * v⁻¹) v := by
      exact (hasDerivAt_pow (n + 1) v).mul (Real.hasDerivAt_log hv0)
    have h2 := (h1.div_const ((n : ℝ) + 1)).sub ((hasDerivAt_pow (n + 1) v).div_const (((n : ℝ) + 1) ^ 2))
    have e : (fun v : ℝ => v ^ n * (v * Real.log v) / (n + 1) - v ^ (n + 1) / ((n : ℝ) + 1) ^ 2) =
        fun v : ℝ => v ^ (n + 1) * Real.log v / (n + 1) - v ^ (n + 1) / ((n : ℝ) + 1) ^ 2 := by
      funext v; rw [pow_succ]; ring
    rw [e]
    refine h2.congr_deriv ?_
    push_cast
    rw [pow_succ]
    field_simp
    ring
  · exact (intervalIntegral.intervalIntegrable_log' (a := 0) (b := 1)).continuousOn_mul (continuous_pow n).continuousOn

/-- The exponential distribution. -/
theorem exp_integral (loc scale : ℝ) (a b c : ℝ) :
    ∫ u in (0 : ℝ)..1, gpaQuantile loc scale 0 u * (a + b * (1 - u) + c * (1 - u) ^ 2) =
      loc * (a + b / 2 + c / 3) + scale * (a + b / 4 + c / 9) := by
  have e1 : ∀ u : ℝ, gpaQuantile loc scale 0 u * (a + b * (1 - u) + c * (1 - u) ^ 2) =
      (fun v : ℝ => (loc * a + loc * b * v + loc * c * v ^ 2) -
        (scale * a * (v ^ 0 * Real.log v) + scale * b * (v ^ 1 * Real.log v) + scale * c * (v ^ 2 * Real.log v))) (1 - u) :=
    fun u => by simp only [gpaQuantile, if_true]; ring
  simp only [e1]
  rw [intervalIntegral.integral_comp_sub_left (fun v : ℝ => (loc * a + loc * b * v + loc * c * v ^ 2) -
        (scale * a * (v ^ 0 * Real.log v) + scale * b * (v ^ 1 * Real.log v) + scale * c * (v ^ 2 * Real.log v))) 1]
  rw [sub_self, sub_zero]
  have il : ∀ n : ℕ, IntervalIntegrable (fun v : ℝ => v ^ n * Real.log v) MeasureTheory.volume 0 1 := fun n =>
    (intervalIntegral.intervalIntegrable_log' (a := 0) (b := 1)).continuousOn_mul (continuous_pow n).continuousOn
  have i0 := (il 0).const_mul (scale * a)
  have i1 := (il 1).const_mul (scale * b)
  have i2 := (il 2).const_mul (scale * c)
  have cc : ∀ f : ℝ → ℝ, Continuous f → IntervalIntegrable f MeasureTheory.volume 0 1 :=
    fun f hf => hf.intervalIntegrable 0 1
  rw [intervalIntegral.integral_sub (cc _ (by fun_prop)) ((i0.add i1).add i2),
    intervalIntegral.integral_add (i0.add i1) i2, intervalIntegral.integral_add i0 i1,
    intervalIntegral.integral_const_mul, intervalIntegral.integral_const_mul,
    intervalIntegral.integral_const_mul, integral_pow_log, integral_pow_log, integral_pow_log,
    intervalIntegral.integral_add (cc _ (by fun_prop)) (cc _ (by fun_prop)),
    intervalIntegral.integral_add (cc _ (by fun_prop)) (cc _ (by fun_prop)),
    intervalIntegral.integral_const, intervalIntegral.integral_const_mul,
    intervalIntegral.integral_const_mul, integral_id, integral_pow]
  norm_num
  ring

theorem gpa_integral (loc scale k : ℝ) (hk : -1 < k) (hk0 : k ≠ 0) (a b c : ℝ) :
    ∫ u in (0 : ℝ)..1, gpaQuantile loc scale k u * (a + b * (1 - u) + c * (1 - u) ^ 2) =
      (loc + scale / k) * (a + b / 2 + c / 3) -
        scale / k * (a / (k + 1) + b / (k + 2) + c / (k + 3)) := by
  have e1 : ∀ u : ℝ, gpaQuantile loc scale k u * (a + b * (1 - u) + c * (1 - u) ^ 2) =
      (fun v : ℝ => (loc + scale * (1 - v ^ k) / k) * (a + b * v + c * v ^ 2)) (1 - u) :=
    fun u => by simp only [gpaQuantile, if_neg hk0]
  simp only [e1]
  rw [intervalIntegral.integral_comp_sub_left (fun v : ℝ =>
    (loc + scale * (1 - v ^ k) / k) * (a + b * v + c * v ^ 2)) 1]
  norm_num
  have e2 : ∀ v ∈ Set.uIcc (0 : ℝ) 1,
      (loc + scale * (1 - v ^ k) / k) * (a + b * v + c * v ^ 2) =
      ((loc + scale / k) * a + (loc + scale / k) * b * v + (loc + scale / k) * c * v ^ 2) -
        (scale / k * a * v ^ k + scale / k * b * v ^ (k + 1) + scale / k * c * v ^ (k + 2)) := by
    intro v hv
    have hv0 : 0 ≤ v := by rw [Set.uIcc_of_le zero_le_one] at hv; exact hv.1
    have h1 : v ^ (k + 1) = v ^ k * v := Real.rpow_add_one' hv0 (by linarith)
    have h2 : v ^ (k + 2) = v ^ k * v * v := by
      rw [show k + 2 = k + 1 + 1 by ring, Real.rpow_add_one' hv0 (by linarith), h1]
    rw [h1, h2]; ring
  rw [intervalIntegral.integral_congr e2]
  have ir : ∀ r : ℝ, -1 < r → IntervalIntegrable (fun v : ℝ => v ^ r) MeasureTheory.volume 0 1 :=
    fun r hr => intervalIntegral.intervalIntegrable_rpow' hr
  have iv : ∀ r : ℝ, -1 < r → ∫ v in (0 : ℝ)..1, v ^ r = 1 / (r + 1) := fun r hr => by
    rw [integral_rpow (Or.inl hr), Real.one_rpow, Real.zero_rpow (by linarith), sub_zero]
  have c0 : Continuous fun v : ℝ => (loc + scale / k) * a + (loc + scale / k) * b * v +
      (loc + scale / k) * c * v ^ 2 := by fun_prop
  have i0 := (ir k hk).const_mul (scale / k * a)
  have i1 := (ir (k + 1) (by linarith)).const_mul (scale / k * b)
  have i2 := (ir (k + 2) (by linarith)).const_mul (scale / k * c)
  rw [intervalIntegral.integral_sub (c0.intervalIntegrable 0 1) ((i0.add i1).add i2)]
  rw [intervalIntegral.integral_add (i0.add i1) i2, intervalIntegral.integral_add i0 i1]
  rw [intervalIntegral.integral_const_mul, intervalIntegral.integral_const_mul,
    intervalIntegral.integral_const_mul, iv k hk, iv (k + 1) (by linarith), iv (k + 2) (by linarith)]
  have : ∫ v in (0 : ℝ)..1, ((loc + scale / k) * a + (loc + scale / k) * b * v +
      (loc + scale / k) * c * v ^ 2) = (loc + scale / k) * (a + b / 2 + c / 3) := by
    have cc : ∀ f : ℝ → ℝ, Continuous f → IntervalIntegrable f MeasureTheory.volume 0 1 :=
      fun f hf => hf.intervalIntegrable 0 1
    rw [intervalIntegral.integral_add (cc _ (by fun_prop)) (cc _ (by fun_prop)),
      intervalIntegral.integral_add (cc _ (by fun_prop)) (cc _ (by fun_prop)),
      intervalIntegral.integral_const, intervalIntegral.integral_const_mul,
      intervalIntegral.integral_const_mul, integral_id, integral_pow]
    norm_num
    ring
  rw [this]
  have h1 : k + 1 ≠ 0 := by intro h; linarith
  have h2 : k + 2 ≠ 0 := by intro h; linarith
  have h3 : k + 3 ≠ 0 := by intro h; linarith
  rw [show k + 1 + 1 = k + 2 by ring, show k + 2 + 1 = k + 3 by ring]
  ring

/-- C45: the fit applied to the exact L-moments of a generalised Pareto distribution (integrals of its
quantile function) returns its parameters. -/
theorem C45_pareto_recovered (loc scale k : ℝ) (hs : 0 < scale) (hk : -1 < k) :
    pelgpa (L1 (gpaQuantile loc scale k)) (L2 (gpaQuantile loc scale k))
      (L3 (gpaQuantile loc scale k) / L2 (gpaQuantile loc scale k)) = (loc, scale, k) := by
  have h1 : k + 1 ≠ 0 := by intro h; linarith
  have h2 : k + 2 ≠ 0 := by intro h; linarith
  have h3 : k + 3 ≠ 0 := by intro h; linarith
  have gen : ∀ a b c : ℝ, ∫ u in (0 : ℝ)..1, gpaQuantile loc scale k u * (a + b * (1 - u) + c * (1 - u) ^ 2) =
      loc * (a + b / 2 + c / 3) + scale * (a / (k + 1) + b / (2 * (k + 2)) + c / (3 * (k + 3))) := by
    intro a b c
    by_cases hk0 : k = 0
    · subst hk0
      rw [exp_integral]
      ring
    · rw [gpa_integral loc scale k hk hk0]
      field_simp
      ring
  have e1 : L1 (gpaQuantile loc scale k) = loc + scale / (k + 1) := by
    have := gen 1 0 0
    unfold L1
    simp only [zero_mul, add_zero, mul_one] at this
    rw [this]
    field_simp; ring
  have e2 : L2 (gpaQuantile loc scale k) = scale / ((k + 1) * (k + 2)) := by
    have := gen 1 (-2) 0
    unfold L2
    have e : ∀ u : ℝ, gpaQuantile loc scale k u * (2 * u - 1) =
        gpaQuantile loc scale k u * (1 + -2 * (1 - u) + 0 * (1 - u) ^ 2) := fun u => by ring
    simp only [e]
    rw [this]
    field_simp; ring
  have e3 : L3 (gpaQuantile loc scale k) = scale * (1 - k) / ((k + 1) * (k + 2) * (k + 3)) := by
    have := gen 1 (-6) 6
    unfold L3
    have e : ∀ u : ℝ, gpaQuantile loc scale k u * (6 * u ^ 2 - 6 * u + 1) =
        gpaQuantile loc scale k u * (1 + -6 * (1 - u) + 6 * (1 - u) ^ 2) := fun u => by ring
    simp only [e]
    rw [this]
    field_simp; ring
  have ht : L3 (gpaQuantile loc scale k) / L2 (gpaQuantile loc scale k) = (1 - k) / (k + 3) := by
    rw [e2, e3]
    have := hs.ne'
    field_simp
  have hpos : 0 < L2 (gpaQuantile loc scale k) := by
    rw [e2]
    have : 0 < k + 1 := by linarith
    have : 0 < k + 2 := by linarith
    positivity
  have hlt : |(1 - k) / (k + 3)| < 1 := by
    have h3p : 0 < k + 3 := by linarith
    rw [abs_lt]
    constructor
    · rw [lt_div_iff₀ h3p]; linarith
    · rw [div_lt_one h3p]; linarith
  unfold pelgpa
  rw [if_neg (not_le.2 hpos), ht, if_neg (not_le.2 hlt)]
  have g : (1 - 3 * ((1 - k) / (k + 3))) / (1 + (1 - k) / (k + 3)) = k := by
    have : 1 + (1 - k) / (k + 3) = 4 / (k + 3) := by field_simp; ring
    rw [this]; field_simp; ring
  simp only [g, e1, e2]
  have h1' : 1 + k ≠ 0 := by rwa [add_comm]
  have h2' : 2 + k ≠ 0 := by rwa [add_comm]
  refine Prod.ext ?_ (Prod.ext ?_ rfl)
  · simp only; rw [add_comm 1 k, add_comm 2 k]; field_simp; ring
  · simp only; rw [add_comm 1 k, add_comm 2 k]; field_simp

/-- C45: fewer than three moments are the mean, or the mean and the second sample L-moment. -/
theorem C45_two_moments (data : List ℝ) (h : 2 < data.length) :
    samlmu data 1 = .ok (some [sampleL1 data.length (data.getD · 0)]) ∧
    samlmu data 2 = .ok (some [sampleL1 data.length (data.getD · 0), sampleL2 data.length (data.getD · 0)]) := by
  have hn : (data.length : ℝ) ≠ 0 := by
    have : (2 : ℝ) < data.length := by exact_mod_cast h
    intro h; linarith
  have hn1 : (data.length : ℝ) - 1 ≠ 0 := by
    have : (2 : ℝ) < data.length := by exact_mod_cast h
    intro h; linarith
  have e2 : (∑ i ∈ range data.length, data.getD i 0 * (-(data.length : ℝ) + 1 + 2 * i)) /
      (data.length * ((data.length : ℝ) - 1)) = sampleL2 data.length (data.getD · 0) := by
    rw [sampleL2_eq h, mul_comm (data.length : ℝ), ← div_div]
    congr 1
    rw [sum_div]
    refine sum_congr rfl fun i _ => ?_
    unfold p1
    ring
  constructor
  · unfold samlmu
    rw [if_neg (by omega), if_neg (by norm_num), if_neg (by norm_num)]
    simp only [sum_map_range]
    rw [if_pos (by norm_num), if_pos trivial]
    rfl
  · unfold samlmu
    rw [if_neg (by omega), if_neg (by norm_num), if_neg (by norm_num)]
    simp only [sum_map_range]
    rw [if_pos (by norm_num), if_neg (by norm_num), e2]
    rfl

example : samlmu [1, 2, 6] 2 = .ok (some [3, 5 / 3]) := by
  rw [(C45_two_moments _ (by simp)).2, sampleL2_eq (by simp)]
  simp [sum_range_succ, p1, sampleL1]
  norm_num

/-- C45: moments that no sample can have give three zeros, for the Pareto and for the extreme value fit. -/
theorem C45_invalid {l1 l2 t3 : ℝ} (h : l2 ≤ 0 ∨ 1 ≤ |t3|) :
    pelgpa l1 l2 t3 = (0, 0, 0) ∧ pelgev l1 l2 t3 = (0, 0, 0) := by
  unfold pelgpa pelgev
  rcases h with h | h
  · rw [if_pos h, if_pos h]; exact ⟨rfl, rfl⟩
  · constructor <;> split <;> first | rfl | exact if_pos h

end Tcrm.Evd
