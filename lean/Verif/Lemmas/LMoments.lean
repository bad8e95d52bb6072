import Verif.Model.LMoments
import Verif.Spec.LMoments
import Mathlib.Tactic.FieldSimp
import Mathlib.Tactic.Ring
import Mathlib.Tactic.Linarith
import Mathlib.Algebra.BigOperators.Ring.Finset
import Mathlib.Algebra.Order.BigOperators.Group.Finset
import Mathlib.Algebra.BigOperators.Intervals
/-! Lemmas on L-moments. -/
namespace Tcrm.Evd

open Finset

theorem sum_map_range (f : ℕ → ℝ) (n : ℕ) : ((List.range n).map f).sum = ∑ i ∈ range n, f i := by
  induction n with
  | zero => simp
  | succ n ih => rw [List.range_succ, List.map_append, List.sum_append, ih, sum_range_succ]; simp

theorem take_eq (data : List ℝ) (m : ℕ) (h : m ≤ data.length) :
    data.take m = (List.range m).map fun i => data.getD i 0 := by
  apply List.ext_getElem
  · simp [h]
  · intro i h1 h2
    have : i < data.length := by simp at h2; omega
    simp [List.getD_eq_getElem?_getD, this]

theorem reverse_take_eq (data : List ℝ) (m : ℕ) (h : m ≤ data.length) :
    data.reverse.take m = (List.range m).map fun i => data.getD (data.length - 1 - i) 0 := by
  apply List.ext_getElem
  · simp [h]
  · intro i h1 h2
    have h3 : i < m := by simpa using h2
    have : data.length - 1 - i < data.length := by omega
    simp [List.getD_eq_getElem?_getD, this]

/-- A sum split into pairs from both ends and the middle. -/
theorem sum_pairs (f : ℕ → ℝ) (n : ℕ) : ∑ j ∈ range n, f j =
    ∑ i ∈ range (n / 2), (f i + f (n - 1 - i)) + if n ≠ n / 2 + n / 2 then f (n / 2) else 0 := by
  rw [sum_add_distrib]
  rcases Nat.even_or_odd' n with ⟨m, rfl | rfl⟩
  · have e : 2 * m / 2 = m := by omega
    rw [e, if_neg (by omega), show 2 * m = m + m by ring, sum_range_add, add_zero]
    congr 1
    rw [← sum_range_reflect]
    refine sum_congr rfl fun i hi => ?_
    have := mem_range.1 hi
    congr 1; omega
  · have e : (2 * m + 1) / 2 = m := by omega
    rw [e, if_pos (by omega), show 2 * m + 1 = m + 1 + m by ring, sum_range_add, sum_range_succ]
    have : ∑ i ∈ range m, f (m + 1 + m - 1 - i) = ∑ i ∈ range m, f (m + 1 + i) := by
      rw [← sum_range_reflect (fun i => f (m + 1 + i))]
      refine sum_congr rfl fun i hi => ?_
      have := mem_range.1 hi
      congr 1; omega
    rw [this]; ring

/-- Weights of the second and third moment. -/
noncomputable def p1 (n : ℕ) (j : ℕ) : ℝ := (-(n : ℝ) + 1 + 2 * j) * (1 / ((n : ℝ) - 1))
noncomputable def p2 (n : ℕ) (j : ℕ) : ℝ :=
  (-(n : ℝ) + 1 + 2 * j) * (-(n : ℝ) + 1 + 2 * j) * (3 * (1 / (2 * n - 4))) * (1 / ((n : ℝ) - 1)) -
    (n + 1) * (1 / (2 * n - 4))

theorem cast_sub_one {n i : ℕ} (h : i < n / 2) : ((n - 1 - i : ℕ) : ℝ) = n - 1 - i := by
  rw [Nat.cast_sub (by omega), Nat.cast_sub (by omega)]; simp

theorem p1_reflect {n i : ℕ} (h : i < n / 2) : p1 n (n - 1 - i) = -p1 n i := by
  unfold p1; rw [cast_sub_one h]; ring

theorem p2_reflect {n i : ℕ} (h : i < n / 2) : p2 n (n - 1 - i) = p2 n i := by
  unfold p2; rw [cast_sub_one h]; ring

theorem p1_mid {n : ℕ} (h : n ≠ n / 2 + n / 2) : p1 n (n / 2) = 0 := by
  have e : (n : ℝ) = 2 * ((n / 2 : ℕ) : ℝ) + 1 := by
    have : n = 2 * (n / 2) + 1 := by omega
    exact_mod_cast this
  have : -(n : ℝ) + 1 + 2 * ((n / 2 : ℕ) : ℝ) = 0 := by linarith
  unfold p1; rw [this]; ring

theorem p2_mid {n : ℕ} (h : n ≠ n / 2 + n / 2) : p2 n (n / 2) = -((n + 1) * (1 / (2 * n - 4))) := by
  have e : (n : ℝ) = 2 * ((n / 2 : ℕ) : ℝ) + 1 := by
    have : n = 2 * (n / 2) + 1 := by omega
    exact_mod_cast this
  have : -(n : ℝ) + 1 + 2 * ((n / 2 : ℕ) : ℝ) = 0 := by linarith
  unfold p2; rw [this]; ring

theorem pairs_p1 (n : ℕ) (x : ℕ → ℝ) :
    ∑ i ∈ range (n / 2), p1 n i * (x i - x (n - 1 - i)) = ∑ j ∈ range n, p1 n j * x j := by
  rw [sum_pairs (fun j => p1 n j * x j)]
  have : (if n ≠ n / 2 + n / 2 then p1 n (n / 2) * x (n / 2) else 0) = 0 := by
    split
    · next h => rw [p1_mid h, zero_mul]
    · rfl
  rw [this, add_zero]
  refine sum_congr rfl fun i hi => ?_
  rw [p1_reflect (mem_range.1 hi)]; ring

theorem pairs_p2 (n : ℕ) (x : ℕ → ℝ) :
    (∑ i ∈ range (n / 2), p2 n i * (x i + x (n - 1 - i))) +
      (if n ≠ n / 2 + n / 2 then -((n + 1) * (1 / (2 * n - 4))) * x (n / 2) else 0) =
    ∑ j ∈ range n, p2 n j * x j := by
  rw [sum_pairs (fun j => p2 n j * x j)]
  congr 1
  · refine sum_congr rfl fun i hi => ?_
    rw [p2_reflect (mem_range.1 hi)]; ring
  · split
    · next h => rw [p2_mid h]
    · rfl

theorem pairs_one (n : ℕ) (x : ℕ → ℝ) :
    (∑ i ∈ range (n / 2), (x i + x (n - 1 - i))) + (if n ≠ n / 2 + n / 2 then x (n / 2) else 0) =
    ∑ j ∈ range n, x j := (sum_pairs x n).symm

/-- What `samlmu3` computes, as weighted sums over the whole sample. -/
theorem samlmu3_eq {data : List ℝ} (h : 2 < data.length) :
    samlmu3 data = .ok ((∑ j ∈ range data.length, data.getD j 0) / data.length,
      (∑ j ∈ range data.length, p1 data.length j * data.getD j 0) / data.length,
      (∑ j ∈ range data.length, p2 data.length j * data.getD j 0) /
        ∑ j ∈ range data.length, p1 data.length j * data.getD j 0) := by
  unfold samlmu3
  rw [if_neg (by omega)]
  have hh : data.length / 2 ≤ data.length := by omega
  simp only [take_eq data _ hh, reverse_take_eq data _ hh, List.zipWith_map, List.map_map,
    List.zipWith_self]
  rw [← pairs_p1 data.length (fun j => data.getD j 0), ← pairs_p2 data.length (fun j => data.getD j 0),
    ← pairs_one data.length (fun j => data.getD j 0)]
  simp only [sum_map_range]
  generalize data.length = n
  generalize (fun j => data.getD j 0) = x
  congr 1
  refine Prod.ext ?_ (Prod.ext ?_ ?_)
  · simp only; congr 1; split <;> simp
  · simp only; congr 1
    refine sum_congr rfl fun i _ => ?_
    unfold p1; ring
  · simp only; congr 1
    · split
      · rw [sub_eq_add_neg, ← neg_mul]; rfl
      · simp [p2]
    · refine sum_congr rfl fun i _ => ?_
      unfold p1; ring

/-- Sums over pairs and triples as weighted sums. -/
theorem sum_prefix (n : ℕ) (x : ℕ → ℝ) :
    ∑ j ∈ range n, ∑ i ∈ range j, x i = ∑ i ∈ range n, ((n : ℝ) - 1 - i) * x i := by
  induction n with
  | zero => simp
  | succ n ih =>
    rw [sum_range_succ, ih, sum_range_succ, ← sum_add_distrib]
    push_cast
    rw [show ((n : ℝ) + 1 - 1 - n) * x n = 0 by ring, add_zero]
    exact sum_congr rfl fun i _ => by ring

theorem sum_two (n : ℕ) (x : ℕ → ℝ) : ∑ j ∈ range n, ∑ i ∈ range j, (x j - x i) =
    ∑ j ∈ range n, (-(n : ℝ) + 1 + 2 * j) * x j := by
  have : ∀ j ∈ range n, ∑ i ∈ range j, (x j - x i) = (j : ℝ) * x j - ∑ i ∈ range j, x i := by
    intro j _; rw [sum_sub_distrib]; simp
  rw [sum_congr rfl this, sum_sub_distrib, sum_prefix, ← sum_sub_distrib]
  exact sum_congr rfl fun j _ => by ring

theorem sum_three (n : ℕ) (x : ℕ → ℝ) :
    ∑ k ∈ range n, ∑ j ∈ range k, ∑ i ∈ range j, (x k - 2 * x j + x i) =
    ∑ j ∈ range n, ((j : ℝ) * (j - 1) / 2 - 2 * j * (n - 1 - j) + (n - 1 - j) * (n - 2 - j) / 2) * x j := by
  induction n with
  | zero => simp
  | succ n ih =>
    have h1 : ∀ j ∈ range n, ∑ i ∈ range j, (x n - 2 * x j + x i) =
        (j : ℝ) * x n - 2 * j * x j + ∑ i ∈ range j, x i := by
      intro j _; rw [sum_add_distrib]; simp; ring
    have h2 : ∑ j ∈ range n, (j : ℝ) = n * (n - 1) / 2 := by
      clear ih h1
      induction n with
      | zero => simp
      | succ n ih => rw [sum_range_succ, ih]; push_cast; ring
    rw [sum_range_succ, ih, sum_congr rfl h1, sum_add_distrib, sum_prefix, sum_sub_distrib, ← sum_mul, h2,
      sum_range_succ]
    push_cast
    have h3 : ((n : ℝ) * (n - 1) / 2 - 2 * n * (n + 1 - 1 - n) + (n + 1 - 1 - n) * (n + 1 - 2 - n) / 2) * x n
        = n * (n - 1) / 2 * x n := by ring
    have h4 : ∑ j ∈ range n, ((j : ℝ) * (j - 1) / 2 - 2 * j * (n + 1 - 1 - j) +
          (n + 1 - 1 - j) * (n + 1 - 2 - j) / 2) * x j =
        ∑ j ∈ range n, ((j : ℝ) * (j - 1) / 2 - 2 * j * (n - 1 - j) + (n - 1 - j) * (n - 2 - j) / 2) * x j -
          ∑ j ∈ range n, 2 * (j : ℝ) * x j + ∑ j ∈ range n, ((n : ℝ) - 1 - j) * x j := by
      rw [← sum_sub_distrib, ← sum_add_distrib]
      exact sum_congr rfl fun j _ => by ring
    rw [h3, h4]; ring

theorem sampleL2_eq {n : ℕ} (h : 2 < n) (x : ℕ → ℝ) :
    sampleL2 n x = (∑ j ∈ range n, p1 n j * x j) / n := by
  have h1 : (n : ℝ) - 1 ≠ 0 := by
    have : (2 : ℝ) < n := by exact_mod_cast h
    intro h; linarith
  have h0 : (n : ℝ) ≠ 0 := by
    have : (2 : ℝ) < n := by exact_mod_cast h
    intro h; linarith
  have : ∑ j ∈ range n, p1 n j * x j =
      (1 / ((n : ℝ) - 1)) * ∑ j ∈ range n, (-(n : ℝ) + 1 + 2 * j) * x j := by
    rw [mul_sum]; exact sum_congr rfl fun j _ => by unfold p1; ring
  unfold sampleL2
  rw [sum_two, this]
  field_simp

theorem sampleL3_eq {n : ℕ} (h : 2 < n) (x : ℕ → ℝ) :
    sampleL3 n x = (∑ j ∈ range n, p2 n j * x j) / n := by
  have hn : (2 : ℝ) < n := by exact_mod_cast h
  have h1 : (n : ℝ) - 1 ≠ 0 := by intro h; linarith
  have h2 : (n : ℝ) - 2 ≠ 0 := by intro h; linarith
  have h0 : (n : ℝ) ≠ 0 := by intro h; linarith
  have : ∑ j ∈ range n, p2 n j * x j = (2 / (((n : ℝ) - 1) * (n - 2))) *
      ∑ j ∈ range n, ((j : ℝ) * (j - 1) / 2 - 2 * j * (n - 1 - j) + (n - 1 - j) * (n - 2 - j) / 2) * x j := by
    rw [mul_sum]
    refine sum_congr rfl fun j _ => ?_
    unfold p2
    have h4 : (2 * (n : ℝ) - 4) = 2 * (n - 2) := by ring
    rw [h4]
    field_simp
    ring
  unfold sampleL3
  rw [sum_three, this]
  field_simp
  ring

/-- Summation by parts against the spacings. -/
theorem abel (P : ℕ → ℝ) (p x : ℕ → ℝ) (h0 : P 0 = 0) (hP : ∀ j, P (j + 1) = P j + p j) (m : ℕ) :
    ∑ j ∈ range m, p j * x j = P m * x m - ∑ j ∈ range m, P (j + 1) * (x (j + 1) - x j) := by
  induction m with
  | zero => simp [h0]
  | succ m ih => rw [sum_range_succ, ih, sum_range_succ, hP]; ring

/-- Partial sums of the weights. -/
noncomputable def P1 (n m : ℕ) : ℝ := -(m * ((n : ℝ) - m)) * (1 / ((n : ℝ) - 1))
noncomputable def P2 (n m : ℕ) : ℝ :=
  -(m * ((n : ℝ) - m)) * (1 / ((n : ℝ) - 1)) * ((2 * m - n) / ((n : ℝ) - 2))

theorem P1_succ (n j : ℕ) : P1 n (j + 1) = P1 n j + p1 n j := by
  unfold P1 p1; push_cast; ring

theorem P2_succ {n : ℕ} (h : 2 < n) (j : ℕ) : P2 n (j + 1) = P2 n j + p2 n j := by
  have hn : (2 : ℝ) < n := by exact_mod_cast h
  have h1 : (n : ℝ) - 1 ≠ 0 := by intro h; linarith
  have h2 : (n : ℝ) - 2 ≠ 0 := by intro h; linarith
  unfold P2 p2; push_cast
  rw [show (2 * (n : ℝ) - 4) = 2 * (n - 2) by ring]
  field_simp; ring

theorem weighted_p1 {n : ℕ} (h : 2 < n) (x : ℕ → ℝ) : ∑ j ∈ range n, p1 n j * x j =
    ∑ j ∈ range (n - 1), -P1 n (j + 1) * (x (j + 1) - x j) := by
  obtain ⟨m, rfl⟩ : ∃ m, n = m + 1 := ⟨n - 1, by omega⟩
  rw [abel (P1 (m + 1)) (p1 (m + 1)) x (by simp [P1]) (P1_succ _), sum_range_succ]
  have : P1 (m + 1) (m + 1) = 0 := by simp [P1]
  rw [this]; simp [sum_neg_distrib]

theorem weighted_p2 {n : ℕ} (h : 2 < n) (x : ℕ → ℝ) : ∑ j ∈ range n, p2 n j * x j =
    ∑ j ∈ range (n - 1), -P2 n (j + 1) * (x (j + 1) - x j) := by
  obtain ⟨m, rfl⟩ : ∃ m, n = m + 1 := ⟨n - 1, by omega⟩
  rw [abel (P2 (m + 1)) (p2 (m + 1)) x (by simp [P2]) (P2_succ h), sum_range_succ]
  have : P2 (m + 1) (m + 1) = 0 := by simp [P2]
  rw [this]; simp [sum_neg_distrib]

theorem neg_P1_pos {n j : ℕ} (h : j + 1 < n) : 0 < -P1 n (j + 1) := by
  have h1 : ((j : ℝ) + 1) < n := by exact_mod_cast h
  have h2 : (0 : ℝ) ≤ j := Nat.cast_nonneg j
  unfold P1
  have : (0 : ℝ) < 1 / ((n : ℝ) - 1) := by
    have : (0 : ℝ) < n - 1 := by linarith
    positivity
  have h3 : (0 : ℝ) < ((j + 1 : ℕ) : ℝ) * ((n : ℝ) - ((j + 1 : ℕ) : ℝ)) := by
    push_cast
    have : (0 : ℝ) < (n : ℝ) - (j + 1) := by linarith
    positivity
  nlinarith

theorem abs_P2_le {n j : ℕ} (hn : 2 < n) (h : j + 1 < n) : |P2 n (j + 1)| ≤ -P1 n (j + 1) := by
  have e : P2 n (j + 1) = P1 n (j + 1) * ((2 * ((j + 1 : ℕ) : ℝ) - n) / ((n : ℝ) - 2)) := rfl
  have hp := neg_P1_pos h
  have hn' : (2 : ℝ) < n := by exact_mod_cast hn
  have h1 : ((j : ℝ) + 1) + 1 ≤ n := by exact_mod_cast h
  have h2 : (0 : ℝ) ≤ j := Nat.cast_nonneg j
  have hr : |(2 * ((j + 1 : ℕ) : ℝ) - n) / ((n : ℝ) - 2)| ≤ 1 := by
    rw [abs_div, abs_of_pos (by linarith : (0 : ℝ) < n - 2), div_le_one (by linarith), abs_le]
    push_cast
    constructor <;> linarith
  rw [e, abs_mul, abs_of_neg (by linarith)]
  exact mul_le_of_le_one_right hp.le hr

end Tcrm.Evd
