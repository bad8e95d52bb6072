import Verif.Model.Smooth
import Mathlib.Algebra.BigOperators.Intervals
import Mathlib.Algebra.BigOperators.Field
import Mathlib.Tactic.LinearCombination
import Mathlib.Algebra.Order.BigOperators.Group.Finset
import Mathlib.Tactic.Linarith
import Mathlib.Tactic.Positivity
/-!
C131: smoothing a map.
-/
namespace Tcrm.Smooth
open Finset

theorem reflect_lt {n : ℕ} (hn : 0 < n) (k : ℤ) : reflect n k < n := by
  unfold reflect
  have h1 : 0 ≤ k % (2 * n : ℤ) := Int.emod_nonneg _ (by omega)
  have h2 : k % (2 * n : ℤ) < 2 * n := Int.emod_lt_of_pos _ (by omega)
  simp only
  split <;> omega

theorem reflect_self {n : ℕ} {k : ℕ} (h : k < n) : reflect n k = k := by
  unfold reflect
  have : ((k : ℤ) % (2 * n : ℤ)) = k := Int.emod_eq_of_lt (by omega) (by omega)
  simp only [this, Int.toNat_natCast]
  rw [if_pos h]

theorem reflect_period (n : ℕ) (k : ℤ) : reflect n (k + 2 * n) = reflect n k := by
  unfold reflect
  rw [Int.add_emod_right]

theorem reflect_mirror {n : ℕ} (hn : 0 < n) (k : ℤ) : reflect n (-1 - k) = reflect n k := by
  unfold reflect
  have h1 : 0 ≤ k % (2 * n : ℤ) := Int.emod_nonneg _ (by omega)
  have h2 : k % (2 * n : ℤ) < 2 * n := Int.emod_lt_of_pos _ (by omega)
  have h3 : (-1 - k) % (2 * n : ℤ) = 2 * n - 1 - k % (2 * n : ℤ) := by
    have e : -1 - k = (2 * n - 1 - k % (2 * n : ℤ)) + (2 * n : ℤ) * (-(k / (2 * n : ℤ)) - 1) := by
      have := Int.emod_add_mul_ediv k (2 * n : ℤ)
      linear_combination this
    rw [e, Int.add_mul_emod_self_left]
    exact Int.emod_eq_of_lt (by omega) (by omega)
  simp only [h3]
  split <;> split <;> omega

theorem total_pos (size : ℕ) : 0 < total size := by
  unfold total
  apply sum_pos
  · intro x _
    apply sum_pos (fun y _ => Real.exp_pos _)
    exact ⟨0, by simp⟩
  · exact ⟨0, by simp⟩

/-- The weights add up to one. -/
theorem weights_one (size : ℕ) :
    ∑ x ∈ Icc (-(size : ℤ)) size, ∑ y ∈ Icc (-(size : ℤ)) size, weight size x y / total size = 1 := by
  have : ∑ x ∈ Icc (-(size : ℤ)) size, ∑ y ∈ Icc (-(size : ℤ)) size, weight size x y / total size =
      total size / total size := by
    conv_rhs => rw [total, sum_div]
    apply sum_congr rfl
    intro x _
    rw [sum_div]
    rfl
  rw [this, div_self (total_pos size).ne']

/-- C131: smoothed values lie between the least and the greatest value of the map. -/
theorem C131_within {rows cols : ℕ} (hr : 0 < rows) (hc : 0 < cols) (im : ℕ → ℕ → ℝ) (size j i : ℕ) {lo hi : ℝ}
    (h : ∀ j < rows, ∀ i < cols, lo ≤ im j i ∧ im j i ≤ hi) :
    lo ≤ smooth rows cols im size j i ∧ smooth rows cols im size j i ≤ hi := by
  have hw : ∀ x y, 0 ≤ weight size x y / total size := fun x y =>
    div_nonneg (Real.exp_pos _).le (total_pos size).le
  have hconst : ∀ c : ℝ, ∑ x ∈ Icc (-(size : ℤ)) size, ∑ y ∈ Icc (-(size : ℤ)) size,
      weight size x y / total size * c = c := by
    intro c
    simp only [← sum_mul]
    rw [weights_one, one_mul]
  constructor
  · rw [← hconst lo]
    unfold smooth
    gcongr with x _ y _
    · exact hw x y
    · exact (h _ (reflect_lt hr _) _ (reflect_lt hc _)).1
  · conv_rhs => rw [← hconst hi]
    unfold smooth
    gcongr with x _ y _
    · exact hw x y
    · exact (h _ (reflect_lt hr _) _ (reflect_lt hc _)).2

theorem sum_shift (N : ℕ) (g : ℤ → ℝ) (hg : ∀ k, g (k + N) = g k) (s : ℤ) :
    ∑ k ∈ range N, g (s + k) = ∑ k ∈ range N, g k := by
  have step : ∀ s : ℤ, ∑ k ∈ range N, g (s + 1 + k) = ∑ k ∈ range N, g (s + k) := by
    intro s
    have h1 := sum_range_succ (fun k : ℕ => g (s + k)) N
    have h2 := sum_range_succ' (fun k : ℕ => g (s + k)) N
    simp only [Nat.cast_zero, add_zero, hg, Nat.cast_add, Nat.cast_one] at h1 h2
    have h3 : ∑ k ∈ range N, g (s + 1 + k) = ∑ k ∈ range N, g (s + (k + 1)) :=
      sum_congr rfl fun k _ => by rw [show s + 1 + (k : ℤ) = s + (k + 1) by ring]
    linarith
  induction s with
  | zero => simp
  | succ n ih => rw [step, ih]
  | pred n ih =>
    rw [← ih, ← step, show (-(n : ℤ) - 1 + 1) = -n by ring]

/-- Over a whole period of the reflected axis every value comes twice. -/
theorem sum_period {n : ℕ} (hn : 0 < n) (f : ℕ → ℝ) (a : ℤ) :
    ∑ k ∈ range n, f (reflect n (k - a)) + ∑ k ∈ range n, f (reflect n (k + a)) = 2 * ∑ k ∈ range n, f k := by
  have hper : ∀ k : ℤ, f (reflect n (k + (n + n : ℕ))) = f (reflect n k) := fun k => by
    rw [show ((n + n : ℕ) : ℤ) = 2 * n by push_cast; ring, reflect_period]
  have h1 : ∑ k ∈ range n, f (reflect n (k - a)) = ∑ k ∈ range n, f (reflect n (a - n + k)) := by
    rw [← sum_range_reflect]
    apply sum_congr rfl
    intro k hk
    rw [← reflect_mirror hn]
    congr 2
    have := mem_range.1 hk
    omega
  have h2 : ∑ k ∈ range n, f (reflect n (k + a)) = ∑ k ∈ range n, f (reflect n (a - n + (n + k : ℕ))) := by
    apply sum_congr rfl
    intro k _
    congr 2
    push_cast
    ring
  have h3 := sum_range_add (fun k : ℕ => f (reflect n (a - n + k))) n n
  have h4 := sum_shift (n + n) (fun k => f (reflect n k)) hper (a - n)
  have h5 := sum_range_add (fun k : ℕ => f (reflect n k)) n n
  have h6 : ∑ k ∈ range n, f (reflect n k) = ∑ k ∈ range n, f k :=
    sum_congr rfl fun k hk => by rw [reflect_self (mem_range.1 hk)]
  have h7 : ∑ k ∈ range n, f (reflect n (n + k : ℕ)) = ∑ k ∈ range n, f k := by
    rw [← sum_range_reflect (fun k => f k)]
    apply sum_congr rfl
    intro k hk
    have hk' := mem_range.1 hk
    rw [← reflect_mirror hn, ← reflect_period]
    rw [show (-1 - ((n + k : ℕ) : ℤ) + 2 * n) = ((n - 1 - k : ℕ) : ℤ) by omega, reflect_self (by omega)]
  rw [h1, h2, ← h3, h4, h5, h6, h7]
  ring

theorem weight_neg (size : ℕ) (x y : ℤ) : weight size (-x) y = weight size x y ∧ weight size x (-y) = weight size x y := by
  simp [weight]

theorem sum_neg_Icc (s : ℕ) (F : ℤ → ℝ) : ∑ x ∈ Icc (-(s : ℤ)) s, F (-x) = ∑ x ∈ Icc (-(s : ℤ)) s, F x := by
  apply sum_nbij' (fun x => -x) (fun x => -x)
  · intro x hx; rw [mem_Icc] at *; omega
  · intro x hx; rw [mem_Icc] at *; omega
  · intro x _; ring
  · intro x _; ring
  · intro x _; rfl

/-- A symmetric average along one axis keeps the sum. -/
theorem sum_axis {n : ℕ} (hn : 0 < n) (s : ℕ) (w : ℤ → ℝ) (hw : ∀ x, w (-x) = w x) (f : ℕ → ℝ) :
    ∑ k ∈ range n, ∑ x ∈ Icc (-(s : ℤ)) s, w x * f (reflect n (k - x)) =
      (∑ x ∈ Icc (-(s : ℤ)) s, w x) * ∑ k ∈ range n, f k := by
  rw [sum_comm]
  have h1 : ∑ x ∈ Icc (-(s : ℤ)) s, ∑ k ∈ range n, w x * f (reflect n (k - x)) =
      ∑ x ∈ Icc (-(s : ℤ)) s, ∑ k ∈ range n, w x * f (reflect n (k + x)) := by
    rw [← sum_neg_Icc]
    apply sum_congr rfl
    intro x _
    apply sum_congr rfl
    intro k _
    rw [hw, sub_neg_eq_add]
  have h2 : ∑ x ∈ Icc (-(s : ℤ)) s, ∑ k ∈ range n, w x * f (reflect n (k - x)) +
      ∑ x ∈ Icc (-(s : ℤ)) s, ∑ k ∈ range n, w x * f (reflect n (k + x)) =
      2 * ((∑ x ∈ Icc (-(s : ℤ)) s, w x) * ∑ k ∈ range n, f k) := by
    rw [← sum_add_distrib, sum_mul, mul_sum]
    apply sum_congr rfl
    intro x _
    rw [← mul_sum, ← mul_sum, ← mul_add, sum_period hn f x]
    ring
  linarith

/-- C131: the mean of the map is kept. -/
theorem C131_mean {rows cols : ℕ} (hr : 0 < rows) (hc : 0 < cols) (im : ℕ → ℕ → ℝ) (size : ℕ) :
    ∑ j ∈ range rows, ∑ i ∈ range cols, smooth rows cols im size j i = ∑ j ∈ range rows, ∑ i ∈ range cols, im j i := by
  have h1 : ∀ j : ℕ, ∑ i ∈ range cols, smooth rows cols im size j i =
      ∑ x ∈ Icc (-(size : ℤ)) size, (∑ y ∈ Icc (-(size : ℤ)) size, weight size x y / total size) *
        ∑ i ∈ range cols, im (reflect rows (j - x)) i := by
    intro j
    unfold smooth
    rw [sum_comm]
    apply sum_congr rfl
    intro x _
    exact sum_axis hc size (fun y => weight size x y / total size) (fun y => by simp only [(weight_neg size x y).2])
      (fun i => im (reflect rows (j - x)) i)
  rw [sum_congr rfl fun j _ => h1 j]
  rw [sum_axis hr size (fun x => ∑ y ∈ Icc (-(size : ℤ)) size, weight size x y / total size)
    (fun x => sum_congr rfl fun y _ => by rw [(weight_neg size x y).1]) (fun j => ∑ i ∈ range cols, im j i)]
  rw [weights_one, one_mul]

/-- C131 fails for maps with missing cells: their fill value (below all others) is averaged with the rest, so that
the smoothed value is too low at every place within reach of such a cell. -/
theorem C131_missing_cells_fails {rows cols : ℕ} (hr : 0 < rows) (hc : 0 < cols) (im : ℕ → ℕ → ℝ) (size j i j0 i0 : ℕ)
    (hj : j < rows) (hi : i < cols) (hj0 : j0 < rows) (hi0 : i0 < cols) {fill c : ℝ} (hf : fill < c)
    (h0 : im j0 i0 = fill) (h : ∀ j < rows, ∀ i < cols, im j i ≤ c)
    (hnear : |(j : ℤ) - j0| ≤ size ∧ |(i : ℤ) - i0| ≤ size) : smooth rows cols im size j i < c := by
  have hw : ∀ x y, 0 < weight size x y / total size := fun x y => div_pos (Real.exp_pos _) (total_pos size)
  have hconst : ∑ x ∈ Icc (-(size : ℤ)) size, ∑ y ∈ Icc (-(size : ℤ)) size,
      weight size x y / total size * c = c := by
    simp only [← sum_mul]
    rw [weights_one, one_mul]
  conv_rhs => rw [← hconst]
  unfold smooth
  have hle : ∀ x y, weight size x y / total size * im (reflect rows (j - x)) (reflect cols (i - y)) ≤
      weight size x y / total size * c := fun x y =>
    mul_le_mul_of_nonneg_left (h _ (reflect_lt hr _) _ (reflect_lt hc _)) (hw x y).le
  apply sum_lt_sum
  · intro x _
    exact sum_le_sum fun y _ => hle x y
  · refine ⟨(j : ℤ) - j0, by rw [mem_Icc]; exact abs_le.1 hnear.1, ?_⟩
    apply sum_lt_sum
    · intro y _; exact hle _ y
    · refine ⟨(i : ℤ) - i0, by rw [mem_Icc]; exact abs_le.1 hnear.2, ?_⟩
      apply mul_lt_mul_of_pos_left _ (hw _ _)
      rw [show (j : ℤ) - (j - j0) = j0 by ring, show (i : ℤ) - (i - i0) = i0 by ring, reflect_self hj0,
        reflect_self hi0, h0]
      exact hf

/-- Maps that meet the hypotheses: 3 rows and 2 columns, complete, and with one missing cell. -/
example : (∀ j < 3, ∀ i < 2, (40 : ℝ) ≤ 50 ∧ (50 : ℝ) ≤ 60) ∧
    smooth 3 2 (fun j i => if j = 0 ∧ i = 0 then -9999 else 50) 4 1 1 < 50 :=
  ⟨fun _ _ _ _ => by norm_num,
    C131_missing_cells_fails (by norm_num) (by norm_num) _ 4 1 1 0 0 (by norm_num) (by norm_num) (by norm_num)
      (by norm_num) (fill := -9999) (by norm_num) (by simp) (by intro j _ i _; split <;> norm_num) (by norm_num)⟩

/-- Near a place away from the ends of an axis, only the place itself is read as it. -/
theorem reflect_eq_iff {n s a b : ℕ} (ha : a < n) (h1 : s ≤ b) (h2 : b + s < n) {x : ℤ} (hx : -(s : ℤ) ≤ x ∧ x ≤ s) :
    reflect n (a - x) = b ↔ x = a - b := by
  rcases lt_or_ge (a - x : ℤ) 0 with hk | hk
  · have e : reflect n (a - x) = (-1 - (a - x : ℤ)).toNat := by
      have := reflect_mirror (n := n) (by omega) (a - x)
      rw [← this]
      have h := reflect_self (n := n) (k := (-1 - (a - x : ℤ)).toNat) (by omega)
      rwa [Int.toNat_of_nonneg (by omega)] at h
    rw [e]; omega
  rcases lt_or_ge (a - x : ℤ) n with hk' | hk'
  · have h := reflect_self (n := n) (k := (a - x : ℤ).toNat) (by omega)
    rw [Int.toNat_of_nonneg (by omega)] at h
    rw [h]; omega
  · have e : reflect n (a - x) = (2 * n - 1 - (a - x : ℤ)).toNat := by
      rw [← reflect_mirror (n := n) (by omega) (a - x), ← reflect_period]
      have h := reflect_self (n := n) (k := (2 * n - 1 - (a - x : ℤ)).toNat) (by omega)
      rw [Int.toNat_of_nonneg (by omega)] at h
      rw [← h]
      congr 1; omega
    rw [e]; omega

/-- C131: the smoothing is by a Gaussian function whose variance along each axis is half the given size: a single value
`h` at least `size` cells away from the edges is spread over the cells at most `size` rows and columns away in
proportion to `exp (-d² / size)`, where `d` is the distance in cells, and it does not reach others. -/
theorem C131_spread {rows cols size j0 i0 : ℕ} (hj : size ≤ j0 ∧ j0 + size < rows) (hi : size ≤ i0 ∧ i0 + size < cols)
    (im : ℕ → ℕ → ℝ) (h : ℝ) (him : im j0 i0 = h) (h0 : ∀ j < rows, ∀ i < cols, (j ≠ j0 ∨ i ≠ i0) → im j i = 0)
    {j i : ℕ} (hjr : j < rows) (hic : i < cols) :
    (|(j : ℤ) - j0| ≤ size ∧ |(i : ℤ) - i0| ≤ size →
      smooth rows cols im size j i = h * Real.exp (-(((j : ℝ) - j0) ^ 2 + ((i : ℝ) - i0) ^ 2) / size) /
        ∑ x ∈ Icc (-(size : ℤ)) size, ∑ y ∈ Icc (-(size : ℤ)) size, Real.exp (-((x : ℝ) ^ 2 + (y : ℝ) ^ 2) / size)) ∧
    (¬ (|(j : ℤ) - j0| ≤ size ∧ |(i : ℤ) - i0| ≤ size) → smooth rows cols im size j i = 0) := by
  have ew : ∀ x y : ℤ, weight size x y = Real.exp (-((x : ℝ) ^ 2 + (y : ℝ) ^ 2) / size) := by
    intro x y
    unfold weight
    congr 1; ring
  have term : ∀ x ∈ Icc (-(size : ℤ)) size, ∀ y ∈ Icc (-(size : ℤ)) size,
      weight size x y / total size * im (reflect rows (j - x)) (reflect cols (i - y)) =
        if x = j - j0 then (if y = i - i0 then weight size x y / total size * h else 0) else 0 := by
    intro x hx y hy
    rw [mem_Icc] at hx hy
    have rx := reflect_eq_iff hjr hj.1 hj.2 hx
    have ry := reflect_eq_iff hic hi.1 hi.2 hy
    have lx : reflect rows (j - x) < rows := reflect_lt (by omega) _
    have ly : reflect cols (i - y) < cols := reflect_lt (by omega) _
    by_cases a : x = j - j0
    · by_cases b : y = i - i0
      · rw [if_pos a, if_pos b, rx.2 a, ry.2 b, him]
      · rw [if_pos a, if_neg b, h0 _ lx _ ly (.inr (fun e => b (ry.1 e))), mul_zero]
    · rw [if_neg a, h0 _ lx _ ly (.inl (fun e => a (rx.1 e))), mul_zero]
  have e1 : smooth rows cols im size j i = ∑ x ∈ Icc (-(size : ℤ)) size,
      if x = j - j0 then (∑ y ∈ Icc (-(size : ℤ)) size,
        if y = i - i0 then weight size x y / total size * h else 0) else 0 := by
    unfold smooth
    refine sum_congr rfl fun x hx => ?_
    rw [sum_congr rfl (term x hx)]
    split <;> simp
  rw [e1]
  simp only [sum_ite_eq', mem_Icc]
  constructor
  · rintro ⟨a, b⟩
    rw [abs_le] at a b
    rw [if_pos ⟨a.1, a.2⟩, if_pos ⟨b.1, b.2⟩, ew]
    unfold total
    simp only [ew]
    push_cast
    ring
  · intro hn
    split
    · next a =>
      rw [if_neg]
      intro b
      exact hn ⟨abs_le.2 a, abs_le.2 b⟩
    · rfl

end Tcrm.Smooth
