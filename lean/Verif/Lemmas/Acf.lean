import Verif.Model.Acf
import Mathlib.Tactic.Linarith
import Mathlib.Tactic.Positivity
namespace Tcrm.Acf

noncomputable def sq (p : List ℝ) : ℝ := (p.map (fun x => x ^ 2)).sum

theorem sq_nonneg' (p : List ℝ) : 0 ≤ sq p := by
  refine List.sum_nonneg ?_
  intro x hx
  obtain ⟨y, -, rfl⟩ := List.mem_map.1 hx
  positivity

theorem sq_cons (a : ℝ) (p : List ℝ) : sq (a :: p) = a ^ 2 + sq p := by simp [sq]

theorem sq_drop_le (p : List ℝ) (k : ℕ) : sq (p.drop k) ≤ sq p := by
  induction p generalizing k with
  | nil => simp
  | cons a t ih =>
    cases k with
    | zero => simp
    | succ k => rw [List.drop_succ_cons, sq_cons]; have := ih k; nlinarith [sq_nonneg a]

theorem zip_le (l m : List ℝ) : |(List.zipWith (· * ·) l m).sum| * 2 ≤ sq l + sq m := by
  induction l generalizing m with
  | nil => simpa [sq] using sq_nonneg' m
  | cons a t ih =>
    cases m with
    | nil => simpa [sq] using sq_nonneg' (a :: t)
    | cons b s =>
      rw [List.zipWith_cons_cons, List.sum_cons, sq_cons, sq_cons]
      have h1 := ih s
      have h2 := abs_add_le (a * b) (List.zipWith (· * ·) t s).sum
      have h3 : |a * b| * 2 ≤ a ^ 2 + b ^ 2 := by
        rw [abs_mul]; nlinarith [sq_nonneg (|a| - |b|), sq_abs a, sq_abs b]
      linarith

theorem lag_zero (p : List ℝ) : lag p 0 = sq p := by
  simp only [lag, List.drop_zero, sq]
  induction p with
  | nil => simp
  | cons a t ih => rw [List.zipWith_cons_cons, List.sum_cons, ih, List.map_cons, List.sum_cons, pow_two]

theorem lag_abs_le (p : List ℝ) (k : ℕ) : |lag p k| ≤ lag p 0 := by
  rw [lag_zero]
  have h1 := zip_le (p.drop k) p
  have h2 := sq_drop_le p k
  simp only [lag]
  linarith

theorem max_correlateFull (p : List ℝ) (hp : p ≠ []) : (correlateFull p).max? = some (lag p 0) := by
  have hn : 0 < p.length := List.length_pos_iff.2 hp
  rw [List.max?_eq_some_iff]
  refine ⟨?_, ?_⟩
  · simp only [correlateFull, List.mem_append, List.mem_map, List.mem_range]
    exact Or.inr ⟨0, hn, rfl⟩
  · intro b hb
    simp only [correlateFull, List.mem_append, List.mem_map, List.mem_range] at hb
    rcases hb with ⟨j, -, rfl⟩ | ⟨j, -, rfl⟩ <;> exact (le_abs_self _).trans (lag_abs_le p _)

theorem acf_eq (p : List ℝ) (hp : p ≠ []) (nlags : ℕ) :
    acf p nlags = some ((List.range (min p.length (nlags + 1))).map fun k => lag p k / lag p 0) := by
  have hn : 0 < p.length := List.length_pos_iff.2 hp
  simp only [acf, max_correlateFull p hp]
  congr 1
  rw [correlateFull, List.take_append, List.drop_append]
  simp only [List.length_map, List.length_reverse, List.length_range,
    List.length_take]
  rw [List.take_of_length_le (by simp; omega), List.drop_of_length_le (by simp)]
  rw [show p.length - 1 - min (p.length + nlags) (p.length - 1) = 0 by omega,
    show p.length + nlags - (p.length - 1) = nlags + 1 by omega]
  rw [List.nil_append, List.drop_zero, ← List.map_take, List.map_map, List.take_range,
    Nat.min_comm]
  rfl

/-- The lag-one sum is strictly smaller than the lag-zero sum unless the sample is zero. -/
theorem lag_one_cons (a b : ℝ) (t : List ℝ) : lag (a :: b :: t) 1 = a * b + lag (b :: t) 1 := by
  simp [lag, mul_comm]

theorem strict_aux (s : ℝ) (hs : s ^ 2 = 1) (a : ℝ) (t : List ℝ) :
    0 ≤ 2 * sq (a :: t) - 2 * s * lag (a :: t) 1 - a ^ 2 ∧
      (2 * sq (a :: t) - 2 * s * lag (a :: t) 1 - a ^ 2 = 0 → ∀ x ∈ a :: t, x = 0) := by
  induction t generalizing a with
  | nil =>
    simp only [sq, lag, List.map_cons, List.map_nil, List.sum_cons, List.sum_nil, List.drop_succ_cons,
      List.drop_nil, List.zipWith_nil_left, mul_zero]
    refine ⟨by nlinarith [sq_nonneg a], fun h x hx => ?_⟩
    have : a ^ 2 = 0 := by linarith
    rw [List.mem_singleton.1 hx]
    exact pow_eq_zero_iff (by norm_num) |>.1 this
  | cons b t ih =>
    obtain ⟨h1, h2⟩ := ih b
    rw [lag_one_cons, sq_cons a]
    have key : 2 * (a ^ 2 + sq (b :: t)) - 2 * s * (a * b + lag (b :: t) 1) - a ^ 2 =
        (a - s * b) ^ 2 + (2 * sq (b :: t) - 2 * s * lag (b :: t) 1 - b ^ 2) := by
      have : (s * b) ^ 2 = b ^ 2 := by rw [mul_pow, hs, one_mul]
      nlinarith
    rw [key]
    have hsq := sq_nonneg (a - s * b)
    refine ⟨by linarith, fun h x hx => ?_⟩
    have e2 := h2 (by linarith)
    have e1 : (a - s * b) ^ 2 = 0 := by linarith
    rcases List.mem_cons.1 hx with rfl | hx
    · have := pow_eq_zero_iff (by norm_num) |>.1 e1
      rw [e2 b (by simp)] at this
      linarith
    · exact e2 x hx

theorem lag_one_lt (p : List ℝ) (hp : ∃ x ∈ p, x ≠ 0) : |lag p 1| < lag p 0 := by
  obtain ⟨x, hx, hx0⟩ := hp
  cases p with
  | nil => simp at hx
  | cons a t =>
    rw [lag_zero]
    have main : ∀ s : ℝ, s ^ 2 = 1 → s * lag (a :: t) 1 < sq (a :: t) := by
      intro s hs
      obtain ⟨h1, h2⟩ := strict_aux s hs a t
      rcases h1.lt_or_eq with h | h
      · nlinarith [sq_nonneg a]
      · exact absurd (h2 h.symm x hx) hx0
    rw [abs_lt]
    have e1 := main 1 (by norm_num)
    have e2 := main (-1) (by norm_num)
    constructor <;> linarith

end Tcrm.Acf
