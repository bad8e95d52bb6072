import Verif.Model.Cdf
import Mathlib.Algebra.Order.BigOperators.Group.List
import Mathlib.Algebra.BigOperators.Ring.List
import Mathlib.Tactic.Ring
import Mathlib.Tactic.Linarith
import Mathlib.Tactic.FieldSimp
import Mathlib.Algebra.Order.Group.Unbundled.Abs
import Mathlib.Algebra.BigOperators.Intervals
namespace Tcrm.Cdf
variable {K : Type} [Field K] [LinearOrder K]

omit [LinearOrder K] in
@[simp] theorem cumsumFrom_length (acc : K) (l : List K) : (cumsumFrom acc l).length = l.length := by
  induction l generalizing acc with
  | nil => rfl
  | cons y t ih => simp [cumsumFrom, ih]

omit [LinearOrder K] in
theorem cumsumFrom_getElem? (acc : K) (l : List K) (i : Nat) (h : i < l.length) :
    (cumsumFrom acc l)[i]? = some (acc + (l.take (i + 1)).sum) := by
  induction l generalizing acc i with
  | nil => simp at h
  | cons y t ih =>
    cases i with
    | zero => simp [cumsumFrom]
    | succ i =>
      rw [cumsumFrom, List.getElem?_cons_succ, ih _ _ (by simpa using h)]
      simp [add_assoc]

omit [LinearOrder K] in
theorem cumsum_getElem? (l : List K) (i : Nat) (h : i < l.length) :
    (cumsum l)[i]? = some (l.take (i + 1)).sum := by
  rw [cumsum, cumsumFrom_getElem? _ _ _ h, zero_add]

omit [LinearOrder K] in
theorem cumsum_getLast? (l : List K) (h : l ≠ []) : (cumsum l).getLast? = some l.sum := by
  have hl : 0 < l.length := List.length_pos_iff.2 h
  rw [List.getLast?_eq_getElem?, cumsum, cumsumFrom_length, ← cumsum,
    cumsum_getElem? _ _ (by omega), List.take_of_length_le (by omega)]

section ordered
variable [IsStrictOrderedRing K]

theorem take_sum_mono {l : List K} (hl : ∀ v ∈ l, 0 ≤ v) {i j : Nat} (h : i ≤ j) :
    (l.take i).sum ≤ (l.take j).sum := by
  obtain ⟨k, rfl⟩ := Nat.exists_eq_add_of_le h
  rw [List.take_add, List.sum_append]
  have : 0 ≤ ((l.drop i).take k).sum :=
    List.sum_nonneg fun v hv => hl v (List.mem_of_mem_drop (List.mem_of_mem_take hv))
  linarith

omit [LinearOrder K] [IsStrictOrderedRing K] in
theorem sum_map_mul_left' (h : K) (l : List K) : (l.map (h * ·)).sum = h * l.sum := by
  induction l with
  | nil => simp
  | cons a t ih => simp [ih, mul_add]

theorem cdf_ok (x0 x1 : K) (xs : List K) (hx : x0 ≠ x1) (y : List K) (hne : y ≠ [])
    (hpos : y.sum ≠ 0) :
    cdf (x0 :: x1 :: xs) y =
      .ok ((List.range y.length).map fun i => (y.take (i + 1)).sum / y.sum) := by
  have hh : |x1 - x0| ≠ 0 := by simpa [sub_eq_zero] using hx.symm
  simp only [cdf]
  rw [cumsum_getLast? _ (by simpa using hne)]
  simp only
  rw [sum_map_mul_left', if_neg (mul_ne_zero hh hpos)]
  congr 1
  apply List.ext_getElem?
  intro i
  by_cases hi : i < y.length
  · rw [List.getElem?_map, cumsum_getElem? _ _ (by simpa using hi), ← List.map_take,
      sum_map_mul_left']
    simp [hi, mul_div_mul_left _ _ hh]
  · rw [List.getElem?_eq_none (by simpa [cumsum] using hi), List.getElem?_eq_none (by simpa using hi)]

omit [IsStrictOrderedRing K] in
theorem cdf_zero (x0 x1 : K) (xs : List K) (y : List K) (hne : y ≠ [])
    (hz : ∀ v ∈ y, v = 0) :
    cdf (x0 :: x1 :: xs) y = .ok (y.map fun _ => 0) := by
  have hs : y.sum = 0 := List.sum_eq_zero hz
  simp only [cdf]
  rw [cumsum_getLast? _ (by simpa using hne)]
  simp only
  rw [sum_map_mul_left', hs, mul_zero, if_pos rfl]
  congr 1
  apply List.ext_getElem?
  intro i
  by_cases hi : i < y.length
  · rw [cumsum_getElem? _ _ (by simpa using hi), ← List.map_take, sum_map_mul_left',
      List.sum_eq_zero (fun v hv => hz v (List.mem_of_mem_take hv))]
    simp [hi]
  · rw [List.getElem?_eq_none (by simpa [cumsum] using hi), List.getElem?_eq_none (by simpa using hi)]

omit [Field K] [IsStrictOrderedRing K] in
/-- `searchsorted` finds the first index not below `q`. -/
theorem searchsorted_spec (a : List K) (q : K) (i : Nat) (v : K) (hv : a[i]? = some v) :
    searchsorted a q = i ↔ q ≤ v ∧ ∀ (j : Nat) (w : K), j < i → a[j]? = some w → w < q := by
  induction a generalizing i with
  | nil => simp at hv
  | cons b t ih =>
    rw [searchsorted, List.findIdx_cons]
    by_cases hb : q ≤ b
    · simp only [hb, decide_true, cond_true]
      cases i with
      | zero => simp at hv; subst hv; simp [hb]
      | succ i =>
        refine iff_of_false (by omega) ?_
        rintro ⟨-, h⟩
        exact absurd (h 0 b (by omega) (by simp)) (not_lt.2 hb)
    · simp only [hb, decide_false, cond_false]
      cases i with
      | zero =>
        simp at hv; subst hv
        exact iff_of_false (by omega) (fun h => hb h.1)
      | succ i =>
        rw [List.getElem?_cons_succ] at hv
        have := ih i hv
        rw [searchsorted] at this
        rw [Nat.add_right_cancel_iff, this]
        constructor
        · rintro ⟨h1, h2⟩
          refine ⟨h1, fun j w hj hw => ?_⟩
          cases j with
          | zero => simp at hw; subst hw; exact not_le.1 hb
          | succ j => exact h2 j w (by omega) (by simpa using hw)
        · rintro ⟨h1, h2⟩
          exact ⟨h1, fun j w hj hw => h2 (j + 1) w (by omega) (by simpa using hw)⟩

omit [Field K] [IsStrictOrderedRing K] in
theorem searchsorted_le (a : List K) (q : K) : searchsorted a q ≤ a.length := List.findIdx_le_length

omit [Field K] [IsStrictOrderedRing K] in
theorem searchsorted_lt_iff (a : List K) (q : K) :
    searchsorted a q < a.length ↔ ∃ v ∈ a, q ≤ v := by
  rw [searchsorted, List.findIdx_lt_length]
  simp

omit [Field K] [IsStrictOrderedRing K] in
theorem searchsorted_mono (a : List K) {q r : K} (h : q ≤ r) :
    searchsorted a q ≤ searchsorted a r := by
  induction a with
  | nil => simp [searchsorted]
  | cons b t ih =>
    simp only [searchsorted, List.findIdx_cons] at *
    by_cases hr : r ≤ b
    · simp [hr, h.trans hr]
    · by_cases hq : q ≤ b
      · simp [hq]
      · simpa [hr, hq] using ih

end ordered

omit [LinearOrder K] in
/-- The running-sum table is the double sum. -/
theorem cz_eq (g : Nat → Nat → K) (i j : Nat) :
    cz g i j = ∑ a ∈ Finset.range (i + 1), ∑ b ∈ Finset.range (j + 1), g a b := by
  fun_induction cz g i j with
  | case1 => simp
  | case2 i ih => rw [ih, Finset.sum_range_succ _ (i + 1)]; simp
  | case3 j ih => rw [ih]; simp [Finset.sum_range_succ]
  | case4 i j h1 h2 h3 =>
    rw [h1, h2, h3]
    rw [Finset.sum_range_succ (fun a => ∑ b ∈ Finset.range (j + 1 + 1), g a b) (i + 1),
      Finset.sum_range_succ (fun b => g (i + 1) b) (j + 1),
      Finset.sum_range_succ (fun a => ∑ b ∈ Finset.range (j + 1), g a b) (i + 1)]
    ring

end Tcrm.Cdf
