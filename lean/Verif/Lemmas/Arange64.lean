import Verif.Model.Arange64
import Verif.Spec.Arange64
import Verif.Lemmas.Binary64
/-!
`np.arange` in double precision is exact for numbers with few binary digits.
-/
namespace Tcrm.Arange64

open Tcrm.Binary64 Tcrm.Cells

theorem fl_dyadic (n : ℤ) (k : ℕ) (h : |n| ≤ 2 ^ 53) : fl ((n : ℚ) / 2 ^ k) = n / 2 ^ k :=
  fl_exact ⟨n, -(k : ℤ), h, by rw [zpow_neg, zpow_natCast, div_eq_mul_inv]⟩

theorem double_neg {x : ℚ} (h : Double x) : Double (-x) := by
  obtain ⟨m, e, hm, rfl⟩ := h
  exact ⟨-m, e, by rwa [abs_neg], by push_cast; ring⟩

/-- Rounding the quotient of whole numbers does not change it when it is rounded up afterwards. -/
theorem ceil_quotient {a b : ℤ} (ha : |a| < 2 ^ 53) (hb : 0 < b) : ⌈fl ((a : ℚ) / b)⌉ = ⌈(a : ℚ) / b⌉ := by
  have hbq : (0 : ℚ) < b := by exact_mod_cast hb
  have haq : |(a : ℚ)| < 2 ^ 53 := by exact_mod_cast ha
  set c := ⌈(a : ℚ) / b⌉ with hc
  have h1 : (a : ℚ) / b ≤ c := Int.le_ceil _
  have h2 : (c : ℚ) < (a : ℚ) / b + 1 := Int.ceil_lt_add_one _
  have h2' : (c : ℚ) * b < a + b := by
    have := mul_lt_mul_of_pos_right h2 hbq
    rwa [add_mul, div_mul_cancel₀ _ hbq.ne', one_mul] at this
  have h3 : c * b + 1 ≤ a + b := by
    have : c * b < a + b := by exact_mod_cast h2'
    omega
  have h3' : (c : ℚ) * b + 1 ≤ a + b := by exact_mod_cast h3
  have habs : |(a : ℚ) / b| = |(a : ℚ)| / b := by rw [abs_div, abs_of_pos hbq]
  have hc1 : |c| ≤ 2 ^ 53 := by
    have ha1 := abs_lt.1 ha
    have h1' : a ≤ c * b := by
      have : (a : ℚ) ≤ c * b := by rwa [div_le_iff₀ hbq] at h1
      exact_mod_cast this
    rw [abs_le]
    constructor
    · by_contra hn
      push Not at hn
      have : c * b ≤ c := by nlinarith
      omega
    · by_contra hn
      push Not at hn
      have : c - 1 ≤ (c - 1) * b := by nlinarith
      have : (c - 1) * b = c * b - b := by ring
      omega
  rw [Int.ceil_eq_iff]
  constructor
  · have he := (abs_le.1 (fl_error ((a : ℚ) / b))).1
    rw [habs] at he
    have h4 : |(a : ℚ)| / b / 2 ^ 53 < 1 / b := by
      rw [div_div, div_lt_div_iff₀ (by positivity) hbq]
      nlinarith
    have h5 : (c : ℚ) - 1 + 1 / b ≤ a / b := by
      have : (c : ℚ) - 1 + 1 / b = (c * b + 1 - b) / b := by field_simp; ring
      rw [this, div_le_div_iff_of_pos_right hbq]
      linarith
    linarith
  · have := fl_mono h1
    rwa [fl_int hc1] at this

theorem ceil_quotient' {a b : ℤ} (ha : |a| < 2 ^ 53) (hb : b ≠ 0) : ⌈fl ((a : ℚ) / b)⌉ = ⌈(a : ℚ) / b⌉ := by
  rcases lt_or_gt_of_ne hb with h | h
  · have := ceil_quotient (a := -a) (b := -b) (by rwa [abs_neg]) (by omega)
    simpa [neg_div_neg_eq] using this
  · exact ceil_quotient ha h

theorem ratio (a b : ℤ) (k : ℕ) : (a : ℚ) / 2 ^ k / (b / 2 ^ k) = a / b := by
  have : (2 : ℚ) ^ k ≠ 0 := by positivity
  rcases eq_or_ne (b : ℚ) 0 with h | h
  · simp [h]
  · field_simp

/-- With few digits the length is that of exact arithmetic. -/
theorem size_exact {k : ℕ} {a b s : ℚ} (ha : Fine k a) (hb : Fine k b) (hs : Fine k s) (h0 : s ≠ 0) :
    size a b s = arangeSize a b s := by
  obtain ⟨A, hA, rfl⟩ := ha
  obtain ⟨B, hB, rfl⟩ := hb
  obtain ⟨S, hS, rfl⟩ := hs
  have hS0 : S ≠ 0 := by rintro rfl; simp at h0
  have hA' := abs_le.1 hA
  have hB' := abs_le.1 hB
  have e : (B : ℚ) / 2 ^ k - A / 2 ^ k = ((B - A : ℤ) : ℚ) / 2 ^ k := by push_cast; ring
  have hd : |B - A| < 2 ^ 53 := by rw [abs_lt]; constructor <;> omega
  rw [size, arangeSize, e, fl_dyadic _ _ hd.le, ratio, ceil_quotient' hd hS0]

theorem size_lt {a b s : ℚ} {k : ℕ} (ha : Fine k a) (hb : Fine k b) (hs : Fine k s) (h0 : s ≠ 0) (i : ℕ) :
    i < arangeSize a b s ↔ (0 < s ∧ a + i * s < b) ∨ (s < 0 ∧ b < a + i * s) := by
  rw [arangeSize, Int.lt_toNat, Int.lt_ceil]
  push_cast
  rcases lt_or_gt_of_ne h0 with h | h
  · rw [lt_div_iff_of_neg h]
    constructor
    · intro h1; right; exact ⟨h, by linarith⟩
    · rintro (⟨h1, -⟩ | ⟨-, h2⟩)
      · exact absurd h (not_lt.2 h1.le)
      · linarith
  · rw [lt_div_iff₀ h]
    constructor
    · intro h1; left; exact ⟨h, by linarith⟩
    · rintro (⟨-, h2⟩ | ⟨h1, -⟩)
      · linarith
      · exact absurd h (not_lt.2 h1.le)

theorem elem_exact {k : ℕ} {a b s : ℚ} (ha : Fine k a) (hb : Fine k b) (hs : Fine k s) (h0 : s ≠ 0) {i : ℕ}
    (hi : i < arangeSize a b s) : elem a s i = a + i * s := by
  rw [size_lt ha hb hs h0] at hi
  obtain ⟨A, hA, rfl⟩ := ha
  obtain ⟨B, hB, rfl⟩ := hb
  obtain ⟨S, hS, rfl⟩ := hs
  have hA' := abs_le.1 hA
  have hB' := abs_le.1 hB
  have hS' := abs_le.1 hS
  have h2 : (0 : ℚ) < 2 ^ k := by positivity
  have e1 : (A : ℚ) / 2 ^ k + S / 2 ^ k = ((A + S : ℤ) : ℚ) / 2 ^ k := by push_cast; ring
  have f1 : fl ((A : ℚ) / 2 ^ k + S / 2 ^ k) = ((A + S : ℤ) : ℚ) / 2 ^ k := by
    rw [e1, fl_dyadic _ _ (by rw [abs_le]; constructor <;> omega)]
  have e2 : ((A + S : ℤ) : ℚ) / 2 ^ k - A / 2 ^ k = (S : ℚ) / 2 ^ k := by push_cast; ring
  have f2 : fl ((S : ℚ) / 2 ^ k) = S / 2 ^ k := fl_dyadic _ _ (by omega)
  have e3 : (i : ℚ) * (S / 2 ^ k) = ((i * S : ℤ) : ℚ) / 2 ^ k := by push_cast; ring
  have e4 : (A : ℚ) / 2 ^ k + ((i * S : ℤ) : ℚ) / 2 ^ k = ((A + i * S : ℤ) : ℚ) / 2 ^ k := by push_cast; ring
  have hb : |A + i * S| ≤ 2 ^ 26 ∧ |(i : ℤ) * S| ≤ 2 ^ 26 := by
    rw [e3, e4, div_pos_iff_of_pos_right h2, div_lt_div_iff_of_pos_right h2, div_lt_div_iff_of_pos_right h2,
      div_neg_iff] at hi
    rcases hi with ⟨hs, h⟩ | ⟨hs, h⟩
    · have hs' : 0 < S := by exact_mod_cast hs
      have h' : A + i * S < B := by exact_mod_cast h
      have : 0 ≤ (i : ℤ) * S := by positivity
      constructor <;> rw [abs_le] <;> constructor <;> omega
    · have hs' : S < 0 := by
        rcases hs with ⟨-, h⟩ | ⟨h, -⟩
        · linarith
        · exact_mod_cast h
      have h' : B < A + i * S := by exact_mod_cast h
      have : (i : ℤ) * S ≤ 0 := mul_nonpos_of_nonneg_of_nonpos (by positivity) hs'.le
      constructor <;> rw [abs_le] <;> constructor <;> omega
  unfold elem
  split
  · rename_i h; subst h; simp
  · split
    · rename_i h; subst h; rw [f1, ← e1]; simp
    · rw [f1, e2, f2, e3, fl_dyadic _ _ (by omega), e4, fl_dyadic _ _ (by omega)]

theorem arange_length (a b s : ℚ) : (arange a b s).length = size a b s := by simp [arange]

theorem arange_get? {k : ℕ} {a b s : ℚ} (ha : Fine k a) (hb : Fine k b) (hs : Fine k s) (h0 : s ≠ 0) (i : ℕ) :
    (arange a b s)[i]? = arangeGet a b s i := by
  rw [arangeGet]
  split
  · rename_i h
    rw [arange, List.getElem?_map, List.getElem?_range (by rwa [size_exact ha hb hs h0])]
    simp [elem_exact ha hb hs h0 h]
  · rename_i h
    rw [List.getElem?_eq_none]
    rw [arange_length, size_exact ha hb hs h0]; omega

theorem fine_neg {k : ℕ} {x : ℚ} (h : Fine k x) : Fine k (-x) := by
  obtain ⟨n, hn, rfl⟩ := h
  exact ⟨-n, by rwa [abs_neg], by push_cast; ring⟩

/-- A whole number of steps, of a step rounded to a double: as many points, or one more. -/
theorem size_decimal {d σ s : ℚ} {N : ℕ} (hσ : 0 < σ) (hs : s = fl σ) (hN : N ≤ 2 ^ 50) (hd : d = N * σ) :
    N ≤ ⌈fl (d / s)⌉ ∧ ⌈fl (d / s)⌉ ≤ N + 1 ∧ (σ ≤ s → ⌈fl (d / s)⌉ = N) := by
  have he := abs_le.1 (fl_error σ)
  rw [abs_of_pos hσ, ← hs] at he
  have hNq : (N : ℚ) ≤ 1125899906842624 := by exact_mod_cast hN.trans (by norm_num)
  have hN0 : (0 : ℚ) ≤ N := Nat.cast_nonneg N
  have hs0 : 0 < s := by
    have : σ / 2 ^ 53 < σ := div_lt_self hσ (by norm_num)
    linarith
  have lo : (N : ℚ) - 1 / 2 ≤ d / s := by
    rw [le_div_iff₀ hs0, hd]
    rcases Nat.eq_zero_or_pos N with rfl | h
    · push_cast; nlinarith
    have h1 : (1 : ℚ) ≤ N := by exact_mod_cast h
    have : s ≤ σ * (1 + 1 / 2 ^ 53) := by linarith
    have h3 : (N - 1 / 2 : ℚ) * (1 + 1 / 2 ^ 53) ≤ N := by
      norm_num; linarith
    calc (N - 1 / 2 : ℚ) * s ≤ (N - 1 / 2) * (σ * (1 + 1 / 2 ^ 53)) :=
          mul_le_mul_of_nonneg_left this (by linarith)
      _ = ((N - 1 / 2) * (1 + 1 / 2 ^ 53)) * σ := by ring
      _ ≤ N * σ := mul_le_mul_of_nonneg_right h3 hσ.le
  have hi : d / s ≤ (N : ℚ) + 1 / 2 := by
    rw [div_le_iff₀ hs0, hd]
    have : σ * (1 - 1 / 2 ^ 53) ≤ s := by linarith
    have h3 : (N : ℚ) ≤ (N + 1 / 2) * (1 - 1 / 2 ^ 53) := by
      norm_num; linarith
    calc (N : ℚ) * σ ≤ ((N + 1 / 2) * (1 - 1 / 2 ^ 53)) * σ := mul_le_mul_of_nonneg_right h3 hσ.le
      _ = (N + 1 / 2) * (σ * (1 - 1 / 2 ^ 53)) := by ring
      _ ≤ (N + 1 / 2) * s := mul_le_mul_of_nonneg_left this (by positivity)
  have flo : (N : ℚ) - 1 / 2 ≤ fl (d / s) := by
    have := fl_mono lo
    have e : (N : ℚ) - 1 / 2 = ((2 * N - 1 : ℤ) : ℚ) / 2 ^ 1 := by push_cast; ring
    rw [e, fl_dyadic _ _ (by rw [abs_le]; omega)] at this
    rw [e]; exact this
  have fhi : fl (d / s) ≤ (N : ℚ) + 1 / 2 := by
    have := fl_mono hi
    have e : (N : ℚ) + 1 / 2 = ((2 * N + 1 : ℤ) : ℚ) / 2 ^ 1 := by push_cast; ring
    rw [e, fl_dyadic _ _ (by rw [abs_le]; omega)] at this
    rw [e]; exact this
  have l : (N : ℤ) ≤ ⌈fl (d / s)⌉ := by
    have : (N : ℤ) - 1 < ⌈fl (d / s)⌉ := by
      rw [Int.lt_ceil]; push_cast; linarith
    omega
  refine ⟨l, ?_, fun h => le_antisymm ?_ l⟩
  · rw [Int.ceil_le]; push_cast; linarith
  · rw [Int.ceil_le]
    have : d / s ≤ ((N : ℤ) : ℚ) := by
      rw [div_le_iff₀ hs0, hd]; push_cast; exact mul_le_mul_of_nonneg_left h hN0
    have := fl_mono this
    rwa [fl_int (by rw [abs_le]; omega)] at this

theorem tenth_le : (1 : ℚ) / 10 ≤ fl (1 / 10) := by decide +kernel

/-- Every tenth of a degree, in double precision. -/
theorem elem_near {a : ℤ} (ha : |a| ≤ 1000) {s t : ℚ} (hs : |s - t| ≤ 1 / 10 / 2 ^ 53) (ht : |t| = 1 / 10) {i : ℕ}
    (hi : i ≤ 20000) : |elem a s i - (a + i * t)| ≤ 1 / 10 ^ 8 := by
  have haq : |(a : ℚ)| ≤ 1000 := by exact_mod_cast ha
  have hiq : (i : ℚ) ≤ 20000 := by exact_mod_cast hi
  have hi0 : (0 : ℚ) ≤ i := Nat.cast_nonneg i
  rw [abs_le] at haq hs
  have ht' : |t| ≤ 1 / 10 := ht.le
  rw [abs_le] at ht'
  have e1 := abs_le.1 (fl_error ((a : ℚ) + s))
  have b1 : |(a : ℚ) + s| ≤ 1001 := by
    rw [abs_le]; constructor <;> linarith
  have d1 : |(a : ℚ) + s| / 2 ^ 53 ≤ 1001 / 2 ^ 53 := by
    rw [div_le_div_iff_of_pos_right (by norm_num)]; exact b1
  set x := fl ((a : ℚ) + s) with hx
  have e2 := abs_le.1 (fl_error (x - a))
  have b2 : |x - a| ≤ 1 := by
    rw [abs_le]; constructor <;> linarith
  have d2 : |x - a| / 2 ^ 53 ≤ 1 / 2 ^ 53 := by
    rw [div_le_div_iff_of_pos_right (by norm_num)]; exact b2
  set δ := fl (x - a) with hδ
  have hδt : |δ - t| ≤ 1003 / 2 ^ 53 := by
    rw [abs_le]; constructor <;> linarith
  have e3 := abs_le.1 (fl_error ((i : ℚ) * δ))
  have p0 : |(i : ℚ) * δ - i * t| ≤ 20000 * (1003 / 2 ^ 53) := by
    rw [← mul_sub, abs_mul, abs_of_nonneg hi0]
    exact mul_le_mul hiq hδt (abs_nonneg _) (by norm_num)
  have p1 : |(i : ℚ) * t| ≤ 2000 := by
    rw [abs_mul, abs_of_nonneg hi0, ht]; linarith
  rw [abs_le] at p0 p1
  have b3 : |(i : ℚ) * δ| ≤ 2001 := by
    rw [abs_le]; constructor <;> linarith
  have d3 : |(i : ℚ) * δ| / 2 ^ 53 ≤ 2001 / 2 ^ 53 := by
    rw [div_le_div_iff_of_pos_right (by norm_num)]; exact b3
  set y := fl ((i : ℚ) * δ) with hy
  have e4 := abs_le.1 (fl_error ((a : ℚ) + y))
  have b4 : |(a : ℚ) + y| ≤ 4000 := by
    rw [abs_le]; constructor <;> linarith
  have d4 : |(a : ℚ) + y| / 2 ^ 53 ≤ 4000 / 2 ^ 53 := by
    rw [div_le_div_iff_of_pos_right (by norm_num)]; exact b4
  unfold elem
  split
  · rename_i h; subst h; norm_num
  · split
    · rename_i h; subst h
      rw [← hx, abs_le]; push_cast; constructor <;> linarith
    · rw [← hx, ← hδ, ← hy, abs_le]; constructor <;> linarith

end Tcrm.Arange64
