import Verif.Model.Binary64
import Verif.Spec.Binary64
import Mathlib.Tactic.Linarith
import Mathlib.Tactic.Positivity
import Mathlib.Tactic.FieldSimp
import Mathlib.Tactic.Ring
/-!
Rounding to double precision: it is the nearest double, so it is monotone, exact on doubles, and the error is at
most 2⁻⁵³ of the number.
-/
namespace Tcrm.Binary64

open Tcrm.Windfield Tcrm.DataProc

theorem npRound_nearest (y : ℚ) (n : ℤ) : |(npRound y : ℚ) - y| ≤ |(n : ℚ) - y| := by
  have h0 := Int.floor_le y
  have h1 := Int.lt_floor_add_one y
  have key : (n : ℚ) ≤ ⌊y⌋ ∨ (⌊y⌋ : ℚ) + 1 ≤ n := by
    rcases le_or_gt n ⌊y⌋ with h | h
    · left; exact_mod_cast h
    · right; exact_mod_cast h
  have a1 : |(⌊y⌋ : ℚ) - y| = y - ⌊y⌋ := by rw [abs_of_nonpos (by linarith)]; ring
  have a2 : |((⌊y⌋ + 1 : ℤ) : ℚ) - y| = ⌊y⌋ + 1 - y := by
    push_cast; rw [abs_of_nonneg (by linarith)]
  have lower : min (y - ⌊y⌋) (⌊y⌋ + 1 - y) ≤ |(n : ℚ) - y| := by
    rcases key with h | h
    · exact (min_le_left _ _).trans (le_trans (by linarith) (neg_le_abs _))
    · exact (min_le_right _ _).trans (le_trans (by linarith) (le_abs_self _))
  refine le_trans ?_ lower
  unfold npRound
  split_ifs with c1 c2 c3
  · rw [a1, le_min_iff]; exact ⟨le_rfl, by linarith⟩
  · rw [a2, le_min_iff]; exact ⟨by linarith, le_rfl⟩
  · rw [a1, le_min_iff]; exact ⟨le_rfl, by linarith⟩
  · rw [a2, le_min_iff]; exact ⟨by linarith, le_rfl⟩

theorem npRound_half (y : ℚ) : |(npRound y : ℚ) - y| ≤ 1 / 2 := by
  have h := Int.floor_le y
  have h1 := Int.lt_floor_add_one y
  rcases le_total (y - ⌊y⌋) (1 / 2) with c | c
  · refine (npRound_nearest y ⌊y⌋).trans ?_
    rw [abs_le]; constructor <;> linarith
  · refine (npRound_nearest y (⌊y⌋ + 1)).trans ?_
    push_cast
    rw [abs_le]; constructor <;> linarith

theorem fl_zero : fl 0 = 0 := if_pos rfl

/-- The unit in the last place. -/
theorem fl_spec {x : ℚ} (hx : x ≠ 0) : ∃ e : ℤ, fl x = (npRound (x / 2 ^ e) : ℚ) * 2 ^ e ∧
    (2 : ℚ) ^ (52 : ℕ) * 2 ^ e ≤ |x| ∧ |x| < (2 : ℚ) ^ (53 : ℕ) * 2 ^ e := by
  have hpos : 0 < |x| := abs_pos.2 hx
  refine ⟨Int.log 2 |x| - 52, by simp [fl, hx], ?_, ?_⟩
  · have := Int.zpow_log_le_self (b := 2) (r := |x|) (by norm_num) hpos
    rw [← zpow_natCast, ← zpow_add₀ (by norm_num)]
    refine le_trans (le_of_eq ?_) this
    push_cast
    congr 1
    ring
  · have := Int.lt_zpow_succ_log_self (b := 2) (by norm_num) |x|
    rw [← zpow_natCast, ← zpow_add₀ (by norm_num)]
    refine lt_of_lt_of_eq this ?_
    push_cast
    congr 1
    ring

theorem fl_double (x : ℚ) : Double (fl x) := by
  by_cases hx : x = 0
  · exact ⟨0, 0, by norm_num, by simp [hx, fl_zero]⟩
  · obtain ⟨e, he, h1, h2⟩ := fl_spec hx
    refine ⟨npRound (x / 2 ^ e), e, ?_, he⟩
    have hu : (0 : ℚ) < 2 ^ e := zpow_pos (by norm_num) e
    have hy : |x / 2 ^ e| < 2 ^ 53 := by
      rw [abs_div, abs_of_pos hu, div_lt_iff₀ hu]; exact h2
    have hh := npRound_half (x / 2 ^ e)
    have : |(npRound (x / 2 ^ e) : ℚ)| < 2 ^ 53 + 1 := by
      have := abs_sub_abs_le_abs_sub (npRound (x / 2 ^ e) : ℚ) (x / 2 ^ e)
      linarith
    have h3 : |npRound (x / 2 ^ e)| < 2 ^ 53 + 1 := by exact_mod_cast this
    omega

theorem fl_nearest (x z : ℚ) (hz : Double z) : |fl x - x| ≤ |z - x| := by
  by_cases hx : x = 0
  · subst hx; rw [fl_zero]; simp
  obtain ⟨e, he, h1, h2⟩ := fl_spec hx
  have hu : (0 : ℚ) < 2 ^ e := zpow_pos (by norm_num) e
  have mult : ∀ n : ℤ, |fl x - x| ≤ |n * (2 : ℚ) ^ e - x| := by
    intro n
    have := npRound_nearest (x / 2 ^ e) n
    have e1 : fl x - x = ((npRound (x / 2 ^ e) : ℚ) - x / 2 ^ e) * 2 ^ e := by
      rw [he, sub_mul, div_mul_cancel₀ _ hu.ne']
    have e2 : (n : ℚ) * 2 ^ e - x = ((n : ℚ) - x / 2 ^ e) * 2 ^ e := by
      rw [sub_mul, div_mul_cancel₀ _ hu.ne']
    rw [e1, e2, abs_mul, abs_mul]
    exact mul_le_mul_of_nonneg_right this (abs_nonneg _)
  obtain ⟨m, k, hm, rfl⟩ := hz
  rcases le_or_gt e k with hk | hk
  · obtain ⟨d, rfl⟩ : ∃ d : ℕ, k = e + d := ⟨(k - e).toNat, by omega⟩
    have := mult (m * 2 ^ d)
    rw [zpow_add₀ (by norm_num), zpow_natCast]
    push_cast at this
    rw [show (m : ℚ) * (2 ^ e * 2 ^ d) = m * 2 ^ d * 2 ^ e by ring]
    exact this
  · have hsmall : |(m : ℚ) * 2 ^ k| ≤ 2 ^ (52 : ℕ) * 2 ^ e := by
      have hk2 : (2 : ℚ) ^ k ≤ 2 ^ (e - 1) := zpow_le_zpow_right₀ (by norm_num) (by omega)
      rw [zpow_sub_one₀ (by norm_num)] at hk2
      have hm' : |(m : ℚ)| ≤ 2 ^ 53 := by exact_mod_cast hm
      rw [abs_mul, abs_of_pos (zpow_pos (by norm_num : (0 : ℚ) < 2) k)]
      calc |(m : ℚ)| * 2 ^ k ≤ 2 ^ 53 * (2 ^ e * 2⁻¹) := by
            apply mul_le_mul hm' hk2 (zpow_pos (by norm_num) k).le (by positivity)
        _ = 2 ^ (52 : ℕ) * 2 ^ e := by ring
    rw [abs_le] at hsmall
    rcases lt_or_gt_of_ne hx with hneg | hpos
    · refine (mult (-2 ^ 52)).trans ?_
      rw [abs_of_neg hneg] at h1
      push_cast
      rw [abs_of_nonneg (by linarith), abs_of_nonneg (by linarith)]
      linarith
    · refine (mult (2 ^ 52)).trans ?_
      rw [abs_of_pos hpos] at h1
      push_cast
      rw [abs_of_nonpos (by linarith), abs_of_nonpos (by linarith)]
      linarith

theorem fl_exact {x : ℚ} (h : Double x) : fl x = x := by
  have := fl_nearest x x h
  rw [sub_self, abs_zero, abs_nonpos_iff, sub_eq_zero] at this
  exact this

theorem fl_int {n : ℤ} (h : |n| ≤ 2 ^ 53) : fl n = n := fl_exact ⟨n, 0, h, by simp⟩

theorem fl_mono {x y : ℚ} (h : x ≤ y) : fl x ≤ fl y := by
  rcases h.eq_or_lt with rfl | h
  · exact le_rfl
  by_contra hc
  push Not at hc
  have h1 := fl_nearest x (fl y) (fl_double y)
  have h2 := fl_nearest y (fl x) (fl_double x)
  rcases abs_cases (fl x - x) with a | a <;> rcases abs_cases (fl y - x) with b | b <;>
    rcases abs_cases (fl y - y) with c | c <;> rcases abs_cases (fl x - y) with d | d <;> linarith

theorem fl_error (x : ℚ) : |fl x - x| ≤ |x| / 2 ^ 53 := by
  by_cases hx : x = 0
  · subst hx; rw [fl_zero]; simp
  obtain ⟨e, he, h1, h2⟩ := fl_spec hx
  have hu : (0 : ℚ) < 2 ^ e := zpow_pos (by norm_num) e
  have e1 : fl x - x = ((npRound (x / 2 ^ e) : ℚ) - x / 2 ^ e) * 2 ^ e := by
    rw [he, sub_mul, div_mul_cancel₀ _ hu.ne']
  rw [e1, abs_mul, abs_of_pos hu, le_div_iff₀ (by positivity)]
  have := mul_le_mul_of_nonneg_right (npRound_half (x / 2 ^ e)) hu.le
  nlinarith

theorem fl_nonneg {x : ℚ} (h : 0 ≤ x) : 0 ≤ fl x := by
  have := fl_mono h
  rwa [fl_zero] at this

theorem fl_nonpos {x : ℚ} (h : x ≤ 0) : fl x ≤ 0 := by
  have := fl_mono h
  rwa [fl_zero] at this

theorem pyInt_nonneg {x : ℚ} (h : 0 ≤ x) : pyInt x = ⌊x⌋ := if_pos h

theorem pyInt_nonpos {x : ℚ} (h : x ≤ 0) : pyInt x = ⌈x⌉ := by
  rcases h.eq_or_lt with rfl | h
  · simp [pyInt]
  · exact if_neg (not_le.2 h)

theorem pyInt_mono {x y : ℚ} (h : x ≤ y) : pyInt x ≤ pyInt y := by
  rcases le_total 0 x with hx | hx
  · rw [pyInt_nonneg hx, pyInt_nonneg (hx.trans h)]; exact Int.floor_mono h
  · rcases le_total 0 y with hy | hy
    · rw [pyInt_nonpos hx, pyInt_nonneg hy]
      have a : ⌈x⌉ ≤ 0 := Int.ceil_le.2 (by simpa using hx)
      have b : 0 ≤ ⌊y⌋ := Int.le_floor.2 (by simpa using hy)
      omega
    · rw [pyInt_nonpos hx, pyInt_nonpos hy]; exact Int.ceil_mono h

/-- Rounding the quotient of whole numbers does not change its whole part. -/
theorem pyInt_quotient {a b : ℤ} (ha : 0 ≤ a) (ha' : a < 2 ^ 53) (hb : 0 < b) : pyInt (fl ((a : ℚ) / b)) = a / b := by
  have hbq : (0 : ℚ) < b := by exact_mod_cast hb
  have haq : (0 : ℚ) ≤ a := by exact_mod_cast ha
  have hq : (0 : ℚ) ≤ (a : ℚ) / b := div_nonneg haq hbq.le
  rw [pyInt_nonneg (fl_nonneg hq), Int.floor_eq_iff]
  have h1 : ((a / b : ℤ) : ℚ) ≤ (a : ℚ) / b := by
    rw [le_div_iff₀ hbq]; exact_mod_cast Int.ediv_mul_le a hb.ne'
  have h2 : (a : ℚ) + 1 ≤ (((a / b : ℤ) : ℚ) + 1) * b := by
    exact_mod_cast (by have := Int.lt_ediv_add_one_mul_self a hb; omega : a + 1 ≤ (a / b + 1) * b)
  have hn0 : 0 ≤ a / b := Int.ediv_nonneg ha hb.le
  have hn1 : a / b ≤ a := Int.ediv_le_self b ha
  constructor
  · have := fl_mono h1
    rwa [fl_int (by rw [abs_of_nonneg hn0]; omega)] at this
  · have he := (abs_le.1 (fl_error ((a : ℚ) / b))).2
    rw [abs_of_nonneg hq] at he
    have h3 : (a : ℚ) / b + 1 / b ≤ ((a / b : ℤ) : ℚ) + 1 := by
      rw [← add_div, div_le_iff₀ hbq]; exact h2
    have h4 : (a : ℚ) / b / 2 ^ 53 < 1 / b := by
      rw [div_div, div_lt_div_iff₀ (by positivity) hbq]
      have : (a : ℚ) < 2 ^ 53 := by exact_mod_cast ha'
      nlinarith
    linarith

end Tcrm.Binary64
