import Verif.Spec.Fuzzy
import Mathlib.Order.SuccPred.IntervalSucc
import Mathlib.Order.Interval.Finset.Defs
import Mathlib.Data.Int.Interval
import Mathlib.Tactic.Linarith
import Mathlib.Tactic.Ring
import Mathlib.Tactic.NormNum
import Mathlib.Tactic.FieldSimp
import Mathlib.Algebra.Order.Field.Power
/-!
Ranks of doubles: the value is strictly monotone in the rank, and its range is the representable numbers.
-/
namespace Tcrm.Fuzzy

theorem magnitude_small {n : ℕ} (h : n < 4503599627370496) : magnitude n = n * (2 : ℚ) ^ (-1074 : ℤ) := by
  unfold magnitude
  rw [if_pos (by norm_num; exact h)]

theorem magnitude_large {n : ℕ} (h : 4503599627370496 ≤ n) : magnitude n =
    ((4503599627370496 + n % 4503599627370496 : ℕ) : ℚ) * (2 : ℚ) ^ (((n / 4503599627370496 : ℕ) : ℤ) - 1075) := by
  unfold magnitude
  rw [if_neg (by norm_num; exact h)]
  norm_num

theorem magnitude_split {E F : ℕ} (hE : 0 < E) (hF : F < 4503599627370496) : magnitude (E * 4503599627370496 + F) =
    ((4503599627370496 + F : ℕ) : ℚ) * (2 : ℚ) ^ ((E : ℤ) - 1075) := by
  rw [magnitude_large (by omega)]
  rw [show (E * 4503599627370496 + F) % 4503599627370496 = F by omega,
    show (E * 4503599627370496 + F) / 4503599627370496 = E by omega]

theorem magnitude_lt (n : ℕ) : magnitude n < magnitude (n + 1) := by
  by_cases h : n + 1 < 4503599627370496
  · rw [magnitude_small h, magnitude_small (by omega)]
    have : (0 : ℚ) < 2 ^ (-1074 : ℤ) := zpow_pos (by norm_num) _
    push_cast
    nlinarith
  · by_cases h2 : n < 4503599627370496
    · obtain rfl : n = 4503599627370495 := by omega
      rw [magnitude_small (by norm_num), show 4503599627370495 + 1 = 1 * 4503599627370496 + 0 by norm_num,
        magnitude_split (by omega) (by omega), show (((1 : ℕ) : ℤ) - 1075) = -1074 by norm_num]
      have : (0 : ℚ) < 2 ^ (-1074 : ℤ) := zpow_pos (by norm_num) _
      push_cast
      nlinarith
    · obtain ⟨E, F, hE, hF, rfl⟩ : ∃ E F : ℕ, 0 < E ∧ F < 4503599627370496 ∧ n = E * 4503599627370496 + F :=
        ⟨n / 4503599627370496, n % 4503599627370496, by omega, by omega, by omega⟩
      rw [magnitude_split hE hF]
      by_cases hl : F + 1 < 4503599627370496
      · rw [show E * 4503599627370496 + F + 1 = E * 4503599627370496 + (F + 1) by omega, magnitude_split hE hl]
        refine mul_lt_mul_of_pos_right ?_ (zpow_pos (by norm_num) _)
        exact_mod_cast Nat.lt_succ_self _
      · obtain rfl : F = 4503599627370495 := by omega
        rw [show E * 4503599627370496 + 4503599627370495 + 1 = (E + 1) * 4503599627370496 + 0 by ring,
          magnitude_split (by omega) (by omega)]
        rw [show (((E + 1 : ℕ) : ℤ) - 1075) = ((E : ℤ) - 1075) + 1 by push_cast; ring, zpow_add₀ (by norm_num)]
        have : (0 : ℚ) < 2 ^ ((E : ℤ) - 1075) := zpow_pos (by norm_num) _
        push_cast
        nlinarith

theorem magnitude_zero : magnitude 0 = 0 := by rw [magnitude_small (by norm_num)]; simp

theorem value_natCast (n : ℕ) : value (n : ℤ) = magnitude n := by
  unfold value; rw [if_neg (by omega)]; simp

theorem value_neg (n : ℕ) : value (-(n : ℤ)) = -magnitude n := by
  rcases Nat.eq_zero_or_pos n with rfl | h
  · simp [value, magnitude_zero]
  · unfold value; rw [if_pos (by omega)]; simp

theorem value_strictMono : StrictMono value := by
  apply strictMono_int_of_lt_succ
  intro k
  rcases lt_or_ge k 0 with h | h
  · obtain ⟨n, rfl⟩ : ∃ n : ℕ, k = -((n + 1 : ℕ) : ℤ) := ⟨(-k - 1).toNat, by omega⟩
    rw [value_neg, show -((n + 1 : ℕ) : ℤ) + 1 = -(n : ℤ) by push_cast; ring, value_neg]
    have := magnitude_lt n
    linarith
  · obtain ⟨n, rfl⟩ := Int.eq_ofNat_of_zero_le h
    rw [value_natCast, show (n : ℤ) + 1 = ((n + 1 : ℕ) : ℤ) by push_cast; ring, value_natCast]
    exact magnitude_lt n

theorem magnitude_representable (n : ℕ) : ∃ (m : ℕ) (e : ℤ), m < 9007199254740992 ∧ -1074 ≤ e ∧
    magnitude n = m * (2 : ℚ) ^ e := by
  by_cases h : n < 4503599627370496
  · exact ⟨n, -1074, by omega, by omega, magnitude_small h⟩
  · exact ⟨_, _, by omega, by omega, magnitude_large (by omega)⟩

theorem exists_magnitude (j : ℕ) : ∀ n : ℕ, n < 9007199254740992 →
    ∃ k : ℕ, magnitude k = n * (2 : ℚ) ^ ((j : ℤ) - 1074) := by
  induction j with
  | zero =>
    intro n hn
    by_cases h : n < 4503599627370496
    · exact ⟨n, by rw [magnitude_small h]; norm_num⟩
    · refine ⟨1 * 4503599627370496 + (n - 4503599627370496), ?_⟩
      rw [magnitude_split (by omega) (by omega)]
      rw [show 4503599627370496 + (n - 4503599627370496) = n by omega]
      norm_num
  | succ j ih =>
    intro n hn
    by_cases h : n < 4503599627370496
    · obtain ⟨k, hk⟩ := ih (2 * n) (by omega)
      refine ⟨k, ?_⟩
      rw [hk, show (((j + 1 : ℕ) : ℤ) - 1074) = ((j : ℤ) - 1074) + 1 by push_cast; ring, zpow_add₀ (by norm_num)]
      push_cast
      ring
    · refine ⟨(j + 2) * 4503599627370496 + (n - 4503599627370496), ?_⟩
      rw [magnitude_split (by omega) (by omega)]
      rw [show 4503599627370496 + (n - 4503599627370496) = n by omega,
        show (((j + 2 : ℕ) : ℤ) - 1075) = ((j + 1 : ℕ) : ℤ) - 1074 by push_cast; ring]

theorem representable_iff (q : ℚ) : Representable q ↔ ∃ k, value k = q := by
  constructor
  · rintro ⟨m, e, hm, he, rfl⟩
    obtain ⟨k, hk⟩ := exists_magnitude (e + 1074).toNat m.natAbs (by have h1 := Int.natCast_natAbs m; norm_num at hm; rw [← h1] at hm; omega)
    rw [show (((e + 1074).toNat : ℕ) : ℤ) - 1074 = e by omega] at hk
    rcases le_total 0 m with h | h
    · refine ⟨k, ?_⟩
      rw [value_natCast, hk]
      congr 1
      have h1 : ((m.natAbs : ℤ) : ℚ) = (m : ℚ) := congrArg (Int.cast : ℤ → ℚ) (Int.natAbs_of_nonneg h)
      rw [← h1]; simp
    · refine ⟨-(k : ℤ), ?_⟩
      rw [value_neg, hk, ← neg_mul]
      congr 1
      have : ((m.natAbs : ℤ)) = -m := by omega
      have h2 : ((m.natAbs : ℚ)) = -(m : ℚ) := by
        have h3 : ((m.natAbs : ℤ) : ℚ) = ((-m : ℤ) : ℚ) := congrArg (Int.cast : ℤ → ℚ) this
        simpa using h3
      rw [h2]; ring
  · rintro ⟨k, rfl⟩
    obtain ⟨m, e, hm, he, h⟩ := magnitude_representable k.natAbs
    unfold value
    by_cases hk : k < 0
    · rw [if_pos hk]
      refine ⟨-(m : ℤ), e, by norm_num; omega, he, ?_⟩
      rw [h]; push_cast; ring
    · rw [if_neg hk]
      refine ⟨m, e, by norm_num; omega, he, ?_⟩
      rw [h]; push_cast; ring

theorem below_eq (v lo : ℤ) : {u : ℚ | Representable u ∧ value v ≤ u ∧ u < value lo} = value '' Set.Ico v lo := by
  ext u
  simp only [Set.mem_setOf_eq, representable_iff, Set.mem_image, Set.mem_Ico]
  constructor
  · rintro ⟨⟨k, rfl⟩, h1, h2⟩
    exact ⟨k, ⟨value_strictMono.le_iff_le.1 h1, value_strictMono.lt_iff_lt.1 h2⟩, rfl⟩
  · rintro ⟨k, ⟨h1, h2⟩, rfl⟩
    exact ⟨⟨k, rfl⟩, value_strictMono.le_iff_le.2 h1, value_strictMono.lt_iff_lt.2 h2⟩

theorem above_eq (v hi : ℤ) : {u : ℚ | Representable u ∧ value hi < u ∧ u ≤ value v} = value '' Set.Ioc hi v := by
  ext u
  simp only [Set.mem_setOf_eq, representable_iff, Set.mem_image, Set.mem_Ioc]
  constructor
  · rintro ⟨⟨k, rfl⟩, h1, h2⟩
    exact ⟨k, ⟨value_strictMono.lt_iff_lt.1 h1, value_strictMono.le_iff_le.1 h2⟩, rfl⟩
  · rintro ⟨k, ⟨h1, h2⟩, rfl⟩
    exact ⟨⟨k, rfl⟩, value_strictMono.lt_iff_lt.2 h1, value_strictMono.le_iff_le.2 h2⟩

theorem notFarBelow_iff (n : ℕ) (v lo : ℤ) : NotFarBelow n (value v) (value lo) ↔ lo - n ≤ v := by
  unfold NotFarBelow
  rw [below_eq, Set.ncard_image_of_injective _ value_strictMono.injective, ← Finset.coe_Ico, Set.ncard_coe_finset,
    Int.card_Ico]
  constructor
  · rintro ⟨_, h⟩; omega
  · intro h; exact ⟨(Set.Finite.image _ (Finset.finite_toSet _)), by omega⟩

theorem notFarAbove_iff (n : ℕ) (v hi : ℤ) : NotFarAbove n (value v) (value hi) ↔ v ≤ hi + n := by
  unfold NotFarAbove
  rw [above_eq, Set.ncard_image_of_injective _ value_strictMono.injective, ← Finset.coe_Ioc, Set.ncard_coe_finset,
    Int.card_Ioc]
  constructor
  · rintro ⟨_, h⟩; omega
  · intro h; exact ⟨(Set.Finite.image _ (Finset.finite_toSet _)), by omega⟩

theorem expand_eq (n : ℕ) : ∀ lo hi : ℤ, expand n lo hi = (lo - n, hi + n) := by
  induction n with
  | zero => intro lo hi; simp [expand]
  | succ n ih =>
    intro lo hi
    unfold expand nextafter
    rw [if_pos (by linarith), if_neg (by linarith), if_pos (by linarith), ih]
    push_cast
    ring_nf

end Tcrm.Fuzzy
