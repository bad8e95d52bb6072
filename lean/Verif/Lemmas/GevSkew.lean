import Verif.Model.LMoments
import Mathlib.Analysis.Convex.SpecificFunctions.Basic
import Mathlib.Analysis.SpecialFunctions.Log.Base
import Mathlib.Order.Interval.Set.Defs
import Mathlib.Algebra.Order.Floor.Semiring
import Mathlib.Tactic.Linarith
import Mathlib.Tactic.FieldSimp
/-!
Accuracy of the rational approximations of the shape: the L-skewness decreases with the shape, the
approximations decrease with the L-skewness, and on a grid of L-skewness values the shape is enclosed
between multiples of 1/1000 whose L-skewness is enclosed by comparing powers of integers.
-/
namespace Tcrm.Evd

open Set

/-- The L-skewness of the extreme value distribution of shape `k`. -/
noncomputable def skew (k : ℝ) : ℝ :=
  if k = 0 then 2 * Real.logb 2 3 - 3 else 2 * ((1 - 3 ^ (-k)) / (1 - 2 ^ (-k))) - 3

theorem two_rpow_ne {k : ℝ} (hk : k ≠ 0) : (2 : ℝ) ^ (-k) ≠ 1 := by
  intro e
  rcases lt_or_gt_of_ne hk with h | h
  · have := Real.one_lt_rpow (show (1 : ℝ) < 2 by norm_num) (show 0 < -k by linarith)
    linarith
  · have := Real.rpow_lt_one_of_one_lt_of_neg (show (1 : ℝ) < 2 by norm_num) (show -k < 0 by linarith)
    linarith

theorem one_le_logb : 1 ≤ Real.logb 2 3 := by
  rw [Real.le_logb_iff_rpow_le (by norm_num) (by norm_num)]; norm_num

theorem three_rpow (k : ℝ) : (3 : ℝ) ^ (-k) = ((2 : ℝ) ^ (-k)) ^ Real.logb 2 3 := by
  rw [← Real.rpow_mul (by norm_num), mul_comm, Real.rpow_mul (by norm_num),
    Real.rpow_logb (by norm_num) (by norm_num) (by norm_num)]

theorem skew_anti_ne {j k : ℝ} (hj : j ≠ 0) (hk : k ≠ 0) (h : j ≤ k) : skew k ≤ skew j := by
  have hc := convexOn_rpow one_le_logb
  have hpos : ∀ k : ℝ, (2 : ℝ) ^ (-k) ∈ Ici (0 : ℝ) := fun k => (Real.rpow_pos_of_pos two_pos _).le
  have hle : (2 : ℝ) ^ (-k) ≤ 2 ^ (-j) := Real.rpow_le_rpow_of_exponent_le (by norm_num) (by linarith)
  have := hc.secant_mono (a := 1) (x := (2 : ℝ) ^ (-k)) (y := (2 : ℝ) ^ (-j)) (by simp) (hpos k) (hpos j)
    (two_rpow_ne hk) (two_rpow_ne hj) hle
  have e : ∀ k : ℝ, (1 - (3 : ℝ) ^ (-k)) / (1 - 2 ^ (-k)) =
      (((2 : ℝ) ^ (-k)) ^ Real.logb 2 3 - 1 ^ Real.logb 2 3) / (2 ^ (-k) - 1) := fun k => by
    rw [three_rpow, Real.one_rpow, ← neg_sub, ← neg_sub ((2 : ℝ) ^ (-k)) 1, neg_div_neg_eq]
  unfold skew
  rw [if_neg hj, if_neg hk, e, e]
  linarith

theorem skew_zero {k : ℝ} : (0 < k → skew k ≤ skew 0) ∧ (k < 0 → skew 0 ≤ skew k) := by
  have hb := one_add_mul_self_le_rpow_one_add (s := (2 : ℝ) ^ (-k) - 1) (p := Real.logb 2 3)
    (by have := Real.rpow_pos_of_pos (two_pos : (0 : ℝ) < 2) (-k); linarith) one_le_logb
  rw [add_sub_cancel, ← three_rpow] at hb
  constructor
  · intro h
    have hx := Real.rpow_lt_one_of_one_lt_of_neg (show (1 : ℝ) < 2 by norm_num) (show -k < 0 by linarith)
    unfold skew
    rw [if_neg h.ne', if_pos rfl]
    have : (1 - (3 : ℝ) ^ (-k)) / (1 - 2 ^ (-k)) ≤ Real.logb 2 3 := by
      rw [div_le_iff₀ (by linarith)]; linarith
    linarith
  · intro h
    have hx := Real.one_lt_rpow (show (1 : ℝ) < 2 by norm_num) (show 0 < -k by linarith)
    unfold skew
    rw [if_neg h.ne, if_pos rfl]
    have : Real.logb 2 3 ≤ (1 - (3 : ℝ) ^ (-k)) / (1 - 2 ^ (-k)) := by
      rw [le_div_iff_of_neg (by linarith)]; linarith
    linarith

/-- The L-skewness decreases with the shape. -/
theorem skew_anti {j k : ℝ} (h : j ≤ k) : skew k ≤ skew j := by
  by_cases hj : j = 0
  · subst hj
    rcases h.eq_or_lt with rfl | h
    · exact le_rfl
    · exact skew_zero.1 h
  · by_cases hk : k = 0
    · subst hk
      exact skew_zero.2 (lt_of_le_of_ne h hj)
    · exact skew_anti_ne hj hk h

theorem thousandth_ne {m : ℤ} (h : m ≠ 0) : (m : ℝ) / 1000 ≠ 0 :=
  div_ne_zero (by exact_mod_cast h) (by norm_num)

/-- `b ^ (-m/1000) ≤ a / 10^8`, in whole numbers. -/
def above (b : ℕ) (m : ℤ) (a : ℕ) : Bool :=
  decide (Nat.pow b (-m).toNat * Nat.pow 100000000 1000 ≤ Nat.pow a 1000 * Nat.pow b m.toNat)

/-- `a / 10^8 ≤ b ^ (-m/1000)`, in whole numbers. -/
def below (b : ℕ) (m : ℤ) (a : ℕ) : Bool :=
  decide (Nat.pow a 1000 * Nat.pow b m.toNat ≤ Nat.pow b (-m).toNat * Nat.pow 100000000 1000)

theorem root_pow {b : ℕ} (hb : 0 < b) (m : ℤ) :
    ((b : ℝ) ^ (-((m : ℝ) / 1000))) ^ 1000 * (b : ℝ) ^ m.toNat = (b : ℝ) ^ (-m).toNat := by
  have hb' : (0 : ℝ) < b := by exact_mod_cast hb
  rw [← Real.rpow_natCast, ← Real.rpow_natCast, ← Real.rpow_natCast, ← Real.rpow_mul hb'.le, ← Real.rpow_add hb']
  congr 1
  have : (m : ℝ) = (m.toNat : ℝ) - ((-m).toNat : ℝ) := by
    have h := Int.toNat_sub_toNat_neg m
    exact_mod_cast h.symm
  rw [this]
  push_cast
  ring

theorem above_sound {b : ℕ} (hb : 0 < b) {m : ℤ} {a : ℕ} (h : above b m a = true) :
    (b : ℝ) ^ (-((m : ℝ) / 1000)) ≤ a / 100000000 := by
  have hb' : (0 : ℝ) < b := by exact_mod_cast hb
  have h1 : b ^ (-m).toNat * 100000000 ^ 1000 ≤ a ^ 1000 * b ^ m.toNat := of_decide_eq_true h
  have h2 : ((b : ℝ) ^ (-m).toNat * 100000000 ^ 1000 : ℝ) ≤ (a : ℝ) ^ 1000 * (b : ℝ) ^ m.toNat := by
    exact_mod_cast h1
  rw [← root_pow hb m] at h2
  have h3 : (0 : ℝ) < (b : ℝ) ^ m.toNat := by positivity
  have h4 : (((b : ℝ) ^ (-((m : ℝ) / 1000))) * 100000000) ^ 1000 ≤ (a : ℝ) ^ 1000 := by
    rw [mul_pow]
    refine le_of_mul_le_mul_right ?_ h3
    calc _ = _ := by ring
      _ ≤ _ := h2
  have h5 := le_of_pow_le_pow_left₀ (by norm_num) (Nat.cast_nonneg a) h4
  rw [le_div_iff₀ (by norm_num)]
  exact h5

theorem below_sound {b : ℕ} (hb : 0 < b) {m : ℤ} {a : ℕ} (h : below b m a = true) :
    (a : ℝ) / 100000000 ≤ (b : ℝ) ^ (-((m : ℝ) / 1000)) := by
  have hb' : (0 : ℝ) < b := by exact_mod_cast hb
  have h1 : a ^ 1000 * b ^ m.toNat ≤ b ^ (-m).toNat * 100000000 ^ 1000 := of_decide_eq_true h
  have h2 : (a : ℝ) ^ 1000 * (b : ℝ) ^ m.toNat ≤ ((b : ℝ) ^ (-m).toNat * 100000000 ^ 1000 : ℝ) := by
    exact_mod_cast h1
  rw [← root_pow hb m] at h2
  have h3 : (0 : ℝ) < (b : ℝ) ^ m.toNat := by positivity
  have h4 : (a : ℝ) ^ 1000 ≤ (((b : ℝ) ^ (-((m : ℝ) / 1000))) * 100000000) ^ 1000 := by
    rw [mul_pow]
    refine le_of_mul_le_mul_right ?_ h3
    calc _ ≤ _ := h2
      _ = _ := by ring
  have h5 := le_of_pow_le_pow_left₀ (by norm_num) (by positivity) h4
  rw [div_le_iff₀ (by norm_num)]
  exact h5

/-- The L-skewness of the shape `m/1000` is at most `s`. -/
def skewMost (m : ℤ) (a c : ℕ) (s : ℚ) : Bool :=
  if 0 < m then above 2 m a && below 3 m c && decide (a < 100000000) &&
    decide (2 * (100000000 - (c : ℚ)) ≤ (s + 3) * (100000000 - (a : ℚ))) && decide (-3 ≤ s)
  else decide (m < 0) && below 2 m a && above 3 m c && decide (100000000 < a) &&
    decide (2 * ((c : ℚ) - 100000000) ≤ (s + 3) * ((a : ℚ) - 100000000)) && decide (-3 ≤ s)

/-- The L-skewness of the shape `m/1000` is at least `s`. -/
def skewLeast (m : ℤ) (a c : ℕ) (s : ℚ) : Bool :=
  if 0 < m then below 2 m a && above 3 m c && decide (a < 100000000) &&
    decide ((s + 3) * (100000000 - (a : ℚ)) ≤ 2 * (100000000 - (c : ℚ))) && decide (-3 ≤ s)
  else decide (m < 0) && above 2 m a && below 3 m c && decide (100000000 < a) &&
    decide ((s + 3) * ((a : ℚ) - 100000000) ≤ 2 * ((c : ℚ) - 100000000)) && decide (-3 ≤ s)

theorem skew_sign (m : ℤ) :
    (0 < m → (2 : ℝ) ^ (-((m : ℝ) / 1000)) < 1) ∧ (m < 0 → 1 < (2 : ℝ) ^ (-((m : ℝ) / 1000))) := by
  constructor
  · intro h
    have : (0 : ℝ) < m := by exact_mod_cast h
    exact Real.rpow_lt_one_of_one_lt_of_neg (by norm_num) (by linarith)
  · intro h
    have : (m : ℝ) < 0 := by exact_mod_cast h
    exact Real.one_lt_rpow (by norm_num) (by linarith)

theorem skewMost_sound {m : ℤ} {a c : ℕ} {s : ℚ} (h : skewMost m a c s = true) :
    m ≠ 0 ∧ skew ((m : ℝ) / 1000) ≤ s := by
  unfold skewMost at h
  split at h
  · next hm =>
    simp only [Bool.and_eq_true, decide_eq_true_eq] at h
    obtain ⟨⟨⟨⟨ha, hc⟩, hlt⟩, hs⟩, h3⟩ := h
    refine ⟨by omega, ?_⟩
    have ha := above_sound (by norm_num) ha
    have hc := below_sound (by norm_num) hc
    have hs' : 2 * (100000000 - (c : ℝ)) ≤ ((s : ℝ) + 3) * (100000000 - (a : ℝ)) := by exact_mod_cast hs
    have h3' : (-3 : ℝ) ≤ s := by exact_mod_cast h3
    have hx := (skew_sign m).1 hm
    rw [skew, if_neg (thousandth_ne (by omega))]
    push_cast at ha hc
    have : (1 - (3 : ℝ) ^ (-((m : ℝ) / 1000))) / (1 - 2 ^ (-((m : ℝ) / 1000))) ≤ (s + 3) / 2 := by
      rw [div_le_iff₀ (by linarith)]
      nlinarith
    linarith
  · simp only [Bool.and_eq_true, decide_eq_true_eq] at h
    obtain ⟨⟨⟨⟨⟨hm, ha⟩, hc⟩, hlt⟩, hs⟩, h3⟩ := h
    refine ⟨by omega, ?_⟩
    have ha := below_sound (by norm_num) ha
    have hc := above_sound (by norm_num) hc
    have hs' : 2 * ((c : ℝ) - 100000000) ≤ ((s : ℝ) + 3) * ((a : ℝ) - 100000000) := by exact_mod_cast hs
    have h3' : (-3 : ℝ) ≤ s := by exact_mod_cast h3
    have hx := (skew_sign m).2 hm
    rw [skew, if_neg (thousandth_ne (by omega))]
    push_cast at ha hc
    have : (1 - (3 : ℝ) ^ (-((m : ℝ) / 1000))) / (1 - 2 ^ (-((m : ℝ) / 1000))) ≤ (s + 3) / 2 := by
      rw [div_le_iff_of_neg (by linarith)]
      nlinarith
    linarith

theorem skewLeast_sound {m : ℤ} {a c : ℕ} {s : ℚ} (h : skewLeast m a c s = true) :
    m ≠ 0 ∧ s ≤ skew ((m : ℝ) / 1000) := by
  unfold skewLeast at h
  split at h
  · next hm =>
    simp only [Bool.and_eq_true, decide_eq_true_eq] at h
    obtain ⟨⟨⟨⟨ha, hc⟩, hlt⟩, hs⟩, h3⟩ := h
    refine ⟨by omega, ?_⟩
    have ha := below_sound (by norm_num) ha
    have hc := above_sound (by norm_num) hc
    have hs' : ((s : ℝ) + 3) * (100000000 - (a : ℝ)) ≤ 2 * (100000000 - (c : ℝ)) := by exact_mod_cast hs
    have h3' : (-3 : ℝ) ≤ s := by exact_mod_cast h3
    have hx := (skew_sign m).1 hm
    rw [skew, if_neg (thousandth_ne (by omega))]
    push_cast at ha hc
    have : ((s : ℝ) + 3) / 2 ≤ (1 - (3 : ℝ) ^ (-((m : ℝ) / 1000))) / (1 - 2 ^ (-((m : ℝ) / 1000))) := by
      rw [le_div_iff₀ (by linarith)]
      nlinarith
    linarith
  · simp only [Bool.and_eq_true, decide_eq_true_eq] at h
    obtain ⟨⟨⟨⟨⟨hm, ha⟩, hc⟩, hlt⟩, hs⟩, h3⟩ := h
    refine ⟨by omega, ?_⟩
    have ha := above_sound (by norm_num) ha
    have hc := below_sound (by norm_num) hc
    have hs' : ((s : ℝ) + 3) * ((a : ℝ) - 100000000) ≤ 2 * ((c : ℝ) - 100000000) := by exact_mod_cast hs
    have h3' : (-3 : ℝ) ≤ s := by exact_mod_cast h3
    have hx := (skew_sign m).2 hm
    rw [skew, if_neg (thousandth_ne (by omega))]
    push_cast at ha hc
    have : ((s : ℝ) + 3) / 2 ≤ (1 - (3 : ℝ) ^ (-((m : ℝ) / 1000))) / (1 - 2 ^ (-((m : ℝ) / 1000))) := by
      rw [le_div_iff_of_neg (by linarith)]
      nlinarith
    linarith

/-- Rows of the tables: a shape below the approximation at the grid point, in thousandths, with the
powers of 2 and 3 that bound its L-skewness, and a shape above it. -/
abbrev Row := ℤ × ℕ × ℕ × ℤ × ℕ × ℕ

/-- The row holds for the grid point `t` if the approximation there is `num / den`. -/
def rowOk (t num den : ℚ) (r : Row) : Bool :=
  decide ((r.1 : ℚ) * den ≤ 1000 * num) && decide (1000 * num ≤ (r.2.2.2.1 : ℚ) * den) &&
    skewMost r.1 r.2.1 r.2.2.1 (t + 1 / 400) && skewLeast r.2.2.2.1 r.2.2.2.2.1 r.2.2.2.2.2 (t - 1 / 400)

def tableOk (num den : ℚ → ℚ) (i0 : ℤ) : List Row → Bool
  | [] => true
  | r :: rs => rowOk ((i0 : ℚ) / 400) (num ((i0 : ℚ) / 400)) (den ((i0 : ℚ) / 400)) r && tableOk num den (i0 + 1) rs

theorem tableOk_get {num den : ℚ → ℚ} : ∀ {rows : List Row} {i0 : ℤ}, tableOk num den i0 rows = true →
    ∀ (i : ℕ) (r : Row), rows[i]? = some r →
      rowOk (((i0 + i : ℤ) : ℚ) / 400) (num (((i0 + i : ℤ) : ℚ) / 400)) (den (((i0 + i : ℤ) : ℚ) / 400)) r = true
  | [], _, _, i, r, hr => by simp at hr
  | r0 :: rs, i0, h, i, r, hr => by
    rw [tableOk, Bool.and_eq_true] at h
    cases i with
    | zero =>
      simp only [List.getElem?_cons_zero, Option.some.injEq] at hr
      subst hr
      simpa using h.1
    | succ i =>
      simp only [List.getElem?_cons_succ] at hr
      have := tableOk_get h.2 i r hr
      rw [show i0 + 1 + (i : ℤ) = i0 + ((i + 1 : ℕ) : ℤ) by push_cast; ring] at this
      exact this

theorem row_sound {G : ℝ → ℝ} {num den : ℚ → ℚ} {t : ℚ} (hd : 0 < den t) (hG : G t = (num t : ℝ) / den t)
    {r : Row} (h : rowOk t (num t) (den t) r = true) :
    ∃ ml mu : ℤ, ml ≠ 0 ∧ mu ≠ 0 ∧ (ml : ℝ) / 1000 ≤ G t ∧ G t ≤ (mu : ℝ) / 1000 ∧
      skew ((ml : ℝ) / 1000) ≤ t + 1 / 400 ∧ t - 1 / 400 ≤ skew ((mu : ℝ) / 1000) := by
  unfold rowOk at h
  simp only [Bool.and_eq_true, decide_eq_true_eq] at h
  obtain ⟨⟨⟨h1, h2⟩, h3⟩, h4⟩ := h
  have hd' : (0 : ℝ) < den t := by exact_mod_cast hd
  have h1' : (r.1 : ℝ) * den t ≤ 1000 * num t := by exact_mod_cast h1
  have h2' : 1000 * (num t : ℝ) ≤ (r.2.2.2.1 : ℝ) * den t := by exact_mod_cast h2
  obtain ⟨m1, s1⟩ := skewMost_sound h3
  obtain ⟨m2, s2⟩ := skewLeast_sound h4
  refine ⟨r.1, r.2.2.2.1, m1, m2, ?_, ?_, ?_, ?_⟩
  · rw [hG, div_le_div_iff₀ (by norm_num) hd']; linarith
  · rw [hG, div_le_div_iff₀ hd' (by norm_num)]; linarith
  · push_cast at s1; exact s1
  · push_cast at s2; exact s2

/-- `k` lies on the same side of the non-zero multiples of 1/1000 as `g`. -/
def SameSide (g k : ℝ) : Prop :=
  ∀ m : ℤ, m ≠ 0 → ((m : ℝ) / 1000 ≤ g → (m : ℝ) / 1000 ≤ k) ∧ (g ≤ (m : ℝ) / 1000 → k ≤ (m : ℝ) / 1000)

theorem sameSide_self (g : ℝ) : SameSide g g := fun _ _ => ⟨id, id⟩

theorem sameSide_zero {g : ℝ} (h : |g| < 1e-5) : SameSide g 0 := by
  intro m hm
  obtain ⟨h1, h2⟩ := abs_lt.1 h
  constructor
  · intro hg
    have : m < 1 := by
      by_contra hc
      have : (1 : ℝ) ≤ m := by exact_mod_cast not_lt.1 hc
      norm_num at h1 h2
      linarith
    have : (m : ℝ) ≤ 0 := by exact_mod_cast (by omega : m ≤ 0)
    linarith
  · intro hg
    have : -1 < m := by
      by_contra hc
      have : (m : ℝ) ≤ -1 := by exact_mod_cast not_lt.1 hc
      norm_num at h1 h2
      linarith
    have : (0 : ℝ) ≤ m := by exact_mod_cast (by omega : 0 ≤ m)
    linarith

/-- Between grid points everything is monotone. -/
theorem grid_accuracy {G : ℝ → ℝ} {num den : ℚ → ℚ} {i0 : ℤ} {n : ℕ} {rows : List Row} (hn : 0 < n)
    (hlen : rows.length = n + 1) (hok : tableOk num den i0 rows = true)
    (hden : ∀ q : ℚ, (i0 : ℚ) / 400 ≤ q → q ≤ ((i0 + n : ℤ) : ℚ) / 400 → 0 < den q ∧ G q = (num q : ℝ) / den q)
    (hanti : AntitoneOn G (Icc ((i0 : ℝ) / 400) (((i0 + n : ℤ) : ℝ) / 400)))
    {t : ℝ} (ht : t ∈ Icc ((i0 : ℝ) / 400) (((i0 + n : ℤ) : ℝ) / 400)) {k : ℝ} (hk : SameSide (G t) k) :
    |skew k - t| ≤ 1 / 200 := by
  obtain ⟨i, hi, hlo, hhi⟩ : ∃ i : ℕ, i < n ∧ ((i0 + i : ℤ) : ℝ) / 400 ≤ t ∧ t ≤ ((i0 + (i + 1 : ℕ) : ℤ) : ℝ) / 400 := by
    have hx : 0 ≤ 400 * t - i0 := by have := ht.1; linarith
    refine ⟨min ⌊400 * t - i0⌋₊ (n - 1), by omega, ?_, ?_⟩
    · have h1 := Nat.floor_le hx
      have h2 : ((min ⌊400 * t - i0⌋₊ (n - 1) : ℕ) : ℝ) ≤ (⌊400 * t - i0⌋₊ : ℝ) := by
        exact_mod_cast min_le_left _ _
      push_cast at h2 ⊢
      linarith
    · rcases le_total ⌊400 * t - i0⌋₊ (n - 1) with h | h
      · rw [min_eq_left h]
        have h1 := Nat.lt_floor_add_one (400 * t - i0)
        push_cast
        linarith
      · rw [min_eq_right h, Nat.sub_add_cancel hn]
        exact ht.2
  obtain ⟨r, hr⟩ : ∃ r, rows[i]? = some r := ⟨_, List.getElem?_eq_getElem (by omega)⟩
  obtain ⟨r', hr'⟩ : ∃ r, rows[i + 1]? = some r := ⟨_, List.getElem?_eq_getElem (by omega)⟩
  have mem : ∀ j : ℕ, j ≤ n → (i0 : ℚ) / 400 ≤ ((i0 + j : ℤ) : ℚ) / 400 ∧
      ((i0 + j : ℤ) : ℚ) / 400 ≤ ((i0 + n : ℤ) : ℚ) / 400 := fun j hj => by
    have h1 : (0 : ℚ) ≤ j := Nat.cast_nonneg j
    have h2 : (j : ℚ) ≤ n := by exact_mod_cast hj
    push_cast
    constructor <;> linarith
  have memR : ∀ j : ℕ, j ≤ n → (((((i0 + j : ℤ) : ℚ) / 400 : ℚ)) : ℝ) ∈
      Icc ((i0 : ℝ) / 400) (((i0 + n : ℤ) : ℝ) / 400) := fun j hj => by
    have h1 : (0 : ℝ) ≤ j := Nat.cast_nonneg j
    have h2 : (j : ℝ) ≤ n := by exact_mod_cast hj
    push_cast
    constructor <;> linarith
  obtain ⟨gl, gu, a1, a2, a3, a4, a5, a6⟩ := row_sound (hden _ (mem i hi.le).1 (mem i hi.le).2).1
    (hden _ (mem i hi.le).1 (mem i hi.le).2).2 (tableOk_get hok i r hr)
  obtain ⟨gl', gu', b1, b2, b3, b4, b5, b6⟩ := row_sound (hden _ (mem (i + 1) hi).1 (mem (i + 1) hi).2).1
    (hden _ (mem (i + 1) hi).1 (mem (i + 1) hi).2).2 (tableOk_get hok (i + 1) r' hr')
  have k1 := (hk gu a2).2 ((hanti (memR i hi.le) ht (by push_cast at hlo ⊢; exact hlo)).trans a4)
  have k2 := (hk gl' b1).1 (b3.trans (hanti ht (memR (i + 1) hi) (by push_cast at hhi ⊢; exact hhi)))
  have s1 := skew_anti k1
  have s2 := skew_anti k2
  push_cast at hlo hhi a6 b5
  rw [abs_le]
  constructor <;> linarith

/-! ### The approximation for negative L-skewness -/

def numNeg (t : ℚ) : ℚ :=
  0.28377530 + t * (-1.21096399 + t * (-2.50728214 + t * (-1.13455566 + t * -0.07138022)))
def denNeg (t : ℚ) : ℚ := 1 + t * (2.06189696 + t * (1.31912239 + t * 0.25077104))
def numPos (t : ℚ) : ℚ :=
  -1 + (1 - t) * (1.59921491 + (1 - t) * (-0.48832213 + (1 - t) * 0.01573152))
def denPos (t : ℚ) : ℚ := 1 + (1 - t) * (-0.64363929 + (1 - t) * 0.08985247)

theorem denNeg_pos {K : Type} [Field K] [LinearOrder K] [IsStrictOrderedRing K] {s : K} (h0 : 0 ≤ s) (h1 : s ≤ 0.8) :
    0 < 1 + -s * (2.06189696 + -s * (1.31912239 + -s * 0.25077104)) := by
  nlinarith [mul_nonneg h0 (sub_nonneg.2 h1), mul_nonneg (mul_nonneg h0 h0) (sub_nonneg.2 h1),
    mul_nonneg h0 (mul_self_nonneg (0.8 - s))]

theorem denPos_pos {K : Type} [Field K] [LinearOrder K] [IsStrictOrderedRing K] {z : K} (h0 : 0 ≤ z) (h1 : z ≤ 1) :
    0 < 1 + z * (-0.64363929 + z * 0.08985247) := by
  nlinarith [mul_nonneg h0 (sub_nonneg.2 h1)]

theorem approxPos_anti : AntitoneOn approxPos (Icc 0 1) := by
  intro a ha b hb hab
  obtain ⟨ha0, ha1⟩ := ha
  obtain ⟨hb0, hb1⟩ := hb
  unfold approxPos
  simp only
  obtain ⟨x, rfl⟩ : ∃ x, b = 1 - x := ⟨1 - b, by ring⟩
  obtain ⟨y, rfl⟩ : ∃ y, a = 1 - y := ⟨1 - a, by ring⟩
  simp only [sub_sub_cancel]
  have x0 : 0 ≤ x := by linarith
  have x1 : 0 ≤ 1 - x := by linarith
  have y0 : 0 ≤ y := by linarith
  have y1 : 0 ≤ 1 - y := by linarith
  rw [div_le_div_iff₀ (denPos_pos x0 (by linarith)) (denPos_pos y0 (by linarith))]
  have hQ : 0 ≤ ((47778781 / 50000000) * x ^ 0 * y ^ 0 + (-19923483 / 50000000) * x ^ 0 * y ^ 1 + (49161 / 3125000) * x ^ 0 * y ^ 2 + (-19923483 / 50000000) * x ^ 1 * y ^ 0 + (1164633870751 / 6250000000000) * x ^ 1 * y ^ 1 + (-3164195113569 / 312500000000000) * x ^ 1 * y ^ 2 + (49161 / 3125000) * x ^ 2 * y ^ 0 + (-3164195113569 / 312500000000000) * x ^ 2 * y ^ 1 + (441723727767 / 312500000000000) * x ^ 2 * y ^ 2) := by
    nlinarith [mul_nonneg x0 y0, mul_nonneg x0 y1, mul_nonneg x1 y0, mul_nonneg x1 y1,
      mul_nonneg (mul_nonneg x0 x0) y0, mul_nonneg (mul_nonneg x0 y0) y0,
      mul_nonneg (mul_nonneg x0 x0) y1, mul_nonneg (mul_nonneg y0 y0) x1,
      mul_nonneg (mul_nonneg x0 x0) (mul_nonneg y0 y0), mul_nonneg x0 x0, mul_nonneg y0 y0,
      mul_nonneg (mul_nonneg x0 y0) x1, mul_nonneg (mul_nonneg x0 y0) y1]
  have := mul_nonneg (show 0 ≤ y - x by linarith) hQ
  nlinarith

theorem approxNeg_anti : AntitoneOn approxNeg (Icc (-0.8) 0) := by
  intro a ha b hb hab
  obtain ⟨ha0, ha1⟩ := ha
  obtain ⟨hb0, hb1⟩ := hb
  unfold approxNeg
  obtain ⟨x, rfl⟩ : ∃ x, b = -x := ⟨-b, by ring⟩
  obtain ⟨y, rfl⟩ : ∃ y, a = -y := ⟨-a, by ring⟩
  have x0 : 0 ≤ x := by linarith
  have x1 : 0 ≤ 0.8 - x := by linarith
  have y0 : 0 ≤ y := by linarith
  have y1 : 0 ≤ 0.8 - y := by linarith
  rw [div_le_div_iff₀ (denNeg_pos x0 (by linarith)) (denNeg_pos y0 (by linarith))]
  have hQ : 0 ≤ ((3507967614049 / 1953125000000) * x ^ 0 * y ^ 0 + (-2881616491958967 / 1000000000000000) * x ^ 0 * y ^ 1 + (75357392944207 / 62500000000000) * x ^ 0 * y ^ 2 + (-3569011 / 50000000) * x ^ 0 * y ^ 3 + (-2881616491958967 / 1000000000000000) * x ^ 1 * y ^ 0 + (47780659967428703 / 10000000000000000) * x ^ 1 * y ^ 1 + (-263380298391243 / 125000000000000) * x ^ 1 * y ^ 2 + (5749166352427 / 39062500000000) * x ^ 1 * y ^ 3 + (75357392944207 / 62500000000000) * x ^ 2 * y ^ 0 + (-263380298391243 / 125000000000000) * x ^ 2 * y ^ 1 + (1015042682608133 / 1000000000000000) * x ^ 2 * y ^ 2 + (-470796232025629 / 5000000000000000) * x ^ 2 * y ^ 3 + (-3569011 / 50000000) * x ^ 3 * y ^ 0 + (5749166352427 / 39062500000000) * x ^ 3 * y ^ 1 + (-470796232025629 / 5000000000000000) * x ^ 3 * y ^ 2 + (5593778751509 / 312500000000000) * x ^ 3 * y ^ 3) := by
    have e : ((3507967614049 / 1953125000000) * x ^ 0 * y ^ 0 + (-2881616491958967 / 1000000000000000) * x ^ 0 * y ^ 1 + (75357392944207 / 62500000000000) * x ^ 0 * y ^ 2 + (-3569011 / 50000000) * x ^ 0 * y ^ 3 + (-2881616491958967 / 1000000000000000) * x ^ 1 * y ^ 0 + (47780659967428703 / 10000000000000000) * x ^ 1 * y ^ 1 + (-263380298391243 / 125000000000000) * x ^ 1 * y ^ 2 + (5749166352427 / 39062500000000) * x ^ 1 * y ^ 3 + (75357392944207 / 62500000000000) * x ^ 2 * y ^ 0 + (-263380298391243 / 125000000000000) * x ^ 2 * y ^ 1 + (1015042682608133 / 1000000000000000) * x ^ 2 * y ^ 2 + (-470796232025629 / 5000000000000000) * x ^ 2 * y ^ 3 + (-3569011 / 50000000) * x ^ 3 * y ^ 0 + (5749166352427 / 39062500000000) * x ^ 3 * y ^ 1 + (-470796232025629 / 5000000000000000) * x ^ 3 * y ^ 2 + (5593778751509 / 312500000000000) * x ^ 3 * y ^ 3) = ((3507967614049 / 512000000000) * (x ^ 0 * (0.8 - x) ^ 3 * (y ^ 0 * (0.8 - y) ^ 3)) + (3853681327015113 / 327680000000000) * (x ^ 0 * (0.8 - x) ^ 3 * (y ^ 1 * (0.8 - y) ^ 2)) + (4841598661854989 / 819200000000000) * (x ^ 0 * (0.8 - x) ^ 3 * (y ^ 2 * (0.8 - y) ^ 1)) + (1411870349591213 / 1638400000000000) * (x ^ 0 * (0.8 - x) ^ 3 * (y ^ 3 * (0.8 - y) ^ 0)) + (3853681327015113 / 327680000000000) * (x ^ 1 * (0.8 - x) ^ 2 * (y ^ 0 * (0.8 - y) ^ 3)) + (42116545641017089 / 2048000000000000) * (x ^ 1 * (0.8 - x) ^ 2 * (y ^ 1 * (0.8 - y) ^ 2)) + (86536684634362853 / 8192000000000000) * (x ^ 1 * (0.8 - x) ^ 2 * (y ^ 2 * (0.8 - y) ^ 1)) + (160877143950445017 / 102400000000000000) * (x ^ 1 * (0.8 - x) ^ 2 * (y ^ 3 * (0.8 - y) ^ 0)) + (4841598661854989 / 819200000000000) * (x ^ 2 * (0.8 - x) ^ 1 * (y ^ 0 * (0.8 - y) ^ 3)) + (86536684634362853 / 8192000000000000) * (x ^ 2 * (0.8 - x) ^ 1 * (y ^ 1 * (0.8 - y) ^ 2)) + (57169620735925813 / 10240000000000000) * (x ^ 2 * (0.8 - x) ^ 1 * (y ^ 2 * (0.8 - y) ^ 1)) + (874041373808219741 / 1024000000000000000) * (x ^ 2 * (0.8 - x) ^ 1 * (y ^ 3 * (0.8 - y) ^ 0)) + (1411870349591213 / 1638400000000000) * (x ^ 3 * (0.8 - x) ^ 0 * (y ^ 0 * (0.8 - y) ^ 3)) + (160877143950445017 / 102400000000000000) * (x ^ 3 * (0.8 - x) ^ 0 * (y ^ 1 * (0.8 - y) ^ 2)) + (874041373808219741 / 1024000000000000000) * (x ^ 3 * (0.8 - x) ^ 0 * (y ^ 2 * (0.8 - y) ^ 1)) + (10798451203755569 / 80000000000000000) * (x ^ 3 * (0.8 - x) ^ 0 * (y ^ 3 * (0.8 - y) ^ 0))) := by ring
    rw [e]
    positivity
  have := mul_nonneg (show 0 ≤ y - x by linarith) hQ
  nlinarith

def tableNeg0 : List Row := [
  (3008, 12430878, 3671294, 3009, 12422263, 3667264), (2988, 12604406, 3752854, 2989, 12595672, 3748734),
  (2968, 12780357, 3836225, 2969, 12771501, 3832014), (2949, 12949785, 3917142, 2950, 12940811, 3912842),
  (2929, 13130557, 4004163, 2930, 13121458, 3999768), (2910, 13304628, 4088623, 2911, 13295408, 4084135),
  (2891, 13481006, 4174865, 2892, 13471664, 4170282), (2873, 13650257, 4258244, 2874, 13640798, 4253570),
  (2854, 13831217, 4348064, 2855, 13821633, 4343290), (2836, 14004866, 4434902, 2837, 13995161, 4430034),
  (2818, 14180694, 4523476, 2819, 14170867, 4518510), (2800, 14358730, 4613818, 2801, 14348780, 4608753),
  (2782, 14539001, 4705964, 2783, 14528926, 4700798), (2765, 14711335, 4794681, 2766, 14701140, 4789417),
  (2747, 14896033, 4890439, 2748, 14885710, 4885071), (2730, 15072598, 4982633, 2731, 15062153, 4977163),
  (2713, 15251257, 5076565, 2714, 15240688, 5070992), (2696, 15432033, 5172268, 2697, 15421339, 5166590),
  (2680, 15604132, 5263989, 2681, 15593319, 5258210), (2663, 15789091, 5363226, 2664, 15778150, 5357338),
  (2647, 15965172, 5458333, 2648, 15954109, 5452340), (2631, 16143217, 5555126, 2632, 16132031, 5549028),
  (2615, 16323248, 5653636, 2616, 16311936, 5647430), (2599, 16505286, 5753894, 2600, 16493848, 5747577),
  (2583, 16689354, 5855928, 2584, 16677789, 5849500), (2567, 16875475, 5959773, 2568, 16863781, 5953230),
  (2552, 17051848, 6058799, 2553, 17040032, 6052147), (2537, 17230065, 6159470, 2538, 17218125, 6152708),
  (2521, 17422216, 6268697, 2522, 17410143, 6261815), (2506, 17604303, 6372856, 2507, 17592104, 6365859),
  (2491, 17788294, 6478746, 2492, 17775967, 6471633), (2476, 17974207, 6586395, 2477, 17961752, 6579164),
  (2462, 18149479, 6688480, 2463, 18136902, 6681137), (2447, 18339167, 6799614, 2448, 18326459, 6792149),
  (2433, 18517998, 6905004, 2434, 18505166, 6897424), (2418, 18711538, 7019736, 2419, 18698571, 7012029),
  (2404, 18894000, 7128538, 2405, 18880907, 7120712), (2390, 19078241, 7239027, 2391, 19065020, 7231079),
  (2376, 19264278, 7351228, 2377, 19250929, 7343157), (2362, 19452130, 7465168, 2363, 19438650, 7456972),
  (2348, 19641813, 7580874, 2349, 19628202, 7572551), (2335, 19819604, 7689920, 2336, 19805870, 7681478),
  (2321, 20012871, 7809110, 2322, 19999003, 7800537), (2308, 20194020, 7921440, 2309, 20180026, 7912743),
  (2294, 20390938, 8044218, 2295, 20376808, 8035386), (2281, 20575509, 8159929, 2282, 20561251, 8150971),
  (2268, 20761751, 8277305, 2269, 20747364, 8268218), (2255, 20949679, 8396370, 2256, 20935162, 8387151),
  (2242, 21139308, 8517147, 2243, 21124659, 8507796), (2229, 21330653, 8639661, 2230, 21315872, 8630175),
  (2216, 21523730, 8763938, 2217, 21508815, 8754316), (2204, 21703506, 8880241, 2205, 21688467, 8870491),
  (2191, 21899958, 9007978, 2192, 21884783, 8998088), (2179, 22082877, 9127519, 2180, 22067574, 9117498),
  (2166, 22282763, 9258814, 2167, 22267322, 9248648), (2154, 22468879, 9381684, 2155, 22453309, 9371384),
  (2142, 22656549, 9506185, 2143, 22640849, 9495748), (2130, 22845787, 9632338, 2131, 22829956, 9621762),
  (2118, 23036605, 9760165, 2119, 23020642, 9749449), (2106, 23229017, 9889689, 2107, 23212921, 9878831),
  (2094, 23423037, 10020931, 2095, 23406806, 10009929), (2082, 23618677, 10153915, 2083, 23602310, 10142767),
  (2070, 23815950, 10288664, 2071, 23799447, 10277368), (2058, 24014872, 10425201, 2059, 23998231, 10413755),
  (2047, 24198676, 10551951, 2048, 24181908, 10540366), (2035, 24400795, 10691982, 2036, 24383886, 10680243),
  (2024, 24587552, 10821976, 2025, 24570514, 10810094), (2012, 24792919, 10965590, 2013, 24775739, 10953551),
  (2001, 24982678, 11098911, 2002, 24965366, 11086725), (1990, 25173889, 11233852, 1991, 25156445, 11221518),
  (1979, 25366564, 11370433, 1980, 25348986, 11357950), (1968, 25560714, 11508676, 1969, 25543002, 11496040),
  (1957, 25756349, 11648599, 1958, 25738502, 11635809), (1946, 25953482, 11790223, 1947, 25935498, 11777278),
  (1935, 26152124, 11933569, 1936, 26134002, 11920467), (1924, 26352286, 12078658, 1925, 26334025, 12065397),
  (1913, 26553980, 12225511, 1914, 26535580, 12212088), (1903, 26738678, 12360562, 1904, 26720149, 12346991),
  (1892, 26943329, 12510843, 1893, 26924659, 12497107), (1881, 27149547, 12662950, 1882, 27130734, 12649047),
  (1871, 27338387, 12802834, 1872, 27319443, 12788777), (1860, 27547628, 12958492, 1861, 27528539, 12944264),
  (1850, 27739237, 13101640, 1851, 27720016, 13087255), (1840, 27932179, 13246370, 1841, 27912824, 13231826),
  (1829, 28145965, 13407420, 1830, 28126462, 13392699), (1819, 28341736, 13555527, 1820, 28322097, 13540644),
  (1809, 28538868, 13705271, 1810, 28519092, 13690224), (1799, 28737372, 13856669, 1800, 28717458, 13841455),
  (1789, 28937256, 14009739, 1790, 28917204, 13994358), (1779, 29138530, 14164501, 1780, 29118339, 14148949),
  (1769, 29341205, 14320972, 1770, 29320873, 14305248), (1759, 29545289, 14479171, 1760, 29524816, 14463274),
  (1749, 29750793, 14639118, 1750, 29730177, 14623045), (1740, 29936968, 14784580, 1741, 29916224, 14768348),
  (1730, 30145196, 14947901, 1731, 30124307, 14931489), (1720, 30354873, 15113026, 1721, 30333839, 15096433),
  (1711, 30544828, 15263197, 1712, 30523662, 15246439), (1701, 30757284, 15431805, 1702, 30735971, 15414862),
  (1692, 30949758, 15585144, 1693, 30928311, 15568033), (1682, 31165030, 15757308, 1683, 31143435, 15740008)]

def tableNeg1 : List Row := [
  (1673, 31360056, 15913882, 1674, 31338325, 15896409), (1663, 31578182, 16089678, 1664, 31556300, 16072012),
  (1654, 31775793, 16249553, 1655, 31753774, 16231712), (1645, 31974640, 16411018, 1646, 31952484, 16393000),
  (1636, 32174732, 16574087, 1637, 32152437, 16555890), (1626, 32398525, 16757176, 1627, 32376074, 16738777),
  (1617, 32601269, 16923684, 1618, 32578678, 16905103), (1608, 32805282, 17091848, 1609, 32782550, 17073082),
  (1599, 33010572, 17261682, 1600, 32987697, 17242729), (1590, 33217146, 17433203, 1591, 33194128, 17414062),
  (1581, 33425013, 17606429, 1582, 33401851, 17587098), (1572, 33634181, 17781376, 1573, 33610874, 17761853),
  (1563, 33844657, 17958062, 1564, 33821205, 17938345), (1555, 34032853, 18116589, 1556, 34009271, 18096698),
  (1546, 34245825, 18296606, 1547, 34222095, 18276517), (1537, 34460129, 18478411, 1538, 34436251, 18458122),
  (1528, 34675775, 18662023, 1529, 34651747, 18641533), (1520, 34868592, 18826764, 1521, 34844430, 18806093),
  (1511, 35086794, 19013837, 1512, 35062481, 18992961), (1503, 35281897, 19181684, 1504, 35257449, 19160624),
  (1494, 35502684, 19372284, 1495, 35478083, 19351014), (1486, 35700100, 19543296, 1487, 35675362, 19521838),
  (1477, 35923505, 19737489, 1478, 35898612, 19715818), (1469, 36123260, 19911724, 1470, 36098229, 19889862),
  (1460, 36349313, 20109578, 1461, 36324126, 20087499), (1452, 36551437, 20287098, 1453, 36526109, 20264824),
  (1444, 36754684, 20466185, 1445, 36729215, 20443714), (1436, 36959061, 20646853, 1437, 36933451, 20624184),
  (1427, 37190345, 20852012, 1428, 37164574, 20829117), (1419, 37397144, 21036086, 1420, 37371231, 21012989),
  (1411, 37605094, 21221784, 1412, 37579036, 21198484), (1403, 37814200, 21409123, 1404, 37787998, 21385616),
  (1395, 38024469, 21598115, 1396, 37998121, 21574401), (1387, 38235907, 21788775, 1388, 38209413, 21764852),
  (1379, 38448521, 21981118, 1380, 38421879, 21956984), (1371, 38662317, 22175159, 1372, 38635527, 22150812),
  (1363, 38877302, 22370914, 1364, 38850363, 22346351), (1355, 39093483, 22568396, 1356, 39066394, 22543617),
  (1347, 39310865, 22767621, 1348, 39283625, 22742623), (1339, 39529456, 22968606, 1340, 39502065, 22943387),
  (1331, 39749263, 23171364, 1332, 39721720, 23145923), (1324, 39942596, 23350245, 1325, 39914919, 23324608),
  (1316, 40164700, 23556373, 1317, 40136869, 23530509), (1308, 40388039, 23764320, 1309, 40360053, 23738227),
  (1301, 40584480, 23947779, 1302, 40556357, 23921485), (1293, 40810153, 24159181, 1294, 40781874, 24132655),
  (1285, 41037081, 24372449, 1286, 41008645, 24345689), (1278, 41236678, 24560603, 1279, 41208104, 24533636),
  (1270, 41465978, 24777415, 1271, 41437245, 24750210), (1263, 41667661, 24968695, 1264, 41638788, 24941280),
  (1255, 41899357, 25189110, 1256, 41870324, 25161453), (1248, 42103148, 25383568, 1249, 42073974, 25355697),
  (1240, 42337266, 25607645, 1241, 42307929, 25579528), (1233, 42543187, 25805334, 1234, 42513708, 25777001),
  (1225, 42779752, 26033134, 1226, 42750108, 26004550), (1218, 42987825, 26234108, 1219, 42958037, 26205304),
  (1211, 43196910, 26436634, 1212, 43166977, 26407607), (1204, 43407012, 26640723, 1205, 43376934, 26611472),
  (1196, 43648380, 26875897, 1197, 43618135, 26846388), (1189, 43860678, 27083377, 1190, 43830286, 27053641),
  (1182, 44074008, 27292459, 1183, 44043468, 27262493), (1175, 44288376, 27503155, 1176, 44257688, 27472957),
  (1168, 44503787, 27715478, 1169, 44472949, 27685047), (1160, 44751254, 27960140, 1161, 44720245, 27929440),
  (1153, 44968916, 28175990, 1154, 44937756, 28145054), (1146, 45187637, 28393507, 1147, 45156325, 28362331),
  (1139, 45407421, 28612703, 1140, 45375957, 28581287), (1132, 45628275, 28833591, 1133, 45596658, 28801932),
  (1125, 45850203, 29056184, 1126, 45818432, 29024281), (1118, 46073210, 29280496, 1119, 46041284, 29248347),
  (1111, 46297302, 29506539, 1112, 46265221, 29474142), (1104, 46522483, 29734328, 1105, 46490247, 29701680),
  (1098, 46716368, 29930974, 1099, 46683997, 29898111), (1091, 46943588, 30162039, 1092, 46911059, 30128922),
  (1084, 47171913, 30394888, 1085, 47139226, 30361516), (1077, 47401349, 30629535, 1078, 47368503, 30595904),
  (1070, 47631900, 30865993, 1071, 47598895, 30832103), (1064, 47830408, 31070123, 1065, 47797265, 31036009),
  (1057, 48063047, 31309983, 1058, 48029743, 31275605), (1050, 48296817, 31551694, 1051, 48263351, 31517051),
  (1043, 48531724, 31795271, 1044, 48498095, 31760360), (1037, 48733982, 32005547, 1038, 48700213, 31970405),
  (1030, 48971015, 32252628, 1031, 48937082, 32217215), (1024, 49175104, 32465929, 1025, 49141029, 32430282),
  (1017, 49414283, 32716563, 1018, 49380043, 32680641), (1010, 49654625, 32969133, 1011, 49620218, 32932934),
  (1004, 49861563, 33187173, 1005, 49827013, 33150734), (997, 50104081, 33443375, 998, 50069362, 33406655),
  (991, 50312892, 33664551, 992, 50278029, 33627588), (984, 50557605, 33924439, 985, 50522572, 33887191),
  (978, 50768306, 34148797, 979, 50733127, 34111302), (971, 51015233, 34412423, 972, 50979884, 34374639),
  (965, 51227842, 34640008, 966, 51192345, 34601974), (959, 51441336, 34869098, 960, 51405691, 34830812),
  (952, 51691537, 35138285, 953, 51655719, 35099704), (946, 51906964, 35370670, 947, 51870996, 35331834),
  (940, 52123289, 35604592, 941, 52087171, 35565499), (933, 52376807, 35879457, 934, 52340514, 35840062),
  (927, 52595089, 36116744, 928, 52558645, 36077088), (921, 52814282, 36355600, 922, 52777685, 36315682)]

def tableNeg2 : List Row := [
  (915, 53034388, 36596036, 916, 52997639, 36555854), (908, 53292337, 36878555, 909, 53255410, 36838063),
  (902, 53514435, 37122449, 903, 53477354, 37081689), (896, 53737459, 37367957, 897, 53700223, 37326927),
  (890, 53961412, 37615088, 891, 53924021, 37573787), (884, 54186299, 37863853, 885, 54148752, 37822279),
  (878, 54412123, 38114264, 879, 54374419, 38072415), (871, 54676773, 38408503, 872, 54638886, 38366331),
  (865, 54904641, 38662516, 866, 54866596, 38620065), (859, 55133459, 38918208, 860, 55095255, 38875477),
  (853, 55363230, 39175592, 854, 55324867, 39132578), (847, 55593958, 39434677, 848, 55555436, 39391379),
  (841, 55825649, 39695476, 842, 55786966, 39651891), (835, 56058304, 39958000, 836, 56019460, 39914127),
  (829, 56291930, 40222261, 830, 56252924, 40178097), (823, 56526529, 40488268, 824, 56487360, 40443813),
  (817, 56762106, 40756035, 818, 56722774, 40711286), (811, 56998664, 41025573, 812, 56959168, 40980528),
  (806, 57196549, 41251549, 807, 57156916, 41206256), (800, 57434918, 41524364, 801, 57395120, 41478771),
  (794, 57674281, 41798983, 795, 57634317, 41753089), (788, 57914641, 42075419, 789, 57874510, 42029220),
  (782, 58156003, 42353682, 783, 58115705, 42307178), (776, 58398370, 42633786, 777, 58357905, 42586975),
  (771, 58601115, 42868620, 772, 58560509, 42821551), (765, 58845337, 43152130, 766, 58804562, 43104749),
  (759, 59090578, 43437514, 760, 59049633, 43389820), (753, 59336840, 43724786, 754, 59295724, 43676777),
  (748, 59542843, 43965630, 749, 59501584, 43917356), (742, 59790990, 44256394, 743, 59749560, 44207801),
  (736, 60040172, 44549081, 737, 59998569, 44500167), (731, 60248616, 44794465, 732, 60206869, 44745282),
  (725, 60499705, 45090711, 726, 60457783, 45041202), (719, 60751840, 45388916, 720, 60709744, 45339080),
  (714, 60962755, 45638926, 715, 60920513, 45588815), (708, 61216820, 45940757, 709, 61174402, 45890315),
  (703, 61429350, 46193807, 704, 61386784, 46143087), (697, 61685359, 46499307, 698, 61642616, 46448251),
  (691, 61942435, 46806828, 692, 61899514, 46755434), (686, 62157484, 47064648, 687, 62114414, 47012972),
  (680, 62416528, 47375908, 681, 62373278, 47323889), (675, 62633222, 47636862, 676, 62589822, 47584558),
  (669, 62894249, 47951906, 670, 62850668, 47899256), (664, 63112602, 48216034, 665, 63068870, 48163093),
  (658, 63375627, 48534908, 659, 63331712, 48481617), (653, 63595651, 48802247, 654, 63551584, 48748662),
  (648, 63816439, 49071058, 649, 63772219, 49017179), (642, 64082397, 49395587, 643, 64037993, 49341351),
  (637, 64304875, 49667667, 638, 64260316, 49613132), (631, 64572868, 49996141, 632, 64528124, 49941246),
  (626, 64797049, 50271529, 627, 64752149, 50216331), (621, 65022008, 50548433, 622, 64976953, 50492931),
  (615, 65292990, 50882732, 616, 65247747, 50826864), (610, 65519671, 51163003, 611, 65474271, 51106827),
  (605, 65747139, 51444818, 606, 65701581, 51388332), (599, 66021143, 51785046, 600, 65975395, 51728186),
  (594, 66250351, 52070287, 595, 66204445, 52013114), (589, 66480356, 52357099, 590, 66434290, 52299612),
  (584, 66711159, 52645491, 585, 66664933, 52587687), (578, 66989181, 52993659, 579, 66942762, 52935473),
  (573, 67221750, 53285558, 574, 67175171, 53227051), (568, 67455127, 53579064, 569, 67408386, 53520235),
  (563, 67689314, 53874187, 564, 67642411, 53815034), (558, 67924315, 54170936, 559, 67877248, 54111456),
  (552, 68207392, 54529192, 553, 68160130, 54469320), (547, 68444191, 54829549, 548, 68396765, 54769346),
  (542, 68681812, 55131559, 543, 68634221, 55071025), (537, 68920258, 55435234, 538, 68872502, 55374366),
  (532, 69159532, 55740581, 533, 69111610, 55679378), (527, 69399636, 56047610, 528, 69351548, 55986070),
  (522, 69640575, 56356330, 523, 69592319, 56294451), (517, 69882349, 56666750, 518, 69833926, 56604531),
  (512, 70124963, 56978881, 513, 70076372, 56916318), (507, 70368419, 57292730, 508, 70319659, 57229823),
  (502, 70612721, 57608309, 503, 70563792, 57545055), (497, 70857870, 57925626, 498, 70808771, 57862024),
  (492, 71103871, 58244690, 493, 71054602, 58180738), (487, 71350726, 58565512, 488, 71301285, 58501208),
  (482, 71598438, 58888101, 483, 71548826, 58823443), (477, 71847009, 59212467, 478, 71797225, 59147452),
  (472, 72096444, 59538620, 473, 72046487, 59473247), (467, 72346745, 59866569, 468, 72296614, 59800836),
  (462, 72597914, 60196325, 463, 72547610, 60130230), (457, 72849956, 60527897, 458, 72799477, 60461438),
  (452, 73102873, 60861295, 453, 73052218, 60794470), (447, 73356668, 61196530, 448, 73305837, 61129336),
  (442, 73611344, 61533611, 443, 73560337, 61466048), (437, 73866904, 61872549, 438, 73815720, 61804613),
  (433, 74071990, 62145043, 434, 74020664, 62076808), (428, 74329150, 62487349, 429, 74277646, 62418738),
  (423, 74587202, 62831540, 424, 74535519, 62762552), (418, 74846150, 63177627, 419, 74794287, 63108259),
  (413, 75105997, 63525621, 414, 75053954, 63455870), (408, 75366746, 63875531, 409, 75314523, 63805396),
  (404, 75575997, 64156847, 405, 75523629, 64086403), (399, 75838378, 64510234, 400, 75785828, 64439402),
  (394, 76101670, 64865568, 395, 76048937, 64794346), (389, 76365875, 65222859, 390, 76312960, 65151244),
  (385, 76577900, 65510108, 386, 76524838, 65438178), (380, 76843760, 65870949, 381, 76790513, 65798623)]

def tableNeg3 : List Row := [
  (375, 77110542, 66233778, 376, 77057110, 66161053), (371, 77324634, 66525479, 372, 77271054, 66452435),
  (366, 77593086, 66891913, 367, 77539320, 66818466), (361, 77862470, 67260366, 362, 77808517, 67186514),
  (356, 78132789, 67630848, 357, 78078649, 67556589), (352, 78349719, 67928702, 353, 78295429, 67854117),
  (347, 78621730, 68302865, 348, 78567251, 68227869), (343, 78840018, 68603679, 344, 78785388, 68528353),
  (338, 79113731, 68981560, 339, 79058911, 68905819), (333, 79388394, 69361523, 334, 79333384, 69285364),
  (329, 79608810, 69666999, 330, 79553648, 69590505), (324, 79885192, 70050737, 325, 79829838, 69973822),
  (320, 80106988, 70359249, 321, 80051481, 70281995), (315, 80385100, 70746800, 316, 80329399, 70669121),
  (310, 80664176, 71136486, 311, 80608283, 71058378), (306, 80888135, 71449780, 307, 80832086, 71371328),
  (301, 81168959, 71843337, 302, 81112715, 71764454), (297, 81394319, 72159744, 298, 81337919, 72080513),
  (292, 81676900, 72557213, 293, 81620304, 72477545), (288, 81903670, 72876763, 289, 81846918, 72796745),
  (283, 82188019, 73278181, 284, 82131070, 73197722)]

def tableNeg : List Row := tableNeg0 ++ tableNeg1 ++ tableNeg2 ++ tableNeg3


def tablePos0 : List Row := [
  (283, 82188019, 73278181, 284, 82131070, 73197722), (279, 82416209, 73600907, 280, 82359101, 73520094),
  (274, 82702337, 74006314, 275, 82645031, 73925055), (270, 82931955, 74332246, 271, 82874490, 74250630),
  (265, 83219874, 74741682, 266, 83162209, 74659616), (261, 83450929, 75070853, 262, 83393104, 74988425),
  (257, 83682625, 75401474, 258, 83624639, 75318683), (252, 83973150, 75816798, 253, 83914963, 75733552),
  (248, 84206296, 76150705, 249, 84147948, 76067091), (243, 84498639, 76570156, 244, 84440088, 76486082),
  (239, 84733244, 76907380, 240, 84674531, 76822936), (234, 85027417, 77331000, 235, 84968499, 77246090),
  (230, 85263490, 77671574, 231, 85204409, 77586291), (226, 85500218, 78013649, 227, 85440974, 77927991),
  (221, 85797054, 78443362, 222, 85737603, 78357232), (217, 86035264, 78788836, 218, 85975648, 78702326),
  (213, 86274135, 79135832, 214, 86214354, 79048941), (208, 86573657, 79571726, 209, 86513669, 79484356),
  (204, 86814023, 79922169, 205, 86753868, 79834415), (200, 87055057, 80274156, 201, 86994735, 80186015),
  (195, 87357290, 80716320, 196, 87296759, 80627694), (191, 87599832, 81071804, 192, 87539132, 80982788),
  (187, 87843047, 81428854, 188, 87782179, 81339445), (183, 88086938, 81787476, 184, 88025901, 81697674),
  (178, 88392754, 82237976, 179, 88331505, 82147679), (174, 88638170, 82600162, 175, 88576751, 82509467),
  (170, 88884269, 82963943, 171, 88822679, 82872849), (166, 89131050, 83329326, 167, 89069290, 83237831),
  (161, 89440491, 83788319, 162, 89378516, 83696319), (157, 89688816, 84157332, 158, 89626669, 84064928),
  (153, 89937832, 84527971, 154, 89875512, 84435160), (149, 90187538, 84900242, 150, 90125046, 84807022),
  (145, 90437938, 85274153, 146, 90375272, 85180522), (140, 90751916, 85743858, 141, 90689032, 85649712),
  (136, 91003883, 86121484, 137, 90940825, 86026923), (132, 91256549, 86500774, 133, 91193316, 86405796),
  (128, 91509917, 86881733, 129, 91446508, 86786337), (124, 91763989, 87264371, 125, 91700404, 87168555),
  (120, 92018766, 87648694, 121, 91955004, 87552455), (116, 92274250, 88034709, 117, 92210311, 87938047),
  (111, 92594603, 88519619, 112, 92530442, 88422425), (107, 92851686, 88909470, 108, 92787347, 88811848),
  (103, 93109482, 89301038, 104, 93044965, 89202986), (99, 93367995, 89694331, 100, 93303299, 89595846),
  (95, 93627225, 90089355, 96, 93562349, 89990437), (91, 93887175, 90486119, 92, 93822119, 90386766),
  (87, 94147847, 90884631, 88, 94082610, 90784840), (83, 94409242, 91284898, 84, 94343825, 91184667),
  (79, 94671364, 91686927, 80, 94605764, 91586255), (75, 94934213, 92090727, 76, 94868431, 91989612),
  (71, 95197791, 92496306, 72, 95131827, 92394745), (67, 95462102, 92903671, 68, 95395955, 92801663),
  (63, 95727146, 93312830, 64, 95660815, 93210372), (59, 95992927, 93723790, 60, 95926411, 93620882),
  (55, 96259445, 94136561, 56, 96192745, 94033199), (51, 96526703, 94551150, 52, 96459818, 94447333),
  (47, 96794703, 94967564, 48, 96727632, 94863290), (43, 97063447, 95385813, 44, 96996191, 95281079),
  (39, 97332938, 95805903, 40, 97265494, 95700708), (35, 97603177, 96227844, 36, 97535546, 96122186),
  (31, 97874166, 96651643, 32, 97806347, 96545519), (27, 98145907, 97077308, 28, 98077900, 96970717),
  (23, 98418403, 97504848, 24, 98350207, 97397788), (19, 98691655, 97934271, 20, 98623270, 97826739),
  (15, 98965666, 98365585, 16, 98897091, 98257580), (11, 99240438, 98798799, 12, 99171673, 98690318),
  (7, 99515973, 99233920, 8, 99447016, 99124962), (3, 99792272, 99670958, 4, 99723125, 99561520),
  (-1, 100069338, 100109922, 1, 99930709, 99890200), (-5, 100347174, 100550818, -4, 100277644, 100440411),
  (-8, 100556058, 100882764, -7, 100486383, 100771993), (-12, 100835245, 101327064, -11, 100765377, 101215805),
  (-16, 101115208, 101773320, -15, 101045145, 101661571), (-20, 101395947, 102221542, -19, 101325691, 102109301),
  (-24, 101677467, 102671738, -23, 101607015, 102559002), (-28, 101959768, 103123916, -27, 101889120, 103010684),
  (-31, 102172008, 103464357, -30, 102101213, 103350751), (-35, 102455682, 103920026, -34, 102384691, 103805920),
  (-39, 102740143, 104377702, -38, 102668955, 104263093), (-43, 103025395, 104837394, -42, 102954009, 104722280),
  (-47, 103311438, 105299110, -46, 103239854, 105183490), (-51, 103598276, 105762860, -50, 103526493, 105646730),
  (-54, 103813927, 106112012, -53, 103741994, 105995499), (-58, 104102159, 106579342, -57, 104030027, 106462316),
  (-62, 104391192, 107048730, -61, 104318860, 106931189), (-66, 104681028, 107520185, -65, 104608494, 107402126),
  (-69, 104898932, 107875139, -68, 104826248, 107756690), (-73, 105190177, 108350234, -72, 105117291, 108231263),
  (-77, 105482231, 108827421, -76, 105409143, 108707927), (-81, 105775096, 109306710, -80, 105701805, 109186689),
  (-84, 105995278, 109667562, -83, 105921834, 109547145), (-88, 106289567, 110150551, -87, 106215919, 110029603),
  (-92, 106584673, 110635667, -91, 106510821, 110514187), (-96, 106880599, 111122919, -95, 106806541, 111000904),
  (-99, 107103082, 111489767, -98, 107028870, 111367349), (-103, 107400447, 111980781, -102, 107326029, 111857824),
  (-107, 107698637, 112473957, -106, 107624013, 112350459), (-110, 107922823, 112845265, -109, 107848044, 112721359),
  (-114, 108222464, 113342249, -113, 108147477, 113217797), (-118, 108522937, 113841421, -117, 108447741, 113716422)]

def tablePos1 : List Row := [
  (-121, 108748839, 114217243, -120, 108673487, 114091831), (-125, 109050773, 114720270, -124, 108975212, 114594305),
  (-129, 109353545, 115225511, -128, 109277774, 115098992), (-132, 109581176, 115605902, -131, 109505248, 115478965),
  (-136, 109885421, 116115044, -135, 109809282, 115987548), (-140, 110190511, 116626429, -139, 110114160, 116498371),
  (-143, 110419884, 117011445, -142, 110343375, 116882964), (-147, 110726458, 117526777, -146, 110649736, 117397731),
  (-150, 110956947, 117914765, -149, 110880065, 117785293), (-154, 111265012, 118434076, -153, 111187916, 118304033),
  (-158, 111573932, 118955673, -157, 111496622, 118825058), (-161, 111806185, 119348379, -160, 111728714, 119217332),
  (-165, 112116607, 119874003, -164, 112038922, 119742379), (-168, 112349990, 120269740, -167, 112272143, 120137682),
  (-172, 112661922, 120799422, -171, 112583859, 120666783), (-176, 112974721, 121331437, -175, 112896441, 121198213),
  (-179, 113209890, 121731986, -178, 113131447, 121598322), (-183, 113524210, 122268108, -182, 113445549, 122133855),
  (-186, 113760522, 122671748, -185, 113681698, 122537053), (-190, 114076371, 123212009, -189, 113997328, 123076720),
  (-193, 114313833, 123618766, -192, 114234625, 123483030), (-197, 114631218, 124163198, -196, 114551790, 124026864),
  (-200, 114869835, 124573094, -199, 114790242, 124436311), (-204, 115188764, 125121729, -203, 115108950, 124984343),
  (-207, 115428541, 125534790, -206, 115348561, 125396951), (-211, 115749021, 126087660, -210, 115668819, 125949214),
  (-214, 115989965, 126503910, -213, 115909596, 126365007), (-218, 116312004, 127061049, -217, 116231411, 126921533),
  (-221, 116554119, 127480512, -220, 116473359, 127340536), (-225, 116877724, 128041951, -224, 116796740, 127901359),
  (-228, 117121018, 128464653, -227, 117039865, 128323597), (-232, 117446197, 129030426, -231, 117364818, 128888749),
  (-235, 117690673, 129456391, -234, 117609126, 129314246), (-239, 118017434, 130026533, -238, 117935660, 129883761),
  (-242, 118263100, 130455786, -241, 118181155, 130312543), (-246, 118591449, 131030329, -245, 118509278, 130886455),
  (-249, 118838310, 131462896, -248, 118755967, 131318547), (-253, 119168257, 132041874, -252, 119085685, 131896890),
  (-256, 119416318, 132477780, -255, 119333575, 132332318), (-259, 119664896, 132915126, -258, 119581980, 132769183),
  (-263, 119997138, 133500500, -262, 119913992, 133353914), (-266, 120246924, 133941222, -265, 120163605, 133794152),
  (-270, 120580782, 134531115, -269, 120497232, 134383397), (-273, 120831784, 134975239, -272, 120748060, 134827034),
  (-276, 121083308, 135420829, -275, 120999409, 135272135), (-280, 121419488, 136017238, -279, 121335357, 135867889),
  (-283, 121672235, 136466269, -282, 121587929, 136316426), (-287, 122010051, 137067282, -286, 121925510, 136916780),
  (-290, 122264027, 137519779, -289, 122179311, 137368780), (-293, 122518533, 137973769, -292, 122433640, 137822272),
  (-297, 122858698, 138581422, -296, 122773569, 138429258), (-300, 123114441, 139038918, -299, 123029135, 138886251),
  (-303, 123370716, 139497923, -302, 123285233, 139344752), (-307, 123713247, 140112289, -306, 123627527, 139958443),
  (-310, 123970769, 140574838, -309, 123884870, 140420484), (-313, 124228828, 141038914, -312, 124142750, 140884051),
  (-317, 124573741, 141660066, -316, 124487424, 141504521), (-320, 124833054, 142127725, -319, 124746558, 141971666),
  (-323, 125092908, 142596927, -322, 125006231, 142440353), (-327, 125440220, 143224941, -326, 125353303, 143067678),
  (-330, 125701337, 143697766, -329, 125614239, 143539983), (-333, 125962997, 144172151, -332, 125875718, 144013848),
  (-337, 126312726, 144807103, -336, 126225204, 144648102), (-340, 126575659, 145285151, -339, 126487955, 145125625),
  (-343, 126839139, 145764777, -342, 126751253, 145604725), (-346, 127103168, 146245986, -345, 127015099, 146085406),
  (-350, 127456062, 146890071, -349, 127367748, 146728783), (-353, 127721375, 147374995, -352, 127632877, 147213175),
  (-356, 127987241, 147861521, -355, 127898559, 147699166), (-359, 128253660, 148349652, -358, 128164793, 148186762),
  (-363, 128609748, 149003002, -362, 128520634, 148839394), (-366, 128877463, 149494901, -365, 128788163, 149330754),
  (-369, 129145735, 149988425, -368, 129056250, 149823735), (-372, 129414565, 150483578, -371, 129324894, 150318344),
  (-376, 129773876, 151146325, -375, 129683956, 150980364), (-379, 130044014, 151645301, -378, 129953907, 151478792),
  (-382, 130314714, 152145924, -381, 130224419, 151978865), (-385, 130585978, 152648199, -384, 130495495, 152480589),
  (-389, 130948542, 153320480, -388, 130857808, 153152131), (-392, 131221125, 153826633, -391, 131130202, 153657729),
  (-395, 131494276, 154334457, -394, 131403163, 154164995), (-398, 131767995, 154843957, -397, 131676693, 154673936),
  (-401, 132042284, 155355139, -400, 131950792, 155184557), (-405, 132408891, 156039342, -404, 132317144, 155868008),
  (-408, 132684514, 156554470, -407, 132592577, 156382571), (-411, 132960710, 157071300, -410, 132868582, 156898833),
  (-414, 133237482, 157589835, -413, 133145162, 157416799), (-417, 133514830, 158110082, -416, 133422317, 157936475),
  (-420, 133792755, 158632047, -419, 133700050, 158457867), (-424, 134164222, 159330681, -423, 134071260, 159155734),
  (-427, 134443499, 159856676, -426, 134350343, 159681151), (-430, 134723357, 160384406, -429, 134630007, 160208302),
  (-433, 135003798, 160913879, -432, 134910254, 160737193), (-436, 135284823, 161445100, -435, 135191084, 161267831),
  (-439, 135566432, 161978075, -438, 135472498, 161800220), (-442, 135848628, 162512809, -441, 135754498, 162334367),
  (-446, 136225803, 163228534, -445, 136131412, 163049307), (-449, 136509371, 163767396, -448, 136414784, 163587577),
  (-452, 136793530, 164308038, -451, 136698746, 164127625), (-455, 137078280, 164850463, -454, 136983298, 164669455)]

def tablePos2 : List Row := [
  (-458, 137363623, 165394680, -457, 137268444, 165213074), (-461, 137649560, 165940693, -460, 137554182, 165758488),
  (-464, 137936092, 166488509, -463, 137840516, 166305702), (-467, 138223220, 167038133, -466, 138127445, 166854723),
  (-470, 138510946, 167589572, -469, 138414972, 167405556), (-473, 138799271, 168142831, -472, 138703097, 167958207),
  (-476, 139088197, 168697916, -475, 138991822, 168512684), (-480, 139474366, 169440882, -479, 139377724, 169254833),
  (-483, 139764697, 170000253, -482, 139667854, 169813590), (-486, 140055632, 170561470, -485, 139958587, 170374191),
  (-489, 140347172, 171124540, -488, 140249926, 170936643), (-492, 140639319, 171689469, -491, 140541871, 171500952),
  (-495, 140932075, 172256263, -494, 140834423, 172067124), (-498, 141225440, 172824929, -497, 141127585, 172635164),
  (-501, 141519416, 173395471, -500, 141421357, 173205080), (-504, 141814003, 173967897, -503, 141715740, 173776878),
  (-507, 142109204, 174542213, -506, 142010736, 174350563), (-510, 142405019, 175118424, -509, 142306347, 174926142),
  (-513, 142701450, 175696538, -512, 142602572, 175503621), (-516, 142998498, 176276561, -515, 142899414, 176083007),
  (-519, 143296165, 176858498, -518, 143196875, 176664305), (-522, 143594451, 177442356, -521, 143494954, 177247522),
  (-525, 143893358, 178028142, -524, 143793654, 177832665), (-528, 144192887, 178615862, -527, 144092975, 178419739),
  (-531, 144493039, 179205522, -530, 144392920, 179008752), (-534, 144793817, 179797128, -533, 144693489, 179599709),
  (-537, 145095220, 180390688, -536, 144994684, 180192616), (-540, 145397251, 180986207, -539, 145296505, 180787482),
  (-543, 145699911, 181583692, -542, 145598955, 181384311), (-546, 146003201, 182183150, -545, 145902035, 181983110),
  (-549, 146307122, 182784586, -548, 146205745, 182583886), (-552, 146611675, 183388008, -551, 146510088, 183186646),
  (-555, 146916863, 183993422, -554, 146815064, 183791395), (-558, 147222686, 184600835, -557, 147120675, 184398141),
  (-561, 147529145, 185210253, -560, 147426922, 185006890), (-564, 147836243, 185821683, -563, 147733807, 185617648),
  (-567, 148143979, 186435131, -566, 148041330, 186230423), (-570, 148452357, 187050605, -569, 148349494, 186845220),
  (-573, 148761376, 187668110, -572, 148658299, 187462048), (-575, 148967746, 188080912, -574, 148864526, 187874397),
  (-578, 149277838, 188701819, -577, 149174403, 188494622), (-581, 149588575, 189324775, -580, 149484925, 189116894),
  (-584, 149899960, 189949788, -583, 149796094, 189741221), (-587, 150211992, 190576865, -586, 150107910, 190367609),
  (-590, 150524674, 191206011, -589, 150420376, 190996064), (-593, 150838007, 191837235, -592, 150733491, 191626595),
  (-596, 151151992, 192470542, -595, 151047259, 192259206), (-599, 151466631, 193105940, -598, 151361680, 192893907),
  (-602, 151781925, 193743435, -601, 151676755, 193530702), (-605, 152097875, 194383036, -604, 151992486, 194169600),
  (-607, 152308873, 194810608, -606, 152203339, 194596704), (-610, 152625920, 195453732, -609, 152520166, 195239121),
  (-613, 152943627, 196098978, -612, 152837653, 195883659), (-616, 153261996, 196746354, -615, 153155800, 196530324),
  (-619, 153581026, 197395868, -618, 153474610, 197179125), (-622, 153900722, 198047526, -621, 153794084, 197830067),
  (-625, 154221082, 198701335, -624, 154114222, 198483158), (-628, 154542109, 199357303, -627, 154435027, 199138406),
  (-630, 154756499, 199795817, -629, 154649268, 199576438), (-633, 155078641, 200455398, -632, 154971187, 200235295),
  (-636, 155401453, 201117156, -635, 155293776, 200896327), (-639, 155724938, 201781099, -638, 155617036, 201559540),
  (-642, 156049096, 202447234, -641, 155940969, 202224944), (-645, 156373928, 203115567, -644, 156265577, 202892544),
  (-647, 156590859, 203562349, -646, 156482357, 203338834), (-650, 156916819, 204234364, -649, 156808091, 204010112),
  (-653, 157243458, 204908597, -652, 157134504, 204683605), (-656, 157570777, 205585057, -655, 157461596, 205359322),
  (-659, 157898777, 206263749, -658, 157789369, 206037269), (-662, 158227460, 206944683, -661, 158117824, 206717454),
  (-664, 158446962, 207399886, -663, 158337174, 207172158), (-667, 158776786, 208084570, -666, 158666769, 207856091),
  (-670, 159107296, 208771514, -669, 158997051, 208542280), (-673, 159438495, 209460726, -672, 159328020, 209230736),
  (-676, 159770383, 210152214, -675, 159659678, 209921464), (-678, 159992025, 210614473, -677, 159881167, 210383215),
  (-681, 160325065, 211309769, -680, 160213976, 211077748), (-684, 160658799, 212007361, -683, 160547478, 211774574),
  (-687, 160993227, 212707255, -686, 160881675, 212473700), (-689, 161216566, 213175134, -688, 161104859, 212941065),
  (-692, 161552155, 213878884, -691, 161440215, 213644042), (-695, 161888443, 214584957, -694, 161776270, 214349340),
  (-698, 162225431, 215293361, -697, 162113024, 215056966), (-701, 162563120, 216004103, -700, 162450480, 215766927),
  (-703, 162788637, 216479234, -702, 162675840, 216241537), (-706, 163127498, 217193892, -705, 163014467, 216955410),
  (-709, 163467065, 217910908, -708, 163353799, 217671639), (-712, 163807339, 218630292, -711, 163693837, 218390233),
  (-714, 164034582, 219111200, -713, 163920922, 218870613), (-717, 164376037, 219834546, -716, 164262141, 219593165),
  (-720, 164718203, 220560280, -719, 164604070, 220318102), (-722, 164946709, 221045433, -721, 164832417, 220802722),
  (-725, 165290063, 221775165, -724, 165175533, 221531653), (-728, 165634132, 222507305, -727, 165519364, 222262989),
  (-731, 165978917, 223241863, -730, 165863910, 222996740), (-733, 166209172, 223732915, -732, 166094005, 223487253),
  (-736, 166555154, 224471518, -735, 166439747, 224225046), (-739, 166901856, 225212560, -738, 166786209, 224965274),
  (-741, 167133391, 225707947, -740, 167017584, 225460117), (-744, 167481297, 226453071, -743, 167365249, 226204422)]

def tablePos3 : List Row := [
  (-747, 167829927, 227200655, -746, 167713637, 226951185), (-750, 168179283, 227950706, -749, 168062751, 227700413),
  (-752, 168412590, 228452116, -751, 168295897, 228201272), (-755, 168763159, 229206299, -754, 168646223, 228954627),
  (-758, 169114457, 229962972, -757, 168997277, 229710469), (-760, 169349062, 230468807, -759, 169231720, 230215750),
  (-763, 169701580, 231229648, -762, 169583993, 230975755), (-766, 170054832, 231993001, -765, 169937000, 231738269),
  (-768, 170290741, 232503302, -767, 170172746, 232248010), (-771, 170645219, 233270859, -770, 170526979, 233014724),
  (-774, 171000435, 234040950, -773, 170881949, 233783970), (-776, 171237656, 234555756, -775, 171119006, 234298210),
  (-779, 171594106, 235330089, -778, 171475208, 235071693), (-782, 171951297, 236106978, -781, 171832151, 235847729),
  (-784, 172189837, 236626328, -783, 172070527, 236366509), (-787, 172548268, 237407497, -786, 172428710, 237146820),
  (-790, 172907446, 238191244, -789, 172787638, 237929707), (-792, 173147313, 238715179, -791, 173027339, 238453066),
  (-795, 173507737, 239503243, -794, 173387513, 239240265), (-797, 173748437, 240030064, -796, 173628046, 239766508),
  (-800, 174110112, 240822469, -799, 173989471, 240558043), (-803, 174472541, 241617490, -802, 174351648, 241352191),
  (-805, 174714579, 242148962, -804, 174593519, 241883079), (-808, 175078265, 242948362, -807, 174956953, 242681601),
  (-811, 175442709, 243750401, -810, 175321145, 243482760), (-813, 175686093, 244286564, -812, 175564360, 244018334),
  (-816, 176051802, 245093021, -815, 175929816, 244823906), (-818, 176296031, 245632137, -817, 176173875, 245362430),
  (-821, 176663010, 246443036, -820, 176540600, 246172439), (-824, 177030752, 247256612, -823, 176908088, 246985121),
  (-826, 177276339, 247800488, -825, 177153504, 247528400), (-829, 177645359, 248618545, -828, 177522268, 248345559),
  (-831, 177891798, 249165417, -830, 177768537, 248891830), (-834, 178262099, 249987980, -833, 178138581, 249713490),
  (-837, 178633170, 250813259, -836, 178509395, 250537863), (-839, 178880980, 251364958, -838, 178757033, 251088956),
  (-842, 179253339, 252194782, -841, 179129135, 251917869), (-844, 179502010, 252749520, -843, 179377632, 252471998),
  (-847, 179875662, 253583916, -846, 179751026, 253305477), (-849, 180125195, 254141709, -848, 180000386, 253862658),
  (-852, 180500145, 254980700, -851, 180375076, 254700728), (-855, 180875875, 255822462, -854, 180750546, 255541565),
  (-857, 181126796, 256385179, -856, 181001293, 256103665), (-860, 181503831, 257231577, -859, 181378066, 256949133),
  (-862, 181755623, 257797394, -861, 181629684, 257514329), (-865, 182133966, 258648454, -864, 182007765, 258364454),
  (-867, 182386633, 259217387, -866, 182260257, 258932763), (-870, 182766290, 260073135, -869, 182639651, 259787571),
  (-872, 183019833, 260645202, -871, 182893018, 260359010), (-875, 183400808, 261505663, -874, 183273729, 261218527),
  (-878, 183782576, 262368965, -877, 183655233, 262080881), (-880, 184037530, 262946083, -879, 183910010, 262657364),
  (-883, 184420623, 263814140, -882, 184292838, 263524468), (-885, 184676462, 264394436, -884, 184548499, 264104127),
  (-888, 185060885, 265267274, -887, 184932656, 264976007), (-890, 185317612, 265850767, -889, 185189205, 265558859),
  (-893, 185703370, 266728413, -892, 185574696, 266435542), (-895, 185960988, 267315120, -894, 185832135, 267021604),
  (-898, 186348085, 268197600, -897, 186218964, 267903116), (-900, 186606598, 268787538, -899, 186477298, 268492406),
  (-903, 186995039, 269674880, -902, 186865470, 269378773), (-905, 187254449, 270268068, -904, 187124700, 269971310),
  (-908, 187644239, 271160296, -907, 187514220, 270862559), (-910, 187904549, 271756752, -909, 187774350, 271458359),
  (-913, 188295692, 272653895, -912, 188165222, 272354518), (-915, 188556907, 273253636, -914, 188426255, 272953600),
  (-918, 188949408, 274155721, -917, 188818484, 273854694), (-920, 189211529, 274758765, -919, 189080424, 274457076),
  (-923, 189605393, 275665819, -922, 189474015, 275363134), (-925, 189868424, 276272184, -924, 189736864, 275968834),
  (-928, 190263655, 277184235, -927, 190131821, 276879883), (-930, 190527599, 277793940, -929, 190395582, 277488919),
  (-933, 190924202, 278711014, -932, 190791911, 278404986), (-935, 191189063, 279324078, -934, 191056588, 279017377),
  (-937, 191454291, 279938491, -936, 191321632, 279631115), (-940, 191852823, 280862644, -939, 191719888, 280554253),
  (-942, 192118972, 281480441, -941, 191985853, 281171372), (-945, 192518888, 282409685, -944, 192385491, 282099596),
  (-947, 192785961, 283030885, -946, 192652379, 282720113), (-950, 193187265, 283965247, -949, 193053405, 283653450),
  (-952, 193455265, 284589869, -951, 193321220, 284277385), (-955, 193857963, 285529378, -954, 193723638, 285215863),
  (-957, 194126893, 286157440, -956, 193992383, 285843235), (-959, 194396197, 286786883, -958, 194261500, 286471988),
  (-962, 194800853, 287733645, -961, 194665875, 287417710), (-964, 195071092, 288366556, -963, 194935927, 288049926),
  (-967, 195477153, 289318533, -966, 195341706, 289000857), (-969, 195748330, 289954930, -968, 195612695, 289636555),
  (-972, 196155800, 290912150, -971, 196019884, 290592725), (-974, 196427919, 291552052, -973, 196291813, 291231924),
  (-976, 196700414, 292193362, -975, 196564120, 291872530), (-979, 197109867, 293157972, -978, 196973289, 292836081),
  (-981, 197383309, 293802814, -980, 197246541, 293480215), (-984, 197794183, 294772738, -983, 197657131, 294449074),
  (-986, 198068574, 295421132, -985, 197931332, 295096756), (-989, 198480874, 296396398, -988, 198343347, 296070951),
  (-991, 198756218, 297048364, -990, 198618500, 296722201), (-993, 199031944, 297701763, -992, 198894034, 297374883),
  (-996, 199446250, 298684558, -995, 199308053, 298356599), (-998, 199722933, 299341557, -997, 199584544, 299012876)]

def tablePos4 : List Row := [
  (-1000, 200000000, 300000000, -1000, 200000000, 300000000)]

def tablePos : List Row := tablePos0 ++ tablePos1 ++ tablePos2 ++ tablePos3 ++ tablePos4


set_option maxRecDepth 100000 in
theorem tableNeg_ok : tableOk numNeg denNeg (-320) tableNeg = true := by decide +kernel

set_option maxRecDepth 100000 in
theorem tablePos_ok : tableOk numPos denPos 0 tablePos = true := by decide +kernel

theorem approxNeg_accuracy {t : ℝ} (h0 : -0.8 ≤ t) (h1 : t ≤ 0) {k : ℝ} (hk : SameSide (approxNeg t) k) :
    |skew k - t| ≤ 1 / 200 := by
  have e0 : (((-320 : ℤ) : ℝ) / 400) = -0.8 := by norm_num
  have e1 : (((-320 + (320 : ℕ) : ℤ) : ℝ) / 400) = 0 := by norm_num
  refine grid_accuracy (num := numNeg) (den := denNeg) (i0 := -320) (n := 320) (rows := tableNeg) (by norm_num)
    (by decide +kernel) tableNeg_ok ?_ ?_ ?_ hk
  · intro q hq0 hq1
    obtain ⟨s, rfl⟩ : ∃ s, q = -s := ⟨-q, by ring⟩
    constructor
    · unfold denNeg
      exact denNeg_pos (by norm_num at hq1; linarith) (by norm_num at hq0 ⊢; linarith)
    · unfold approxNeg numNeg denNeg
      push_cast
      rfl
  · rw [e0, e1]; exact approxNeg_anti
  · rw [e0, e1]; exact ⟨h0, h1⟩

theorem approxPos_accuracy {t : ℝ} (h0 : 0 ≤ t) (h1 : t ≤ 1) {k : ℝ} (hk : SameSide (approxPos t) k) :
    |skew k - t| ≤ 1 / 200 := by
  have e0 : (((0 : ℤ) : ℝ) / 400) = 0 := by norm_num
  have e1 : (((0 + (400 : ℕ) : ℤ) : ℝ) / 400) = 1 := by norm_num
  refine grid_accuracy (num := numPos) (den := denPos) (i0 := 0) (n := 400) (rows := tablePos) (by norm_num)
    (by decide +kernel) tablePos_ok ?_ ?_ ?_ hk
  · intro q hq0 hq1
    constructor
    · unfold denPos
      exact denPos_pos (by norm_num at hq1; linarith) (by norm_num at hq0; linarith)
    · unfold approxPos numPos denPos
      push_cast
      rfl
  · rw [e0, e1]; exact approxPos_anti
  · rw [e0, e1]; exact ⟨h0, h1⟩

end Tcrm.Evd
