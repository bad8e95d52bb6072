import Verif.Model.Circular
import Mathlib.Analysis.SpecialFunctions.Complex.Log
import Mathlib.Tactic.Linarith
import Mathlib.Tactic.Ring
import Mathlib.Tactic.FieldSimp
import Mathlib.Tactic.NormNum
/-!
C136: mean and spread of the bearings of a cell.  Bearings are in radians, `high` is 2π and `low` 0, as in the only
callers.
-/
namespace Tcrm.Circular
open Complex

theorem scaled_default (l : List ℝ) : scaled l (2 * Real.pi) 0 = l := by
  unfold scaled
  conv_rhs => rw [← List.map_id l]
  refine List.map_congr_left fun s _ => ?_
  have := Real.pi_ne_zero
  simp only [id]
  field_simp
  ring

theorem exp_eq (a : ℝ) : exp (I * (a : ℂ)) = (Real.cos a : ℂ) + Real.sin a * I := by
  rw [mul_comm, exp_mul_I, ofReal_cos, ofReal_sin]

theorem norm_exp_I (a : ℝ) : ‖exp (I * (a : ℂ))‖ = 1 := by rw [mul_comm]; exact norm_exp_ofReal_mul_I a

theorem norm_sum_le (l : List ℝ) : ‖(l.map fun a : ℝ => exp (I * (a : ℂ))).sum‖ ≤ l.length := by
  induction l with
  | nil => simp
  | cons a l ih =>
    rw [List.map_cons, List.sum_cons, List.length_cons]
    refine (norm_add_le _ _).trans ?_
    rw [norm_exp_I]
    push_cast
    linarith

theorem norm_resultant_le (l : List ℝ) : ‖resultant l‖ ≤ 1 := by
  unfold resultant
  rw [norm_div, Complex.norm_natCast]
  by_cases h : l.length = 0
  · simp [h]
  · have : (0 : ℝ) < l.length := by exact_mod_cast Nat.pos_of_ne_zero h
    rw [div_le_one this]
    exact norm_sum_le l

/-- The mean in terms of the argument of the resultant. -/
theorem circmean_eq (l : List ℝ) : circmean l (2 * Real.pi) 0 =
    if arg (resultant l) < 0 then arg (resultant l) + 2 * Real.pi else arg (resultant l) := by
  have := Real.pi_ne_zero
  unfold circmean
  rw [scaled_default]
  simp only
  field_simp
  ring

theorem circstd_eq (l : List ℝ) : circstd l (2 * Real.pi) 0 = Real.sqrt (1 - ‖resultant l‖) := by
  have := Real.pi_ne_zero
  unfold circstd
  rw [scaled_default, sub_zero, show 2 * Real.pi / 2 / Real.pi = 1 by field_simp, one_mul]

theorem exp_circmean (l : List ℝ) : exp (I * (circmean l (2 * Real.pi) 0 : ℝ)) = exp (I * (arg (resultant l) : ℝ)) := by
  rw [circmean_eq]
  split
  · push_cast
    rw [mul_add, exp_add, show I * (2 * (Real.pi : ℂ)) = 2 * Real.pi * I by ring, exp_two_pi_mul_I, mul_one]
  · rfl

/-- The sum of the cosines of the differences to a direction. -/
theorem sum_cos (l : List ℝ) (m : ℝ) (hl : l ≠ []) : (l.map fun a => Real.cos (a - m)).sum =
    l.length * (resultant l * exp (-(I * (m : ℂ)))).re := by
  have h0 : (l.length : ℂ) ≠ 0 := by exact_mod_cast fun h => hl (List.length_eq_zero_iff.1 h)
  have h1 : ∀ l : List ℝ, ((l.map fun a => Real.cos (a - m)).sum : ℝ) =
      ((l.map fun a : ℝ => exp (I * (a : ℂ))).sum * exp (-(I * (m : ℂ)))).re := by
    intro l
    induction l with
    | nil => simp
    | cons a l ih =>
      rw [List.map_cons, List.sum_cons, List.map_cons, List.sum_cons, add_mul, add_re, ih, ← exp_add,
        show I * (a : ℂ) + -(I * m) = ((a - m : ℝ) : ℂ) * I by push_cast; ring, exp_ofReal_mul_I_re]
  rw [h1, show (l.map fun a : ℝ => exp (I * (a : ℂ))).sum = (l.length : ℂ) * resultant l by
    unfold resultant; field_simp, mul_assoc]
  rw [show ((l.length : ℂ)) = ((l.length : ℝ) : ℂ) by simp, re_ofReal_mul]

theorem resultant_polar (l : List ℝ) : resultant l = ‖resultant l‖ * exp (I * (circmean l (2 * Real.pi) 0 : ℝ)) := by
  rw [exp_circmean, mul_comm I]
  exact (norm_mul_exp_arg_mul_I _).symm

/-- C136: the mean lies in `[0, 2π)`. -/
theorem C136_range (l : List ℝ) : 0 ≤ circmean l (2 * Real.pi) 0 ∧ circmean l (2 * Real.pi) 0 < 2 * Real.pi := by
  have h1 := neg_pi_lt_arg (resultant l)
  have h2 := arg_le_pi (resultant l)
  have h3 := Real.pi_pos
  rw [circmean_eq]
  split <;> constructor <;> linarith

/-- C136: no direction is closer to the bearings than their mean, where the distance of two directions is `1 - cos` of
the angle between them; and the mean is the only such direction, unless the bearings cancel. -/
theorem C136_closest (l : List ℝ) (hl : l ≠ []) (m : ℝ) :
    (l.map fun a => Real.cos (a - m)).sum ≤ (l.map fun a => Real.cos (a - circmean l (2 * Real.pi) 0)).sum ∧
    ((l.map fun a => Real.cos (a - circmean l (2 * Real.pi) 0)).sum ≠ 0 → 0 ≤ m → m < 2 * Real.pi →
      (l.map fun a => Real.cos (a - m)).sum = (l.map fun a => Real.cos (a - circmean l (2 * Real.pi) 0)).sum →
      m = circmean l (2 * Real.pi) 0) := by
  have key : ∀ m : ℝ, (l.map fun a => Real.cos (a - m)).sum =
      l.length * (‖resultant l‖ * Real.cos (circmean l (2 * Real.pi) 0 - m)) := by
    intro m
    rw [sum_cos l m hl]
    congr 1
    conv_lhs => rw [resultant_polar l]
    rw [mul_assoc, ← exp_add, re_ofReal_mul, show I * ((circmean l (2 * Real.pi) 0 : ℝ) : ℂ) + -(I * (m : ℂ)) =
      ((circmean l (2 * Real.pi) 0 - m : ℝ) : ℂ) * I by push_cast; ring, exp_ofReal_mul_I_re]
  have hn : (0 : ℝ) < l.length := by exact_mod_cast List.length_pos_of_ne_nil hl
  have hR : 0 ≤ ‖resultant l‖ := norm_nonneg _
  constructor
  · rw [key, key, sub_self, Real.cos_zero]
    have := Real.cos_le_one (circmean l (2 * Real.pi) 0 - m)
    gcongr
  · intro h0 hm0 hm1 h
    rw [key, sub_self, Real.cos_zero] at h0
    have hR' : ‖resultant l‖ ≠ 0 := by intro hz; rw [hz] at h0; simp at h0
    rw [key, key, sub_self, Real.cos_zero] at h
    have h' : Real.cos (circmean l (2 * Real.pi) 0 - m) = 1 := mul_left_cancel₀ hR' (mul_left_cancel₀ hn.ne' h)
    obtain ⟨r0, r1⟩ := C136_range l
    rw [Real.cos_eq_one_iff_of_lt_of_lt (by linarith) (by linarith)] at h'
    linarith

/-- C136: whole turns make no difference (355° is −5°), and neither does the order of the observations. -/
theorem C136_turns (l l' : List ℝ) (h : List.Forall₂ (fun a b => ∃ k : ℤ, b = a + k * (2 * Real.pi)) l l') :
    circmean l' (2 * Real.pi) 0 = circmean l (2 * Real.pi) 0 ∧ circstd l' (2 * Real.pi) 0 = circstd l (2 * Real.pi) 0 := by
  have hr : resultant l' = resultant l := by
    unfold resultant
    rw [h.length_eq]
    congr 2
    induction h with
    | nil => rfl
    | cons h _ ih =>
      obtain ⟨k, rfl⟩ := h
      rw [List.map_cons, List.map_cons, ih]
      congr 1
      push_cast
      rw [mul_add, exp_add, show I * ((k : ℂ) * (2 * (Real.pi : ℂ))) = k * (2 * Real.pi * I) by ring,
        exp_int_mul_two_pi_mul_I, mul_one]
  rw [circmean_eq, circmean_eq, circstd_eq, circstd_eq, hr]
  exact ⟨rfl, rfl⟩

theorem C136_order (l l' : List ℝ) (h : l.Perm l') :
    circmean l' (2 * Real.pi) 0 = circmean l (2 * Real.pi) 0 ∧ circstd l' (2 * Real.pi) 0 = circstd l (2 * Real.pi) 0 := by
  have hr : resultant l' = resultant l := by
    unfold resultant
    rw [h.length_eq, (h.map _).sum_eq]
  rw [circmean_eq, circmean_eq, circstd_eq, circstd_eq, hr]
  exact ⟨rfl, rfl⟩

/-- C136: turning all bearings turns the mean, and leaves the spread. -/
theorem C136_rotation (l : List ℝ) (c : ℝ) (h : resultant l ≠ 0) :
    (∃ k : ℤ, circmean (l.map (· + c)) (2 * Real.pi) 0 = circmean l (2 * Real.pi) 0 + c + k * (2 * Real.pi)) ∧
    circstd (l.map (· + c)) (2 * Real.pi) 0 = circstd l (2 * Real.pi) 0 := by
  have hr : resultant (l.map (· + c)) = resultant l * exp (I * (c : ℂ)) := by
    unfold resultant
    rw [List.length_map, List.map_map, div_mul_eq_mul_div, ← List.sum_map_mul_right]
    congr 2
    refine List.map_congr_left fun a _ => ?_
    simp only [Function.comp_apply]
    push_cast
    rw [mul_add, exp_add]
  constructor
  · have h1 := resultant_polar (l.map (· + c))
    rw [hr, norm_mul, norm_exp_I, mul_one] at h1
    conv_lhs at h1 => rw [resultant_polar l]
    have hn : ((‖resultant l‖ : ℝ) : ℂ) ≠ 0 := by exact_mod_cast norm_ne_zero_iff.2 h
    rw [mul_assoc, ← exp_add] at h1
    have h2 := mul_left_cancel₀ hn h1
    rw [exp_eq_exp_iff_exists_int] at h2
    obtain ⟨n, hn⟩ := h2
    refine ⟨-n, ?_⟩
    have h3 : ((circmean l (2 * Real.pi) 0 + c : ℝ) : ℂ) * I =
        ((circmean (l.map (· + c)) (2 * Real.pi) 0 + n * (2 * Real.pi) : ℝ) : ℂ) * I := by
      push_cast
      linear_combination hn
    have h4 := mul_right_cancel₀ I_ne_zero h3
    have h5 : circmean l (2 * Real.pi) 0 + c = circmean (l.map (· + c)) (2 * Real.pi) 0 + n * (2 * Real.pi) := by
      exact_mod_cast h4
    push_cast
    linarith
  · rw [circstd_eq, circstd_eq, hr, norm_mul, norm_exp_I, mul_one]

/-- C136: the spread is between 0 and 1, and 0 exactly when all bearings agree up to whole turns. -/
theorem C136_spread (l : List ℝ) (hl : l ≠ []) :
    0 ≤ circstd l (2 * Real.pi) 0 ∧ circstd l (2 * Real.pi) 0 ≤ 1 ∧
    (circstd l (2 * Real.pi) 0 = 0 ↔ ∀ a ∈ l, ∃ k : ℤ, a = circmean l (2 * Real.pi) 0 + k * (2 * Real.pi)) := by
  have h1 := norm_resultant_le l
  have h2 := norm_nonneg (resultant l)
  rw [circstd_eq]
  refine ⟨Real.sqrt_nonneg _, Real.sqrt_le_one.2 (by linarith), ?_⟩
  rw [Real.sqrt_eq_zero (by linarith)]
  have hn : (0 : ℝ) < l.length := by exact_mod_cast List.length_pos_of_ne_nil hl
  have key : (l.map fun a => Real.cos (a - circmean l (2 * Real.pi) 0)).sum = l.length * ‖resultant l‖ := by
    rw [sum_cos l _ hl]
    congr 1
    conv_lhs => rw [resultant_polar l]
    rw [mul_assoc, ← exp_add, re_ofReal_mul, add_neg_cancel, exp_zero, one_re, mul_one]
  have hcos : (l.map fun a => Real.cos (a - circmean l (2 * Real.pi) 0)).sum = l.length ↔
      ∀ a ∈ l, Real.cos (a - circmean l (2 * Real.pi) 0) = 1 := by
    generalize circmean l (2 * Real.pi) 0 = m
    have hle : ∀ l : List ℝ, (l.map fun a => Real.cos (a - m)).sum ≤ l.length := by
      intro l
      induction l with
      | nil => simp
      | cons a l ih =>
        rw [List.map_cons, List.sum_cons, List.length_cons]
        push_cast
        have := Real.cos_le_one (a - m)
        linarith
    clear key hn h1 h2 hl
    induction l with
    | nil => simp
    | cons a l ih =>
      rw [List.map_cons, List.sum_cons, List.length_cons, List.forall_mem_cons]
      push_cast
      have := Real.cos_le_one (a - m)
      have := hle l
      constructor
      · intro h; exact ⟨by linarith, ih.1 (by linarith)⟩
      · rintro ⟨h, h'⟩; have := ih.2 h'; linarith
  constructor
  · intro h a ha
    have hR : ‖resultant l‖ = 1 := by linarith
    rw [hR, mul_one] at key
    obtain ⟨k, hk⟩ := (Real.cos_eq_one_iff _).1 (hcos.1 key a ha)
    exact ⟨k, by linarith⟩
  · intro h
    have h3 := hcos.2 (fun a ha => by
      obtain ⟨k, hk⟩ := h a ha
      rw [Real.cos_eq_one_iff]
      exact ⟨k, by rw [hk]; ring⟩)
    rw [key] at h3
    have : ‖resultant l‖ = 1 := by
      have := mul_left_cancel₀ hn.ne' (h3.trans (mul_one _).symm)
      exact this
    linarith

/-- Bearings 355° and 15° in radians, one of them given as −5°: the mean is 5°, where the plain mean would be 185°. -/
example : circmean [-(Real.pi / 36), Real.pi / 12] (2 * Real.pi) 0 = Real.pi / 36 := by
  have hp := Real.pi_pos
  have h := (C136_closest [-(Real.pi / 36), Real.pi / 12] (by simp) (Real.pi / 36))
  refine (h.2 ?_ (by linarith) (by linarith) ?_).symm
  · have h1 := h.1
    have : 0 < Real.cos (-(Real.pi / 36) - Real.pi / 36) := Real.cos_pos_of_mem_Ioo ⟨by linarith, by linarith⟩
    have : 0 < Real.cos (Real.pi / 12 - Real.pi / 36) := Real.cos_pos_of_mem_Ioo ⟨by linarith, by linarith⟩
    simp only [List.map_cons, List.map_nil, List.sum_cons, List.sum_nil] at h1 ⊢
    intro h0
    rw [h0] at h1
    linarith
  · refine le_antisymm h.1 ?_
    simp only [List.map_cons, List.map_nil, List.sum_cons, List.sum_nil, add_zero]
    generalize circmean [-(Real.pi / 36), Real.pi / 12] (2 * Real.pi) 0 = m
    rw [Real.cos_add_cos, Real.cos_add_cos]
    have e : (-(Real.pi / 36) - Real.pi / 36 - (Real.pi / 12 - Real.pi / 36)) / 2 =
        (-(Real.pi / 36) - m - (Real.pi / 12 - m)) / 2 := by ring
    have e2 : (-(Real.pi / 36) - Real.pi / 36 + (Real.pi / 12 - Real.pi / 36)) / 2 = 0 := by ring
    rw [← e, e2, Real.cos_zero, mul_one]
    have : 0 < Real.cos ((-(Real.pi / 36) - Real.pi / 36 - (Real.pi / 12 - Real.pi / 36)) / 2) :=
      Real.cos_pos_of_mem_Ioo ⟨by linarith, by linarith⟩
    have := Real.cos_le_one ((-(Real.pi / 36) - m + (Real.pi / 12 - m)) / 2)
    nlinarith

/-- C136 for other units, such as degrees: the mean of values in a period `[low, high)` is in it, and it is the mean of
the corresponding angles, brought back to the period. -/
theorem C136_units (l : List ℝ) (high low : ℝ) (h : low < high) :
    (low ≤ circmean l high low ∧ circmean l high low < high) ∧
    (circmean l high low - low) * (2 * Real.pi) / (high - low) =
      circmean (l.map fun s => (s - low) * (2 * Real.pi) / (high - low)) (2 * Real.pi) 0 := by
  have hd : 0 < high - low := by linarith
  have hp := Real.pi_pos
  have e : scaled l high low = l.map fun s => (s - low) * (2 * Real.pi) / (high - low) := by
    unfold scaled
    exact List.map_congr_left fun s _ => by ring
  have key : (circmean l high low - low) * (2 * Real.pi) / (high - low) =
      circmean (l.map fun s => (s - low) * (2 * Real.pi) / (high - low)) (2 * Real.pi) 0 := by
    rw [circmean_eq, ← e]
    unfold circmean
    simp only
    split <;> field_simp <;> ring
  refine ⟨?_, key⟩
  have r := C136_range (l.map fun s => (s - low) * (2 * Real.pi) / (high - low))
  rw [← key] at r
  have e2 : circmean l high low = low + (circmean l high low - low) * (2 * Real.pi) / (high - low) *
      ((high - low) / (2 * Real.pi)) := by field_simp; ring
  have hq : 0 < (high - low) / (2 * Real.pi) := by positivity
  constructor
  · rw [e2]
    have := mul_nonneg r.1 hq.le
    linarith
  · rw [e2]
    have := mul_lt_mul_of_pos_right r.2 hq
    have e3 : 2 * Real.pi * ((high - low) / (2 * Real.pi)) = high - low := by field_simp
    linarith

/-- C136: the variance is the square of the deviation; both are those of the angles on the unit circle, scaled to the
range; the variance of one direction is zero, and it is largest when the directions cancel. -/
theorem C136_variance (l : List ℝ) (hl : l ≠ []) (high low : ℝ) (h : low < high) :
    circvar l high low = circstd l high low ^ 2 ∧ 0 ≤ circvar l high low ∧
    circvar l high low ≤ ((high - low) / (2 * Real.pi)) ^ 2 ∧
    circvar l (2 * Real.pi) 0 = circstd l (2 * Real.pi) 0 ^ 2 ∧
    (∀ a, (∀ x ∈ l, x = a) → circvar l high low = 0) ∧
    ((l.map fun x => Real.cos ((x - low) * 2 * Real.pi / (high - low))).sum = 0 →
      (l.map fun x => Real.sin ((x - low) * 2 * Real.pi / (high - low))).sum = 0 →
      circvar l high low = ((high - low) / (2 * Real.pi)) ^ 2) := by
  have hp := Real.pi_pos
  have n (k : List ℝ) : 0 ≤ 1 - ‖resultant k‖ := by linarith [norm_resultant_le k]
  have hd : (high - low) / 2 / Real.pi = (high - low) / (2 * Real.pi) := by rw [div_div]
  have sq (hi lo : ℝ) : circvar l hi lo = circstd l hi lo ^ 2 := by
    unfold circvar circstd
    rw [mul_pow, Real.sq_sqrt (n _)]
  have rs (k : List ℝ) : (k.map fun a : ℝ => exp (I * (a : ℂ))).sum =
      ((k.map Real.cos).sum : ℝ) + ((k.map Real.sin).sum : ℝ) * I := by
    induction k with
    | nil => simp
    | cons a k ih =>
      rw [List.map_cons, List.sum_cons, ih, exp_eq]
      simp only [List.map_cons, List.sum_cons, ofReal_add]
      ring
  refine ⟨sq _ _, ?_, ?_, sq _ _, ?_, ?_⟩
  · rw [sq]; positivity
  · unfold circvar
    rw [hd]
    have := norm_nonneg (resultant (scaled l high low))
    exact mul_le_of_le_one_right (by positivity) (by linarith)
  · intro a ha
    have hk : scaled l high low = List.replicate l.length ((a - low) * 2 * Real.pi / (high - low)) := by
      unfold scaled
      rw [List.eq_replicate_iff]
      refine ⟨by simp, fun b hb => ?_⟩
      obtain ⟨x, hx, rfl⟩ := List.mem_map.1 hb
      rw [ha x hx]
    have h0 : (l.length : ℂ) ≠ 0 := by exact_mod_cast fun h => hl (List.length_eq_zero_iff.1 h)
    unfold circvar
    rw [hk]
    unfold resultant
    rw [List.map_replicate, List.sum_replicate, List.length_replicate, nsmul_eq_mul, mul_div_assoc, mul_div_cancel₀ _ h0,
      norm_exp_I]
    simp
  · intro hc hs
    have : resultant (scaled l high low) = 0 := by
      unfold resultant
      rw [rs]
      unfold scaled
      rw [List.map_map, List.map_map]
      simp only [Function.comp_def]
      rw [hc, hs]
      simp
    unfold circvar
    rw [this, norm_zero, sub_zero, mul_one, hd]

/-- Two opposite directions: the variance is the largest there is. -/
example : circvar [0, Real.pi] (2 * Real.pi) 0 = 1 := by
  have hp := Real.pi_ne_zero
  have e : (Real.pi - 0) * 2 * Real.pi / (2 * Real.pi - 0) = Real.pi := by field_simp; ring
  rw [(C136_variance [0, Real.pi] (by simp) (2 * Real.pi) 0 (by linarith [Real.pi_pos])).2.2.2.2.2
    (by simp only [List.map_cons, List.map_nil, List.sum_cons, List.sum_nil]; rw [e]; simp)
    (by simp only [List.map_cons, List.map_nil, List.sum_cons, List.sum_nil]; rw [e]; simp)]
  rw [sub_zero, div_self (by positivity), one_pow]

end Tcrm.Circular
