import Verif.Lemmas.GevSkew
import Mathlib.Analysis.SpecialFunctions.Pow.Deriv
import Mathlib.Analysis.SpecialFunctions.Log.Deriv
import Mathlib.Analysis.Calculus.Deriv.MeanValue
import Mathlib.Analysis.Complex.ExponentialBounds
/-!
The Newton-Raphson iterations for the shape at L-skewness below -0.8.
-/
namespace Tcrm.Evd

open Set

/-- The ratio of which L-skewness is an affine function. -/
noncomputable def ratio (G : ℝ) : ℝ := (1 - (3 : ℝ) ^ (-G)) / (1 - (2 : ℝ) ^ (-G))

/-- Minus its derivative. -/
noncomputable def slope (G : ℝ) : ℝ :=
  ((1 - (3 : ℝ) ^ (-G)) * (2 : ℝ) ^ (-G) * Real.log 2 - (1 - (2 : ℝ) ^ (-G)) * (3 : ℝ) ^ (-G) * Real.log 3) /
    (1 - (2 : ℝ) ^ (-G)) ^ 2

/-- Minus the derivative with printed logarithms. -/
noncomputable def slopeUsed (G : ℝ) : ℝ :=
  ((1 - (3 : ℝ) ^ (-G)) * (2 : ℝ) ^ (-G) * 0.69314718 - (1 - (2 : ℝ) ^ (-G)) * (3 : ℝ) ^ (-G) * 1.0986123) /
    (1 - (2 : ℝ) ^ (-G)) ^ 2

theorem log_three_bounds : (1.0985 : ℝ) < Real.log 3 ∧ Real.log 3 < 1.0987 := by
  have h2 := Real.log_two_gt_d9
  have h2' := Real.log_two_lt_d9
  constructor
  · have h : Real.log ((2 : ℝ) ^ 84) ≤ Real.log ((3 : ℝ) ^ 53) := Real.log_le_log (by norm_num) (by norm_num)
    rw [Real.log_pow, Real.log_pow] at h
    push_cast at h
    linarith
  · have h : Real.log ((3 : ℝ) ^ 147) ≤ Real.log ((2 : ℝ) ^ 233) := Real.log_le_log (by norm_num) (by norm_num)
    rw [Real.log_pow, Real.log_pow] at h
    push_cast at h
    linarith

theorem three_split (G : ℝ) : (3 : ℝ) ^ (-G) = (2 : ℝ) ^ (-G) * (2 / 3 : ℝ) ^ G := by
  rw [Real.div_rpow (by norm_num) (by norm_num), Real.rpow_neg (by norm_num), Real.rpow_neg (by norm_num)]
  have := Real.rpow_pos_of_pos (show (0 : ℝ) < 2 by norm_num) G
  have := Real.rpow_pos_of_pos (show (0 : ℝ) < 3 by norm_num) G
  field_simp

/-- A power with exponent `m/5`. -/
theorem fifth_le {b c : ℝ} (hb : 0 < b) (hc : 0 ≤ c) {m : ℕ} (h : b ^ m ≤ c ^ 5) : b ^ ((m : ℝ) / 5) ≤ c := by
  have e : (b ^ ((m : ℝ) / 5)) ^ 5 = b ^ m := by
    rw [← Real.rpow_natCast (b ^ ((m : ℝ) / 5)) 5, ← Real.rpow_mul hb.le]
    rw [show (m : ℝ) / 5 * ((5 : ℕ) : ℝ) = m by push_cast; ring, Real.rpow_natCast]
  exact le_of_pow_le_pow_left₀ (n := 5) (by norm_num) hc (by rw [e]; exact h)

theorem le_fifth {b c : ℝ} (hb : 0 < b) {m : ℕ} (h : c ^ 5 ≤ b ^ m) : c ≤ b ^ ((m : ℝ) / 5) := by
  have e : (b ^ ((m : ℝ) / 5)) ^ 5 = b ^ m := by
    rw [← Real.rpow_natCast (b ^ ((m : ℝ) / 5)) 5, ← Real.rpow_mul hb.le]
    rw [show (m : ℝ) / 5 * ((5 : ℕ) : ℝ) = m by push_cast; ring, Real.rpow_natCast]
  exact le_of_pow_le_pow_left₀ (n := 5) (by norm_num) (Real.rpow_nonneg hb.le _) (by rw [e]; exact h)

theorem two_thirds_le {G : ℝ} {m : ℕ} {c : ℝ} (hG : (m : ℝ) / 5 ≤ G) (hc : 0 ≤ c) (h : (2 / 3 : ℝ) ^ m ≤ c ^ 5) :
    (2 / 3 : ℝ) ^ G ≤ c :=
  (Real.rpow_le_rpow_of_exponent_ge (by norm_num) (by norm_num) hG).trans (fifth_le (by norm_num) hc h)

theorem half_ge {G : ℝ} {m : ℕ} {c : ℝ} (hG : G ≤ (m : ℝ) / 5) (h : c ^ 5 ≤ (1 / 2 : ℝ) ^ m) :
    c ≤ (2 : ℝ) ^ (-G) := by
  have e : (2 : ℝ) ^ (-G) = (1 / 2 : ℝ) ^ G := by
    rw [one_div, Real.inv_rpow (by norm_num), Real.rpow_neg (by norm_num)]
  rw [e]
  exact (le_fifth (by norm_num) h).trans (Real.rpow_le_rpow_of_exponent_ge (by norm_num) (by norm_num) hG)

theorem half_le {G : ℝ} {m : ℕ} {c : ℝ} (hG : (m : ℝ) / 5 ≤ G) (hc : 0 ≤ c) (h : (1 / 2 : ℝ) ^ m ≤ c ^ 5) :
    (2 : ℝ) ^ (-G) ≤ c := by
  have e : (2 : ℝ) ^ (-G) = (1 / 2 : ℝ) ^ G := by
    rw [one_div, Real.inv_rpow (by norm_num), Real.rpow_neg (by norm_num)]
  rw [e]
  exact (Real.rpow_le_rpow_of_exponent_ge (by norm_num) (by norm_num) hG).trans (fifth_le (by norm_num) hc h)

/-- The powers that occur, for `G ≥ 2.8`: `a = 2^(-G)`, `r = (2/3)^G`. -/
theorem powers {G : ℝ} (hG : 2.8 ≤ G) :
    0 < (2 : ℝ) ^ (-G) ∧ (2 : ℝ) ^ (-G) ≤ 0.1437 ∧ 0 < (2 / 3 : ℝ) ^ G ∧ (2 / 3 : ℝ) ^ G ≤ 0.3215 ∧
    (2 : ℝ) ^ (-G) ≤ 0.45 * (2 / 3 : ℝ) ^ G ∧
    0 ≤ 0.1131 + 0.58 * (2 : ℝ) ^ (-G) - 0.5187 * (2 / 3 : ℝ) ^ G - 0.1744 * ((2 : ℝ) ^ (-G) * (2 / 3 : ℝ) ^ G) := by
  have ha : 0 < (2 : ℝ) ^ (-G) := Real.rpow_pos_of_pos (by norm_num) _
  have hr : 0 < (2 / 3 : ℝ) ^ G := Real.rpow_pos_of_pos (by norm_num) _
  have ha' : (2 : ℝ) ^ (-G) ≤ 0.1437 := half_le (m := 14) (by norm_num at hG ⊢; linarith) (by norm_num) (by norm_num)
  have hr' : (2 / 3 : ℝ) ^ G ≤ 0.3215 := two_thirds_le (m := 14) (by norm_num at hG ⊢; linarith) (by norm_num) (by norm_num)
  refine ⟨ha, ha', hr, hr', ?_, ?_⟩
  · have e : (2 : ℝ) ^ (-G) = (3 / 4 : ℝ) ^ G * (2 / 3 : ℝ) ^ G := by
      rw [← Real.mul_rpow (by norm_num) (by norm_num), Real.rpow_neg (by norm_num), ← Real.inv_rpow (by norm_num)]
      norm_num
    have h34 : (3 / 4 : ℝ) ^ G ≤ 0.45 :=
      (Real.rpow_le_rpow_of_exponent_ge (by norm_num) (by norm_num) (show ((14 : ℕ) : ℝ) / 5 ≤ G by norm_num at hG ⊢; linarith)).trans
        (fifth_le (by norm_num) (by norm_num) (by norm_num))
    rw [e]
    exact mul_le_mul_of_nonneg_right h34 hr.le
  · rcases le_total G 3.2 with h1 | h1
    · have h2 : 0.1085 ≤ (2 : ℝ) ^ (-G) := half_ge (m := 16) (by norm_num at h1 ⊢; linarith) (by norm_num)
      nlinarith
    · have h3 : (2 / 3 : ℝ) ^ G ≤ 0.2735 := two_thirds_le (m := 16) (by norm_num at h1 ⊢; linarith) (by norm_num) (by norm_num)
      rcases le_total G 4 with h4 | h4
      · have h2 : 0.0625 ≤ (2 : ℝ) ^ (-G) := half_ge (m := 20) (by norm_num at h4 ⊢; linarith) (by norm_num)
        nlinarith
      · have h5 : (2 / 3 : ℝ) ^ G ≤ 0.198 := two_thirds_le (m := 20) (by norm_num at h4 ⊢; linarith) (by norm_num) (by norm_num)
        nlinarith

theorem ratio_sub_one {G : ℝ} (hG : 2.8 ≤ G) :
    ratio G - 1 = (2 : ℝ) ^ (-G) * (1 - (2 / 3 : ℝ) ^ G) / (1 - (2 : ℝ) ^ (-G)) := by
  obtain ⟨ha, ha', -⟩ := powers hG
  unfold ratio
  rw [three_split]
  have : 1 - (2 : ℝ) ^ (-G) ≠ 0 := by norm_num at ha'; linarith
  field_simp
  ring

theorem slope_bounds {G : ℝ} (hG : 2.8 ≤ G) :
    0 < ratio G - 1 ∧ 0.58 * (ratio G - 1) ≤ slope G ∧ slope G ≤ 0.6932 * (ratio G - 1) := by
  obtain ⟨ha, ha', hr, hr', h1, h2⟩ := powers hG
  rw [ratio_sub_one hG]
  unfold slope
  rw [three_split]
  generalize (2 : ℝ) ^ (-G) = a at *
  generalize (2 / 3 : ℝ) ^ G = r at *
  have l2 := Real.log_two_gt_d9
  have l2' := Real.log_two_lt_d9
  obtain ⟨l3, l3'⟩ := log_three_bounds
  have hb : 0 < 1 - a := by norm_num at ha'; linarith
  have hr1 : 0 < 1 - r := by norm_num at hr'; linarith
  have har : 0 < a * r := mul_pos ha hr
  have har1 : 0 < 1 - a * r := by nlinarith
  refine ⟨by positivity, ?_, ?_⟩
  · rw [le_div_iff₀ (by positivity), mul_div_assoc', div_mul_eq_mul_div, div_le_iff₀ hb]
    have key : 0.58 * ((1 - r) * (1 - a)) ≤ (1 - a * r) * Real.log 2 - (1 - a) * r * Real.log 3 := by
      have k1 : (1 - a * r) * 0.6931 ≤ (1 - a * r) * Real.log 2 := by
        apply mul_le_mul_of_nonneg_left _ har1.le; norm_num at l2 ⊢; linarith
      have k2 : (1 - a) * r * Real.log 3 ≤ (1 - a) * r * 1.0987 := by
        apply mul_le_mul_of_nonneg_left l3'.le; positivity
      nlinarith
    have := mul_le_mul_of_nonneg_left key (show 0 ≤ a * (1 - a) by positivity)
    nlinarith
  · rw [div_le_iff₀ (by positivity), mul_div_assoc', div_mul_eq_mul_div, le_div_iff₀ hb]
    have key : (1 - a * r) * Real.log 2 - (1 - a) * r * Real.log 3 ≤ 0.6932 * ((1 - r) * (1 - a)) := by
      have k1 : (1 - a * r) * Real.log 2 ≤ (1 - a * r) * 0.6932 := by
        apply mul_le_mul_of_nonneg_left _ har1.le; norm_num at l2' ⊢; linarith
      have k2 : (1 - a) * r * 1.0985 ≤ (1 - a) * r * Real.log 3 := by
        apply mul_le_mul_of_nonneg_left l3.le; positivity
      nlinarith
    have := mul_le_mul_of_nonneg_left key (show 0 ≤ a * (1 - a) by positivity)
    nlinarith

theorem slopeUsed_near {G : ℝ} (hG : 2.8 ≤ G) :
    0.9995 * slope G ≤ slopeUsed G ∧ slopeUsed G ≤ 1.0005 * slope G := by
  have hs := (slope_bounds hG).2.1
  rw [ratio_sub_one hG] at hs
  obtain ⟨ha, ha', hr, hr', h1, h2⟩ := powers hG
  have hd : |slopeUsed G - slope G| ≤ 0.0005 * (0.58 * ((2 : ℝ) ^ (-G) * (1 - (2 / 3 : ℝ) ^ G) / (1 - (2 : ℝ) ^ (-G)))) := by
    unfold slope slopeUsed
    rw [three_split]
    generalize (2 : ℝ) ^ (-G) = a at *
    generalize (2 / 3 : ℝ) ^ G = r at *
    have l2 := Real.log_two_gt_d9
    have l2' := Real.log_two_lt_d9
    obtain ⟨l3, l3'⟩ := log_three_bounds
    have hb : 0 < 1 - a := by norm_num at ha'; linarith
    have hr1 : 0 < 1 - r := by norm_num at hr'; linarith
    have har : 0 < a * r := mul_pos ha hr
    have har1 : 0 < 1 - a * r := by nlinarith
    rw [← sub_div, abs_div, abs_of_pos (show 0 < (1 - a) ^ 2 by positivity), div_le_iff₀ (by positivity)]
    have e : 0.0005 * (0.58 * (a * (1 - r) / (1 - a))) * (1 - a) ^ 2 = 0.00029 * (a * ((1 - r) * (1 - a))) := by
      field_simp; ring
    rw [e]
    have e2 : (1 - a * r) * a * 0.69314718 - (1 - a) * (a * r) * 1.0986123 -
        ((1 - a * r) * a * Real.log 2 - (1 - a) * (a * r) * Real.log 3) =
        a * ((1 - a * r) * (0.69314718 - Real.log 2) - (1 - a) * r * (1.0986123 - Real.log 3)) := by ring
    rw [e2, abs_mul, abs_of_pos ha, mul_left_comm]
    apply mul_le_mul_of_nonneg_left _ ha.le
    have b1 : |(1 - a * r) * (0.69314718 - Real.log 2)| ≤ 0.000001 := by
      rw [abs_mul, abs_of_pos har1]
      have : |0.69314718 - Real.log 2| ≤ 0.000001 := by
        rw [abs_le]; norm_num at l2 l2' ⊢; constructor <;> linarith
      nlinarith [abs_nonneg (0.69314718 - Real.log 2)]
    have b2 : |(1 - a) * r * (1.0986123 - Real.log 3)| ≤ (1 - a) * r * 0.00012 := by
      rw [abs_mul, abs_of_pos (show 0 < (1 - a) * r by positivity)]
      apply mul_le_mul_of_nonneg_left _ (by positivity)
      rw [abs_le]; norm_num at l3 l3' ⊢; constructor <;> linarith
    have b3 := abs_sub ((1 - a * r) * (0.69314718 - Real.log 2)) ((1 - a) * r * (1.0986123 - Real.log 3))
    nlinarith
  have hs' := mul_le_mul_of_nonneg_left hs (show (0 : ℝ) ≤ 0.0005 by norm_num)
  have := abs_le.1 (hd.trans hs')
  constructor <;> linarith [this.1, this.2]

theorem ratio_hasDeriv {G : ℝ} (hG : 2.8 ≤ G) : HasDerivAt ratio (-slope G) G := by
  obtain ⟨ha, ha', -⟩ := powers hG
  have hb : 1 - (2 : ℝ) ^ (-G) ≠ 0 := by norm_num at ha'; linarith
  have d : ∀ b : ℝ, 0 < b → HasDerivAt (fun G : ℝ => 1 - b ^ (-G)) (b ^ (-G) * Real.log b) G := by
    intro b hb
    have := ((hasDerivAt_neg G).const_rpow hb).const_sub 1
    exact this.congr_deriv (by ring)
  have := (d 3 (by norm_num)).div (d 2 (by norm_num)) hb
  refine this.congr_deriv ?_
  unfold slope
  ring

/-- The excess over one falls, but not faster than with exponent 0.6932. -/
theorem ratio_decay {a b : ℝ} (ha : 2.8 ≤ a) (hab : a ≤ b) :
    ratio b ≤ ratio a ∧ ratio a - 1 ≤ (ratio b - 1) * Real.exp (0.6932 * (b - a)) := by
  constructor
  · have : AntitoneOn ratio (Ici 2.8) := by
      refine antitoneOn_of_deriv_nonpos (convex_Ici _) ?_ ?_ ?_
      · exact fun x hx => (ratio_hasDeriv hx).continuousAt.continuousWithinAt
      · intro x hx
        rw [interior_Ici] at hx
        exact (ratio_hasDeriv hx.le).differentiableAt.differentiableWithinAt
      · intro x hx
        rw [interior_Ici] at hx
        rw [(ratio_hasDeriv hx.le).deriv]
        have := slope_bounds hx.le
        linarith [this.1, this.2.1]
    exact this ha (ha.trans hab) hab
  · have : MonotoneOn (fun x => (ratio x - 1) * Real.exp (0.6932 * x)) (Ici 2.8) := by
      have hd : ∀ x : ℝ, 2.8 ≤ x → HasDerivAt (fun x => (ratio x - 1) * Real.exp (0.6932 * x))
          (-slope x * Real.exp (0.6932 * x) + (ratio x - 1) * (Real.exp (0.6932 * x) * 0.6932)) x := by
        intro x hx
        have h2 : HasDerivAt (fun x : ℝ => 0.6932 * x) 0.6932 x := by
          simpa using (hasDerivAt_id' x).const_mul (0.6932 : ℝ)
        exact ((ratio_hasDeriv hx).sub_const 1).mul h2.exp
      refine monotoneOn_of_deriv_nonneg (convex_Ici _) ?_ ?_ ?_
      · exact fun x hx => (hd x hx).continuousAt.continuousWithinAt
      · intro x hx
        rw [interior_Ici] at hx
        exact (hd x hx.le).differentiableAt.differentiableWithinAt
      · intro x hx
        rw [interior_Ici] at hx
        rw [(hd x hx.le).deriv]
        have := (slope_bounds hx.le).2.2
        have he := Real.exp_pos (0.6932 * x)
        have := mul_le_mul_of_nonneg_right this he.le
        linarith
    have := this ha (ha.trans hab) hab
    simp only at this
    rw [mul_sub, Real.exp_sub, mul_div_assoc', le_div_iff₀ (Real.exp_pos _)]
    exact this

theorem ratio_mean {a b : ℝ} (ha : 2.8 ≤ a) (hb : 2.8 ≤ b) :
    ∃ x, min a b ≤ x ∧ x ≤ max a b ∧ ratio b - ratio a = -slope x * (b - a) := by
  rcases lt_trichotomy a b with h | h | h
  · obtain ⟨x, hx, e⟩ := exists_hasDerivAt_eq_slope ratio (fun x => -slope x) h
      (fun x hx => (ratio_hasDeriv (ha.trans hx.1)).continuousAt.continuousWithinAt)
      (fun x hx => ratio_hasDeriv (ha.trans hx.1.le))
    refine ⟨x, by rw [min_eq_left h.le]; exact hx.1.le, by rw [max_eq_right h.le]; exact hx.2.le, ?_⟩
    rw [e]
    have : b - a ≠ 0 := by linarith
    field_simp
  · subst h
    exact ⟨a, by simp, by simp, by simp⟩
  · obtain ⟨x, hx, e⟩ := exists_hasDerivAt_eq_slope ratio (fun x => -slope x) h
      (fun x hx => (ratio_hasDeriv (hb.trans hx.1)).continuousAt.continuousWithinAt)
      (fun x hx => ratio_hasDeriv (hb.trans hx.1.le))
    refine ⟨x, by rw [min_eq_right h.le]; exact hx.1.le, by rw [max_eq_left h.le]; exact hx.2.le, ?_⟩
    rw [e]
    have : a - b ≠ 0 := by linarith
    field_simp
    ring

theorem exp_step {y : ℝ} (h1 : y ≤ 0.28) : Real.exp (0.6932 * y) ≤ 1.2409 := by
  have h2 : Real.exp (0.6932 * y) ≤ Real.exp 0.1941 := Real.exp_le_exp.2 (by linarith)
  have h3 : 1 - 0.1941 ≤ Real.exp (-0.1941 : ℝ) := by
    have := Real.add_one_le_exp (-0.1941 : ℝ); linarith
  have h4 : Real.exp (0.1941 : ℝ) * Real.exp (-0.1941 : ℝ) = 1 := by rw [← Real.exp_add]; norm_num
  have h5 := Real.exp_pos (0.1941 : ℝ)
  have h6 := mul_le_mul_of_nonneg_left h3 h5.le
  linarith

/-- The excess over one at the points passed by a step. -/
theorem excess_near {G st y : ℝ} (h28 : 2.8 ≤ G) (hG' : 2.8 ≤ G + st) (hs : |st| ≤ 0.28)
    (y1 : min G (G + st) ≤ y) (y2 : y ≤ max G (G + st)) :
    ratio G - 1 ≤ 1.2409 * (ratio y - 1) ∧ ratio y - 1 ≤ 1.2409 * (ratio G - 1) := by
  have hab := abs_le.1 hs
  have hy28 : 2.8 ≤ y := (le_min h28 hG').trans y1
  have uy := (slope_bounds hy28).1
  have uG := (slope_bounds h28).1
  rcases le_total G y with h | h
  · obtain ⟨d1, d2⟩ := ratio_decay h28 h
    have hle : y - G ≤ 0.28 := by
      rcases max_choice G (G + st) with m | m <;> rw [m] at y2 <;> linarith [hab.2]
    have := mul_le_mul_of_nonneg_left (exp_step hle) uy.le
    constructor <;> linarith
  · obtain ⟨d1, d2⟩ := ratio_decay hy28 h
    have hle : G - y ≤ 0.28 := by
      rcases min_choice G (G + st) with m | m <;> rw [m] at y1 <;> linarith [hab.1]
    have := mul_le_mul_of_nonneg_left (exp_step hle) uG.le
    constructor <;> linarith

/-- One iteration halves the error, and the relative error becomes at most 0.6 of what it was. -/
theorem newton_step {T0 G : ℝ} (hQ : |ratio G - T0| ≤ 0.162 * (ratio G - 1))
    (hG : 2.8 * (ratio G - 1) ≤ G * (ratio G - 1) - 4.5 * |ratio G - T0|) (h28 : 2.8 ≤ G) :
    ∃ G', G' = G + (ratio G - T0) / slopeUsed G ∧ 2.8 ≤ G' ∧ G' ≤ G + 0.28 ∧
      |ratio G' - T0| ≤ 0.485 * |ratio G - T0| ∧ |ratio G' - T0| ≤ 0.162 * (ratio G' - 1) ∧
      2.8 * (ratio G' - 1) ≤ G' * (ratio G' - 1) - 4.5 * |ratio G' - T0| := by
  obtain ⟨hu, s1, s2⟩ := slope_bounds h28
  obtain ⟨k1, k2⟩ := slopeUsed_near h28
  have hD : 0 < slopeUsed G := by nlinarith
  refine ⟨_, rfl, ?_⟩
  set E := ratio G - T0 with hE
  set u := ratio G - 1 with hu'
  have hDl : 0.5797 * u ≤ slopeUsed G := by nlinarith
  -- the step
  have hst : |E / slopeUsed G| ≤ |E| / (0.5797 * u) := by
    rw [abs_div, abs_of_pos hD]
    exact div_le_div_of_nonneg_left (abs_nonneg _) (by positivity) hDl
  have hst1 : |E| / (0.5797 * u) ≤ 0.28 := by
    rw [div_le_iff₀ (by positivity)]; nlinarith
  have hst2 : |E| / (0.5797 * u) = |E| / u / 0.5797 := by field_simp
  set q := |E| / u with hq
  have hq0 : 0 ≤ q := by positivity
  have hqE : |E| = q * u := by rw [hq]; field_simp
  have hG2 : 2.8 + 4.5 * q ≤ G := by
    rw [hqE] at hG
    have : (2.8 + 4.5 * q) * u ≤ G * u := by linarith
    exact le_of_mul_le_mul_right this hu
  set st := E / slopeUsed G with hst'
  have hsq : |st| ≤ 1.7251 * q := by
    refine hst.trans ?_
    rw [hst2, div_le_iff₀ (by norm_num)]
    nlinarith
  have hs28 : |st| ≤ 0.28 := hst.trans hst1
  have hG' : 2.8 ≤ G + st := by have := (abs_le.1 hsq).1; linarith
  have hES : E = st * slopeUsed G := by rw [hst']; field_simp
  obtain ⟨x, x1, x2, e⟩ := ratio_mean h28 hG'
  have hx28 : 2.8 ≤ x := (le_min h28 hG').trans x1
  obtain ⟨ux, t1, t2⟩ := slope_bounds hx28
  have hab := abs_le.1 hs28
  obtain ⟨n1, n2⟩ := excess_near h28 hG' hs28 x1 x2
  obtain ⟨m1, m2⟩ := excess_near h28 hG' hs28 (min_le_right _ _) (le_max_right _ _)
  have hE' : ratio (G + st) - T0 = st * (slopeUsed G - slope x) := by
    have : ratio (G + st) - T0 = E + (ratio (G + st) - ratio G) := by rw [hE]; ring
    rw [this, e, hES]; ring
  have hr : |slopeUsed G - slope x| ≤ 0.485 * slopeUsed G := by
    rw [abs_le]
    constructor <;> linarith
  have hc : |ratio (G + st) - T0| ≤ 0.485 * |E| := by
    rw [hE', hES, abs_mul, abs_mul, abs_of_pos hD]
    have := mul_le_mul_of_nonneg_left hr (abs_nonneg st)
    linarith
  have u' := (slope_bounds hG').1
  have hc2 : |ratio (G + st) - T0| ≤ 0.602 * q * (ratio (G + st) - 1) := by
    rw [hqE] at hc
    have := mul_le_mul_of_nonneg_left m1 hq0
    have := mul_nonneg hq0 u'.le
    linarith
  refine ⟨hG', by linarith [hab.2], hc, ?_, ?_⟩
  · have : q ≤ 0.162 := by rw [hq, div_le_iff₀ hu]; exact hQ
    have := mul_le_mul_of_nonneg_right this u'.le
    have := mul_nonneg hq0 u'.le
    linarith
  · have h1 := (abs_le.1 hsq).1
    have : 2.8 + 4.5 * (0.602 * q) ≤ G + st := by linarith
    have := mul_le_mul_of_nonneg_right this u'.le
    linarith

theorem ratio_mul_le {G : ℝ} (hG : 2.8 ≤ G) : (ratio G - 1) * G ≤ 1 := by
  obtain ⟨ha, ha', hr, hr', -⟩ := powers hG
  rw [ratio_sub_one hG]
  have hb : 1 + G * 1 ≤ (1 + 1 : ℝ) ^ G := one_add_mul_self_le_rpow_one_add (by norm_num) (by linarith)
  have e : (2 : ℝ) ^ (-G) * (1 + 1 : ℝ) ^ G = 1 := by
    rw [show (1 + 1 : ℝ) = 2 by norm_num, ← Real.rpow_add (by norm_num)]; simp
  generalize (2 : ℝ) ^ (-G) = a at *
  generalize (2 / 3 : ℝ) ^ G = r at *
  generalize (1 + 1 : ℝ) ^ G = z at *
  have hb' : 0 < 1 - a := by norm_num at ha'; linarith
  rw [div_mul_eq_mul_div, div_le_one hb']
  have h1 : a * G ≤ 1 - a := by nlinarith
  have h2 : a * (1 - r) * G ≤ a * G := by
    have : 0 ≤ a * G := by nlinarith
    nlinarith
  linarith

/-- The iterations end near the root. -/
theorem newton_near {T0 : ℝ} : ∀ (n : ℕ) {G : ℝ}, 2.8 ≤ G → |ratio G - T0| ≤ 0.162 * (ratio G - 1) →
    2.8 * (ratio G - 1) ≤ G * (ratio G - 1) - 4.5 * |ratio G - T0| →
    2.8 ≤ newton T0 n G ∧ |ratio (newton T0 n G) - T0| ≤ 0.0000004 + 0.485 ^ n * |ratio G - T0|
  | 0, G, h28, _, _ => by
    refine ⟨h28, ?_⟩
    rw [newton]
    linarith
  | n + 1, G, h28, hQ, hG => by
    obtain ⟨G', hG', h28', hle, hc, hQ', hI⟩ := newton_step hQ hG h28
    have hs : newton T0 (n + 1) G = if |G' - G| ≤ 1e-6 * G' then G' else newton T0 n G' := by
      rw [newton]
      have e : G - ((1 - (3 : ℝ) ^ (-G)) / (1 - (2 : ℝ) ^ (-G)) - T0) /
          (((1 - (2 : ℝ) ^ (-G)) * (3 : ℝ) ^ (-G) * 1.0986123 - (1 - (3 : ℝ) ^ (-G)) * (2 : ℝ) ^ (-G) * 0.69314718) /
            ((1 - (2 : ℝ) ^ (-G)) * (1 - (2 : ℝ) ^ (-G)))) = G' := by
        rw [hG']
        unfold ratio slopeUsed
        rw [← sub_eq_zero, show ((1 - (2 : ℝ) ^ (-G)) * (3 : ℝ) ^ (-G) * 1.0986123 - (1 - (3 : ℝ) ^ (-G)) * (2 : ℝ) ^ (-G) * 0.69314718) /
            ((1 - (2 : ℝ) ^ (-G)) * (1 - (2 : ℝ) ^ (-G))) = -(((1 - (3 : ℝ) ^ (-G)) * (2 : ℝ) ^ (-G) * 0.69314718 - (1 - (2 : ℝ) ^ (-G)) * (3 : ℝ) ^ (-G) * 1.0986123) /
            (1 - (2 : ℝ) ^ (-G)) ^ 2) by rw [← neg_div]; ring, div_neg]
        ring
      simp only [e]
    rw [hs]
    split
    · rename_i hstop
      refine ⟨h28', ?_⟩
      obtain ⟨hu, s1, s2⟩ := slope_bounds h28
      obtain ⟨k1, k2⟩ := slopeUsed_near h28
      have hD : 0 < slopeUsed G := by nlinarith
      have hE : |ratio G - T0| = |G' - G| * slopeUsed G := by
        rw [hG', add_sub_cancel_left, abs_div, abs_of_pos hD]; field_simp
      have hm := ratio_mul_le h28
      have hDu : slopeUsed G ≤ 0.6936 * (ratio G - 1) := by nlinarith
      have hsm : |G' - G| ≤ 1e-6 * (1.1 * G) := hstop.trans (by norm_num at *; nlinarith)
      have h1 : |ratio G - T0| ≤ 1e-6 * (1.1 * G) * (0.6936 * (ratio G - 1)) := by
        rw [hE]
        exact mul_le_mul hsm hDu hD.le (by norm_num at *; linarith)
      have h2 : |ratio G - T0| ≤ 0.0000008 := by
        refine h1.trans ?_
        norm_num at *
        nlinarith
      have h3 : 0 ≤ (0.485 : ℝ) ^ (n + 1) * |ratio G - T0| := by positivity
      linarith
    · obtain ⟨a, b⟩ := newton_near n h28' hQ' hI
      refine ⟨a, b.trans ?_⟩
      rw [pow_succ, mul_assoc]
      have := mul_le_mul_of_nonneg_left hc (show (0 : ℝ) ≤ 0.485 ^ n by positivity)
      linarith

end Tcrm.Evd
