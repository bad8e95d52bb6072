import Verif.Lemmas.GevNewton
/-!
Starting values of the Newton-Raphson iterations.
-/
namespace Tcrm.Evd

open Set

theorem denNeg_pos_low {K : Type} [Field K] [LinearOrder K] [IsStrictOrderedRing K] {s : K} (h0 : 0.8 ≤ s) (h1 : s ≤ 0.97) :
    0 < 1 + -s * (2.06189696 + -s * (1.31912239 + -s * 0.25077104)) := by
  have e : 1 + -s * (2.06189696 + -s * (1.31912239 + -s * 0.25077104)) = (207268716 / 15353125) * ((s - 0.8) ^ 0 * (0.97 - s) ^ 3) + (3918909587 / 153531250) * ((s - 0.8) ^ 1 * (0.97 - s) ^ 2) + (362807019723 / 24565000000) * ((s - 0.8) ^ 2 * (0.97 - s) ^ 1) + (306256204027 / 122825000000) * ((s - 0.8) ^ 3 * (0.97 - s) ^ 0) := by ring
  rw [e]
  have a0 : 0 ≤ s - 0.8 := by linarith
  have a1 : 0 ≤ 0.97 - s := by linarith
  rcases le_total s 0.9 with h | h
  · have : 0 < 0.97 - s := by norm_num at *; linarith
    positivity
  · have : 0 < s - 0.8 := by norm_num at *; linarith
    positivity

theorem approxNeg_anti_low : AntitoneOn approxNeg (Icc (-0.97) (-0.8)) := by
  intro a ha b hb hab
  obtain ⟨ha0, ha1⟩ := ha
  obtain ⟨hb0, hb1⟩ := hb
  unfold approxNeg
  obtain ⟨x, rfl⟩ : ∃ x, b = -x := ⟨-b, by ring⟩
  obtain ⟨y, rfl⟩ : ∃ y, a = -y := ⟨-a, by ring⟩
  have x0 : 0 ≤ x - 0.8 := by linarith
  have x1 : 0 ≤ 0.97 - x := by linarith
  have y0 : 0 ≤ y - 0.8 := by linarith
  have y1 : 0 ≤ 0.97 - y := by linarith
  rw [div_le_div_iff₀ (denNeg_pos_low (by linarith) (by linarith)) (denNeg_pos_low (by linarith) (by linarith))]
  have hQ : 0 ≤ ((3507967614049 / 1953125000000) * x ^ 0 * y ^ 0 + (-2881616491958967 / 1000000000000000) * x ^ 0 * y ^ 1 + (75357392944207 / 62500000000000) * x ^ 0 * y ^ 2 + (-3569011 / 50000000) * x ^ 0 * y ^ 3 + (-2881616491958967 / 1000000000000000) * x ^ 1 * y ^ 0 + (47780659967428703 / 10000000000000000) * x ^ 1 * y ^ 1 + (-263380298391243 / 125000000000000) * x ^ 1 * y ^ 2 + (5749166352427 / 39062500000000) * x ^ 1 * y ^ 3 + (75357392944207 / 62500000000000) * x ^ 2 * y ^ 0 + (-263380298391243 / 125000000000000) * x ^ 2 * y ^ 1 + (1015042682608133 / 1000000000000000) * x ^ 2 * y ^ 2 + (-470796232025629 / 5000000000000000) * x ^ 2 * y ^ 3 + (-3569011 / 50000000) * x ^ 3 * y ^ 0 + (5749166352427 / 39062500000000) * x ^ 3 * y ^ 1 + (-470796232025629 / 5000000000000000) * x ^ 3 * y ^ 2 + (5593778751509 / 312500000000000) * x ^ 3 * y ^ 3) := by
    have e : ((3507967614049 / 1953125000000) * x ^ 0 * y ^ 0 + (-2881616491958967 / 1000000000000000) * x ^ 0 * y ^ 1 + (75357392944207 / 62500000000000) * x ^ 0 * y ^ 2 + (-3569011 / 50000000) * x ^ 0 * y ^ 3 + (-2881616491958967 / 1000000000000000) * x ^ 1 * y ^ 0 + (47780659967428703 / 10000000000000000) * x ^ 1 * y ^ 1 + (-263380298391243 / 125000000000000) * x ^ 1 * y ^ 2 + (5749166352427 / 39062500000000) * x ^ 1 * y ^ 3 + (75357392944207 / 62500000000000) * x ^ 2 * y ^ 0 + (-263380298391243 / 125000000000000) * x ^ 2 * y ^ 1 + (1015042682608133 / 1000000000000000) * x ^ 2 * y ^ 2 + (-470796232025629 / 5000000000000000) * x ^ 2 * y ^ 3 + (-3569011 / 50000000) * x ^ 3 * y ^ 0 + (5749166352427 / 39062500000000) * x ^ 3 * y ^ 1 + (-470796232025629 / 5000000000000000) * x ^ 3 * y ^ 2 + (5593778751509 / 312500000000000) * x ^ 3 * y ^ 3) = ((345550438520178208 / 235718447265625) * ((x - 0.8) ^ 0 * (0.97 - x) ^ 3 * ((y - 0.8) ^ 0 * (0.97 - y) ^ 3)) + (126816838445045039071 / 37714951562500000) * ((x - 0.8) ^ 0 * (0.97 - x) ^ 3 * ((y - 0.8) ^ 1 * (0.97 - y) ^ 2)) + (231857404131391485031 / 94287378906250000) * ((x - 0.8) ^ 0 * (0.97 - x) ^ 3 * ((y - 0.8) ^ 2 * (0.97 - y) ^ 1)) + (264723121649210968919 / 471436894531250000) * ((x - 0.8) ^ 0 * (0.97 - x) ^ 3 * ((y - 0.8) ^ 3 * (0.97 - y) ^ 0)) + (126816838445045039071 / 37714951562500000) * ((x - 0.8) ^ 1 * (0.97 - x) ^ 2 * ((y - 0.8) ^ 0 * (0.97 - y) ^ 3)) + (11772648401351535527263 / 1508598062500000000) * ((x - 0.8) ^ 1 * (0.97 - x) ^ 2 * ((y - 0.8) ^ 1 * (0.97 - y) ^ 2)) + (21857614377111606335343 / 3771495156250000000) * ((x - 0.8) ^ 1 * (0.97 - x) ^ 2 * ((y - 0.8) ^ 2 * (0.97 - y) ^ 1)) + (25504027931093280346807 / 18857475781250000000) * ((x - 0.8) ^ 1 * (0.97 - x) ^ 2 * ((y - 0.8) ^ 3 * (0.97 - y) ^ 0)) + (231857404131391485031 / 94287378906250000) * ((x - 0.8) ^ 2 * (0.97 - x) ^ 1 * ((y - 0.8) ^ 0 * (0.97 - y) ^ 3)) + (21857614377111606335343 / 3771495156250000000) * ((x - 0.8) ^ 2 * (0.97 - x) ^ 1 * ((y - 0.8) ^ 1 * (0.97 - y) ^ 2)) + (1325286191259724035399161 / 301719612500000000000) * ((x - 0.8) ^ 2 * (0.97 - x) ^ 1 * ((y - 0.8) ^ 2 * (0.97 - y) ^ 1)) + (6366053028018873962197331 / 6034392250000000000000) * ((x - 0.8) ^ 2 * (0.97 - x) ^ 1 * ((y - 0.8) ^ 3 * (0.97 - y) ^ 0)) + (264723121649210968919 / 471436894531250000) * ((x - 0.8) ^ 3 * (0.97 - x) ^ 0 * ((y - 0.8) ^ 0 * (0.97 - y) ^ 3)) + (25504027931093280346807 / 18857475781250000000) * ((x - 0.8) ^ 3 * (0.97 - x) ^ 0 * ((y - 0.8) ^ 1 * (0.97 - y) ^ 2)) + (6366053028018873962197331 / 6034392250000000000000) * ((x - 0.8) ^ 3 * (0.97 - x) ^ 0 * ((y - 0.8) ^ 2 * (0.97 - y) ^ 1)) + (3980365085426438206630647 / 15085980625000000000000) * ((x - 0.8) ^ 3 * (0.97 - x) ^ 0 * ((y - 0.8) ^ 3 * (0.97 - y) ^ 0))) := by ring
    rw [e]
    positivity
  have := mul_nonneg (show 0 ≤ y - x by linarith) hQ
  nlinarith

def tableLow0 : List Row := [
  (5844, 1740928, 162818, 5845, 1739721, 162640), (5741, 1869765, 182325, 5742, 1868468, 182126),
  (5643, 2001188, 203050, 5644, 1999800, 202828), (5550, 2134438, 224893, 5551, 2132958, 224647),
  (5462, 2268685, 247721, 5463, 2267112, 247450), (5378, 2404699, 271670, 5379, 2403032, 271372),
  (5297, 2543573, 296953, 5298, 2541809, 296628), (5221, 2681158, 322812, 5222, 2679300, 322458),
  (5147, 2822271, 350152, 5148, 2820314, 349768), (5076, 2964639, 378558, 5077, 2962584, 378143),
  (5009, 3105566, 407473, 5010, 3103414, 407027), (4943, 3250939, 438116, 4944, 3248685, 437636),
  (4880, 3396047, 469513, 4881, 3393693, 468999), (4820, 3540263, 501505, 4821, 3537809, 500955),
  (4761, 3688045, 535088, 4762, 3685489, 534502), (4705, 3834016, 569042, 4706, 3831358, 568418),
  (4650, 3983002, 604485, 4651, 3980242, 603823), (4597, 4132046, 640727, 4598, 4129182, 640025),
  (4546, 4280729, 677652, 4547, 4277761, 676909), (4496, 4431688, 715917, 4497, 4428616, 715132),
  (4447, 4584792, 755512, 4448, 4581614, 754684), (4400, 4736615, 795548, 4401, 4733332, 794675),
  (4355, 4886686, 835866, 4356, 4883299, 834949), (4310, 5041511, 878228, 4311, 5038017, 877264),
  (4267, 5194037, 920711, 4268, 5190437, 919701), (4224, 5351177, 965250, 4225, 5347468, 964191),
  (4183, 5505434, 1009721, 4184, 5501618, 1008614), (4143, 5660213, 1055083, 4144, 5656290, 1053925),
  (4104, 5815311, 1101271, 4105, 5811280, 1100063), (4065, 5974659, 1149481, 4066, 5970518, 1148220),
  (4028, 6129869, 1197169, 4029, 6125621, 1195855), (3991, 6289112, 1246835, 3992, 6284753, 1245467),
  (3955, 6448020, 1297135, 3956, 6443551, 1295712), (3920, 6606363, 1347983, 3921, 6601785, 1346504),
  (3886, 6763905, 1399287, 3887, 6759217, 1397751), (3852, 6925203, 1452542, 3853, 6920403, 1450948),
  (3819, 7085434, 1506169, 3820, 7080524, 1504516), (3787, 7244350, 1560061, 3788, 7239330, 1558349),
  (3755, 7406830, 1615882, 3756, 7401697, 1614108), (3724, 7567707, 1671862, 3725, 7562463, 1670027)]

def tableLow1 : List Row := [
  (3694, 7726721, 1727882, 3695, 7721366, 1725985), (3664, 7889076, 1785779, 3665, 7883608, 1783819),
  (3634, 8054842, 1845616, 3635, 8049260, 1843590), (3605, 8218393, 1905363, 3606, 8212697, 1903272),
  (3577, 8379454, 1964885, 3578, 8373647, 1962729), (3549, 8543672, 2026266, 3550, 8537751, 2024043),
  (3521, 8711108, 2089565, 3522, 8705071, 2087272), (3494, 8875671, 2152476, 3495, 8869520, 2150113),
  (3467, 9043344, 2217280, 3468, 9037076, 2214846), (3441, 9207799, 2281527, 3442, 9201417, 2279023),
  (3415, 9375244, 2347636, 3416, 9368747, 2345060), (3390, 9539121, 2413009, 3391, 9532510, 2410360),
  (3365, 9705861, 2480201, 3366, 9699135, 2477479), (3340, 9875517, 2549265, 3341, 9868673, 2546467),
  (3316, 10041175, 2617374, 3317, 10034217, 2614501), (3292, 10209613, 2687304, 3293, 10202538, 2684354),
  (3268, 10380876, 2759101, 3269, 10373682, 2756073), (3245, 10547698, 2829707, 3246, 10540388, 2826601),
  (3222, 10717201, 2902119, 3223, 10709774, 2898934), (3199, 10889428, 2976384, 3200, 10881882, 2973117),
  (3177, 11056756, 3049199, 3178, 11049094, 3045851), (3155, 11226655, 3123794, 3156, 11218875, 3120365),
  (3133, 11399165, 3200214, 3134, 11391266, 3196701), (3112, 11566306, 3274904, 3113, 11558290, 3271309),
  (3090, 11744035, 3355021, 3091, 11735896, 3351338), (3069, 11916232, 3433324, 3070, 11907974, 3429555),
  (3049, 12082577, 3509597, 3050, 12074204, 3505744), (3028, 12259738, 3591508, 3029, 12251242, 3587565),
  (3008, 12430878, 3671294, 3009, 12422263, 3667264)]

def tableLow : List Row := tableLow0 ++ tableLow1

set_option maxRecDepth 100000 in
theorem tableLow_ok : tableOk numNeg denNeg (-388) tableLow = true := by decide +kernel

theorem approxNeg_accuracy_low {t : ℝ} (h0 : -0.97 ≤ t) (h1 : t ≤ -0.8) :
    |skew (approxNeg t) - t| ≤ 1 / 200 := by
  have e0 : (((-388 : ℤ) : ℝ) / 400) = -0.97 := by norm_num
  have e1 : (((-388 + (68 : ℕ) : ℤ) : ℝ) / 400) = -0.8 := by norm_num
  refine grid_accuracy (num := numNeg) (den := denNeg) (i0 := -388) (n := 68) (rows := tableLow) (by norm_num)
    (by decide +kernel) tableLow_ok ?_ ?_ ?_ (sameSide_self _)
  · intro q hq0 hq1
    obtain ⟨s, rfl⟩ : ∃ s, q = -s := ⟨-q, by ring⟩
    constructor
    · unfold denNeg
      exact denNeg_pos_low (by norm_num at hq1 ⊢; linarith) (by norm_num at hq0 ⊢; linarith)
    · unfold approxNeg numNeg denNeg
      push_cast
      rfl
  · rw [e0, e1]; exact approxNeg_anti_low
  · rw [e0, e1]; exact ⟨h0, h1⟩

theorem approxNeg_range_low {t : ℝ} (h0 : -0.97 ≤ t) (h1 : t ≤ -0.8) :
    3 ≤ approxNeg t ∧ approxNeg t ≤ 5.85 := by
  constructor
  · have := approxNeg_anti_low ⟨h0, h1⟩ ⟨by norm_num, le_refl _⟩ h1
    refine le_trans ?_ this
    unfold approxNeg
    norm_num
  · have := approxNeg_anti_low ⟨le_refl _, by norm_num⟩ ⟨h0, h1⟩ h0
    refine this.trans ?_
    unfold approxNeg
    norm_num

theorem skew_ratio {G : ℝ} (h : 0 < G) : skew G = 2 * ratio G - 3 := by
  unfold skew ratio
  rw [if_neg h.ne']

theorem half_ge_twentieth {G : ℝ} {m : ℕ} {c : ℝ} (hG : G ≤ (m : ℝ) / 20) (h : c ^ 20 ≤ (1 / 2 : ℝ) ^ m) :
    c ≤ (2 : ℝ) ^ (-G) := by
  have e : (2 : ℝ) ^ (-G) = (1 / 2 : ℝ) ^ G := by
    rw [one_div, Real.inv_rpow (by norm_num), Real.rpow_neg (by norm_num)]
  rw [e]
  refine le_trans ?_ (Real.rpow_le_rpow_of_exponent_ge (by norm_num) (by norm_num) hG)
  have e : ((1 / 2 : ℝ) ^ ((m : ℝ) / 20)) ^ 20 = (1 / 2 : ℝ) ^ m := by
    rw [← Real.rpow_natCast ((1 / 2 : ℝ) ^ ((m : ℝ) / 20)) 20, ← Real.rpow_mul (by norm_num)]
    rw [show (m : ℝ) / 20 * ((20 : ℕ) : ℝ) = m by push_cast; ring, Real.rpow_natCast]
  exact le_of_pow_le_pow_left₀ (n := 20) (by norm_num) (Real.rpow_nonneg (by norm_num) _) (by rw [e]; exact h)

/-- The values at which the iterations start are near the root. -/
theorem start_mid {t : ℝ} (h0 : -0.97 ≤ t) (h1 : t ≤ -0.8) :
    2.8 ≤ approxNeg t ∧ |ratio (approxNeg t) - (t + 3) * 0.5| ≤ 0.162 * (ratio (approxNeg t) - 1) ∧
    2.8 * (ratio (approxNeg t) - 1) ≤ approxNeg t * (ratio (approxNeg t) - 1) - 4.5 * |ratio (approxNeg t) - (t + 3) * 0.5| := by
  have acc := approxNeg_accuracy_low h0 h1
  obtain ⟨g0, g1⟩ := approxNeg_range_low h0 h1
  generalize approxNeg t = G at *
  have h28 : 2.8 ≤ G := by norm_num; linarith
  rw [skew_ratio (by linarith)] at acc
  have hE : |ratio G - (t + 3) * 0.5| ≤ 0.0025 := by
    rw [abs_le] at acc ⊢
    norm_num at acc ⊢
    constructor <;> linarith [acc.1, acc.2]
  obtain ⟨ha, ha', hr, hr', -⟩ := powers h28
  have hu := ratio_sub_one h28
  have hlow : ∀ c r0 : ℝ, 0 < c → c ≤ (2 : ℝ) ^ (-G) → (2 / 3 : ℝ) ^ G ≤ r0 → r0 ≤ 0.3215 → c * (1 - r0) ≤ ratio G - 1 := by
    intro c r0 hc0 hc' hr0 hr1
    rw [hu, le_div_iff₀ (by norm_num at ha'; linarith)]
    have h1r : 0 ≤ 1 - r0 := by norm_num at hr1; linarith
    have : c * (1 - r0) ≤ (2 : ℝ) ^ (-G) * (1 - (2 / 3 : ℝ) ^ G) :=
      mul_le_mul hc' (by linarith) h1r ha.le
    have : 0 ≤ c * (1 - r0) * (2 : ℝ) ^ (-G) := by positivity
    linarith
  rcases le_total G 3.6 with h36 | h36
  · have k := hlow 0.082 0.297 (by norm_num) (half_ge (m := 18) (by norm_num at h36 ⊢; linarith) (by norm_num))
      (two_thirds_le (m := 15) (by norm_num; linarith) (by norm_num) (by norm_num)) (by norm_num)
    refine ⟨h28, ?_, ?_⟩
    · norm_num at *; linarith
    · have : 0 ≤ (G - 3) * (ratio G - 1) := mul_nonneg (by linarith) (by norm_num at *; linarith)
      norm_num at *; linarith
  · have k : 0.01545 ≤ ratio G - 1 := by
      rcases le_total G 5.6 with h56 | h56
      · refine le_trans ?_ (hlow 0.0206 0.2325 (by norm_num) (half_ge (m := 28) (by norm_num at h56 ⊢; linarith) (by norm_num))
          (two_thirds_le (m := 18) (by norm_num at h36 ⊢; linarith) (by norm_num) (by norm_num)) (by norm_num))
        norm_num
      · refine le_trans ?_ (hlow 0.0173 0.1034 (by norm_num) (half_ge_twentieth (m := 117) (by norm_num at g1 ⊢; linarith) (by norm_num))
          (two_thirds_le (m := 28) (by norm_num at h56 ⊢; linarith) (by norm_num) (by norm_num)) (by norm_num))
        norm_num
    refine ⟨h28, ?_, ?_⟩
    · norm_num at *; linarith
    · have : 0 ≤ (G - 3.6) * (ratio G - 1) := mul_nonneg (by linarith) (by norm_num at *; linarith)
      norm_num at *; linarith

/-- The starting value for L-skewness below -0.97, with its printed logarithm of two. -/
theorem start_low {t : ℝ} (h0 : (1 / 2 : ℝ) ^ 1000 ≤ 1 + t) (h1 : t ≤ -0.97) :
    ∃ G, G = 1 - Real.log (1 + t) / 0.69314718 ∧ 2.8 ≤ G ∧ |ratio G - (t + 3) * 0.5| ≤ 0.162 * (ratio G - 1) ∧
    2.8 * (ratio G - 1) ≤ G * (ratio G - 1) - 4.5 * |ratio G - (t + 3) * 0.5| := by
  have l2 := Real.log_two_gt_d9
  have l2' := Real.log_two_lt_d9
  have ht0 : 0 < 1 + t := lt_of_lt_of_le (by positivity) h0
  refine ⟨_, rfl, ?_⟩
  set L := Real.log (1 + t) with hL
  have hL0 : -1000 * Real.log 2 ≤ L := by
    have := Real.log_le_log (by positivity) h0
    rw [Real.log_pow, one_div, Real.log_inv] at this
    push_cast at this
    linarith
  have hL1 : L ≤ -5 * Real.log 2 := by
    have : Real.log (1 + t) ≤ Real.log ((1 / 2 : ℝ) ^ 5) := Real.log_le_log ht0 (by norm_num at h1 ⊢; linarith)
    rw [Real.log_pow, one_div, Real.log_inv] at this
    push_cast at this
    linarith
  set G := 1 - L / 0.69314718 with hG
  have hG6 : 6 ≤ G := by
    have : 5 ≤ -L / 0.69314718 := by rw [le_div_iff₀ (by norm_num)]; norm_num at *; linarith
    have e : G = 1 + -L / 0.69314718 := by rw [hG]; ring
    linarith
  have h28 : 2.8 ≤ G := by norm_num; linarith
  obtain ⟨ha, ha', hr, -, hra, -⟩ := powers h28
  have hr' : (2 / 3 : ℝ) ^ G ≤ 0.0879 := two_thirds_le (m := 30) (by norm_num; linarith) (by norm_num) (by norm_num)
  -- the power of two is half of `1 + t`, to a few parts in a million
  have hx : (2 : ℝ) ^ (-G) = (1 + t) / 2 * Real.exp (L * (Real.log 2 / 0.69314718 - 1)) := by
    have hEL : Real.exp L = 1 + t := Real.exp_log ht0
    have hE2 : Real.exp (Real.log 2) = 2 := Real.exp_log (by norm_num)
    rw [Real.rpow_def_of_pos (by norm_num), show Real.log 2 * -G = L + -Real.log 2 + L * (Real.log 2 / 0.69314718 - 1) by rw [hG]; ring,
      Real.exp_add, Real.exp_add, Real.exp_neg, hE2, hEL]
    ring
  set k := Real.log 2 / 0.69314718 - 1 with hk
  have k0 : 0 ≤ k := by rw [hk, sub_nonneg, le_div_iff₀ (by norm_num)]; norm_num at *; linarith
  have k1 : k ≤ 0.000000002 := by
    rw [hk, sub_le_iff_le_add, div_le_iff₀ (by norm_num)]; norm_num at *; linarith
  have hLk0 : L * k ≤ 0 := mul_nonpos_of_nonpos_of_nonneg (by linarith) k0
  have hLk1 : -0.00001 ≤ L * k := by nlinarith
  have e1 : Real.exp (L * k) ≤ 1 := Real.exp_le_one_iff.2 hLk0
  have e0 : 0.99999 ≤ Real.exp (L * k) := by have := Real.add_one_le_exp (L * k); linarith
  have hu := ratio_sub_one h28
  generalize Real.exp (L * k) = th at *
  generalize (2 : ℝ) ^ (-G) = a at *
  generalize (2 / 3 : ℝ) ^ G = r at *
  set v := (1 + t) / 2 with hv
  have hv0 : 0 < v := by positivity
  have hb : 0 < 1 - a := by norm_num at ha'; linarith
  have hup : ratio G - 1 ≤ v := by
    rw [hu, div_le_iff₀ hb]
    have h1 : a ≤ v := by rw [hx]; nlinarith
    have h2 : a * (1 - r) ≤ a * (1 - a) := mul_le_mul_of_nonneg_left (by nlinarith) ha.le
    have h3 : a * (1 - a) ≤ v * (1 - a) := mul_le_mul_of_nonneg_right h1 hb.le
    linarith
  have hlo : 0.912 * v ≤ ratio G - 1 := by
    rw [hu, le_div_iff₀ hb]
    have h1 : 0.99999 * v ≤ a := by rw [hx]; nlinarith
    have h2 : 0.99999 * v * (1 - r) ≤ a * (1 - r) := mul_le_mul_of_nonneg_right h1 (by linarith)
    have h3 : 0 ≤ v * a := by positivity
    nlinarith
  have hE : |ratio G - (t + 3) * 0.5| ≤ 0.088 * v := by
    have e : ratio G - (t + 3) * 0.5 = (ratio G - 1) - v := by rw [hv]; ring
    rw [e, abs_le]
    constructor <;> linarith
  refine ⟨h28, by linarith, ?_⟩
  have : 0 ≤ (G - 6) * (ratio G - 1) := mul_nonneg (by linarith) (by linarith)
  linarith

end Tcrm.Evd
