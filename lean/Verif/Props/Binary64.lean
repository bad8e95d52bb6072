import Verif.Lemmas.Binary64
import Verif.Props.Windfield
import Verif.Lemmas.Tiles
/-!
C181 — margins and resolutions in double precision. C182 — the region of the hazard in double precision.
-/
namespace Tcrm.Binary64

open Tcrm.Windfield

/-- C181: the rounding is that of doubles: to a nearest one, and half-way to the one with an even last digit. -/
theorem C181_nearest (x : ℚ) : Nearest x (fl x) ∧
    ∀ m e : ℤ, 2 ^ 52 ≤ m → m < 2 ^ 53 → x = (m + 1 / 2) * 2 ^ e →
      fl x = ((if m % 2 = 0 then m else m + 1 : ℤ) : ℚ) * 2 ^ e := by
  refine ⟨⟨fl_double x, fun z => fl_nearest x z⟩, ?_⟩
  rintro m e h1 h2 rfl
  have hu : (0 : ℚ) < 2 ^ e := zpow_pos (by norm_num) e
  have g1 : (2 : ℚ) ^ 52 ≤ m := by exact_mod_cast h1
  have g2 : (m : ℚ) + 1 ≤ 2 ^ 53 := by exact_mod_cast h2
  have hx : ((m : ℚ) + 1 / 2) * 2 ^ e ≠ 0 := by
    apply mul_ne_zero _ hu.ne'
    have : (0 : ℚ) < 2 ^ 52 := by positivity
    linarith
  have hl : Int.log 2 |((m : ℚ) + 1 / 2) * 2 ^ e| - 52 = e := by
    have hp : 0 < |((m : ℚ) + 1 / 2) * 2 ^ e| := abs_pos.2 hx
    have hab : |((m : ℚ) + 1 / 2) * 2 ^ e| = ((m : ℚ) + 1 / 2) * 2 ^ e := by
      apply abs_of_nonneg
      apply mul_nonneg _ hu.le
      have : (0 : ℚ) < 2 ^ 52 := by positivity
      linarith
    have l1 : e + 52 ≤ Int.log 2 |((m : ℚ) + 1 / 2) * 2 ^ e| := by
      rw [← Int.zpow_le_iff_le_log (by norm_num) hp, hab, zpow_add₀ (by norm_num)]
      rw [mul_comm]
      apply mul_le_mul_of_nonneg_right _ hu.le
      have : ((2 : ℕ) : ℚ) ^ (52 : ℤ) = 2 ^ 52 := by norm_num
      linarith
    have l2 : Int.log 2 |((m : ℚ) + 1 / 2) * 2 ^ e| < e + 53 := by
      rw [← Int.lt_zpow_iff_log_lt (by norm_num) hp, hab, zpow_add₀ (by norm_num), mul_comm]
      apply mul_lt_mul_of_pos_left _ hu
      have : ((2 : ℕ) : ℚ) ^ (53 : ℤ) = 2 ^ 53 := by norm_num
      linarith
    omega
  have hf : ⌊(m : ℚ) + 1 / 2⌋ = m := by
    rw [Int.floor_eq_iff]; constructor <;> linarith
  simp only [fl, if_neg hx, hl, mul_div_cancel_right₀ _ hu.ne', DataProc.npRound, hf]
  rw [if_neg (by norm_num), if_neg (by norm_num)]

/-- The double nearest to 0.1 is larger than 0.1; half-way above 2⁵³ the even neighbour is taken. -/
example : fl (1 / 10) = 3602879701896397 / 2 ^ 55 ∧ 1 / 10 < fl (1 / 10) ∧ fl (2 ^ 53 + 1) = 2 ^ 53 ∧
    fl (2 ^ 53 + 3) = 2 ^ 53 + 4 ∧ fl (-2.3) = -fl 2.3 := by decide +kernel

theorem arange_length (a b s : ℤ) : (arange a b s).length = (-((a - b) / s)).toNat := by simp [arange]

/-- A number within one of a whole number, on the same side of zero, is cut to it or to the next one towards zero. -/
theorem pyInt_near {y : ℚ} {N : ℤ} (h : |y - N| < 1) (hs : 0 ≤ N → 0 ≤ y) (hs' : N ≤ 0 → y ≤ 0) :
    pyInt y = N ∨ pyInt y = N - N.sign := by
  rw [abs_lt] at h
  rcases lt_trichotomy N 0 with hN | rfl | hN
  · rw [pyInt_nonpos (hs' hN.le), Int.sign_eq_neg_one_of_neg hN]
    have h1 : N ≤ ⌈y⌉ := by
      have : N - 1 < ⌈y⌉ := Int.lt_ceil.2 (by push_cast; linarith)
      omega
    have h2 : ⌈y⌉ ≤ N + 1 := Int.ceil_le.2 (by push_cast; linarith)
    omega
  · have h1 := hs le_rfl
    have h2 := hs' le_rfl
    left
    rw [le_antisymm h2 h1]; rfl
  · rw [pyInt_nonneg (hs hN.le), Int.sign_eq_one_of_pos hN]
    have h1 : N - 1 ≤ ⌊y⌋ := Int.le_floor.2 (by push_cast; linarith)
    have h2 : ⌊y⌋ < N + 1 := Int.floor_lt.2 (by push_cast; linarith)
    omega

theorem cut_near (x c : ℚ) (hc : 0 < c) (N : ℤ) (hx : c * x = N) (hN : |N| < 2 ^ 50) :
    pyInt (fl (c * fl x)) = N ∨ pyInt (fl (c * fl x)) = N - N.sign := by
  have hN' : |(N : ℚ)| < 2 ^ 50 := by exact_mod_cast hN
  have e1 := fl_error x
  have e2 := fl_error (c * fl x)
  have e3 : |c * fl x - N| ≤ |(N : ℚ)| / 2 ^ 53 := by
    rw [← hx, ← mul_sub, abs_mul, abs_mul, mul_div_assoc]
    exact mul_le_mul_of_nonneg_left e1 (abs_nonneg _)
  have e4 : |c * fl x| ≤ |(N : ℚ)| + |(N : ℚ)| / 2 ^ 53 := by
    have := abs_sub_abs_le_abs_sub (c * fl x) (N : ℚ)
    linarith
  apply pyInt_near
  · have e5 : |fl (c * fl x) - N| ≤ |fl (c * fl x) - c * fl x| + |c * fl x - N| := abs_sub_le _ _ _
    have e6 : |c * fl x| / 2 ^ 53 ≤ (|(N : ℚ)| + |(N : ℚ)| / 2 ^ 53) / 2 ^ 53 :=
      div_le_div_of_nonneg_right e4 (by positivity)
    have e7 : (|(N : ℚ)| + |(N : ℚ)| / 2 ^ 53) / 2 ^ 53 + |(N : ℚ)| / 2 ^ 53 < 1 := by
      have := abs_nonneg (N : ℚ)
      rw [← add_div, div_lt_one (by positivity)]
      have : |(N : ℚ)| / 2 ^ 53 ≤ 1 := by rw [div_le_one (by positivity)]; linarith
      linarith
    linarith
  · intro h
    have hx0 : 0 ≤ x := by
      have : (0 : ℚ) ≤ c * x := by rw [hx]; exact_mod_cast h
      exact nonneg_of_mul_nonneg_right this hc
    exact fl_nonneg (mul_nonneg hc.le (fl_nonneg hx0))
  · intro h
    have hx0 : x ≤ 0 := by
      have : c * x ≤ 0 := by rw [hx]; exact_mod_cast h
      by_contra hc'
      push Not at hc'
      exact absurd (mul_pos hc hc') (not_lt.2 this)
    exact fl_nonpos (mul_nonpos_of_nonneg_of_nonpos hc.le (fl_nonpos hx0))

/-- C181 (part): a setting of whole hundredths of a degree is made into that number of hundredths and ten times as many
thousandths, or into one less in size. -/
theorem C181_hundredths_partial (k : ℤ) (hk : |k| < 2 ^ 45) :
    (pyInt (fl (100 * fl (k / 100))) = k ∨ pyInt (fl (100 * fl (k / 100))) = k - k.sign) ∧
    (pyInt (fl (1000 * fl (k / 100))) = 10 * k ∨ pyInt (fl (1000 * fl (k / 100))) = 10 * k - k.sign) := by
  refine ⟨cut_near _ 100 (by norm_num) k (by ring) (by omega), ?_⟩
  have := cut_near ((k : ℚ) / 100) 1000 (by norm_num) (10 * k) (by push_cast; ring) (by rw [abs_mul]; norm_num; omega)
  rwa [Int.sign_mul, show Int.sign 10 = 1 from rfl, one_mul] at this

/-- C181 (part): multiples of a quarter degree are used as given. -/
theorem C181_quarters_partial (n : ℤ) (hn : |n| < 2 ^ 45) :
    fl (n / 4) = n / 4 ∧ pyInt (fl (100 * fl (n / 4))) = 25 * n ∧ pyInt (fl (1000 * fl (n / 4))) = 250 * n := by
  have h1 : fl ((n : ℚ) / 4) = n / 4 := fl_exact ⟨n, -2, by omega, by norm_num; ring⟩
  have pi (m : ℤ) : pyInt (m : ℚ) = m := by unfold pyInt; split_ifs <;> simp
  refine ⟨h1, ?_, ?_⟩
  · rw [h1, show (100 : ℚ) * (n / 4) = ((25 * n : ℤ) : ℚ) by push_cast; ring,
      fl_int (by rw [abs_mul]; norm_num; omega), pi]
  · rw [h1, show (1000 : ℚ) * (n / 4) = ((250 * n : ℤ) : ℚ) by push_cast; ring,
      fl_int (by rw [abs_mul]; norm_num; omega), pi]

/-- C181 (the failure): margins of whole tenths of a degree, below ten degrees. The eight of the list become one hundredth
too small, but keep their thousandths; the others are used as given. -/
theorem C181_margins_fail : ∀ k : Fin 100, pyInt (fl (1000 * fl ((k : ℚ) / 10))) = 100 * k ∧
    pyInt (fl (100 * fl ((k : ℚ) / 10))) =
      if k.1 ∈ [23, 41, 46, 51, 82, 87, 92, 97] then 10 * (k : ℤ) - 1 else 10 * k := by decide +kernel

/-- C181 (the failure): resolutions of whole hundredths of a degree, below one degree. -/
theorem C181_resolutions_fail : ∀ k : Fin 100, pyInt (fl (fl ((k : ℚ) / 100) * 1000)) = 10 * k ∧
    pyInt (fl (100 * fl ((k : ℚ) / 100))) = if k.1 ∈ [29, 57, 58] then (k : ℤ) - 1 else k := by decide +kernel

/-! ### The grids -/

/-- Positions and limits as far as they are used: at most 1000 degrees. -/
theorem cut_bounds {x : ℚ} (h : |x| ≤ 1000) : |pyInt (fl (100 * x))| ≤ 100000 := by
  rw [abs_le] at h
  have p1 : pyInt (100000 : ℚ) = 100000 := by decide +kernel
  have p2 : pyInt (-100000 : ℚ) = -100000 := by decide +kernel
  have f1 : fl 100000 = 100000 := by decide +kernel
  have f2 : fl (-100000) = -100000 := by decide +kernel
  rw [abs_le]
  constructor
  · rw [← p2, ← f2]; exact pyInt_mono (fl_mono (by linarith))
  · rw [← p1, ← f1]; exact pyInt_mono (fl_mono (by linarith))

/-- The shapes along one axis of a bounded domain, with the margin as `M` hundredths and `T` thousandths. -/
theorem axis_iff {S : Settings} {c lo hi : ℚ} {M T r : ℤ} (hd : S.domain = .bounded) (hM : 0 ≤ M) (hM' : M < 2 ^ 45)
    (hT : 0 ≤ T) (hr : 0 < r)
    (e1 : pyInt (fl (100 * S.margin)) = M) (e2 : pyInt (fl (1000 * S.margin)) = T)
    (e3 : pyInt (fl (100 * S.resolution)) = r) (e4 : pyInt (fl (S.resolution * 1000)) = 10 * r)
    (h1 : lo ≤ c) (h2 : c ≤ hi) (b1 : |lo| ≤ 1000) (b2 : |c| ≤ 1000) :
    axisFits fl S c lo hi = true ↔
      2 * T / (10 * r) + 1 = (pyInt (fl (100 * c)) - pyInt (fl (100 * lo)) + 2 * M) / r -
        (pyInt (fl (100 * c)) - pyInt (fl (100 * lo))) / r + 1 ∨ 2 * T < 10 * r := by
  have m1 : pyInt (fl (100 * lo)) ≤ pyInt (fl (100 * c)) := pyInt_mono (fl_mono (by linarith))
  have m2 : pyInt (fl (100 * c)) ≤ pyInt (fl (100 * hi)) := pyInt_mono (fl_mono (by linarith))
  have c1 := abs_le.1 (cut_bounds b1)
  have c2 := abs_le.1 (cut_bounds b2)
  simp only [axisFits, regionSize, windowOf, localSize, hd, if_true, reduceCtorEq, if_false, given,
    Option.filter_none, arange_length, e1, e2, e3, e4, decide_eq_true_eq]
  generalize pyInt (fl (100 * lo)) = L at *
  generalize pyInt (fl (100 * c)) = C at *
  generalize pyInt (fl (100 * hi)) = H at *
  generalize pyInt (fl (1000 * c)) = D at *
  rw [show C - (L - M) - M = C - L by ring, show C - (L - M) + M = C - L + 2 * M by ring,
    pyInt_quotient (by omega) (by omega) hr, pyInt_quotient (by omega) (by omega) hr]
  have hloc : -((D - T - (D + T + 1)) / (10 * r)) = 2 * T / (10 * r) + 1 := by
    rw [show D - T - (D + T + 1) = -(2 * T) - 1 by ring]
    exact neg_div_pred _ _ (by omega)
  have hreg : (C - L + 2 * M) / r + 1 ≤ -((L - M - (H + M + r)) / r) := by
    have : (C - L + 2 * M) / r ≤ (H - L + 2 * M) / r := Int.ediv_le_ediv hr (by omega)
    have h3 : (L - M - (H + M + r)) / r ≤ -((H - L + 2 * M) / r) - 1 := by
      have h4 := Int.ediv_mul_le (H - L + 2 * M) hr.ne'
      rw [← Int.lt_add_one_iff]
      rw [Int.ediv_lt_iff_lt_mul hr]
      nlinarith
    omega
  have n0 : 0 ≤ (C - L) / r := Int.ediv_nonneg (by omega) hr.le
  have n1 : (C - L) / r ≤ (C - L + 2 * M) / r := Int.ediv_le_ediv hr (by omega)
  have n2 : 0 ≤ 2 * T / (10 * r) := Int.ediv_nonneg (by omega) (by omega)
  have n3 : 2 * T / (10 * r) = 0 ↔ 2 * T < 10 * r := by
    constructor
    · intro h
      have := Int.lt_ediv_add_one_mul_self (2 * T) (show 0 < 10 * r by omega)
      rw [h] at this; omega
    · intro h; exact Int.ediv_eq_zero_of_lt (by omega) h
  rw [hloc]
  generalize (-((L - M - (H + M + r)) / r)) = N at *
  simp only [fits, bound]
  rw [if_neg (by omega), if_neg (by omega)]
  rw [← n3]
  generalize 2 * T / (10 * r) = A at *
  generalize (C - L + 2 * M) / r = B at *
  generalize (C - L) / r = E at *
  have g1 : min (B + 1).toNat N.toNat = (B + 1).toNat := by omega
  have g2 : min E.toNat N.toNat = E.toNat := by omega
  rw [g1, g2]
  omega

/-- C181 (part): if the margin and the resolution become the right whole numbers and the resolution divides twice the
margin, the calculation in a bounded domain gets through for every domain and track in double precision. -/
theorem C181_succeeds_partial {S : Settings} {k s : ℤ} (hd : S.domain = .bounded) (hk : 0 ≤ k) (hk' : k < 2 ^ 45)
    (hs : 0 < s) (e1 : pyInt (fl (100 * S.margin)) = k) (e2 : pyInt (fl (1000 * S.margin)) = 10 * k)
    (e3 : pyInt (fl (100 * S.resolution)) = s) (e4 : pyInt (fl (S.resolution * 1000)) = 10 * s) (hdvd : s ∣ 2 * k)
    {gl : Limits} (hx : |gl.xMin| ≤ 1000) (hx' : |gl.xMax| ≤ 1000) (hy : |gl.yMin| ≤ 1000) (hy' : |gl.yMax| ≤ 1000)
    (track : List (ℚ × ℚ)) : succeeds fl S gl track = true := by
  have ax : ∀ c lo hi : ℚ, |lo| ≤ 1000 → |hi| ≤ 1000 → lo ≤ c → c ≤ hi → axisFits fl S c lo hi = true := by
    intro c lo hi hl hh h1 h2
    have b2 : |c| ≤ 1000 := by
      rw [abs_le] at *; constructor <;> linarith
    refine (axis_iff hd hk hk' (by omega) hs e1 e2 e3 e4 h1 h2 hl b2).2 (Or.inl ?_)
    obtain ⟨q, hq⟩ := hdvd
    rw [show 2 * (10 * k) = 10 * s * q by linarith, hq, Int.mul_ediv_cancel_left _ (by omega),
      Int.add_mul_ediv_left _ _ hs.ne']
    ring
  simp only [succeeds, e3, Bool.and_eq_true, decide_eq_true_eq, List.all_eq_true, List.mem_filter]
  refine ⟨hs.ne', ?_⟩
  rintro p ⟨-, p1, p2, p3, p4⟩
  exact ⟨ax _ _ _ hy hy' p3 p4, ax _ _ _ hx hx' p1 p2⟩

/-- C181 (the failure): if the margin becomes one hundredth too small, every track fails that has a position in the domain
less than two hundredths north of a grid line (at all positions if the resolution is 0.01 or 0.02). -/
theorem C181_fails {S : Settings} {k s : ℤ} (hd : S.domain = .bounded) (hk : 0 < k) (hk' : k < 2 ^ 45)
    (hs : 0 < s) (e1 : pyInt (fl (100 * S.margin)) = k - 1) (e2 : pyInt (fl (1000 * S.margin)) = 10 * k)
    (e3 : pyInt (fl (100 * S.resolution)) = s) (e4 : pyInt (fl (S.resolution * 1000)) = 10 * s) (hdvd : s ∣ 2 * k)
    {gl : Limits} (hy : |gl.yMin| ≤ 1000) (hy' : |gl.yMax| ≤ 1000) {track : List (ℚ × ℚ)} {lon lat : ℚ}
    (hp : (lon, lat) ∈ track) (x1 : gl.xMin ≤ lon) (x2 : lon ≤ gl.xMax) (y1 : gl.yMin ≤ lat) (y2 : lat ≤ gl.yMax)
    (hm : (pyInt (fl (100 * lat)) - pyInt (fl (100 * gl.yMin))) % s < 2) : succeeds fl S gl track = false := by
  rw [Bool.eq_false_iff]
  intro h
  simp only [succeeds, Bool.and_eq_true, decide_eq_true_eq, List.all_eq_true, List.mem_filter] at h
  have ha := (h.2 (lon, lat) ⟨hp, x1, x2, y1, y2⟩).1
  have b2 : |lat| ≤ 1000 := by
    rw [abs_le] at *; constructor <;> linarith
  rw [axis_iff hd (by omega) (by omega) (by omega) hs e1 e2 e3 e4 y1 y2 hy b2] at ha
  obtain ⟨q, hq⟩ := hdvd
  have hq1 : 1 ≤ q := by
    by_contra hc
    have : q ≤ 0 := by omega
    nlinarith
  rcases ha with ha | ha
  · rw [show 2 * (10 * k) = 10 * s * q by linarith, Int.mul_ediv_cancel_left _ (by omega)] at ha
    generalize pyInt (fl (100 * lat)) - pyInt (fl (100 * gl.yMin)) = a at *
    have a1 := Int.mul_ediv_add_emod a s
    have : (a + 2 * (k - 1)) / s < a / s + q := by
      rw [Int.ediv_lt_iff_lt_mul hs]
      nlinarith
    omega
  · nlinarith

/-- With a margin of 2.3 and a resolution of 0.05 degrees a storm at 15°S in a domain from 25°S makes the calculation
fail, which gets through in exact arithmetic. -/
theorem C181_margin_fails : succeeds fl ⟨fl 2.3, fl 0.05, .bounded⟩ ⟨110, 130, -25, -10⟩ [(115, -15)] = false ∧
    succeeds id ⟨2.3, 0.05, .bounded⟩ ⟨110, 130, -25, -10⟩ [(115, -15)] = true := by decide +kernel

/-- With a full domain a limit that is not a whole number of hundredths as a double is enough: 128.2°E. -/
theorem C181_full_fails : succeeds fl ⟨fl 2, fl 0.05, .full⟩ ⟨110, fl 128.2, -25, -10⟩ [(115, -15)] = false ∧
    succeeds id ⟨2, 0.05, .full⟩ ⟨110, 128.2, -25, -10⟩ [(115, -15)] = true := by decide +kernel

/-! ### Without rounding -/

/-- Without rounding `succeeds` says whether the calculation of C18 gets through. -/
theorem C181_exact (P : Params) (gl : Limits) (p0 : ℝ) (track : List TimeStep) :
    succeeds id ⟨P.margin, P.resolution, P.domain⟩ gl (track.map fun t => (t.lon, t.lat)) = true ↔
      ∃ r, regionalExtremes P gl p0 track = .ok r := by
  have step : ∀ (t : TimeStep) (f : ℕ → ℕ → Cell),
      (axisFits id ⟨P.margin, P.resolution, P.domain⟩ t.lat gl.yMin gl.yMax &&
        axisFits id ⟨P.margin, P.resolution, P.domain⟩ t.lon gl.xMin gl.xMax) = true ↔
      ∃ g, pasteStep P gl (regionAxis gl.yMin gl.yMax P.margin P.resolution)
        (regionAxis gl.xMin gl.xMax P.margin P.resolution) t f = .ok g := by
    intro t f
    simp only [Bool.and_eq_true, axisFits, decide_eq_true_eq, pasteStep]
    constructor
    · intro h
      exact ⟨_, if_pos h⟩
    · rintro ⟨g, hg⟩
      by_contra hc
      exact absurd (hg.symm.trans (if_neg hc)) (by simp)
  have all : ∀ (ts : List TimeStep) (f : ℕ → ℕ → Cell),
      (∀ t ∈ ts, (axisFits id ⟨P.margin, P.resolution, P.domain⟩ t.lat gl.yMin gl.yMax &&
        axisFits id ⟨P.margin, P.resolution, P.domain⟩ t.lon gl.xMin gl.xMax) = true) ↔
      ∃ g, pasteAll P gl (regionAxis gl.yMin gl.yMax P.margin P.resolution)
        (regionAxis gl.xMin gl.xMax P.margin P.resolution) ts f = .ok g := by
    intro ts
    induction ts with
    | nil => intro f; simp [pasteAll]
    | cons t ts ih =>
      intro f
      simp only [List.forall_mem_cons, pasteAll]
      cases hs : pasteStep P gl (regionAxis gl.yMin gl.yMax P.margin P.resolution)
          (regionAxis gl.xMin gl.xMax P.margin P.resolution) t f with
      | error e =>
        have : ¬ _ := fun h => by
          obtain ⟨g, hg⟩ := (step t f).1 h
          rw [hs] at hg; cases hg
        simp [this]
      | ok f' =>
        rw [step t f, ih f', hs]
        simp
  have e : (track.map fun t => (t.lon, t.lat)).filter (fun p => decide (gl.xMin ≤ p.1 ∧ p.1 ≤ gl.xMax ∧
      gl.yMin ≤ p.2 ∧ p.2 ≤ gl.yMax)) = (track.filter (inRegion gl)).map fun t => (t.lon, t.lat) := by
    rw [List.filter_map]; rfl
  simp only [succeeds, e, Bool.and_eq_true, decide_eq_true_eq, id, List.all_map, List.all_eq_true, regionalExtremes]
  by_cases h0 : pyInt (100 * P.resolution) = 0
  · simp [h0]
  · rw [if_neg h0]
    have := all (track.filter (inRegion gl)) fun _ _ => ⟨0, 0, 0, 0, p0⟩
    constructor
    · rintro ⟨-, h⟩
      obtain ⟨g, hg⟩ := this.1 (by simpa using h)
      rw [hg]
      exact ⟨_, rfl⟩
    · rintro ⟨r, hr⟩
      refine ⟨h0, ?_⟩
      cases hp : pasteAll P gl (regionAxis gl.yMin gl.yMax P.margin P.resolution)
        (regionAxis gl.xMin gl.xMax P.margin P.resolution) (track.filter (inRegion gl))
          (fun _ _ => ⟨0, 0, 0, 0, p0⟩) with
      | error e => rw [hp] at hr; cases hr
      | ok g => simpa using this.2 ⟨g, hp⟩

/-- The usual margin of two degrees with 0.05 degrees meets the conditions of `C181_succeeds_partial`, and a margin of
8.2 degrees those of `C181_fails`. -/
example : (pyInt (fl (100 * fl 2)) = 200 ∧ pyInt (fl (1000 * fl 2)) = 2000 ∧ pyInt (fl (100 * fl 0.05)) = 5 ∧
      pyInt (fl (fl 0.05 * 1000)) = 50 ∧ (5 : ℤ) ∣ 2 * 200) ∧
    (pyInt (fl (100 * fl 8.2)) = 820 - 1 ∧ pyInt (fl (1000 * fl 8.2)) = 8200 ∧ (5 : ℤ) ∣ 2 * 820) := by decide +kernel

/-! ### C182 -/

theorem npRound_eq {y : ℚ} {N : ℤ} (h : |y - N| < 1 / 2) : DataProc.npRound y = N := by
  have h1 := npRound_half y
  have h2 : |(DataProc.npRound y : ℚ) - N| < 1 := by
    have := abs_sub_le (DataProc.npRound y : ℚ) y N
    linarith
  have h3 : |DataProc.npRound y - N| < 1 := by exact_mod_cast h2
  rw [Int.abs_lt_one_iff] at h3
  omega

/-- A grid point keeps its place in thousandths. -/
theorem point_thousandths (n : ℤ) (hn : |n| < 2 ^ 45) : DataProc.npRound (fl (fl (n / 100) * 1000)) = 10 * n := by
  have hn' : |(n : ℚ)| < 2 ^ 45 := by exact_mod_cast hn
  have e1 := fl_error ((n : ℚ) / 100)
  have e2 := fl_error (fl ((n : ℚ) / 100) * 1000)
  have e3 : |fl ((n : ℚ) / 100) * 1000 - ((10 * n : ℤ) : ℚ)| ≤ 10 * |(n : ℚ)| / 2 ^ 53 := by
    have : fl ((n : ℚ) / 100) * 1000 - ((10 * n : ℤ) : ℚ) = (fl ((n : ℚ) / 100) - n / 100) * 1000 := by push_cast; ring
    rw [this, abs_mul]
    rw [abs_div] at e1
    norm_num at e1 ⊢
    linarith
  apply npRound_eq
  have e4 := abs_sub_le (fl (fl ((n : ℚ) / 100) * 1000)) (fl ((n : ℚ) / 100) * 1000) ((10 * n : ℤ) : ℚ)
  have e5 : |fl ((n : ℚ) / 100) * 1000| ≤ 10 * |(n : ℚ)| + 10 * |(n : ℚ)| / 2 ^ 53 := by
    have := abs_sub_abs_le_abs_sub (fl ((n : ℚ) / 100) * 1000) ((10 * n : ℤ) : ℚ)
    have h : |((10 * n : ℤ) : ℚ)| = 10 * |(n : ℚ)| := by push_cast; rw [abs_mul]; norm_num
    linarith
  have e6 : |fl ((n : ℚ) / 100) * 1000| / 2 ^ 53 ≤ (10 * |(n : ℚ)| + 10 * |(n : ℚ)| / 2 ^ 53) / 2 ^ 53 :=
    div_le_div_of_nonneg_right e5 (by positivity)
  have h0 := abs_nonneg (n : ℚ)
  have e7 : (10 * |(n : ℚ)| + 10 * |(n : ℚ)| / 2 ^ 53) / 2 ^ 53 + 10 * |(n : ℚ)| / 2 ^ 53 < 1 / 2 := by
    norm_num at hn' ⊢
    linarith
  linarith

/-- C182: which grid points get a hazard. A point on the limit is lost if the limit, in thousandths, is cut to the inner
side of it: a limit above zero to the east or north, one below zero to the west or south. -/
theorem C182_region_partial (ns : List ℤ) (hns : ∀ n ∈ ns, |n| < 2 ^ 45) (k l : ℤ) (hk : |k| < 2 ^ 45) (hl : |l| < 2 ^ 45)
    (i : ℕ) :
    i ∈ hazardIndices (axisOf ns) (fl (k / 100)) (fl (l / 100)) ↔
      ∃ n, ns[i]? = some n ∧ k ≤ n ∧ n ≤ l ∧ ¬ (n = k ∧ k < 0 ∧ pyInt (fl (1000 * fl (k / 100))) ≠ 10 * k) ∧
        ¬ (n = l ∧ 0 < l ∧ pyInt (fl (1000 * fl (l / 100))) ≠ 10 * l) := by
  have hax : ((axisOf ns).map fun v => DataProc.npRound (fl (v * 1000))) = ns.map fun n => 10 * n := by
    rw [axisOf, List.map_map]
    exact List.map_congr_left fun n hn => point_thousandths n (hns n hn)
  have h1 := (C181_hundredths_partial k hk).2
  have h2 := (C181_hundredths_partial l hl).2
  simp only [hazardIndices, hax, mul_comm (fl _) 1000]
  generalize pyInt (fl (1000 * fl ((k : ℚ) / 100))) = a at *
  generalize pyInt (fl (1000 * fl ((l : ℚ) / 100))) = b at *
  have hmem : i ∈ Tiles.within (ns.map fun n => 10 * n) a b ↔ ∃ n, ns[i]? = some n ∧ a ≤ 10 * n ∧ 10 * n ≤ b := by
    simp only [Tiles.within, List.mem_map, List.mem_filter, Bool.and_eq_true, decide_eq_true_eq, Prod.exists,
      exists_eq_right, List.mem_zipIdx_iff_getElem?, List.getElem?_map, Option.map_eq_some_iff]
    constructor
    · rintro ⟨_, ⟨n, hn, rfl⟩, h⟩; exact ⟨n, hn, h⟩
    · rintro ⟨n, hn, h⟩; exact ⟨_, ⟨n, hn, rfl⟩, h⟩
  rw [hmem]
  refine exists_congr fun n => and_congr_right fun _ => ?_
  rcases lt_trichotomy k 0 with c | c | c <;> rcases lt_trichotomy l 0 with d | d | d <;>
    simp only [Int.sign_eq_neg_one_of_neg, Int.sign_eq_one_of_pos, Int.sign_zero, c, d] at h1 h2 <;> omega

/-- C182 (part): with limits at multiples of a quarter degree the points with a hazard are those of the region. -/
theorem C182_quarters_partial (ns : List ℤ) (hns : ∀ n ∈ ns, |n| < 2 ^ 45) (k l : ℤ) (hk : |k| < 2 ^ 40) (hl : |l| < 2 ^ 40)
    (i : ℕ) :
    i ∈ hazardIndices (axisOf ns) (fl (k / 4)) (fl (l / 4)) ↔ ∃ n, ns[i]? = some n ∧ 25 * k ≤ n ∧ n ≤ 25 * l := by
  have e (m : ℤ) : (m : ℚ) / 4 = ((25 * m : ℤ) : ℚ) / 100 := by push_cast; ring
  have q1 := (C181_quarters_partial k (by omega)).2.2
  have q2 := (C181_quarters_partial l (by omega)).2.2
  rw [e] at q1 q2
  rw [e, e, C182_region_partial ns hns _ _ (by rw [abs_mul]; norm_num; omega) (by rw [abs_mul]; norm_num; omega), q1, q2]
  refine exists_congr fun n => and_congr_right fun _ => ?_
  omega

theorem mem_slice {α : Type} (l : List α) (a b : ℕ) (v : α) :
    v ∈ (l.take (b + 1)).drop a ↔ ∃ i, (a ≤ i ∧ i ≤ b) ∧ l[i]? = some v := by
  rw [List.mem_iff_getElem?]
  constructor
  · rintro ⟨i, hi⟩
    rw [List.getElem?_drop, List.getElem?_take] at hi
    split_ifs at hi with h
    exact ⟨a + i, ⟨by omega, by omega⟩, hi⟩
  · rintro ⟨i, ⟨h1, h2⟩, h3⟩
    refine ⟨i - a, ?_⟩
    rw [List.getElem?_drop, List.getElem?_take, if_pos (by omega), show a + (i - a) = i by omega, h3]

/-- The coordinates the hazard is calculated for are those in the region. -/
theorem mem_hazardCoords {lat : Bool} {lo hi margin resolution : ℚ} (hs : 0 < pyInt (fl (100 * resolution)))
    (hb : ∀ n ∈ savedAxis lat lo hi margin resolution, |n| < 2 ^ 45) (v : ℚ) :
    v ∈ hazardCoords lat lo hi margin resolution ↔
      ∃ i, i ∈ hazardIndices (axisOf (savedAxis lat lo hi margin resolution)) lo hi ∧
        (axisOf (savedAxis lat lo hi margin resolution))[i]? = some v := by
  have hax : ((axisOf (savedAxis lat lo hi margin resolution)).map fun v => DataProc.npRound (fl (v * 1000))) =
      (savedAxis lat lo hi margin resolution).map fun n => 10 * n := by
    rw [axisOf, List.map_map]
    exact List.map_congr_left fun n hn => point_thousandths n (hb n hn)
  have hinc0 : ((gridAxis lo hi margin resolution).map fun n => 10 * n).Pairwise (· ≤ ·) := by
    simp only [gridAxis, arange, List.map_map]
    refine List.pairwise_map.2 (List.pairwise_lt_range.imp ?_)
    intro i j hij
    have : (i : ℤ) < j := by exact_mod_cast hij
    simp only [Function.comp]
    nlinarith
  have hinc : Tiles.IsAxis ((savedAxis lat lo hi margin resolution).map fun n => 10 * n) := by
    cases lat
    · exact Or.inl hinc0
    · right
      simp only [savedAxis, if_true]
      rw [List.map_reverse, List.pairwise_reverse]
      exact hinc0
  simp only [hazardCoords]
  have hw : hazardIndices (axisOf (savedAxis lat lo hi margin resolution)) lo hi =
      Tiles.within ((savedAxis lat lo hi margin resolution).map fun n => 10 * n) (pyInt (fl (lo * 1000)))
        (pyInt (fl (hi * 1000))) := by rw [hazardIndices, hax]
  cases h1 : (hazardIndices (axisOf (savedAxis lat lo hi margin resolution)) lo hi).head? with
  | none =>
    rw [List.head?_eq_none_iff] at h1
    simp [h1]
  | some a =>
    cases h2 : (hazardIndices (axisOf (savedAxis lat lo hi margin resolution)) lo hi).getLast? with
    | none =>
      rw [List.getLast?_eq_none_iff] at h2
      simp [h2] at h1
    | some b =>
      rw [mem_slice]
      refine exists_congr fun i => and_congr_left fun _ => ?_
      rw [hw] at h1 h2 ⊢
      exact (Tiles.within_interval hinc h1 h2 i).symm

/-- C182 (part): with limits at multiples of a quarter degree, and a margin that is a multiple of the resolution (both
in hundredths without a rounding error), the hazard is calculated at the lower limit and in steps of the resolution from
there to the upper limit. -/
theorem C182_run_partial (lat : Bool) (k l M s : ℤ) (margin resolution : ℚ) (hk : |k| < 2 ^ 40) (hl : |l| < 2 ^ 40)
    (hM : pyInt (fl (100 * margin)) = M) (hM0 : 0 ≤ M) (hM' : M < 2 ^ 40) (hs : pyInt (fl (100 * resolution)) = s)
    (hs0 : 0 < s) (hd : s ∣ M) (hs' : s < 2 ^ 40) (v : ℚ) :
    v ∈ hazardCoords lat (fl (k / 4)) (fl (l / 4)) margin resolution ↔
      ∃ i : ℕ, 25 * k + i * s ≤ 25 * l ∧ v = fl ((25 * k + i * s : ℤ) / 100) := by
  have a1 := (C181_quarters_partial k (by omega)).2.1
  have a2 := (C181_quarters_partial l (by omega)).2.1
  rw [abs_lt] at hk hl
  have hmem : ∀ n : ℤ, n ∈ savedAxis lat (fl (k / 4)) (fl (l / 4)) margin resolution ↔
      ∃ i : ℕ, n = 25 * k - M + i * s ∧ n < 25 * l + M + s := by
    intro n
    have key : ∀ i : ℕ, i < (-((25 * k - M - (25 * l + M + s)) / s)).toNat ↔ 25 * k - M + i * s < 25 * l + M + s := by
      intro i
      rw [Int.lt_toNat, lt_neg, Int.ediv_lt_iff_lt_mul hs0, neg_mul]
      constructor <;> intro h <;> linarith
    have hrev : n ∈ savedAxis lat (fl (k / 4)) (fl (l / 4)) margin resolution ↔
        n ∈ gridAxis (fl (k / 4)) (fl (l / 4)) margin resolution := by
      cases lat <;> simp [savedAxis]
    rw [hrev, gridAxis, a1, a2, hM, hs]
    simp only [arange, List.mem_map, List.mem_range]
    constructor
    · rintro ⟨j, hj, rfl⟩
      have := (key j).1 hj
      exact ⟨j, by ring, by linarith⟩
    · rintro ⟨i, rfl, h⟩
      exact ⟨i, (key i).2 h, by ring⟩
  have hb : ∀ n ∈ savedAxis lat (fl (k / 4)) (fl (l / 4)) margin resolution, |n| < 2 ^ 45 := by
    intro n hn
    obtain ⟨i, h1, h2⟩ := (hmem n).1 hn
    have : 0 ≤ (i : ℤ) * s := by positivity
    rw [abs_lt]; constructor <;> omega
  rw [mem_hazardCoords (hs ▸ hs0) hb]
  have hq := C182_quarters_partial _ hb k l (abs_lt.2 hk) (abs_lt.2 hl)
  have hall : (∃ i, i ∈ hazardIndices (axisOf (savedAxis lat (fl (k / 4)) (fl (l / 4)) margin resolution)) (fl (k / 4))
      (fl (l / 4)) ∧ (axisOf (savedAxis lat (fl (k / 4)) (fl (l / 4)) margin resolution))[i]? = some v) ↔
      ∃ n ∈ savedAxis lat (fl (k / 4)) (fl (l / 4)) margin resolution, 25 * k ≤ n ∧ n ≤ 25 * l ∧ v = fl ((n : ℚ) / 100) := by
    constructor
    · rintro ⟨i, h1, h2⟩
      obtain ⟨n, hn, h3, h4⟩ := (hq i).1 h1
      rw [axisOf, List.getElem?_map, hn, Option.map_some, Option.some_inj] at h2
      exact ⟨n, List.mem_of_getElem? hn, h3, h4, h2.symm⟩
    · rintro ⟨n, hn, h3, h4, rfl⟩
      obtain ⟨i, hi⟩ := List.mem_iff_getElem?.1 hn
      exact ⟨i, (hq i).2 ⟨n, hi, h3, h4⟩, by rw [axisOf, List.getElem?_map, hi, Option.map_some]⟩
  rw [hall]
  simp only [hmem]
  obtain ⟨q, rfl⟩ := hd
  have hq0 : 0 ≤ q := by
    by_contra hc
    push Not at hc
    nlinarith
  constructor
  · rintro ⟨n, ⟨i, rfl, h2⟩, h3, h4, rfl⟩
    have hiq : q ≤ i := by
      by_contra hc
      push Not at hc
      nlinarith
    refine ⟨(i - q).toNat, ?_, ?_⟩
    · rw [Int.toNat_of_nonneg (by omega)]; linarith [sub_mul (i : ℤ) q s]
    · rw [Int.toNat_of_nonneg (by omega)]
      congr 3
      ring
  · rintro ⟨i, h1, rfl⟩
    refine ⟨25 * k + i * s, ⟨i + q.toNat, ?_, ?_⟩, ?_, h1, rfl⟩
    · push_cast; rw [Int.toNat_of_nonneg hq0]; ring
    · nlinarith
    · nlinarith

/-- C182 (the failure): in a region from 16.22°S to 16°S, with a margin of two and a resolution of 0.01 degrees, the row at
16.22°S is a row of the wind fields, but gets no hazard. -/
theorem C182_row_fails : -1622 ∈ gridAxis (fl (-16.22)) (fl (-16)) (fl 2) (fl 0.01) ∧
    fl (-16.22) ∉ hazardCoords true (fl (-16.22)) (fl (-16)) (fl 2) (fl 0.01) ∧
    (hazardCoords true (fl (-16.22)) (fl (-16)) (fl 2) (fl 0.01)).getLast? = some (fl (-16.21)) := by decide +kernel

/-- C182 (the failure): in a region from 32.3°S to 31.5°S, with a margin of two and a resolution of 0.1 degrees, the grid is
0.01 degrees north of the requested one. -/
theorem C182_shift_fails : hazardCoords true (fl (-32.3)) (fl (-31.5)) (fl 2) (fl 0.1) =
    [fl (-31.59), fl (-31.69), fl (-31.79), fl (-31.89), fl (-31.99), fl (-32.09), fl (-32.19), fl (-32.29)] := by
  decide +kernel

/-- A region with limits at quarter degrees, with latitudes from north to south. -/
example : hazardCoords true (fl (-31.75)) (fl (-31.5)) (fl 2) (fl 0.1) = [fl (-31.55), fl (-31.65), fl (-31.75)] ∧
    pyInt (fl (100 * fl 2)) = 200 ∧ pyInt (fl (100 * fl 0.1)) = 10 ∧ fl (-31.75) = fl ((-127 : ℤ) / 4) := by decide +kernel

end Tcrm.Binary64
