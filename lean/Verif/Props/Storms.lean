import Verif.Model.Storms
import Verif.Props.Profiles
/-!
C158: a storm is set up as described by its pressures, radius and maximum wind.
-/
namespace Tcrm.Storms

open Real Tcrm.Units

theorem convert_hPa (p : ℝ) : convert p "hPa" "Pa" = 100 * p := by
  have : lookup "hPa" "Pa" = some (100, 0) := by decide +kernel
  simp [convert, scale, standardName, pre, post, this]
  ring

theorem convert_Pa (p : ℝ) : convert p "Pa" "hPa" = p / 100 := by
  have : lookup "Pa" "hPa" = some (0.01, 0) := by decide +kernel
  simp [convert, scale, standardName, pre, post, this]
  norm_num
  ring

/-- A pressure of `p` hPa, given as a number of hPa or of Pa. -/
def Gives (x p : ℝ) : Prop := x = p ∨ x = 100 * p

theorem toPa_gives {x p : ℝ} (h : Gives x p) (h1 : 100 ≤ p) (h2 : p < 10000) : toPa x = 100 * p := by
  unfold toPa
  rcases h with rfl | rfl
  · rw [if_pos h2, convert_hPa]
  · rw [if_neg (by linarith)]

theorem toPa_again {p : ℝ} (h1 : 100 ≤ p) : toPa (100 * p) = 100 * p := if_neg (by linarith)

/-- C158: for pressures from 100 to 10000 hPa, each given in hPa or in Pa, the profile is the same, with the pressures in
Pa; so are its maximum wind and all its winds, which are those of a density of air of 1.15 kg/m³. -/
theorem C158_units (speed : SpeedModel) (lat e c rMax beta x y : ℝ) (he : 100 ≤ e) (he' : e < 10000) (hc : 100 ≤ c)
    (hc' : c < 10000) (hx : Gives x e) (hy : Gives y c) :
    create speed lat x y rMax beta = create speed lat e c rMax beta ∧
      (create speed lat x y rMax beta).eP = 100 * e ∧ (create speed lat x y rMax beta).cP = 100 * c ∧
      ∀ v, storm (create speed lat x y rMax beta) v =
        { f := Profiles.coriolis lat, dP := 100 * (e - c), rMax := rMax, rho := 1.15, beta := beta, vMax := v } := by
  have h1 := toPa_gives hx he he'
  have h2 := toPa_gives hy hc hc'
  have h3 := toPa_gives (.inl rfl : Gives e e) he he'
  have h4 := toPa_gives (.inl rfl : Gives c c) hc hc'
  refine ⟨by simp [create, h1, h2, h3, h4], h1, h2, fun v => ?_⟩
  simp only [storm, create, h1, h2, mul_sub]

/-- C158: the maximum wind, by each of the three models, in terms of the pressures in hPa. -/
theorem C158_maximum (lat e c rMax beta x y : ℝ) (he : 100 ≤ e) (he' : e < 10000) (hc : 100 ≤ c)
    (hc' : c < 10000) (hx : Gives x e) (hy : Gives y c) :
    (c ≤ e → vMax (create .willoughby lat x y rMax beta) = some (6.252 * √(e - c))) ∧
    (c ≤ e → 0 ≤ beta → vMax (create .holland lat x y rMax beta) = some (10 * √(beta * (e - c) / (exp 1 * 1.15)))) ∧
    (c ≤ 1010 → vMax (create .atkinson lat x y rMax beta) = some (3.04 * (1010 - c) ^ (0.644 : ℝ))) := by
  have h1 := toPa_gives hx he he'
  have h2 := toPa_gives hy hc hc'
  have h100 : √(100 : ℝ) = 10 := by rw [show (100 : ℝ) = 10 ^ 2 by norm_num]; exact sqrt_sq (by norm_num)
  refine ⟨fun h => ?_, fun h hb => ?_, fun h => ?_⟩
  · simp only [vMax, create, maximum, h1, h2, toPa_again he, toPa_again hc]
    rw [if_neg (by linarith), show 100 * e - 100 * c = 100 * (e - c) by ring, sqrt_mul (by norm_num), h100]
    norm_num; ring
  · simp only [vMax, create, maximum, h1, h2, toPa_again he, toPa_again hc]
    have hq : 0 ≤ beta * (e - c) / (exp 1 * 1.15) := by
      have := exp_pos (1 : ℝ)
      exact div_nonneg (mul_nonneg hb (by linarith)) (by positivity)
    rw [show beta * (100 * e - 100 * c) / (exp 1 * 1.15) = 100 * (beta * (e - c) / (exp 1 * 1.15)) by ring,
      if_neg (by linarith), sqrt_mul (by norm_num), h100]
  · simp only [vMax, create, maximum, h1, h2, toPa_again he, toPa_again hc, convert_Pa]
    rw [show 100 * c / 100 = c by ring, if_neg (by linarith)]

/-- C158: a storm with a central pressure above that of its environment has no maximum wind: the models by pressure
difference raise an exception. -/
theorem C158_no_storm (lat e c rMax beta x y : ℝ) (he : 100 ≤ e) (he' : e < 10000) (hc : 100 ≤ c)
    (hc' : c < 10000) (hx : Gives x e) (hy : Gives y c) (h : e < c) :
    vMax (create .willoughby lat x y rMax beta) = none ∧
      (0 < beta → vMax (create .holland lat x y rMax beta) = none) := by
  have h1 := toPa_gives hx he he'
  have h2 := toPa_gives hy hc hc'
  refine ⟨?_, fun hb => ?_⟩
  · simp only [vMax, create, maximum, h1, h2, toPa_again he, toPa_again hc]
    rw [if_pos (by linarith)]
  · simp only [vMax, create, maximum, h1, h2, toPa_again he, toPa_again hc]
    rw [if_pos]
    have := exp_pos (1 : ℝ)
    apply div_neg_of_neg_of_pos _ (by positivity)
    nlinarith

/-- C158: the lower the central pressure the stronger the maximum wind, by every model. -/
theorem C158_deeper (speed : SpeedModel) (lat e c c' rMax beta v v' : ℝ) (he : 100 ≤ e) (he' : e < 10000) (hc : 100 ≤ c)
    (hlt : c < c') (hce : c' ≤ e) (hc1 : c' ≤ 1010) (hb : 0 < beta)
    (hv : vMax (create speed lat e c rMax beta) = some v) (hv' : vMax (create speed lat e c' rMax beta) = some v') :
    v' < v := by
  have hx : Gives e e := .inl rfl
  obtain ⟨a1, a2, a3⟩ := C158_maximum lat e c rMax beta e c he he' hc (by linarith) hx (.inl rfl)
  obtain ⟨b1, b2, b3⟩ := C158_maximum lat e c' rMax beta e c' he he' (by linarith) (by linarith) hx (.inl rfl)
  cases speed with
  | willoughby =>
    rw [a1 (by linarith)] at hv
    rw [b1 hce] at hv'
    cases hv; cases hv'
    have := sqrt_lt_sqrt (show 0 ≤ e - c' by linarith) (show e - c' < e - c by linarith)
    linarith
  | holland =>
    rw [a2 (by linarith) hb.le] at hv
    rw [b2 hce hb.le] at hv'
    cases hv; cases hv'
    have hE := exp_pos (1 : ℝ)
    have h0 : 0 ≤ beta * (e - c') / (exp 1 * 1.15) := div_nonneg (mul_nonneg hb.le (by linarith)) (by positivity)
    have h1 : beta * (e - c') / (exp 1 * 1.15) < beta * (e - c) / (exp 1 * 1.15) := by
      apply div_lt_div_of_pos_right _ (by positivity)
      nlinarith
    have := sqrt_lt_sqrt h0 h1
    linarith
  | atkinson =>
    rw [a3 (by linarith)] at hv
    rw [b3 hc1] at hv'
    cases hv; cases hv'
    have := rpow_lt_rpow (show 0 ≤ 1010 - c' by linarith) (show 1010 - c' < 1010 - c by linarith)
      (show (0 : ℝ) < 0.644 by norm_num)
    linarith

/-- C158 (part): a maximum wind that is set is used, unless it is 0. -/
theorem C158_set_partial (p : Profile) (v : ℝ) (hv : v ≠ 0) : vMax (setVMax p v) = some v := by
  simp [vMax, setVMax, hv]

/-- C158 (the failure): a maximum wind of 0 that is set is not used, but the one from the pressures. -/
theorem C158_zero_fails (p : Profile) : vMax (setVMax p 0) = maximum p := by
  show (if (0 : ℝ) ≠ 0 then _ else maximum (setVMax p 0)) = _
  rw [if_neg (by simp)]
  rfl

/-- C158 (the failure): the radius of maximum wind is documented to be in kilometres, but taken in the unit of the
distances, metres. Given as documented, at the distance of the radius there is less than two thousandths of the maximum
wind (Jelesnianski's profile), which is found as many metres from the centre. -/
theorem C158_radius_fails (speed : SpeedModel) (lat e c r beta v : ℝ) (hr : 0 < r) (hv : 0 < v)
    (hf : Profiles.coriolis lat ≠ 0) :
    |Profiles.jelesnianski (storm (create speed lat e c r beta) v) (1000 * r)| < 2 / 1000 * v ∧
      |Profiles.jelesnianski (storm (create speed lat e c r beta) v) r| = v := by
  have hs : |sign (Profiles.coriolis lat)| = 1 := by
    rcases lt_or_gt_of_ne hf with h | h
    · rw [sign_of_neg h]; norm_num
    · rw [sign_of_pos h]; norm_num
  constructor
  · simp only [Profiles.jelesnianski, storm, create, abs_mul, hs, one_mul]
    rw [show 2 * v * r * (1000 * r) / (r ^ 2 + (1000 * r) ^ 2) = 2000 / 1000001 * v by field_simp; ring,
      abs_of_pos (by positivity)]
    nlinarith
  · simp only [Profiles.jelesnianski, storm, create, abs_mul, hs, one_mul]
    rw [show 2 * v * r * r / (r ^ 2 + r ^ 2) = v by field_simp; ring, abs_of_pos hv]

/-- A storm of 950 hPa in 1010 hPa, its pressures given in different units. -/
example : create .willoughby (-15) 101000 950 30000 1.3 = create .willoughby (-15) 1010 95000 30000 1.3 ∧
    Gives 101000 1010 ∧ Gives 950 950 := by
  have h1 := C158_units .willoughby (-15) 1010 950 30000 1.3 101000 950 (by norm_num) (by norm_num) (by norm_num)
    (by norm_num) (.inr (by norm_num)) (.inl rfl)
  have h2 := C158_units .willoughby (-15) 1010 950 30000 1.3 1010 95000 (by norm_num) (by norm_num) (by norm_num)
    (by norm_num) (.inl rfl) (.inr (by norm_num))
  exact ⟨h1.1.trans h2.1.symm, .inr (by norm_num), .inl rfl⟩

example : vMax (create .willoughby (-15) 1010 910 30000 1.3) = some 62.52 := by
  rw [(C158_maximum (-15) 1010 910 30000 1.3 1010 910 (by norm_num) (by norm_num) (by norm_num) (by norm_num) (.inl rfl)
    (.inl rfl)).1 (by norm_num), show (1010 - 910 : ℝ) = 10 ^ 2 by norm_num, sqrt_sq (by norm_num)]
  norm_num

end Tcrm.Storms
