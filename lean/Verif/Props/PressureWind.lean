import Verif.Model.LoadTrack
import Verif.Spec.PressureWind
import Mathlib.Analysis.SpecialFunctions.Log.Deriv
import Mathlib.Analysis.Complex.ExponentialBounds
import Mathlib.Tactic.LinearCombination
/-!
C129: the wind estimated from the pressures of an observation.
-/
namespace Tcrm.LoadTrack
open Real

/-- Air density at the radius of maximum wind, from latitude and pressure there (intermediate results of
`windOf`) -/
noncomputable def density (lat m : ℝ) : ℝ :=
  let tsurf := 28 - 3 * (|lat| - 10) / 20
  m * 100 / ((tsurf + 273.15) * (1 + 0.81 * (0.9 * (3.802 / m) * exp (17.67 * tsurf / (243.5 + tsurf)))) * 287.04)

/-- The exponent of the pressure profile (intermediate result of `windOf`) -/
noncomputable def shape (lat d dpdt s : ℝ) : ℝ :=
  -0.000044 * d ^ 2 + 0.01 * d + 0.03 * dpdt - 0.014 * |lat| + 0.15 * s ^ (0.6 * (1 - d / 215)) + 1

theorem windOf_eq {gf lat p e dpdt s : ℝ} (hp : 0 < p) (hp' : p < 100000000) (hs' : s < 100000000)
    (hd : e - p ≤ 215) :
    windOf gf lat p (some e) dpdt s =
      gf * √((e - p) * 100 * shape lat (e - p) dpdt s / (density lat (p + (e - p) / 3.7) * exp 1)) := by
  simp only [windOf, shape, density]
  rw [if_neg, if_neg]
  · rintro (h | h | h) <;> linarith
  · rintro ⟨-, h⟩
    have : (e - p) / 215 ≤ 1 := by rw [div_le_one (by norm_num)]; exact hd
    nlinarith

theorem density_pos {lat m : ℝ} (hl : |lat| ≤ 60) (hm : 0 < m) : 0 < density lat m := by
  have hT : 0 < 28 - 3 * (|lat| - 10) / 20 + 273.15 := by linarith
  have := exp_pos (17.67 * (28 - 3 * (|lat| - 10) / 20) / (243.5 + (28 - 3 * (|lat| - 10) / 20)))
  unfold density
  positivity

theorem density_mono {lat m1 m2 : ℝ} (hl : |lat| ≤ 60) (hm : 0 < m1) (h : m1 ≤ m2) :
    density lat m1 ≤ density lat m2 := by
  have hT : 0 < 28 - 3 * (|lat| - 10) / 20 + 273.15 := by linarith
  have he := exp_pos (17.67 * (28 - 3 * (|lat| - 10) / 20) / (243.5 + (28 - 3 * (|lat| - 10) / 20)))
  have hm2 : 0 < m2 := hm.trans_le h
  simp only [density]
  set T := 28 - 3 * (|lat| - 10) / 20 + 273.15
  set K := exp (17.67 * (28 - 3 * (|lat| - 10) / 20) / (243.5 + (28 - 3 * (|lat| - 10) / 20)))
  have hq : 3.802 / m2 ≤ 3.802 / m1 := div_le_div_of_nonneg_left (by norm_num) hm h
  have hden : T * (1 + 0.81 * (0.9 * (3.802 / m2) * K)) * 287.04 ≤ T * (1 + 0.81 * (0.9 * (3.802 / m1) * K)) * 287.04 := by
    gcongr
  refine div_le_div₀ (by positivity) (by linarith) (by positivity) hden

theorem shape_lower {lat d dpdt s : ℝ} (hr : |dpdt| ≤ 5) (hs : 0 ≤ s) :
    -0.000044 * d ^ 2 + 0.01 * d + 0.85 - 0.014 * |lat| ≤ shape lat d dpdt s := by
  have h1 := (abs_le.1 hr).1
  have h2 : 0 ≤ s ^ (0.6 * (1 - d / 215)) := rpow_nonneg hs _
  unfold shape
  linarith

/-- C129: estimated winds are never negative. -/
theorem C129_nonneg (gf lat p : ℝ) (poci : Option ℝ) (dpdt s : ℝ) (hg : 0 ≤ gf) :
    0 ≤ windOf gf lat p poci dpdt s := by
  cases poci with
  | none => exact le_rfl
  | some e =>
    simp only [windOf]
    split
    · exact le_rfl
    · split
      · exact le_rfl
      · exact mul_nonneg hg (sqrt_nonneg _)

/-- C129: an observation without a pressure, or without an environmental pressure, has no wind. -/
theorem C129_missing (gf lat p : ℝ) (poci : Option ℝ) (dpdt s : ℝ) (h : p ≤ 0 ∨ poci = none) :
    windOf gf lat p poci dpdt s = 0 := by
  cases poci with
  | none => rfl
  | some e =>
    have hp : p ≤ 0 := h.resolve_right (by simp)
    simp only [windOf]
    split
    · rfl
    · rw [if_pos (Or.inr (Or.inl hp))]

/-- C129: up to 60 degrees of latitude every pressure deficit up to 215 hPa gives a positive wind. -/
theorem C129_positive {lat p e dpdt s : ℝ} (hl : |lat| ≤ 60) (hp : 600 ≤ p) (hp' : p ≤ 1100) (hd : p < e)
    (hd' : e - p ≤ 215) (hr : |dpdt| ≤ 5) (hs : 0 ≤ s) (hs' : s ≤ 56) :
    0 < windOf 0.9524 lat p (some e) dpdt s := by
  rw [windOf_eq (by linarith) (by linarith) (by linarith) hd']
  have h1 : 0 < density lat (p + (e - p) / 3.7) :=
    density_pos hl (by have : 0 < (e - p) / 3.7 := div_pos (by linarith) (by norm_num); linarith)
  have h2 : 0 < shape lat (e - p) dpdt s := by
    refine lt_of_lt_of_le ?_ (shape_lower hr hs)
    nlinarith [mul_nonneg (sub_nonneg.2 hd.le) (sub_nonneg.2 hd')]
  have h3 : 0 < e - p := by linarith
  have := exp_pos 1
  positivity

/-- C129: the wind of a deficit is the one of Holland (2008), and no other. -/
theorem C129_formula {lat p e dpdt s : ℝ} (hl : |lat| ≤ 60) (hp : 600 ≤ p) (hp' : p ≤ 1100) (hd : p < e)
    (hd' : e - p ≤ 215) (hr : |dpdt| ≤ 5) (hs : 0 ≤ s) (hs' : s ≤ 56) (v : ℝ) :
    windOf 0.9524 lat p (some e) dpdt s = v ↔ Spec.Holland2008 lat p e dpdt s v := by
  rw [windOf_eq (by linarith) (by linarith) (by linarith) hd']
  set m := p + (e - p) / 3.7 with hm
  set T := 28 - 3 * (|lat| - 10) / 20 with hT
  have hm0 : 0 < m := by
    have : 0 < (e - p) / 3.7 := div_pos (by linarith) (by norm_num)
    linarith
  have hT0 : 0 < T + 273.15 := by
    have := abs_nonneg lat
    rw [hT]; linarith
  have hE := exp_pos (17.67 * T / (243.5 + T))
  have h1 : 0 < density lat m := density_pos hl hm0
  have h2 : 0 < shape lat (e - p) dpdt s := by
    refine lt_of_lt_of_le ?_ (shape_lower hr hs)
    nlinarith [mul_nonneg (sub_nonneg.2 hd.le) (sub_nonneg.2 hd')]
  have he := exp_pos 1
  have hq0 : 0 < 1 + 0.81 * (0.9 * (3.802 / m) * exp (17.67 * T / (243.5 + T))) := by positivity
  have hχ : 0.6 * (1 - (e - p) / 215) = 0.6 - 0.6 * (e - p) / 215 := by ring
  have h100 : 0 ≤ (e - p) * 100 * shape lat (e - p) dpdt s / (density lat m * exp 1) := by
    have : 0 < e - p := by linarith
    positivity
  constructor
  · rintro rfl
    refine ⟨T, 0.9 * (3.802 / m) * exp (17.67 * T / (243.5 + T)), density lat m, shape lat (e - p) dpdt s, _, m, ?_, ?_,
      ?_, ?_, ?_, sqrt_nonneg _, ?_, rfl⟩
    · rw [hm]; ring
    · simp only [Spec.SurfaceTemperature, hT]; ring
    · simp only [Spec.MixingRatio]; field_simp
    · simp only [Spec.GasLaw, density]
      rw [← hT]; field_simp
    · simp only [Spec.Exponent, shape, hχ]; ring
    · rw [sq_sqrt h100]; field_simp
  · rintro ⟨T', q, ρ, b, w, m', e1, e2, e3, e4, e5, hw, e6, rfl⟩
    have hm' : m' = m := by
      rw [hm, ← e1]; ring
    have hT' : T' = T := by
      simp only [Spec.SurfaceTemperature] at e2
      rw [hT]; linarith
    rw [hm', hT'] at e3 e4
    have hq : q = 0.9 * (3.802 / m) * exp (17.67 * T / (243.5 + T)) := by
      simp only [Spec.MixingRatio] at e3
      rw [show 0.9 * (3.802 / m) * exp (17.67 * T / (243.5 + T)) = 0.9 * 3.802 * exp (17.67 * T / (243.5 + T)) / m by ring,
        eq_div_iff hm0.ne', e3]
    have hρ : ρ = density lat m := by
      simp only [Spec.GasLaw, hq] at e4
      simp only [density]
      rw [← hT, eq_div_iff (by positivity)]
      linarith
    have hb : b = shape lat (e - p) dpdt s := by
      rw [e5]; simp only [shape, hχ]; ring
    rw [show (e - p) * 100 * shape lat (e - p) dpdt s / (density lat m * exp 1) = w ^ 2 by
      rw [div_eq_iff (by positivity), ← hb, ← hρ]; linarith, sqrt_sq hw]

/-- C129: up to 40 degrees of latitude there is no wind without a deficit (a surplus of at most 25 hPa). -/
theorem C129_no_deficit {lat p e dpdt s : ℝ} (hl : |lat| ≤ 40) (hp : 600 ≤ p) (hp' : p ≤ 1100) (hd : e ≤ p)
    (hd' : p - e ≤ 25) (hr : |dpdt| ≤ 5) (hs : 0 ≤ s) (hs' : s ≤ 56) :
    windOf 0.9524 lat p (some e) dpdt s = 0 := by
  rw [windOf_eq (by linarith) (by linarith) (by linarith) (by linarith)]
  have h1 : 0 < density lat (p + (e - p) / 3.7) :=
    density_pos (by linarith) (by have : -25 ≤ (e - p) / 3.7 := by rw [le_div_iff₀ (by norm_num)]; linarith
                                  linarith)
  have h2 : 0 ≤ shape lat (e - p) dpdt s := by
    refine le_trans ?_ (shape_lower hr hs)
    nlinarith [mul_nonneg (sub_nonneg.2 hd) (sub_nonneg.2 hd')]
  have h3 : (e - p) * 100 * shape lat (e - p) dpdt s / (density lat (p + (e - p) / 3.7) * exp 1) ≤ 0 :=
    div_nonpos_of_nonpos_of_nonneg (by nlinarith) (mul_nonneg h1.le (exp_pos 1).le)
  rw [sqrt_eq_zero_of_nonpos h3, mul_zero]

theorem power_part {s d1 d2 : ℝ} (hs : 0 ≤ s) (hs' : s ≤ 10) (h0 : 0 ≤ d1) (h : d1 ≤ d2) (h2 : d2 ≤ 150) :
    d1 * s ^ (0.6 * (1 - d1 / 215)) ≤ d2 * s ^ (0.6 * (1 - d2 / 215)) := by
  rcases hs.eq_or_lt with rfl | hs
  · have hz : ∀ d : ℝ, d ≤ 150 → (0 : ℝ) ^ (0.6 * (1 - d / 215)) = 0 := fun d hd =>
      zero_rpow (by
        have : d / 215 < 1 := by rw [div_lt_one (by norm_num)]; linarith
        nlinarith)
    rw [hz d1 (by linarith), hz d2 h2, mul_zero, mul_zero]
  · have hlog : log s ≤ 2.34 := by
      have h1 : log s ≤ log 10 := log_le_log hs hs'
      have h3 : log 10 = 3 * log 2 + log (5 / 4) := by
        rw [show (10 : ℝ) = 2 ^ 3 * (5 / 4) by norm_num, log_mul (by norm_num) (by norm_num), log_pow]
        norm_num
      have h4 : log (5 / 4 : ℝ) ≤ 5 / 4 - 1 := log_le_sub_one_of_pos (by norm_num)
      have h5 := log_two_lt_d9
      linarith
    have hfac : s ^ (0.6 * (1 - d2 / 215)) =
        s ^ (0.6 * (1 - d1 / 215)) * exp (-(0.6 * log s / 215 * (d2 - d1))) := by
      rw [rpow_def_of_pos hs, rpow_def_of_pos hs, ← exp_add]
      congr 1
      ring
    rw [hfac]
    have hpos : 0 < s ^ (0.6 * (1 - d1 / 215)) := rpow_pos_of_pos hs _
    have hexp := add_one_le_exp (-(0.6 * log s / 215 * (d2 - d1)))
    have hk : 0.6 * log s / 215 * d2 ≤ 1 := by
      have h1 : log s * d2 ≤ 2.34 * d2 := mul_le_mul_of_nonneg_right hlog (h0.trans h)
      have h2 : 0.6 * log s / 215 * d2 = 0.6 / 215 * (log s * d2) := by ring
      rw [h2]
      nlinarith
    have key : d1 ≤ d2 * exp (-(0.6 * log s / 215 * (d2 - d1))) := by
      have h1 := mul_le_mul_of_nonneg_left hexp (h0.trans h)
      have h3 : 0.6 * log s / 215 * d2 * (d2 - d1) ≤ 1 * (d2 - d1) :=
        mul_le_mul_of_nonneg_right hk (by linarith)
      nlinarith
    calc d1 * s ^ (0.6 * (1 - d1 / 215)) ≤ (d2 * exp (-(0.6 * log s / 215 * (d2 - d1)))) * s ^ (0.6 * (1 - d1 / 215)) :=
          mul_le_mul_of_nonneg_right key hpos.le
      _ = _ := by ring

/-- C129: of two storms with the same environmental pressure, latitude, change of pressure and speed (up to
10 m/s), the deeper one has the stronger wind (deficits up to 150 hPa). -/
theorem C129_deeper_is_stronger {lat p1 p2 e dpdt s : ℝ} (hl : |lat| ≤ 40) (hp : 600 ≤ p2) (h12 : p2 < p1)
    (hp1 : p1 ≤ e) (hp' : p1 ≤ 1100) (hd' : e - p2 ≤ 150) (hr : |dpdt| ≤ 5) (hs : 0 ≤ s) (hs' : s ≤ 10) :
    windOf 0.9524 lat p1 (some e) dpdt s < windOf 0.9524 lat p2 (some e) dpdt s := by
  rw [windOf_eq (by linarith) (by linarith) (by linarith) (by linarith),
    windOf_eq (by linarith) (by linarith) (by linarith) (by linarith)]
  have hm1 : 0 < p1 + (e - p1) / 3.7 := by
    have : 0 ≤ (e - p1) / 3.7 := div_nonneg (by linarith) (by norm_num)
    linarith
  have hm2 : 0 < p2 + (e - p2) / 3.7 := by
    have : 0 ≤ (e - p2) / 3.7 := div_nonneg (by linarith) (by norm_num)
    linarith
  have hmle : p2 + (e - p2) / 3.7 ≤ p1 + (e - p1) / 3.7 := by
    have : (e - p2) / 3.7 - (e - p1) / 3.7 = (p1 - p2) / 3.7 := by ring
    have h3 : (p1 - p2) / 3.7 ≤ p1 - p2 := div_le_self (by linarith) (by norm_num)
    linarith
  have hρ1 := density_pos (lat := lat) (by linarith) hm1
  have hρ2 := density_pos (lat := lat) (by linarith) hm2
  have hρ := density_mono (lat := lat) (by linarith) hm2 hmle
  have e0 : 0 ≤ e - p1 := by linarith
  have e1 : e - p1 < e - p2 := by linarith
  clear hmle hm1 hm2 hp1
  generalize e - p1 = d1 at *
  generalize e - p2 = d2 at *
  have h0 : 0 ≤ d1 := e0
  have hlt : d1 < d2 := e1
  have hpow := power_part hs hs' h0 hlt.le hd'
  have hA : 0.29 ≤ 1 + 0.03 * dpdt - 0.014 * |lat| := by
    have := (abs_le.1 hr).1
    linarith
  have hshape1 : 0 ≤ shape lat d1 dpdt s := by
    refine le_trans ?_ (shape_lower hr hs)
    nlinarith
  have hnum : d1 * shape lat d1 dpdt s < d2 * shape lat d2 dpdt s := by
    have e1 : ∀ d, d * shape lat d dpdt s = d * (-0.000044 * d ^ 2 + 0.01 * d + (1 + 0.03 * dpdt - 0.014 * |lat|)) +
        0.15 * (d * s ^ (0.6 * (1 - d / 215))) := by
      intro d; unfold shape; ring
    rw [e1, e1]
    have hpoly : 0 < (d2 - d1) * ((1 + 0.03 * dpdt - 0.014 * |lat|) + 0.01 * (d1 + d2) -
        0.000044 * (d1 ^ 2 + d1 * d2 + d2 ^ 2)) := by
      apply mul_pos (by linarith)
      have h4 : d1 ^ 2 + d1 * d2 + d2 ^ 2 ≤ 225 * (d1 + d2) := by nlinarith
      linarith
    nlinarith
  have hpos1 : 0 < density lat (p1 + d1 / 3.7) * exp 1 := mul_pos hρ1 (exp_pos 1)
  have hpos2 : 0 < density lat (p2 + d2 / 3.7) * exp 1 := mul_pos hρ2 (exp_pos 1)
  apply mul_lt_mul_of_pos_left _ (by norm_num : (0 : ℝ) < 0.9524)
  apply sqrt_lt_sqrt
  · exact div_nonneg (mul_nonneg (by linarith) hshape1) hpos1.le
  · apply div_lt_div₀ _ (mul_le_mul_of_nonneg_right hρ (exp_pos 1).le) _ hpos2
    · nlinarith
    · have : 0 ≤ d1 * shape lat d1 dpdt s := mul_nonneg h0 hshape1
      nlinarith

/-- A large surplus of pressure counts as wind: an erroneous central pressure of 1090 hPa in an environment
of 1000 hPa. -/
theorem C129_surplus_gives_wind : 0 < windOf 0.9524 20 1090 (some 1000) 0 0 := by
  rw [windOf_eq (by norm_num) (by norm_num) (by norm_num) (by norm_num)]
  have h1 : 0 < density 20 (1090 + (1000 - 1090) / 3.7) := density_pos (by norm_num) (by norm_num)
  have h2 : shape 20 (1000 - 1090) 0 0 < 0 := by
    unfold shape
    rw [zero_rpow (by norm_num), abs_of_pos (by norm_num)]
    norm_num
  have h3 : 0 < (1000 - 1090) * 100 * shape 20 (1000 - 1090) 0 0 / (density 20 (1090 + (1000 - 1090) / 3.7) * exp 1) :=
    div_pos (by nlinarith) (mul_pos h1 (exp_pos 1))
  exact mul_pos (by norm_num) (sqrt_pos.2 h3)

/-- Storms of 980 and 950 hPa at 20 degrees meet the hypotheses. -/
example : Spec.Holland2008 (-20) 980 1010 (-1) 5 (windOf 0.9524 (-20) 980 (some 1010) (-1) 5) :=
  (C129_formula (by norm_num) (by norm_num) (by norm_num) (by norm_num) (by norm_num) (by norm_num) (by norm_num)
    (by norm_num) _).1 rfl

example : windOf 0.9524 (-20) 980 (some 1010) (-1) 5 < windOf 0.9524 (-20) 950 (some 1010) (-1) 5 ∧
    0 < windOf 0.9524 (-20) 980 (some 1010) (-1) 5 ∧ windOf 0.9524 (-20) 1010 (some 1010) (-1) 5 = 0 :=
  ⟨C129_deeper_is_stronger (by norm_num) (by norm_num) (by norm_num) (by norm_num) (by norm_num) (by norm_num)
      (by norm_num) (by norm_num) (by norm_num),
    C129_positive (by norm_num) (by norm_num) (by norm_num) (by norm_num) (by norm_num) (by norm_num) (by norm_num)
      (by norm_num),
    C129_no_deficit (by norm_num) (by norm_num) (by norm_num) (by norm_num) (by norm_num) (by norm_num) (by norm_num)
      (by norm_num)⟩

end Tcrm.LoadTrack
