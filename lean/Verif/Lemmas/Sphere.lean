import Mathlib.Tactic.Linarith
import Mathlib.Tactic.Ring
import Mathlib.Tactic.FieldSimp
import Mathlib.Tactic.FinCases
import Mathlib.Analysis.SpecialFunctions.Trigonometric.Inverse
import Verif.Model.Sphere
import Verif.Spec.Sphere
/-!
Lemmas on positions on the sphere.
-/
namespace Tcrm.Sphere
open Real
open Tcrm.Boundary (atan2)

theorem rad_deg (x : ℝ) : rad (deg x) = x := by
  unfold rad deg
  field_simp [pi_ne_zero]

theorem deg_rad (x : ℝ) : deg (rad x) = x := by
  unfold rad deg
  field_simp [pi_ne_zero]

theorem cos_rad_nonneg {lat : ℝ} (h : |lat| ≤ 90) : 0 ≤ cos (rad lat) := by
  obtain ⟨h1, h2⟩ := abs_le.1 h
  apply cos_nonneg_of_neg_pi_div_two_le_of_le <;> unfold rad <;> nlinarith [pi_pos]

theorem cos_rad_pos {lat : ℝ} (h : |lat| < 90) : 0 < cos (rad lat) := by
  obtain ⟨h1, h2⟩ := abs_lt.1 h
  apply cos_pos_of_mem_Ioo
  constructor <;> unfold rad <;> nlinarith [pi_pos]

theorem norm_mk (x y : ℝ) : ‖(⟨x, y⟩ : ℂ)‖ = √(x ^ 2 + y ^ 2) := by
  rw [Complex.norm_def, Complex.normSq_mk]
  congr 1; ring

theorem norm_cos_atan2 (y x : ℝ) : √(x ^ 2 + y ^ 2) * cos (atan2 y x) = x := by
  have := Complex.norm_mul_cos_arg (⟨x, y⟩ : ℂ)
  rw [norm_mk] at this
  exact this

theorem norm_sin_atan2 (y x : ℝ) : √(x ^ 2 + y ^ 2) * sin (atan2 y x) = y := by
  have := Complex.norm_mul_sin_arg (⟨x, y⟩ : ℂ)
  rw [norm_mk] at this
  exact this

theorem atan2_scale {r : ℝ} (hr : 0 < r) (y x : ℝ) : atan2 (r * y) (r * x) = atan2 y x := by
  unfold atan2
  have : (⟨r * x, r * y⟩ : ℂ) = (r : ℂ) * ⟨x, y⟩ := by
    apply Complex.ext <;> simp
  rw [this, Complex.arg_real_mul _ hr]

/-- The angle of a point given in polar form, for an angle in (-π, π] -/
theorem atan2_polar {r t : ℝ} (hr : 0 < r) (h1 : -π < t) (h2 : t ≤ π) : atan2 (r * sin t) (r * cos t) = t := by
  unfold atan2
  have : (⟨r * cos t, r * sin t⟩ : ℂ) = r * (Complex.cos t + Complex.sin t * Complex.I) := by
    apply Complex.ext <;> simp [Complex.cos_ofReal_re, Complex.sin_ofReal_re]
  rw [this, Complex.arg_mul_cos_add_sin_mul_I hr ⟨h1, h2⟩]

/-- The destination in terms of sines and cosines -/
structure Arrival (φ b δ φ' Δ : ℝ) : Prop where
  up : sin φ' = sin φ * cos δ + cos φ * sin δ * cos b
  along : cos φ' * cos Δ = cos φ * cos δ - sin φ * sin δ * cos b
  across : cos φ' * sin Δ = sin b * sin δ

theorem up_sq (φ b δ : ℝ) : (sin φ * cos δ + cos φ * sin δ * cos b) ^ 2 +
    (cos φ * cos δ - sin φ * sin δ * cos b) ^ 2 + (sin b * sin δ) ^ 2 = 1 := by
  have h1 := sin_sq_add_cos_sq φ
  have h2 := sin_sq_add_cos_sq δ
  have h3 := sin_sq_add_cos_sq b
  linear_combination (cos δ ^ 2 + sin δ ^ 2 * cos b ^ 2) * h1 + sin δ ^ 2 * h3 + h2

theorem arrival {φ : ℝ} (b δ : ℝ) (h : 0 < cos φ) :
    let φ' := arcsin (sin φ * cos δ + cos φ * sin δ * cos b)
    Arrival φ b δ φ' (atan2 (sin b * sin δ * cos φ) (cos δ - sin φ * sin φ')) := by
  intro φ'
  have key := up_sq φ b δ
  have hs : sin φ' = sin φ * cos δ + cos φ * sin δ * cos b := by
    apply sin_arcsin <;> nlinarith [sq_nonneg (cos φ * cos δ - sin φ * sin δ * cos b), sq_nonneg (sin b * sin δ)]
  have hc : 0 ≤ cos φ' := cos_arcsin_nonneg _
  have e1 : sin b * sin δ * cos φ = cos φ * (sin b * sin δ) := by ring
  have e2 : cos δ - sin φ * sin φ' = cos φ * (cos φ * cos δ - sin φ * sin δ * cos b) := by
    rw [hs]
    have h1 := sin_sq_add_cos_sq φ
    linear_combination (-cos δ) * h1
  have hn : √((cos φ * cos δ - sin φ * sin δ * cos b) ^ 2 + (sin b * sin δ) ^ 2) = cos φ' := by
    rw [sqrt_eq_iff_mul_self_eq (by positivity) hc]
    have := sin_sq_add_cos_sq φ'
    rw [hs] at this
    nlinarith
  refine ⟨hs, ?_, ?_⟩
  · rw [e1, e2, atan2_scale h, ← hn]
    exact norm_cos_atan2 _ _
  · rw [e1, e2, atan2_scale h, ← hn]
    exact norm_sin_atan2 _ _

theorem bear2LatLon_arrival {oLat : ℝ} (bearing d oLon : ℝ) (h : |oLat| < 90) :
    Arrival (rad oLat) (rad bearing) (d / radius) (rad (bear2LatLon bearing d oLon oLat).2)
      (rad (bear2LatLon bearing d oLon oLat).1 - rad oLon) := by
  simp only [bear2LatLon, rad_deg, add_sub_cancel_left]
  exact arrival _ _ (cos_rad_pos h)

theorem bear2LatLon_lat (bearing d oLon oLat : ℝ) : |(bear2LatLon bearing d oLon oLat).2| ≤ 90 := by
  simp only [bear2LatLon, deg]
  generalize (sin (rad oLat) * cos (d / radius) + cos (rad oLat) * sin (d / radius) * cos (rad bearing)) = x
  have h1 := neg_pi_div_two_le_arcsin x
  have h2 := arcsin_le_pi_div_two x
  rw [abs_le]
  constructor
  · rw [le_div_iff₀ pi_pos]; linarith
  · rw [div_le_iff₀ pi_pos]; linarith

theorem bear2LatLon_lon (bearing d oLon oLat : ℝ) : |(bear2LatLon bearing d oLon oLat).1 - oLon| ≤ 180 := by
  simp only [bear2LatLon, deg]
  generalize harg : atan2 _ _ = x
  have h1 : -π < x := by rw [← harg]; exact Complex.neg_pi_lt_arg _
  have h2 : x ≤ π := by rw [← harg]; exact Complex.arg_le_pi _
  have e : (rad oLon + x) * 180 / π - oLon = x * 180 / π := by
    unfold rad
    field_simp [pi_ne_zero]
    ring
  rw [e, abs_le]
  constructor
  · rw [le_div_iff₀ pi_pos]; linarith
  · rw [div_le_iff₀ pi_pos]; linarith

theorem inner_position (lon lat lon' lat' : ℝ) : inner ℝ (position lon lat) (position lon' lat') =
    sin (rad lat) * sin (rad lat') + cos (rad lat) * cos (rad lat') * cos (rad lon - rad lon') := by
  simp only [position, rad, PiLp.inner_apply, Fin.sum_univ_three]
  simp
  rw [cos_sub]
  ring

theorem norm_position (lon lat : ℝ) : ‖position lon lat‖ = 1 := by
  have h := inner_position lon lat lon lat
  rw [real_inner_self_eq_norm_sq, sub_self, cos_zero] at h
  have h2 := sin_sq_add_cos_sq (rad lat)
  have : ‖position lon lat‖ ^ 2 = 1 := by rw [h]; nlinarith
  nlinarith [norm_nonneg (position lon lat)]

theorem angle_position (lon lat lon' lat' : ℝ) : InnerProductGeometry.angle (position lon lat) (position lon' lat') =
    arccos (sin (rad lat) * sin (rad lat') + cos (rad lat) * cos (rad lat') * cos (rad lon - rad lon')) := by
  rw [InnerProductGeometry.angle, norm_position, norm_position, inner_position, mul_one, div_one]

theorem hav_inner (lon lat lon' lat' : ℝ) :
    sin ((rad lat' - rad lat) / 2) ^ 2 + cos (rad lat) * cos (rad lat') * sin ((rad lon' - rad lon) / 2) ^ 2 =
      (1 - inner ℝ (position lon lat) (position lon' lat')) / 2 := by
  rw [inner_position, sin_sq_eq_half_sub, sin_sq_eq_half_sub]
  rw [show 2 * ((rad lat' - rad lat) / 2) = rad lat' - rad lat by ring,
    show 2 * ((rad lon' - rad lon) / 2) = rad lon' - rad lon by ring,
    show rad lon - rad lon' = -(rad lon' - rad lon) by ring, cos_neg, cos_sub (rad lat') (rad lat)]
  ring

theorem inner_le_one (lon lat lon' lat' : ℝ) : inner ℝ (position lon lat) (position lon' lat') ≤ 1 := by
  have := real_inner_le_norm (position lon lat) (position lon' lat')
  rwa [norm_position, norm_position, mul_one] at this

theorem neg_one_le_inner (lon lat lon' lat' : ℝ) : -1 ≤ inner ℝ (position lon lat) (position lon' lat') := by
  have := neg_le_of_abs_le (abs_real_inner_le_norm (position lon lat) (position lon' lat'))
  rwa [norm_position, norm_position, mul_one] at this

theorem two_atan2_sqrt {a : ℝ} (h0 : 0 ≤ a) (h1 : a ≤ 1) : 2 * atan2 (√|a|) (√(1 - a)) = arccos (1 - 2 * a) := by
  rw [abs_of_nonneg h0]
  set t := atan2 (√a) (√(1 - a)) with ht
  have n := norm_cos_atan2 (√a) (√(1 - a))
  rw [sq_sqrt h0, sq_sqrt (by linarith), ← ht, show 1 - a + a = 1 by ring, sqrt_one, one_mul] at n
  have t0 : 0 ≤ t := Complex.arg_nonneg_iff.2 (sqrt_nonneg _)
  have tpi : t ≤ π / 2 := by
    have : |t| ≤ π / 2 := Complex.abs_arg_le_pi_div_two_iff.2 (sqrt_nonneg _)
    exact (abs_le.1 this).2
  have hc : cos (2 * t) = 1 - 2 * a := by
    rw [cos_two_mul, n, sq_sqrt (by linarith)]; ring
  rw [← hc, arccos_cos (by linarith) (by linarith)]

theorem pointDist_eq (cLon cLat lon lat : ℝ) :
    pointDist cLon cLat lon lat = surface (position cLon cLat) (position lon lat) := by
  unfold pointDist surface
  simp only
  rw [hav_inner, two_atan2_sqrt, angle_position, ← inner_position, radius]
  · congr 2; ring
  · linarith [inner_le_one cLon cLat lon lat]
  · linarith [neg_one_le_inner cLon cLat lon lat]

end Tcrm.Sphere
