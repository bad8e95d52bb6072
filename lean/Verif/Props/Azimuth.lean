import Mathlib.Analysis.Real.Pi.Irrational
import Mathlib.Tactic.NormNum.RealSqrt
import Verif.Props.Sphere
/-!
C98: bearing and length of the legs of a track. C99: the distance from a line.
-/
namespace Tcrm.Sphere
open Real
open Tcrm.Boundary (atan2)

theorem theta2bearing_cos (t : ℝ) : cos (Angles.theta2bearing t) = sin t ∧ sin (Angles.theta2bearing t) = cos t := by
  unfold Angles.theta2bearing Angles.mod2pi
  rw [cos_sub_int_mul_two_pi, sin_sub_int_mul_two_pi,
    show 2 * π - (t - π / 2) = (π / 2 - t) + (1 : ℤ) * (2 * π) by push_cast; ring, cos_add_int_mul_two_pi,
    sin_add_int_mul_two_pi, cos_pi_div_two_sub, sin_pi_div_two_sub]
  exact ⟨rfl, rfl⟩

/-- C98. The bearing (plus the azimuth of the chosen axis) and the length together are the displacement between two
consecutive positions: northward the difference in latitude, eastward the difference in longitude on the parallel of
the second position. -/
theorem C98_displacement (lat1 lon1 lat2 lon2 ieast azimuth : ℝ) :
    (latLon2Azi lat1 lon1 lat2 lon2 ieast azimuth).2 *
      cos (((latLon2Azi lat1 lon1 lat2 lon2 ieast azimuth).1 + azimuth) * π / 180) =
        6367 * ((lat2 - lat1) * π / 180) ∧
    (latLon2Azi lat1 lon1 lat2 lon2 ieast azimuth).2 *
      sin (((latLon2Azi lat1 lon1 lat2 lon2 ieast azimuth).1 + azimuth) * π / 180) =
        ieast * 6367 * ((lon2 - lon1) * π / 180) * cos (lat2 * π / 180) := by
  simp only [latLon2Azi, xy2r]
  set p := latLon2XY 0 0 lat1 lon1 lat2 lon2 ieast azimuth with hp
  set B := Angles.theta2bearing (atan2 p.1 p.2) with hB
  have e : (deg B + azimuth) * π / 180 = B + rad azimuth := by
    have := rad_deg B
    unfold rad at this ⊢
    linear_combination this
  rw [e, cos_add, sin_add]
  obtain ⟨b1, b2⟩ := theta2bearing_cos (atan2 p.1 p.2)
  rw [← hB] at b1 b2
  rw [b1, b2]
  have n1 := norm_cos_atan2 p.1 p.2
  have n2 := norm_sin_atan2 p.1 p.2
  rw [show p.2 ^ 2 + p.1 ^ 2 = p.1 ^ 2 + p.2 ^ 2 by ring] at n1 n2
  have g := sin_sq_add_cos_sq (rad azimuth)
  have p1 : p.1 = radius * (rad lat2 - rad lat1) * cos (rad azimuth) +
      ieast * radius * (rad lon2 - rad lon1) * cos (rad lat2) * sin (rad azimuth) := by
    simp [hp, latLon2XY]
  have p2 : p.2 = -(radius * (rad lat2 - rad lat1)) * sin (rad azimuth) +
      ieast * radius * (rad lon2 - rad lon1) * cos (rad lat2) * cos (rad azimuth) := by
    simp [hp, latLon2XY]
  have r1 : 6367 * ((lat2 - lat1) * π / 180) = radius * (rad lat2 - rad lat1) := by unfold radius rad; ring
  have r2 : ieast * 6367 * ((lon2 - lon1) * π / 180) * cos (lat2 * π / 180) =
      ieast * radius * (rad lon2 - rad lon1) * cos (rad lat2) := by unfold radius rad; ring
  rw [r1, r2]
  generalize radius * (rad lat2 - rad lat1) = N at *
  generalize ieast * radius * (rad lon2 - rad lon1) * cos (rad lat2) = E at *
  constructor
  · linear_combination cos (rad azimuth) * n2 - sin (rad azimuth) * n1 + cos (rad azimuth) * p1 -
      sin (rad azimuth) * p2 + N * g
  · linear_combination cos (rad azimuth) * n1 + sin (rad azimuth) * n2 + cos (rad azimuth) * p2 +
      sin (rad azimuth) * p1 + E * g

theorem mod2pi_range (x : ℝ) : 0 ≤ Angles.mod2pi x ∧ Angles.mod2pi x < 2 * π := by
  unfold Angles.mod2pi
  have h1 := Int.floor_le (x / (2 * π))
  have h2 := Int.lt_floor_add_one (x / (2 * π))
  have hp : (0 : ℝ) < 2 * π := by positivity
  rw [le_div_iff₀ hp] at h1
  rw [div_lt_iff₀ hp] at h2
  constructor <;> linarith

/-- C98. The bearing lies in [0, 360), the length is not negative. -/
theorem C98_range (lat1 lon1 lat2 lon2 ieast azimuth : ℝ) :
    0 ≤ (latLon2Azi lat1 lon1 lat2 lon2 ieast azimuth).1 ∧ (latLon2Azi lat1 lon1 lat2 lon2 ieast azimuth).1 < 360 ∧
    0 ≤ (latLon2Azi lat1 lon1 lat2 lon2 ieast azimuth).2 := by
  simp only [latLon2Azi, xy2r]
  obtain ⟨h1, h2⟩ := mod2pi_range
    (2 * π - (atan2 (latLon2XY 0 0 lat1 lon1 lat2 lon2 ieast azimuth).1 (latLon2XY 0 0 lat1 lon1 lat2 lon2 ieast azimuth).2 - π / 2))
  refine ⟨?_, ?_, sqrt_nonneg _⟩
  · unfold deg Angles.theta2bearing
    exact div_nonneg (mul_nonneg h1 (by norm_num)) pi_pos.le
  · unfold deg Angles.theta2bearing
    rw [div_lt_iff₀ pi_pos]
    linarith

/-- C98. No information is lost: two tracks that start at the same position and have the same bearings and lengths
are the same track, as long as they stay away from the poles. -/
theorem C98_injective {ieast azimuth : ℝ} (hi : ieast ≠ 0) : ∀ (a b : List (ℝ × ℝ)), a.head? = b.head? →
    (∀ p ∈ a, |p.1| < 90) → (∀ p ∈ b, |p.1| < 90) → a.length = b.length →
    azimuths ieast azimuth a = azimuths ieast azimuth b → a = b
  | [], [], _, _, _, _, _ => rfl
  | [], _ :: _, _, _, _, hl, _ => by simp at hl
  | _ :: _, [], _, _, _, hl, _ => by simp at hl
  | [p], [q], h, _, _, _, _ => by simpa using h
  | [_], _ :: _ :: _, _, _, _, hl, _ => by simp at hl
  | _ :: _ :: _, [_], _, _, _, hl, _ => by simp at hl
  | p :: p' :: a, q :: q' :: b, h, ha, hb, hl, he => by
    have hpq : p = q := by simpa using h
    subst hpq
    simp only [azimuths, List.cons.injEq] at he
    obtain ⟨h1, h2⟩ := he
    obtain ⟨d1, d2⟩ := C98_displacement p.1 p.2 p'.1 p'.2 ieast azimuth
    obtain ⟨d3, d4⟩ := C98_displacement p.1 p.2 q'.1 q'.2 ieast azimuth
    rw [h1] at d1 d2
    have e1 : p'.1 = q'.1 := by
      have := d1.symm.trans d3
      have h3 : (p'.1 - p.1) * π / 180 = (q'.1 - p.1) * π / 180 := by linarith
      have h4 : (p'.1 - p.1) * π = (q'.1 - p.1) * π := by linarith
      have := mul_right_cancel₀ pi_ne_zero h4
      linarith
    have e2 : p'.2 = q'.2 := by
      have := d2.symm.trans d4
      rw [e1] at this
      have hc : cos (q'.1 * π / 180) ≠ 0 := (cos_rad_pos (hb q' (by simp))).ne'
      have h3 := mul_right_cancel₀ hc this
      have h4 : (p'.2 - p.2) * π / 180 = (q'.2 - p.2) * π / 180 := by
        apply mul_left_cancel₀ (mul_ne_zero hi (by norm_num : (6367 : ℝ) ≠ 0)) h3
      have h5 : (p'.2 - p.2) * π = (q'.2 - p.2) * π := by linarith
      have := mul_right_cancel₀ pi_ne_zero h5
      linarith
    have e : p' = q' := Prod.ext e1 e2
    subst e
    congr 1
    exact C98_injective hi (p' :: a) (p' :: b) rfl (fun x hx => ha x (List.mem_cons_of_mem _ hx))
      (fun x hx => hb x (List.mem_cons_of_mem _ hx)) (by simpa using hl) h2

example : (1 : ℝ) ≠ 0 ∧ ∀ p ∈ [((-10 : ℝ), (150 : ℝ)), (-11, 149), (-12, 148)], |p.1| < 90 := by
  refine ⟨one_ne_zero, ?_⟩
  intro p hp
  simp only [List.mem_cons, List.not_mem_nil, or_false] at hp
  rcases hp with rfl | rfl | rfl <;> norm_num

/-- C98. One leg for every pair of consecutive positions -/
theorem C98_legs (ieast azimuth : ℝ) (ps : List (ℝ × ℝ)) : (azimuths ieast azimuth ps).length = ps.length - 1 ∧
    ∀ (i : Nat) (p q : ℝ × ℝ), ps[i]? = some p → ps[i + 1]? = some q →
      (azimuths ieast azimuth ps)[i]? = some (latLon2Azi p.1 p.2 q.1 q.2 ieast azimuth) := by
  induction ps with
  | nil => exact ⟨rfl, by simp⟩
  | cons x rest ih =>
    match rest, ih with
    | [], _ => exact ⟨rfl, by intro i p q h1 h2; simp at h2⟩
    | y :: rest, ⟨ih1, ih2⟩ =>
      refine ⟨by simp only [azimuths, List.length_cons, ih1]; simp, ?_⟩
      intro i p q h1 h2
      cases i with
      | zero =>
        simp only [List.getElem?_cons_zero, Option.some.injEq] at h1
        simp only [Nat.zero_add, List.getElem?_cons_succ, List.getElem?_cons_zero, Option.some.injEq] at h2
        subst h1 h2
        simp [azimuths]
      | succ i =>
        simp only [List.getElem?_cons_succ] at h1 h2
        simp only [azimuths, List.getElem?_cons_succ]
        exact ih2 i p q h1 (by simpa using h2)

theorem length_eq (lat1 lon1 lat2 lon2 : ℝ) : (latLon2Azi lat1 lon1 lat2 lon2 1 0).2 =
    √((6367 * (rad lat2 - rad lat1)) ^ 2 + (6367 * (rad lon2 - rad lon1) * cos (rad lat2)) ^ 2) := by
  have z : rad 0 = 0 := by unfold rad; ring
  simp [latLon2Azi, xy2r, latLon2XY, z, radius]

/-- C98. Along a meridian the length is the distance over the surface of the earth. -/
theorem C98_meridian (lat1 lat2 lon : ℝ) (h1 : |lat1| ≤ 90) (h2 : |lat2| ≤ 90) :
    (latLon2Azi lat1 lon lat2 lon 1 0).2 = surface (position lon lat1) (position lon lat2) := by
  rw [length_eq, surface, angle_position, sub_self, cos_zero, mul_one]
  have e : sin (rad lat1) * sin (rad lat2) + cos (rad lat1) * cos (rad lat2) = cos (|rad lat2 - rad lat1|) := by
    rw [cos_abs, cos_sub]; ring
  rw [e, arccos_cos (abs_nonneg _)]
  · rw [mul_zero, zero_mul, zero_pow two_ne_zero, add_zero, sqrt_sq_eq_abs, abs_mul, abs_of_nonneg (by norm_num : (0 : ℝ) ≤ 6367)]
  · obtain ⟨a1, a2⟩ := abs_le.1 h1
    obtain ⟨b1, b2⟩ := abs_le.1 h2
    rw [abs_le]
    unfold rad
    constructor <;> nlinarith [pi_pos]

example : |(-10 : ℝ)| ≤ 90 ∧ |(-12 : ℝ)| ≤ 90 := by norm_num

theorem rad_zero : rad 0 = 0 := by unfold rad; ring
theorem rad_sixty : rad 60 = π / 3 := by unfold rad; ring

/-- C98 fails: the length of a leg depends on the direction it is walked, here between (0, 0) and (60 N, 60 E). -/
theorem C98_reverse_fails : (latLon2Azi 0 0 60 60 1 0).2 ≠ (latLon2Azi 60 60 0 0 1 0).2 := by
  rw [length_eq, length_eq, rad_zero, rad_sixty, cos_zero, cos_pi_div_three]
  intro h
  rw [sqrt_inj (by positivity) (by positivity)] at h
  have := pi_pos
  nlinarith [mul_pos this this]

/-- C98 fails: a step of one degree along the equator across longitude 0 is measured as a step of 359 degrees. -/
theorem C98_dateline_fails : (latLon2Azi 0 359.5 0 0.5 1 0).2 = 6367 * (359 * π / 180) ∧
    surface (position 359.5 0) (position 0.5 0) = 6367 * (π / 180) := by
  constructor
  · rw [length_eq, rad_zero, cos_zero, sub_self, mul_zero, zero_pow two_ne_zero, zero_add, mul_one,
      sqrt_sq_eq_abs, show 6367 * (rad 0.5 - rad 359.5) = -(6367 * (359 * π / 180)) by unfold rad; ring, abs_neg,
      abs_of_nonneg (by positivity)]
  · rw [surface, angle_position, rad_zero, sin_zero, cos_zero,
      show rad 359.5 - rad 0.5 = -(π / 180) + (1 : ℤ) * (2 * π) by unfold rad; push_cast; ring,
      cos_add_int_mul_two_pi, cos_neg, show (0 : ℝ) * 0 + 1 * 1 * cos (π / 180) = cos (π / 180) by ring,
      arccos_cos (by positivity) (by linarith [pi_pos])]

/-- C98 fails: the length of the leg is not the distance the position was moved by: half of a half circle to the
north-east from (0, 0) is measured as shorter. -/
theorem C98_roundtrip_fails :
    (latLon2Azi 0 0 (bear2LatLon 45 (6367 * (π / 2)) 0 0).2 (bear2LatLon 45 (6367 * (π / 2)) 0 0).1 1 0).2 ≠
      6367 * (π / 2) := by
  have r45 : rad 45 = π / 4 := by unfold rad; ring
  have hd : (6367 : ℝ) * (π / 2) / 6367 = π / 2 := by field_simp
  have h2 : (√2 : ℝ) ^ 2 = 2 := sq_sqrt (by norm_num)
  have hs : arcsin (√2 / 2) = π / 4 := by
    rw [← sin_pi_div_four, arcsin_sin] <;> linarith [pi_pos]
  have e2 : (bear2LatLon 45 (6367 * (π / 2)) 0 0).2 = deg (π / 4) := by
    simp [bear2LatLon, rad_zero, r45, radius, hd, hs]
  have e1 : (bear2LatLon 45 (6367 * (π / 2)) 0 0).1 = deg (π / 2) := by
    simp only [bear2LatLon, rad_zero, r45, radius, hd]
    simp only [sin_zero, cos_zero, sin_pi_div_two, cos_pi_div_two, sin_pi_div_four, cos_pi_div_four]
    have : atan2 (√2 / 2 * 1 * 1) (0 - 0 * sin (arcsin (0 * 0 + 1 * 1 * (√2 / 2)))) = π / 2 := by
      have := atan2_polar (r := √2 / 2) (t := π / 2) (by positivity) (by linarith [pi_pos]) (by linarith [pi_pos])
      rw [sin_pi_div_two, cos_pi_div_two] at this
      simpa using this
    rw [this, zero_add]
  rw [length_eq, e1, e2, rad_deg, rad_deg, rad_zero, cos_pi_div_four]
  intro h
  have := congrArg (fun x => x ^ 2) h
  beta_reduce at this
  rw [sq_sqrt (by positivity)] at this
  have hp := pi_pos
  have : (6367 : ℝ) ^ 2 * π ^ 2 * (1 / 16 + (√2) ^ 2 / 16 - 1 / 4) = 0 := by linear_combination this
  rw [h2] at this
  have hne : (6367 : ℝ) ^ 2 * π ^ 2 * (1 / 16 + 2 / 16 - 1 / 4) ≠ 0 := by
    have : (0:ℝ) < π ^ 2 := by positivity
    apply mul_ne_zero (mul_ne_zero (by norm_num) this.ne') (by norm_num)
  exact hne this

/-- C99 fails: the distance from a line can be had only for grids of one or two latitudes, … -/
theorem C99_shape_fails (cLon1 cLat1 cLon2 cLat2 : ℝ) (lons lats : List ℝ) (units : String) :
    (lats.length ≠ 1 → lats.length ≠ 2 → dist2GC cLon1 cLat1 cLon2 cLat2 lons lats units = .error .broadcast) ∧
    (lats.length = 1 → ∃ r0 r1, dist2GC cLon1 cLat1 cLon2 cLat2 lons lats units = .ok [r0, r1]) := by
  constructor
  · intro h1 h2
    match lats, h1, h2 with
    | [], _, _ => simp [dist2GC, gridLatLonBear, withColumn]
    | [_], h, _ => simp at h
    | [_, _], _, h => simp at h
    | _ :: _ :: _ :: _, _, _ => simp [dist2GC, gridLatLonBear, withColumn]
  · intro h1
    match lats, h1 with
    | [a], _ => simp [dist2GC, gridLatLonBear, withColumn, withRows, gridLatLonDist]

theorem sin_ninety_ne : sin (90 : ℝ) ≠ 0 := by
  rw [Ne, sin_eq_zero_iff]
  rintro ⟨n, hn⟩
  apply irrational_pi
  have hn0 : (n : ℝ) ≠ 0 := by
    intro h
    rw [h, zero_mul] at hn
    norm_num at hn
  refine ⟨(90 : ℚ) / n, ?_⟩
  push_cast
  rw [← hn]
  field_simp

/-- … and there it is wrong: with the line from (0, 0) to 10 N on the meridian 0, a point of that very line is
reported at a distance other than zero. -/
theorem C99_value_fails : ∃ x y : ℝ, dist2GC 0 0 0 10 [0] [1, 2] "rad" = .ok [[x], [y]] ∧ x ≠ 0 := by
  have hl : latLon2Azi 0 0 0 10 1 0 = (90, 6367 * (π / 18)) := by
    have e : latLon2XY 0 0 0 0 0 10 1 0 = (0, 6367 * (π / 18)) := by
      simp [latLon2XY, rad_zero, radius]
      unfold rad; ring
    have a0 : atan2 0 (6367 * (π / 18)) = 0 := by
      have := atan2_polar (r := 6367 * (π / 18)) (t := 0) (by positivity) (by linarith [pi_pos]) (by linarith [pi_pos])
      simpa using this
    have hb : Angles.theta2bearing 0 = π / 2 := by
      unfold Angles.theta2bearing Angles.mod2pi
      have : ⌊(2 * π - (0 - π / 2)) / (2 * π)⌋ = 1 := by
        have : (2 * π - (0 - π / 2)) / (2 * π) = 5 / 4 := by field_simp; ring
        rw [this]; norm_num
      rw [this]; push_cast; ring
    simp only [latLon2Azi, e, a0, hb, xy2r]
    refine Prod.ext ?_ ?_
    · unfold deg; field_simp; norm_num
    · simp only
      rw [zero_pow two_ne_zero, zero_add, sqrt_sq (by positivity)]
  have r1 : rad 1 = π / 180 := by unfold rad; ring
  have b1 : pointBear 0 0 0 1 = 0 := by
    simp only [pointBear, rad_zero, r1, sub_self, sin_zero, cos_zero, zero_mul, one_mul, sub_zero]
    have s : 0 < sin (π / 180) := sin_pos_of_pos_of_lt_pi (by positivity) (by linarith [pi_pos])
    have := atan2_polar (r := sin (π / 180)) (t := 0) s (by linarith [pi_pos]) (by linarith [pi_pos])
    simpa using this
  have d1 : pointDist 0 0 0 1 = 6367 * (π / 180) := by
    rw [pointDist_eq, ← C98_meridian 0 1 0 (by norm_num) (by norm_num), length_eq, rad_zero, r1]
    simp only [sub_zero, mul_zero, zero_mul]
    rw [zero_pow two_ne_zero, add_zero, sqrt_sq (by positivity)]
  have hc : ∀ x : ℝ, Units.convert x "rad" "rad" = x := by intro x; simp [Units.convert]
  simp only [dist2GC, gridLatLonDist, gridLatLonBear, List.map_cons, List.map_nil, withColumn, withRows, hl, b1, d1,
    List.zipWith_cons_cons, List.zipWith_nil_left, hc]
  refine ⟨_, _, rfl, ?_⟩
  rw [Ne, arcsin_eq_zero_iff, zero_sub, sin_neg]
  have hk : Units.convert (6367 * (π / 180)) "km" "rad" = 6367 * (π / 180) * 0.0001570783 := by
    have l : Units.lookup "km" "rad" = some (0.0001570783, 0) := by decide +kernel
    have n : Units.standardName "km" = "km" := by decide +kernel
    have q : Units.pre "km" "rad" = 0 := by decide +kernel
    have q' : Units.post "km" "rad" = 0 := by decide +kernel
    have ne : ¬ ("km" = "rad") := by decide
    rw [Units.convert, if_neg ne, n, q, q', Units.scale, l]
    norm_num
  rw [hk]
  have s : 0 < sin (6367 * (π / 180) * 0.0001570783) := by
    apply sin_pos_of_pos_of_lt_pi (by positivity)
    nlinarith [pi_pos]
  intro h
  rcases mul_eq_zero.1 h with h | h
  · exact s.ne' h
  · exact sin_ninety_ne (neg_eq_zero.1 h)

/-- C99: what is computed for a grid of one latitude: two rows, the first the cross-track distance `asin(sin d sin
(θ - φ))` with the azimuth of the line in degrees and its longitudes and latitudes exchanged, the second the same with
the length of the line in the place of the azimuth. -/
theorem C99_one_row (cLon1 cLat1 cLon2 cLat2 lat : ℝ) (lons : List ℝ) (units : String) :
    ∃ r0 r1, dist2GC cLon1 cLat1 cLon2 cLat2 lons [lat] units = .ok [r0, r1] ∧
      r0.length = lons.length ∧ r1.length = lons.length ∧
      ∀ (i : ℕ) (lon : ℝ), lons[i]? = some lon →
        r0[i]? = some (Units.convert (arcsin (sin (Units.convert (pointDist cLon1 cLat1 lon lat) "km" "rad") *
          sin (pointBear cLon1 cLat1 lon lat - (latLon2Azi cLon1 cLat1 cLon2 cLat2 1 0).1))) "rad" units) ∧
        r1[i]? = some (Units.convert (arcsin (sin (Units.convert (pointDist cLon1 cLat1 lon lat) "km" "rad") *
          sin (pointBear cLon1 cLat1 lon lat - (latLon2Azi cLon1 cLat1 cLon2 cLat2 1 0).2))) "rad" units) := by
  simp only [dist2GC, gridLatLonDist, gridLatLonBear, List.map_cons, List.map_nil, withColumn, withRows]
  refine ⟨_, _, rfl, by simp, by simp, fun i lon hi => ?_⟩
  constructor <;> simp [List.getElem?_zipWith, hi]

end Tcrm.Sphere
