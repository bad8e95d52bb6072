import Verif.Lemmas.Sphere
/-!
C96: moving a position by a bearing and a distance. C97: distances over the sphere.
-/
namespace Tcrm.Sphere
open Real
open Tcrm.Boundary (atan2)

/-- C96. From every starting point other than a pole, for every bearing and every distance, the new position is
the point reached along the great circle that leaves in that direction. -/
theorem C96_destination {oLat : ℝ} (h : |oLat| < 90) (bearing d oLon : ℝ) :
    position (bear2LatLon bearing d oLon oLat).1 (bear2LatLon bearing d oLon oLat).2 = travel bearing d oLon oLat := by
  have A := bear2LatLon_arrival bearing d oLon h
  generalize (bear2LatLon bearing d oLon oLat).2 = nLat at A ⊢
  generalize (bear2LatLon bearing d oLon oLat).1 = nLon at A ⊢
  obtain ⟨a1, a2, a3⟩ := A
  unfold radius rad at a1 a2 a3
  have e : nLon * π / 180 = oLon * π / 180 + (nLon * π / 180 - oLon * π / 180) := by ring
  generalize nLon * π / 180 - oLon * π / 180 = D at a2 a3 e
  ext i
  fin_cases i
  · simp [position, travel, north, east]
    rw [e, cos_add]
    linear_combination (cos (oLon * π / 180)) * a2 - sin (oLon * π / 180) * a3
  · simp [position, travel, north, east]
    rw [e, sin_add]
    linear_combination (sin (oLon * π / 180)) * a2 + cos (oLon * π / 180) * a3
  · simp [position, travel, north, east]
    linear_combination a1

example : |(-15 : ℝ)| < 90 := by norm_num

theorem pointDist_arrival {oLat : ℝ} (h : |oLat| ≤ 90) (bearing d oLon : ℝ) :
    pointDist oLon oLat (bear2LatLon bearing d oLon oLat).1 (bear2LatLon bearing d oLon oLat).2 =
      6367 * arccos (cos (d / 6367)) := by
  rw [pointDist_eq, surface, angle_position]
  rcases h.lt_or_eq with h | h
  · obtain ⟨a1, a2, a3⟩ := bear2LatLon_arrival bearing d oLon h
    congr 2
    rw [show rad oLon - rad (bear2LatLon bearing d oLon oLat).1 =
      -(rad (bear2LatLon bearing d oLon oLat).1 - rad oLon) by ring, cos_neg]
    rw [mul_assoc, a2, a1, radius]
    linear_combination cos (d / 6367) * sin_sq_add_cos_sq (rad oLat)
  · have hc : cos (rad oLat) = 0 ∧ (sin (rad oLat) = 1 ∨ sin (rad oLat) = -1) := by
      rcases eq_or_eq_neg_of_abs_eq h with h | h
      · rw [h, show rad 90 = π / 2 by unfold rad; ring]
        exact ⟨cos_pi_div_two, Or.inl sin_pi_div_two⟩
      · rw [h, show rad (-90) = -(π / 2) by unfold rad; ring, cos_neg, sin_neg]
        exact ⟨cos_pi_div_two, Or.inr (by rw [sin_pi_div_two])⟩
    have hs : sin (rad (bear2LatLon bearing d oLon oLat).2) = sin (rad oLat) * cos (d / 6367) := by
      simp only [bear2LatLon, rad_deg, hc.1, zero_mul, add_zero, radius]
      apply sin_arcsin
      · rcases hc.2 with e | e <;> rw [e] <;> linarith [neg_one_le_cos (d / 6367), cos_le_one (d / 6367)]
      · rcases hc.2 with e | e <;> rw [e] <;> linarith [neg_one_le_cos (d / 6367), cos_le_one (d / 6367)]
    rw [hs, hc.1]
    congr 2
    rcases hc.2 with e | e <;> rw [e] <;> ring

/-- C96. The distance from the old position to the new one is the distance asked for, up to half way around the
earth, … -/
theorem C96_distance {oLat : ℝ} (h : |oLat| ≤ 90) (bearing d oLon : ℝ) (d0 : 0 ≤ d) (dpi : d ≤ π * 6367) :
    gridLatLonDist oLon oLat [(bear2LatLon bearing d oLon oLat).1] [(bear2LatLon bearing d oLon oLat).2] = [[d]] := by
  simp only [gridLatLonDist, List.map_cons, List.map_nil]
  rw [pointDist_arrival h, arccos_cos]
  · congr 2; field_simp
  · positivity
  · rw [div_le_iff₀ (by norm_num)]; exact dpi

example : |(-15 : ℝ)| ≤ 90 ∧ (0 : ℝ) ≤ 25 ∧ (25 : ℝ) ≤ π * 6367 :=
  ⟨by norm_num, by norm_num, by nlinarith [two_le_pi]⟩

theorem bear_arrival {φ b δ φ' Δ : ℝ} (A : Arrival φ b δ φ' Δ) :
    sin Δ * cos φ' = sin δ * sin b ∧ cos φ * sin φ' - sin φ * cos φ' * cos Δ = sin δ * cos b := by
  obtain ⟨a1, a2, a3⟩ := A
  constructor
  · linear_combination a3
  · linear_combination cos φ * a1 - sin φ * a2 + sin δ * cos b * sin_sq_add_cos_sq φ

/-- C96. … and the bearing of the new position from the old one is the bearing asked for. -/
theorem C96_bearing {oLat : ℝ} (h : |oLat| < 90) {bearing d : ℝ} (oLon : ℝ) (d0 : 0 < d) (dpi : d < π * 6367)
    (b0 : -180 < bearing) (b1 : bearing ≤ 180) :
    gridLatLonBear oLon oLat [(bear2LatLon bearing d oLon oLat).1] [(bear2LatLon bearing d oLon oLat).2] =
      [[bearing * π / 180]] := by
  simp only [gridLatLonBear, List.map_cons, List.map_nil, pointBear]
  obtain ⟨e1, e2⟩ := bear_arrival (bear2LatLon_arrival bearing d oLon h)
  rw [e1, e2, radius]
  have s : 0 < sin (d / 6367) := by
    apply sin_pos_of_pos_of_lt_pi (by positivity)
    rw [div_lt_iff₀ (by norm_num)]; exact dpi
  rw [atan2_polar s]
  · rfl
  · unfold rad; nlinarith [pi_pos]
  · unfold rad; nlinarith [pi_pos]

/-- C96. For any other bearing, the bearing found is the one asked for up to whole turns. -/
theorem C96_turns {oLat : ℝ} (h : |oLat| < 90) {d : ℝ} (bearing oLon : ℝ) (d0 : 0 < d) (dpi : d < π * 6367) :
    ∃ (k : ℤ) (b : ℝ), bearing = b + 360 * k ∧ -180 < b ∧ b ≤ 180 ∧
    gridLatLonBear oLon oLat [(bear2LatLon bearing d oLon oLat).1] [(bear2LatLon bearing d oLon oLat).2] =
      [[b * π / 180]] := by
  refine ⟨⌈(bearing - 180) / 360⌉, bearing - 360 * ⌈(bearing - 180) / 360⌉, by ring, ?_, ?_, ?_⟩
  · have := Int.ceil_lt_add_one ((bearing - 180) / 360)
    have h2 : (⌈(bearing - 180) / 360⌉ : ℝ) * 360 < bearing - 180 + 360 := by
      have := mul_lt_mul_of_pos_right this (by norm_num : (0 : ℝ) < 360)
      linarith [this, show ((bearing - 180) / 360 + 1) * 360 = bearing - 180 + 360 by ring]
    linarith
  · have := Int.le_ceil ((bearing - 180) / 360)
    rw [div_le_iff₀ (by norm_num)] at this
    linarith
  · have e : bear2LatLon bearing d oLon oLat =
        bear2LatLon (bearing - 360 * ⌈(bearing - 180) / 360⌉) d oLon oLat := by
      have : rad (bearing - 360 * ⌈(bearing - 180) / 360⌉) = rad bearing - ⌈(bearing - 180) / 360⌉ * (2 * π) := by
        unfold rad; ring
      simp only [bear2LatLon]
      rw [this, sin_sub_int_mul_two_pi, cos_sub_int_mul_two_pi]
    rw [e]
    apply C96_bearing h oLon d0 dpi
    · have := Int.ceil_lt_add_one ((bearing - 180) / 360)
      have h2 : (⌈(bearing - 180) / 360⌉ : ℝ) * 360 < bearing - 180 + 360 := by
        have := mul_lt_mul_of_pos_right this (by norm_num : (0 : ℝ) < 360)
        linarith [this, show ((bearing - 180) / 360 + 1) * 360 = bearing - 180 + 360 by ring]
      linarith
    · have := Int.le_ceil ((bearing - 180) / 360)
      rw [div_le_iff₀ (by norm_num)] at this
      linarith

/-- C96. The new latitude is a latitude and the longitude changes by at most half a turn; it is not brought back
into a fixed range. -/
theorem C96_range (bearing d oLon oLat : ℝ) : |(bear2LatLon bearing d oLon oLat).2| ≤ 90 ∧
    |(bear2LatLon bearing d oLon oLat).1 - oLon| ≤ 180 :=
  ⟨bear2LatLon_lat _ _ _ _, bear2LatLon_lon _ _ _ _⟩

theorem rad_ninety : rad 90 = π / 2 := by unfold rad; ring

/-- C96 fails at the pole: the bearing is ignored, so every direction but one leads to a wrong place. -/
theorem C96_pole_fails (bearing d oLon : ℝ) (d0 : 0 < d) (dpi : d < π * 6367) :
    position (bear2LatLon bearing d oLon 90).1 (bear2LatLon bearing d oLon 90).2 = travel bearing d oLon 90 ↔
      cos (bearing * π / 180) = -1 := by
  have s : 0 < sin (d / 6367) := by
    apply sin_pos_of_pos_of_lt_pi (by positivity)
    rw [div_lt_iff₀ (by norm_num)]; exact dpi
  have e : bear2LatLon bearing d oLon 90 = (oLon, deg (arcsin (cos (d / 6367)))) := by
    unfold bear2LatLon
    simp only [rad_ninety, sin_pi_div_two, cos_pi_div_two, radius]
    have : sin (arcsin (cos (d / 6367))) = cos (d / 6367) := sin_arcsin (neg_one_le_cos _) (cos_le_one _)
    simp [this, atan2, show (⟨0, 0⟩ : ℂ) = 0 from rfl, deg_rad]
  rw [e]
  have hc : cos (deg (arcsin (cos (d / 6367))) * π / 180) = sin (d / 6367) := by
    change cos (rad _) = _
    rw [rad_deg, cos_arcsin]
    rw [sqrt_eq_iff_mul_self_eq (by nlinarith [sin_sq_add_cos_sq (d / 6367), sq_nonneg (sin (d / 6367))]) s.le]
    nlinarith [sin_sq_add_cos_sq (d / 6367)]
  have hs : sin (deg (arcsin (cos (d / 6367))) * π / 180) = cos (d / 6367) := by
    change sin (rad _) = _
    rw [rad_deg, sin_arcsin (neg_one_le_cos _) (cos_le_one _)]
  have n : (90 : ℝ) * π / 180 = π / 2 := by ring
  have g := sin_sq_add_cos_sq (oLon * π / 180)
  constructor
  · intro hh
    have h0 := congrFun (congrArg WithLp.ofLp hh) 0
    have h1 := congrFun (congrArg WithLp.ofLp hh) 1
    simp [position, travel, north, east, n, hc] at h0 h1
    have : sin (d / 6367) * (cos (bearing * π / 180) + 1) = 0 := by
      linear_combination (-cos (oLon * π / 180)) * -h0 + sin (oLon * π / 180) * h1 +
        (-(sin (d / 6367) * (cos (bearing * π / 180) + 1))) * g
    have := (mul_eq_zero.1 this).resolve_left s.ne'
    linarith
  · intro hb
    have sb : sin (bearing * π / 180) = 0 := by
      have := sin_sq_add_cos_sq (bearing * π / 180)
      rw [hb] at this
      nlinarith
    ext i
    fin_cases i <;> simp [position, travel, north, east, n, hc, hs, hb, sb]

/-- For example, from the pole a bearing of 0 and a bearing of 90 lead to the same place. -/
example : cos ((90 : ℝ) * π / 180) ≠ -1 := by
  rw [show (90 : ℝ) * π / 180 = π / 2 by ring, cos_pi_div_two]; norm_num

theorem pointDist_self (lon lat : ℝ) : pointDist lon lat lon lat = 0 := by
  rw [pointDist_eq, surface, InnerProductGeometry.angle_self, mul_zero]
  intro z
  have := norm_position lon lat
  rw [z, norm_zero] at this
  exact zero_ne_one this

theorem arccos_cos_le {x : ℝ} (h : 0 ≤ x) : arccos (cos x) ≤ x := by
  rcases le_or_gt x π with h1 | h1
  · rw [arccos_cos h h1]
  · exact (arccos_le_pi _).trans h1.le

/-- C96. A track built step by step from its first position: every leg has the length it was given, … -/
theorem C96_legs : ∀ (moves : List (ℝ × ℝ)) (lon lat : ℝ), |lat| ≤ 90 →
    (∀ m ∈ moves, 0 ≤ m.2 ∧ m.2 ≤ π * 6367) →
    (positions moves lon lat).length = moves.length + 1 ∧
    ∀ (i : Nat) (m p q : ℝ × ℝ), moves[i]? = some m → (positions moves lon lat)[i]? = some p →
      (positions moves lon lat)[i + 1]? = some q → surface (position p.1 p.2) (position q.1 q.2) = m.2
  | [], lon, lat, _, _ => by simp [positions]
  | m :: ms, lon, lat, h, hm => by
    obtain ⟨l, ih⟩ := C96_legs ms (bear2LatLon m.1 m.2 lon lat).1 (bear2LatLon m.1 m.2 lon lat).2
      (bear2LatLon_lat _ _ _ _) (fun x hx => hm x (List.mem_cons_of_mem _ hx))
    refine ⟨by simp [positions, l], ?_⟩
    intro i m' p q h1 h2 h3
    cases i with
    | zero =>
      simp only [List.getElem?_cons_zero, Option.some.injEq] at h1
      simp only [positions, List.getElem?_cons_zero, Option.some.injEq] at h2
      have hq : q = bear2LatLon m.1 m.2 lon lat := by
        cases ms <;> simp [positions] at h3 <;> exact h3.symm
      subst h1 h2 hq
      have := C96_distance h m.1 m.2 lon (hm m (by simp)).1 (hm m (by simp)).2
      simp only [gridLatLonDist, List.map_cons, List.map_nil, List.cons.injEq, and_true] at this
      rw [← pointDist_eq, this]
    | succ i =>
      simp only [List.getElem?_cons_succ] at h1
      simp only [positions, List.getElem?_cons_succ] at h2 h3
      exact ih i m' p q h1 h2 h3

/-- C96. … and the track never gets farther from its first position than it has travelled. -/
theorem C96_reach : ∀ (moves : List (ℝ × ℝ)) (lon lat : ℝ), |lat| ≤ 90 → (∀ m ∈ moves, 0 ≤ m.2) →
    ∀ p, (positions moves lon lat).getLast? = some p →
      surface (position lon lat) (position p.1 p.2) ≤ (moves.map (·.2)).sum
  | [], lon, lat, _, _, p, hp => by
    simp only [positions, List.getLast?_singleton, Option.some.injEq] at hp
    subst hp
    rw [← pointDist_eq]
    have := (pointDist_self lon lat)
    simp [this]
  | m :: ms, lon, lat, h, hm, p, hp => by
    have hp' : (positions ms (bear2LatLon m.1 m.2 lon lat).1 (bear2LatLon m.1 m.2 lon lat).2).getLast? = some p := by
      rw [positions] at hp
      cases ms with
      | nil => simpa [positions] using hp
      | cons => simpa [positions] using hp
    have ih := C96_reach ms _ _ (bear2LatLon_lat m.1 m.2 lon lat) (fun x hx => hm x (List.mem_cons_of_mem _ hx)) p hp'
    have d := pointDist_arrival h m.1 m.2 lon
    rw [pointDist_eq] at d
    have le : 6367 * arccos (cos (m.2 / 6367)) ≤ m.2 := by
      have := arccos_cos_le (x := m.2 / 6367) (div_nonneg (hm m (by simp)) (by norm_num))
      have := mul_le_mul_of_nonneg_left this (by norm_num : (0 : ℝ) ≤ 6367)
      rwa [mul_div_cancel₀ _ (by norm_num)] at this
    have tri := InnerProductGeometry.angle_le_angle_add_angle (position lon lat)
      (position (bear2LatLon m.1 m.2 lon lat).1 (bear2LatLon m.1 m.2 lon lat).2) (position p.1 p.2)
    simp only [List.map_cons, List.sum_cons]
    unfold surface at *
    linarith

example : |(-15 : ℝ)| ≤ 90 ∧ ∀ m ∈ [((270 : ℝ), (25 : ℝ)), (260, 30)], 0 ≤ m.2 ∧ m.2 ≤ π * 6367 := by
  refine ⟨by norm_num, ?_⟩
  intro m hm
  simp only [List.mem_cons, List.not_mem_nil, or_false] at hm
  rcases hm with rfl | rfl
  · exact ⟨by norm_num, by nlinarith [two_le_pi]⟩
  · exact ⟨by norm_num, by nlinarith [two_le_pi]⟩

/-- C97. `gridLatLonDist` gives one row for every latitude and one column for every longitude, and each number is the
distance over the surface of the earth. -/
theorem C97_grid (cLon cLat : ℝ) (lons lats : List ℝ) : (gridLatLonDist cLon cLat lons lats).length = lats.length ∧
    ∀ (j i : Nat) (lat lon : ℝ), lats[j]? = some lat → lons[i]? = some lon →
      ∃ row, (gridLatLonDist cLon cLat lons lats)[j]? = some row ∧ row.length = lons.length ∧
        row[i]? = some (surface (position cLon cLat) (position lon lat)) := by
  refine ⟨by simp [gridLatLonDist], fun j i lat lon hj hi => ⟨lons.map fun lon => pointDist cLon cLat lon lat, ?_, ?_, ?_⟩⟩
  · simp [gridLatLonDist, hj]
  · simp
  · simp [hi, pointDist_eq]

/-- C97. It is a distance: never negative, at most half way around, symmetric, zero exactly between equal points of
the sphere, never longer than a detour, and the same for longitudes that differ by whole turns. -/
theorem C97_metric (lon lat lon' lat' lon'' lat'' : ℝ) (k : ℤ) :
    0 ≤ pointDist lon lat lon' lat' ∧ pointDist lon lat lon' lat' ≤ 6367 * π ∧
    pointDist lon lat lon' lat' = pointDist lon' lat' lon lat ∧
    (pointDist lon lat lon' lat' = 0 ↔ position lon lat = position lon' lat') ∧
    pointDist lon lat lon'' lat'' ≤ pointDist lon lat lon' lat' + pointDist lon' lat' lon'' lat'' ∧
    pointDist lon lat (lon' + 360 * k) lat' = pointDist lon lat lon' lat' := by
  refine ⟨?_, ?_, ?_, ?_, ?_, ?_⟩
  · rw [pointDist_eq]
    exact mul_nonneg (by norm_num) (InnerProductGeometry.angle_nonneg _ _)
  · rw [pointDist_eq]
    exact mul_le_mul_of_nonneg_left (InnerProductGeometry.angle_le_pi _ _) (by norm_num)
  · rw [pointDist_eq, pointDist_eq, surface, surface, InnerProductGeometry.angle_comm]
  · rw [pointDist_eq, surface]
    constructor
    · intro h
      have h := (mul_eq_zero.1 h).resolve_left (by norm_num)
      rw [InnerProductGeometry.angle_eq_zero_iff] at h
      obtain ⟨-, r, hr, e⟩ := h
      have n := congrArg norm e
      rw [norm_smul, norm_position, norm_position, mul_one, norm_eq_abs, abs_of_pos hr] at n
      rw [e, ← n, one_smul]
    · intro h
      rw [h, InnerProductGeometry.angle_self, mul_zero]
      intro z
      have := norm_position lon' lat'
      rw [z, norm_zero] at this
      exact zero_ne_one this
  · rw [pointDist_eq, pointDist_eq, pointDist_eq, surface, surface, surface, ← mul_add]
    exact mul_le_mul_of_nonneg_left (InnerProductGeometry.angle_le_angle_add_angle _ _ _) (by norm_num)
  · rw [pointDist_eq, pointDist_eq]
    have : position (lon' + 360 * k) lat' = position lon' lat' := by
      unfold position
      rw [show (lon' + 360 * k) * π / 180 = lon' * π / 180 + k * (2 * π) by ring, cos_add_int_mul_two_pi,
        sin_add_int_mul_two_pi]
    rw [this]

/-- C97. The two formulas for the distance between two points, `distGC` and `gridLatLonDist`, agree. -/
theorem C97_distGC (lat0 lat1 lon0 lon1 : ℝ) :
    gridLatLonDist lon0 lat0 [lon1] [lat1] = [[distGC lat0 lat1 lon0 lon1]] := by
  simp only [gridLatLonDist, List.map_cons, List.map_nil, distGC]
  rw [pointDist_eq, surface, angle_position, radius]

/-- One degree of longitude on the equator, across longitude 0 -/
example : pointDist 359.5 0 0.5 0 = 6367 * (π / 180) := by
  rw [pointDist_eq, surface, angle_position]
  have : rad 0 = 0 := by unfold rad; ring
  rw [this, sin_zero, cos_zero, show rad 359.5 - rad 0.5 = -(π / 180) + (1 : ℤ) * (2 * π) by unfold rad; push_cast; ring,
    cos_add_int_mul_two_pi, cos_neg]
  rw [show (0 : ℝ) * 0 + 1 * 1 * cos (π / 180) = cos (π / 180) by ring, arccos_cos (by positivity) (by linarith [pi_pos])]

end Tcrm.Sphere
