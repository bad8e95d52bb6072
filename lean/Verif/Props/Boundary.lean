import Verif.Model.Boundary
import Mathlib.Analysis.SpecialFunctions.Trigonometric.Bounds
import Mathlib.Analysis.Real.Pi.Bounds
/-!
C49: boundary-layer factors. C76: hemispheres and the place of the maximum wind.
-/
namespace Tcrm.Boundary
open Real

/-! C49 -/

/-- C49: the inflow angle of McConochie's wind field varies continuously with radius and stays between 0 and 25
degrees. -/
theorem C49_mcconochie_inflow (rMax : ℝ) (hr : 0 < rMax) :
    Continuous (mcInflow rMax) ∧ ∀ R, 0 ≤ R → 0 ≤ mcInflow rMax R ∧ mcInflow rMax R ≤ 25 := by
  constructor
  · unfold mcInflow
    have e : (fun R => if R < rMax then 10 * R / rMax else if R < 1.2 * rMax then 10 + 75 * (R / rMax - 1) else 25) =
        fun R => if rMax ≤ R then (if 1.2 * rMax ≤ R then 25 else 10 + 75 * (R / rMax - 1)) else 10 * R / rMax := by
      funext R
      by_cases h : R < rMax
      · rw [if_pos h, if_neg (not_le.2 h)]
      · rw [if_neg h, if_pos (not_lt.1 h)]
        by_cases h' : R < 1.2 * rMax
        · rw [if_pos h', if_neg (not_le.2 h')]
        · rw [if_neg h', if_pos (not_lt.1 h')]
    rw [e]
    refine Continuous.if_le ?_ (by fun_prop) continuous_const continuous_id ?_
    · refine Continuous.if_le continuous_const (by fun_prop) continuous_const continuous_id ?_
      intro x hx
      subst hx
      field_simp
      norm_num
    · intro x hx
      subst hx
      rw [if_neg (by linarith)]
      field_simp
      norm_num
  · intro R hR
    unfold mcInflow
    split_ifs with h1 h2
    · constructor
      · positivity
      · rw [div_le_iff₀ hr]; linarith
    · have a : 1 ≤ R / rMax := by rw [le_div_iff₀ hr]; linarith
      have b : R / rMax < 1.2 := by rw [div_lt_iff₀ hr]; linarith
      constructor <;> linarith
    · norm_num

/-- C49: the surface wind reduction factor stays between 0.66 and 0.81 and does not increase with wind speed. -/
theorem C49_factor_bounds (v : ℝ) : 0.66 ≤ swrf v ∧ swrf v ≤ 0.81 := by
  unfold swrf
  split_ifs with h1 h2 h3 <;> constructor <;> linarith

theorem C49_factor_antitone (v w : ℝ) (h : |v| ≤ |w|) : swrf w ≤ swrf v := by
  unfold swrf
  split_ifs <;> linarith

/-- C49, partial: the factor varies by at most 4.31 thousandths per unit of wind speed, plus
the two steps of less than 0.0005. -/
theorem C49_factor_partial (v w : ℝ) (h : |v| ≤ |w|) : swrf v - swrf w ≤ 0.00431 * (|w| - |v|) + 0.00055 := by
  unfold swrf
  split_ifs <;> linarith

/-- C49 fails: the reduction factor jumps at 19.5 and at 45. -/
theorem C49_factor_fails : ¬ContinuousAt swrf 19.5 ∧ ¬ContinuousAt swrf 45 := by
  constructor
  · intro h
    have v : swrf 19.5 = 0.77 := by
      unfold swrf; rw [abs_of_pos (by norm_num)]; norm_num
    have ev := h.eventually (gt_mem_nhds (show swrf 19.5 < 0.7704 by rw [v]; norm_num))
    rw [Metric.eventually_nhds_iff] at ev
    obtain ⟨e, e0, he⟩ := ev
    have := he (y := max 19.49 (19.5 - e / 2)) (by
      rw [dist_eq, abs_lt]
      constructor
      · have := le_max_right (19.49 : ℝ) (19.5 - e / 2); linarith
      · have : max (19.49 : ℝ) (19.5 - e / 2) < 19.5 + e := max_lt (by linarith) (by linarith)
        linarith)
    have l : max (19.49 : ℝ) (19.5 - e / 2) < 19.5 := max_lt (by norm_num) (by linarith)
    have l' := le_max_left (19.49 : ℝ) (19.5 - e / 2)
    unfold swrf at this
    rw [abs_of_pos (by linarith), if_neg (by linarith), if_neg (by linarith), if_pos (by linarith)] at this
    linarith
  · intro h
    have v : swrf 45 = 0.66 := by
      unfold swrf; rw [abs_of_pos (by norm_num)]; norm_num
    have ev := h.eventually (gt_mem_nhds (show swrf 45 < 0.66009 by rw [v]; norm_num))
    rw [Metric.eventually_nhds_iff] at ev
    obtain ⟨e, e0, he⟩ := ev
    have := he (y := max 44.999 (45 - e / 2)) (by
      rw [dist_eq, abs_lt]
      constructor
      · have := le_max_right (44.999 : ℝ) (45 - e / 2); linarith
      · have : max (44.999 : ℝ) (45 - e / 2) < 45 + e := max_lt (by linarith) (by linarith)
        linarith)
    have l : max (44.999 : ℝ) (45 - e / 2) < 45 := max_lt (by norm_num) (by linarith)
    have l' := le_max_left (44.999 : ℝ) (45 - e / 2)
    unfold swrf at this
    rw [abs_of_pos (by linarith), if_neg (by linarith), if_pos (by linarith)] at this
    linarith

/-- C49 fails: a stronger wind can give a weaker surface wind. -/
theorem C49_surface_wind_fails : ∃ v w : ℝ, 0 < v ∧ v < w ∧ swrf w * w < swrf v * v := by
  refine ⟨19.499, 19.5, by norm_num, by norm_num, ?_⟩
  unfold swrf
  rw [abs_of_pos (by norm_num), abs_of_pos (by norm_num)]
  norm_num

/-- C49 fails: the inflow angle of Hubbert's wind field jumps from 0 to 25 degrees at the radius of maximum wind, and
is constant on either side. -/
theorem C49_hubbert_inflow_fails (rMax : ℝ) :
    ¬ContinuousAt (hubbertInflow rMax) rMax ∧ (∀ R, R < rMax → hubbertInflow rMax R = 0) ∧
      ∀ R, rMax ≤ R → hubbertInflow rMax R = 25 := by
  have a : ∀ R, R < rMax → hubbertInflow rMax R = 0 := fun R h => if_pos h
  have b : ∀ R, rMax ≤ R → hubbertInflow rMax R = 25 := fun R h => if_neg (not_lt.2 h)
  refine ⟨fun h => ?_, a, b⟩
  have ev := h.eventually (lt_mem_nhds (show (1 : ℝ) < hubbertInflow rMax rMax by rw [b _ le_rfl]; norm_num))
  rw [Metric.eventually_nhds_iff] at ev
  obtain ⟨e, e0, he⟩ := ev
  have := he (y := rMax - e / 2) (by rw [dist_eq, abs_lt]; constructor <;> linarith)
  rw [a _ (by linarith)] at this
  linarith

/-! C76 -/

theorem sign_neg' (f : ℝ) : sign (-f) = -sign f := by
  rcases lt_trichotomy f 0 with h | h | h
  · rw [sign_of_neg h, sign_of_pos (by linarith)]; norm_num
  · rw [h]; simp
  · rw [sign_of_pos h, sign_of_neg (by linarith)]

/-- C76: Kepert's wind field of a storm in the other hemisphere is the mirror image about the direction of motion: at
the mirrored place the inflow is the same and the rotation is reversed. -/
theorem C76_kepert_mirror (Vm V Z f rMax R d vFm thetaFm : ℝ) :
    (kepertPolar Vm (-V) (-Z) (-f) rMax R (thetaFm - d) vFm thetaFm).1 =
      (kepertPolar Vm V Z f rMax R (thetaFm + d) vFm thetaFm).1 ∧
    (kepertPolar Vm (-V) (-Z) (-f) rMax R (thetaFm - d) vFm thetaFm).2 =
      -(kepertPolar Vm V Z f rMax R (thetaFm + d) vFm thetaFm).2 := by
  have ha : al (-V) (-f) R = -al V f R := by unfold al; ring
  have hb : be (-Z) (-f) = -be Z f := by unfold be; ring
  have hg : gam (-V) R = -gam V R := by unfold gam; ring
  have hx : ∀ a b, chi (-V) a b = chi V a b := fun a b => by
    unfold chi; rw [mul_neg, neg_div, abs_neg]
  have hn : ∀ a b g, eta (-V) a b g = eta V a b g := fun a b g => by
    unfold eta; rw [mul_neg, neg_div, abs_neg]
  have hp : ∀ a b g, psi (-V) a b g = psi V a b g := fun a b g => by
    unfold psi; rw [mul_neg, neg_div, abs_neg]
  have hnc : ∀ a b, chi V (-a) (-b) = chi V a b := fun a b => by unfold chi; rw [neg_mul_neg]
  have hne : ∀ a b g, eta V (-a) (-b) (-g) = eta V a b g := fun a b g => by unfold eta; rw [neg_mul_neg, abs_neg]
  have hpe : ∀ a b g, psi V (-a) (-b) (-g) = psi V a b g := fun a b g => by unfold psi; rw [neg_mul_neg, abs_neg]
  have hA : ∀ x, a0 (-V) x = -a0 V x := fun x => by
    unfold a0; push_cast; ring
  have e1 : ∀ i : ℂ, i * (((thetaFm - d : ℝ) : ℂ) - thetaFm) * ((sign (-f) : ℝ) : ℂ) =
      i * (((thetaFm + d : ℝ) : ℂ) - thetaFm) * ((sign f : ℝ) : ℂ) := fun i => by
    rw [sign_neg']; push_cast; ring
  unfold kepertPolar
  simp only [ha, hb, hg, hx, hn, hp, hnc, hne, hpe, hA, neg_mul_neg, neg_div_neg_eq, abs_neg, e1]
  rw [sign_neg', show thetaFm - d - thetaFm = -(thetaFm + d - thetaFm) by ring, cos_neg, sin_neg]
  simp only [Complex.neg_re, Complex.neg_im]
  constructor <;> ring

/-- The speed of the wind is that of its radial and tangential parts, and its direction turns with the place. -/
theorem kepert_speed (Vm V Z f rMax R lam vFm thetaFm : ℝ) :
    (kepert Vm V Z f rMax R lam vFm thetaFm).1 ^ 2 + (kepert Vm V Z f rMax R lam vFm thetaFm).2 ^ 2 =
      (kepertPolar Vm V Z f rMax R lam vFm thetaFm).1 ^ 2 + (kepertPolar Vm V Z f rMax R lam vFm thetaFm).2 ^ 2 := by
  unfold kepert
  simp only
  rw [mul_pow, mul_pow, ← mul_add, sin_sq_add_cos_sq, mul_one, sq_sqrt (by positivity)]

/-- C76: the speed of Kepert's wind field is that of the mirrored storm at the mirrored place. -/
theorem C76_kepert_speed (Vm V Z f rMax R d vFm thetaFm : ℝ) :
    (kepert Vm (-V) (-Z) (-f) rMax R (thetaFm - d) vFm thetaFm).1 ^ 2 +
      (kepert Vm (-V) (-Z) (-f) rMax R (thetaFm - d) vFm thetaFm).2 ^ 2 =
    (kepert Vm V Z f rMax R (thetaFm + d) vFm thetaFm).1 ^ 2 +
      (kepert Vm V Z f rMax R (thetaFm + d) vFm thetaFm).2 ^ 2 := by
  rw [kepert_speed, kepert_speed, (C76_kepert_mirror Vm V Z f rMax R d vFm thetaFm).1,
    (C76_kepert_mirror Vm V Z f rMax R d vFm thetaFm).2]
  ring

/-- C76: McConochie's field adds most to the wind (in the sense of the rotation, in both hemispheres) at the angle
`thetaMax` from the direction of motion, and nothing on the opposite side. -/
theorem C76_mcconochie (V peak lam vFm thetaFm thetaMax : ℝ) (hv : 0 ≤ vFm) (hp : 0 < peak) :
    |V| ≤ |mcSpeed V peak lam vFm thetaFm thetaMax| ∧
    |mcSpeed V peak lam vFm thetaFm thetaMax| ≤ |mcSpeed V peak (thetaFm + thetaMax * π / 180) vFm thetaFm thetaMax| ∧
    mcSpeed V peak (thetaFm + thetaMax * π / 180) vFm thetaFm thetaMax = V * (1 + vFm / peak) ∧
    mcSpeed V peak (thetaFm + thetaMax * π / 180 + π) vFm thetaFm thetaMax = V := by
  have key : ∀ l, mcSpeed V peak l vFm thetaFm thetaMax =
      V * (1 + 0.5 * (1 + cos (thetaFm + thetaMax * π / 180 - l)) * (vFm / peak)) := by
    intro l; unfold mcSpeed; field_simp
  have q : 0 ≤ vFm / peak := by positivity
  have t3 : mcSpeed V peak (thetaFm + thetaMax * π / 180) vFm thetaFm thetaMax = V * (1 + vFm / peak) := by
    rw [key, sub_self, cos_zero]; norm_num
  have t4 : mcSpeed V peak (thetaFm + thetaMax * π / 180 + π) vFm thetaFm thetaMax = V := by
    rw [key, show thetaFm + thetaMax * π / 180 - (thetaFm + thetaMax * π / 180 + π) = -π by ring, cos_neg, cos_pi]
    ring
  have c1 := neg_one_le_cos (thetaFm + thetaMax * π / 180 - lam)
  have c2 := cos_le_one (thetaFm + thetaMax * π / 180 - lam)
  refine ⟨?_, ?_, t3, t4⟩
  · rw [key, abs_mul, abs_of_nonneg (a := 1 + _) (by nlinarith)]
    nlinarith [abs_nonneg V, mul_nonneg (abs_nonneg V) (mul_nonneg (show (0 : ℝ) ≤ 0.5 * (1 + cos (thetaFm + thetaMax * π / 180 - lam)) by linarith) q)]
  · rw [key lam, t3, abs_mul, abs_mul, abs_of_nonneg (a := 1 + 0.5 * _ * _) (by nlinarith), abs_of_nonneg (a := 1 + vFm / peak) (by linarith)]
    apply mul_le_mul_of_nonneg_left _ (abs_nonneg V)
    nlinarith

/-- C76 fails for Hubbert's field: south of the equator the wind is strongest at the angle `thetaMax` from the direction
of motion, north of it the wind is weakest there and strongest on the opposite side. -/
theorem C76_hubbert_fails (v lam vFm thetaFm thetaMax : ℝ) (hv : 0 ≤ vFm) (h : vFm ≤ 0.7 * v) :
    (|hubbertSpeed (-v) lam vFm thetaFm thetaMax| ≤ |hubbertSpeed (-v) (thetaFm + thetaMax * π / 180) vFm thetaFm thetaMax| ∧
      |hubbertSpeed (-v) (thetaFm + thetaMax * π / 180) vFm thetaFm thetaMax| = 0.7 * v + vFm) ∧
    (|hubbertSpeed v (thetaFm + thetaMax * π / 180) vFm thetaFm thetaMax| ≤ |hubbertSpeed v lam vFm thetaFm thetaMax| ∧
      |hubbertSpeed v (thetaFm + thetaMax * π / 180) vFm thetaFm thetaMax| = 0.7 * v - vFm ∧
      |hubbertSpeed v (thetaFm + thetaMax * π / 180 + π) vFm thetaFm thetaMax| = 0.7 * v + vFm) := by
  have key : ∀ V l, hubbertSpeed V l vFm thetaFm thetaMax = 0.7 * V - vFm * cos (thetaFm + thetaMax * π / 180 - l) := by
    intro V l; unfold hubbertSpeed; rw [cos_add_pi]; ring
  have c1 := neg_one_le_cos (thetaFm + thetaMax * π / 180 - lam)
  have c2 := cos_le_one (thetaFm + thetaMax * π / 180 - lam)
  have k0 : thetaFm + thetaMax * π / 180 - (thetaFm + thetaMax * π / 180 + π) = -π := by ring
  simp only [key, sub_self, cos_zero, k0, cos_neg, cos_pi, mul_one]
  have m1 : |0.7 * -v - vFm| = 0.7 * v + vFm := by rw [abs_of_nonpos (by linarith)]; ring
  have m2 : |0.7 * v - vFm| = 0.7 * v - vFm := abs_of_nonneg (by linarith)
  have m3 : |0.7 * v - vFm * -1| = 0.7 * v + vFm := by rw [abs_of_nonneg (by linarith)]; ring
  rw [m1, m2, m3]
  refine ⟨⟨?_, rfl⟩, ?_, rfl, rfl⟩
  · rw [abs_le]; constructor <;> nlinarith
  · rw [abs_of_nonneg (by nlinarith)]; nlinarith

/-- C76 fails: the angle configured in degrees is turned into radians three times, so that whatever is configured the
maximum wind is placed within an eighth of a degree of the direction of motion. -/
theorem C76_angle_fails (deg : ℝ) (h : |deg| ≤ 360) : |usedTheta deg| ≤ 0.125 * (π / 180) ∧
    (usedTheta deg = deg * π / 180 ↔ deg = 0) := by
  have p1 := pi_gt_d6
  have p2 := pi_lt_d6
  have e : usedTheta deg = deg * ((π / 180) * (π / 180)) * (π / 180) := by unfold usedTheta; ring
  have q1 : π / 180 < 0.01746 := by linarith
  have q0 : 0 < π / 180 := by positivity
  have q2 : (π / 180) * (π / 180) ≤ 0.00031 := by nlinarith
  have q3 : 0 < (π / 180) * (π / 180) := by positivity
  constructor
  · rw [e, abs_mul, abs_mul, abs_of_pos q3, abs_of_pos q0]
    apply mul_le_mul_of_nonneg_right _ q0.le
    calc |deg| * (π / 180 * (π / 180)) ≤ 360 * 0.00031 := mul_le_mul h q2 q3.le (by norm_num)
      _ ≤ 0.125 := by norm_num
  · constructor
    · intro h
      rw [e] at h
      have : deg * (π / 180) * (1 - (π / 180) * (π / 180)) = 0 := by linear_combination -h
      rcases mul_eq_zero.1 this with h | h
      · rcases mul_eq_zero.1 h with h | h
        · exact h
        · linarith
      · linarith
    · rintro rfl
      unfold usedTheta; simp

example : (0 : ℝ) ≤ 5 ∧ (5 : ℝ) ≤ 0.7 * 40 ∧ (0 : ℝ) < 45 ∧ |(70 : ℝ)| ≤ 360 := by
  refine ⟨by norm_num, by norm_num, by norm_num, ?_⟩
  rw [abs_of_pos (by norm_num)]; norm_num

/-- C49: the wind of Hubbert's and of McConochie's wind fields at the azimuth `lam` from the centre: its components
outwards and along the circle around the centre are those of a wind of the given surface speed that is turned inwards by
the inflow angle. -/
theorem C49_components (f rMax V peak R lam vFm thetaFm thetaMax : ℝ) :
    (∀ w, w = hubbert f rMax V R lam vFm thetaFm thetaMax →
      w.1 * cos lam + w.2 * sin lam =
        -(1.069 * hubbertSpeed V lam vFm thetaFm thetaMax * sin (sign f * hubbertInflow rMax R * π / 180)) ∧
      -w.1 * sin lam + w.2 * cos lam =
        1.069 * hubbertSpeed V lam vFm thetaFm thetaMax * cos (sign f * hubbertInflow rMax R * π / 180)) ∧
    (∀ w, w = mcconochie f rMax V peak R lam vFm thetaFm thetaMax →
      w.1 * cos lam + w.2 * sin lam =
        -(1.069 * swrf (mcSpeed V peak lam vFm thetaFm thetaMax) * mcSpeed V peak lam vFm thetaFm thetaMax *
          sin (sign f * mcInflow rMax R * π / 180)) ∧
      -w.1 * sin lam + w.2 * cos lam =
        1.069 * swrf (mcSpeed V peak lam vFm thetaFm thetaMax) * mcSpeed V peak lam vFm thetaFm thetaMax *
          cos (sign f * mcInflow rMax R * π / 180)) := by
  have s : ∀ a : ℝ, sin (-sign f * a * π / 180 - lam) * cos lam + cos (-sign f * a * π / 180 - lam) * sin lam =
      -sin (sign f * a * π / 180) := by
    intro a
    rw [← sin_add, ← sin_neg]
    congr 1; ring
  have c : ∀ a : ℝ, -sin (-sign f * a * π / 180 - lam) * sin lam + cos (-sign f * a * π / 180 - lam) * cos lam =
      cos (sign f * a * π / 180) := by
    intro a
    rw [← cos_neg (sign f * a * π / 180), show -(sign f * a * π / 180) = (-sign f * a * π / 180 - lam) + lam by ring,
      cos_add]
    ring
  refine ⟨?_, ?_⟩
  · rintro w rfl
    unfold hubbert
    simp only
    constructor
    · linear_combination 1.069 * hubbertSpeed V lam vFm thetaFm thetaMax * s (hubbertInflow rMax R)
    · linear_combination 1.069 * hubbertSpeed V lam vFm thetaFm thetaMax * c (hubbertInflow rMax R)
  · rintro w rfl
    unfold mcconochie
    simp only
    constructor
    · linear_combination 1.069 * swrf (mcSpeed V peak lam vFm thetaFm thetaMax) *
        mcSpeed V peak lam vFm thetaFm thetaMax * s (mcInflow rMax R)
    · linear_combination 1.069 * swrf (mcSpeed V peak lam vFm thetaFm thetaMax) *
        mcSpeed V peak lam vFm thetaFm thetaMax * c (mcInflow rMax R)

end Tcrm.Boundary
