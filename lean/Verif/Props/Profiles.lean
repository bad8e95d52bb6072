import Verif.Model.Vmax
import Verif.Model.Profiles
import Verif.Model.Sphere
import Verif.Spec.Vorticity
import Verif.Props.Units
import Mathlib.Analysis.SpecialFunctions.Pow.Deriv
import Mathlib.Analysis.SpecialFunctions.ExpDeriv
import Mathlib.Analysis.Real.Pi.Bounds
import Mathlib.Analysis.SpecialFunctions.Trigonometric.Bounds
import Mathlib.Analysis.Calculus.Deriv.Inv
import Mathlib.Analysis.Complex.ExponentialBounds
import Mathlib.Analysis.Calculus.Deriv.Pow
import Mathlib.Analysis.Calculus.LocalExtr.Basic
/-!
C47: radial wind profiles. C74: vorticity.
-/
namespace Tcrm.Profiles
open Real

/-- C47: the Coriolis parameter, hence the rotation, has the sign of the latitude. -/
theorem C47_hemisphere (lat : ℝ) (h1 : -90 ≤ lat) (h2 : lat ≤ 90) : sign (coriolis lat) = sign lat := by
  have hp := pi_pos
  unfold coriolis
  rcases lt_trichotomy lat 0 with h | h | h
  · rw [sign_of_neg h, sign_of_neg]
    have : sin (lat * π / 180) < 0 := sin_neg_of_neg_of_neg_pi_lt (by nlinarith) (by nlinarith)
    have : 0 < 2 * (2 * π / 86400) := by positivity
    nlinarith
  · simp [h]
  · rw [sign_of_pos h, sign_of_pos]
    have : 0 < sin (lat * π / 180) := sin_pos_of_pos_of_lt_pi (by positivity) (by nlinarith)
    positivity

theorem abs_sign {f : ℝ} (h : f ≠ 0) : |sign f| = 1 := by
  rcases lt_or_gt_of_ne h with h | h
  · rw [sign_of_neg h]; simp
  · rw [sign_of_pos h]; simp

/-- C47, profile of Jelesnianski: the wind never exceeds the maximum wind and attains it exactly at the radius
of maximum wind; it rotates with the hemisphere. -/
theorem C47_jelesnianski (s : Storm) (R : ℝ) (hf : s.f ≠ 0) (hv : 0 < s.vMax) (hr : 0 < s.rMax) (hR : 0 < R) :
    |jelesnianski s R| ≤ s.vMax ∧ (|jelesnianski s R| = s.vMax ↔ R = s.rMax) ∧ 0 < sign s.f * jelesnianski s R := by
  have p : 0 < 2 * s.vMax * s.rMax * R / (s.rMax ^ 2 + R ^ 2) := by positivity
  have d : 0 < s.rMax ^ 2 + R ^ 2 := by positivity
  have e : |jelesnianski s R| = 2 * s.vMax * s.rMax * R / (s.rMax ^ 2 + R ^ 2) := by
    unfold jelesnianski; rw [abs_mul, abs_sign hf, one_mul, abs_of_pos p]
  rw [e]
  refine ⟨?_, ?_, ?_⟩
  · rw [div_le_iff₀ d]; nlinarith [sq_nonneg (s.rMax - R)]
  · rw [div_eq_iff d.ne']
    constructor
    · intro h
      have : s.vMax * (s.rMax - R) ^ 2 = 0 := by linarith
      rcases mul_eq_zero.1 this with h | h
      · exact absurd h hv.ne'
      · linarith [pow_eq_zero_iff (two_ne_zero) |>.1 h]
    · rintro rfl; ring
  · unfold jelesnianski
    rw [← mul_assoc]
    rcases lt_or_gt_of_ne hf with h | h
    · rw [sign_of_neg h]; linarith
    · rw [sign_of_pos h]; linarith

/-- C47, profile of Rankine. -/
theorem C47_rankine (s : Storm) (R : ℝ) (hf : s.f ≠ 0) (hv : 0 < s.vMax) (hr : 0 < s.rMax) (hR : 0 < R) :
    |rankine s R| ≤ s.vMax ∧ (|rankine s R| = s.vMax ↔ R = s.rMax) ∧ 0 < sign s.f * rankine s R := by
  have key : ∀ w : ℝ, 0 < w → w ≤ s.vMax → (w = s.vMax ↔ R = s.rMax) → rankine s R = sign s.f * w →
      |rankine s R| ≤ s.vMax ∧ (|rankine s R| = s.vMax ↔ R = s.rMax) ∧ 0 < sign s.f * rankine s R := by
    intro w w0 w1 w2 e
    have e' : |rankine s R| = w := by rw [e, abs_mul, abs_sign hf, one_mul, abs_of_pos w0]
    rw [e']
    refine ⟨w1, w2, ?_⟩
    rw [e, ← mul_assoc]
    rcases lt_or_gt_of_ne hf with h | h
    · rw [sign_of_neg h]; linarith
    · rw [sign_of_pos h]; linarith
  by_cases c : R ≤ s.rMax
  · apply key (s.vMax * (R / s.rMax))
    · positivity
    · have : R / s.rMax ≤ 1 := by rwa [div_le_one hr]
      nlinarith
    · rw [mul_eq_left₀ hv.ne', div_eq_one_iff_eq hr.ne']
    · unfold rankine; rw [if_pos c]
  · push Not at c
    have q0 : 0 < s.rMax / R := by positivity
    have q1 : s.rMax / R < 1 := by rwa [div_lt_one hR]
    have l : (s.rMax / R) ^ alpha < 1 := rpow_lt_one q0.le q1 (by unfold alpha; norm_num)
    have l0 : 0 < (s.rMax / R) ^ alpha := rpow_pos_of_pos q0 _
    apply key (s.vMax * (s.rMax / R) ^ alpha)
    · positivity
    · nlinarith
    · constructor
      · intro h; nlinarith
      · intro h; exact absurd h c.ne'
    · unfold rankine; rw [if_neg (not_le.2 c)]

example : ∃ s : Storm, s.f ≠ 0 ∧ 0 < s.vMax ∧ 0 < s.rMax :=
  ⟨⟨-1 / 20000, 5000, 30000, 1.15, 1.3, 50⟩, by norm_num, by norm_num, by norm_num⟩

/-! The cubic core. -/

theorem core_eq (s : Storm) (d2 d1 R : ℝ) (hr : s.rMax ≠ 0) :
    core s d2 d1 R = s.vMax * (1 - (1 - R / s.rMax) ^ 3) - d1 * s.rMax * ((1 - R / s.rMax) - (1 - R / s.rMax) ^ 3) +
      d2 * s.rMax ^ 2 / 2 * ((1 - R / s.rMax) ^ 2 - (1 - R / s.rMax) ^ 3) := by
  unfold core cc bb aa
  field_simp
  ring

theorem core_deriv (s : Storm) (d2 d1 R : ℝ) : HasDerivAt (core s d2 d1)
    (3 * aa s d2 d1 * R ^ 2 + 2 * bb s d2 d1 * R + cc s d2 d1) R := by
  have h : core s d2 d1 = fun R => aa s d2 d1 * R ^ 3 + bb s d2 d1 * R ^ 2 + cc s d2 d1 * R := by
    funext R; unfold core; ring
  rw [h]
  have := (((hasDerivAt_pow 3 R).const_mul (aa s d2 d1)).add ((hasDerivAt_pow 2 R).const_mul (bb s d2 d1))).add
    ((hasDerivAt_id R).const_mul (cc s d2 d1))
  refine HasDerivAt.congr_deriv this ?_
  push_cast
  ring

theorem core_deriv2 (s : Storm) (d2 d1 R : ℝ) :
    HasDerivAt (fun R => 3 * aa s d2 d1 * R ^ 2 + 2 * bb s d2 d1 * R + cc s d2 d1)
      (6 * aa s d2 d1 * R + 2 * bb s d2 d1) R := by
  have := (((hasDerivAt_pow 2 R).const_mul (3 * aa s d2 d1)).add ((hasDerivAt_id R).const_mul (2 * bb s d2 d1))).add_const
    (cc s d2 d1)
  refine HasDerivAt.congr_deriv this ?_
  push_cast
  ring

/-- C47: the cubic core starts with calm at the centre, has the maximum wind at the radius of maximum wind, and
there its first and second derivative are the two numbers it was built from. -/
theorem C47_core (s : Storm) (d2 d1 : ℝ) (hr : 0 < s.rMax) :
    core s d2 d1 0 = 0 ∧ core s d2 d1 s.rMax = s.vMax ∧ ∃ V' : ℝ → ℝ, (∀ R, HasDerivAt (core s d2 d1) (V' R) R) ∧
      V' s.rMax = d1 ∧ HasDerivAt V' d2 s.rMax := by
  refine ⟨by simp [core], ?_, fun R => 3 * aa s d2 d1 * R ^ 2 + 2 * bb s d2 d1 * R + cc s d2 d1,
    core_deriv s d2 d1, ?_, ?_⟩
  · rw [core_eq _ _ _ _ hr.ne', div_self hr.ne']; ring
  · unfold cc; ring
  · have := core_deriv2 s d2 d1 s.rMax
    refine HasDerivAt.congr_deriv this ?_
    unfold bb; ring

/-! The profile outside. -/

theorem delta_deriv (s : Storm) (R : ℝ) (hr : 0 < s.rMax) (hR : 0 < R) :
    HasDerivAt (delta s) (-s.beta * delta s R / R) R := by
  have h1 : HasDerivAt (fun R => s.rMax / R) (-s.rMax / R ^ 2) R := by
    have := (hasDerivAt_inv hR.ne').const_mul s.rMax
    refine HasDerivAt.congr_deriv this ?_
    ring
  have q : 0 < s.rMax / R := by positivity
  have := h1.rpow_const (p := s.beta) (Or.inl q.ne')
  unfold delta
  refine HasDerivAt.congr_deriv this ?_
  rw [rpow_sub_one q.ne']
  field_simp

/-- The square of the gradient wind without rotation of the earth. -/
noncomputable def grad (s : Storm) (R : ℝ) : ℝ := s.dP * s.beta / s.rho * delta s R * exp (-delta s R)

theorem grad_deriv (s : Storm) (R : ℝ) (hr : 0 < s.rMax) (hR : 0 < R) :
    HasDerivAt (grad s) (s.beta ^ 2 * s.dP / s.rho / R * ((delta s R ^ 2 - delta s R) * exp (-delta s R))) R := by
  have d := delta_deriv s R hr hR
  have := ((d.const_mul (s.dP * s.beta / s.rho)).mul d.neg.exp)
  unfold grad
  refine HasDerivAt.congr_deriv this ?_
  simp only [Pi.neg_apply]
  ring

theorem grad_pos (s : Storm) (R : ℝ) (hp : 0 < s.dP) (hb : 0 < s.beta) (hrho : 0 < s.rho) (hr : 0 < s.rMax)
    (hR : 0 < R) : 0 < grad s R := by
  have : 0 < delta s R := rpow_pos_of_pos (by positivity) _
  unfold grad; positivity

noncomputable def rad (s : Storm) (R : ℝ) : ℝ := grad s R + (R * s.f / 2) ^ 2

theorem rad_deriv (s : Storm) (R : ℝ) (hr : 0 < s.rMax) (hR : 0 < R) :
    HasDerivAt (rad s) (s.beta ^ 2 * s.dP / s.rho / R * ((delta s R ^ 2 - delta s R) * exp (-delta s R)) + R * s.f ^ 2 / 2) R := by
  have h1 : HasDerivAt (fun R : ℝ => (R * s.f / 2) ^ 2) (R * s.f ^ 2 / 2) R := by
    have := (((hasDerivAt_id R).mul_const s.f).div_const 2).pow 2
    refine HasDerivAt.congr_deriv this ?_
    simp
    ring
  exact (grad_deriv s R hr hR).add h1

/-- The slope of the profile outside. -/
noncomputable def slope (s : Storm) (R : ℝ) : ℝ :=
  (s.beta ^ 2 * s.dP / s.rho / R * ((delta s R ^ 2 - delta s R) * exp (-delta s R)) + R * s.f ^ 2 / 2) / (2 * √(rad s R)) - |s.f| / 2

theorem rad_pos (s : Storm) (R : ℝ) (hp : 0 < s.dP) (hb : 0 < s.beta) (hrho : 0 < s.rho) (hr : 0 < s.rMax)
    (hR : 0 < R) : 0 < rad s R := by
  have := grad_pos s R hp hb hrho hr hR
  unfold rad; positivity

theorem outer_deriv (s : Storm) (R : ℝ) (hp : 0 < s.dP) (hb : 0 < s.beta) (hrho : 0 < s.rho) (hr : 0 < s.rMax)
    (hR : 0 < R) : HasDerivAt (outer s) (slope s R) R := by
  have h := (rad_deriv s R hr hR).sqrt (rad_pos s R hp hb hrho hr hR).ne'
  have h2 : HasDerivAt (fun R : ℝ => R * |s.f| / 2) (|s.f| / 2) R := by
    have := ((hasDerivAt_id R).mul_const |s.f|).div_const 2
    refine HasDerivAt.congr_deriv this ?_
    ring
  exact h.sub h2

theorem delta_rMax (s : Storm) (hr : 0 < s.rMax) : delta s s.rMax = 1 := by
  unfold delta; rw [div_self hr.ne', one_rpow]

/-- Four times the radicand at the radius of maximum wind. -/
noncomputable def big (s : Storm) : ℝ := 4 * s.beta * s.dP / (exp 1 * s.rho) + (s.f * s.rMax) ^ 2

theorem rad_rMax (s : Storm) (hr : 0 < s.rMax) : rad s s.rMax = big s / 4 := by
  unfold rad grad big
  rw [delta_rMax s hr, exp_neg]
  field_simp
  ring

theorem big_pos (s : Storm) (hp : 0 < s.dP) (hb : 0 < s.beta) (hrho : 0 < s.rho) : 0 < big s := by
  have := exp_pos 1
  unfold big; positivity

theorem sqrt_quarter (x : ℝ) : √(x / 4) = √x / 2 := by
  rw [show x / 4 = x * (1 / 2) ^ 2 by ring, Real.sqrt_mul' _ (by positivity), sqrt_sq (by norm_num)]; ring

theorem first_eq (s : Storm) (hp : 0 < s.dP) (hb : 0 < s.beta) (hrho : 0 < s.rho) :
    first s = s.f ^ 2 * s.rMax / (2 * √(big s)) - |s.f| / 2 := by
  have hB := big_pos s hp hb hrho
  have e := exp_pos 1
  have e1 : 4 * s.beta * s.dP / s.rho / exp 1 + (s.f * s.rMax) ^ 2 = big s := by unfold big; field_simp
  have e2 : 4 * s.beta * s.dP / s.rho + exp 1 * (s.f * s.rMax) ^ 2 = exp 1 * big s := by unfold big; field_simp
  unfold first
  rw [e1, e2]
  have : √(big s) ≠ 0 := (sqrt_pos.2 hB).ne'
  have sq := mul_self_sqrt hB.le
  have : exp 1 * s.f ^ 2 * s.rMax * √(big s) / (2 * (exp 1 * big s)) = s.f ^ 2 * s.rMax / (2 * √(big s)) := by
    rw [div_eq_div_iff (by positivity) (by positivity)]
    linear_combination (2 * exp 1 * s.f ^ 2 * s.rMax) * sq
  rw [this]
  ring

theorem rawSecond_eq (s : Storm) (hp : 0 < s.dP) (hb : 0 < s.beta) (hrho : 0 < s.rho) (hr : 0 < s.rMax) :
    rawSecond s = s.beta * s.dP / (exp 1 * s.rho) * (2 * s.f ^ 2 * s.rMax ^ 2 - s.beta ^ 2 * big s) /
      (s.rMax ^ 2 * big s * √(big s)) := by
  have hB := big_pos s hp hb hrho
  have e := exp_pos 1
  have e1 : -4 * s.beta ^ 3 * s.dP / s.rho - (-2 + s.beta ^ 2) * exp 1 * (|s.f| * s.rMax) ^ 2 =
      exp 1 * (2 * s.f ^ 2 * s.rMax ^ 2 - s.beta ^ 2 * big s) := by
    unfold big; rw [mul_pow, sq_abs]; field_simp; ring
  have e2 : 4 * s.beta * s.dP * s.rMax ^ 2 / s.rho + exp 1 * (s.f * s.rMax ^ 2) ^ 2 = exp 1 * s.rMax ^ 2 * big s := by
    unfold big; field_simp
  unfold rawSecond
  rw [e1, e2]
  change s.beta * s.dP * (exp 1 * (2 * s.f ^ 2 * s.rMax ^ 2 - s.beta ^ 2 * big s)) / (exp 1 * s.rho * √(big s) * (exp 1 * s.rMax ^ 2 * big s)) = _
  have : √(big s) ≠ 0 := (sqrt_pos.2 hB).ne'
  field_simp

theorem slope_deriv (s : Storm) (hp : 0 < s.dP) (hb : 0 < s.beta) (hrho : 0 < s.rho) (hr : 0 < s.rMax) :
    HasDerivAt (slope s) (rawSecond s) s.rMax := by
  have hB := big_pos s hp hb hrho
  have e := exp_pos 1
  have d := delta_deriv s s.rMax hr hr
  rw [delta_rMax s hr] at d
  -- the numerator
  have q : HasDerivAt (fun R => (delta s R ^ 2 - delta s R) * exp (-delta s R)) (-s.beta / s.rMax * exp (-1)) s.rMax := by
    have := ((d.pow 2).sub d).mul d.neg.exp
    refine HasDerivAt.congr_deriv this ?_
    simp [delta_rMax s hr]
    ring
  have iv : HasDerivAt (fun R : ℝ => s.beta ^ 2 * s.dP / s.rho / R) (s.beta ^ 2 * s.dP / s.rho * (-(s.rMax ^ 2)⁻¹)) s.rMax := by
    have := (hasDerivAt_inv hr.ne').const_mul (s.beta ^ 2 * s.dP / s.rho)
    simpa [div_eq_mul_inv] using this
  have lin : HasDerivAt (fun R : ℝ => R * s.f ^ 2 / 2) (s.f ^ 2 / 2) s.rMax := by
    have := ((hasDerivAt_id s.rMax).mul_const (s.f ^ 2)).div_const 2
    refine HasDerivAt.congr_deriv this ?_
    ring
  have num := (iv.mul q).add lin
  have sq := (rad_deriv s s.rMax hr hr).sqrt (rad_pos s s.rMax hp hb hrho hr hr).ne'
  have den := sq.const_mul 2
  have tot := (num.div den (by have := sqrt_pos.2 (rad_pos s s.rMax hp hb hrho hr hr); positivity)).sub_const (|s.f| / 2)
  unfold slope
  refine HasDerivAt.congr_deriv tot ?_
  simp only [delta_rMax s hr, Pi.add_apply, Pi.mul_apply]
  rw [rawSecond_eq s hp hb hrho hr, rad_rMax s hr, sqrt_quarter]
  have hs : 0 < √(big s) := sqrt_pos.2 hB
  have hB' : big s = √(big s) ^ 2 := (sq_sqrt hB.le).symm
  have hq : 4 * (s.beta * s.dP / (exp 1 * s.rho)) = √(big s) ^ 2 - (s.f * s.rMax) ^ 2 := by
    rw [← hB']; unfold big; ring
  obtain ⟨K, hK⟩ : ∃ K, K = s.beta * s.dP / (exp 1 * s.rho) := ⟨_, rfl⟩
  have hd : s.dP = K * (exp 1 * s.rho) / s.beta := by rw [hK]; field_simp
  rw [← hK] at hq ⊢
  rw [hd, exp_neg]
  generalize √(big s) = y at *
  rw [hB']
  have hKy : K = (y ^ 2 - (s.f * s.rMax) ^ 2) / 4 := by linarith
  rw [hKy]
  field_simp
  ring

/-- C47: outside, the profile of Holland is differentiable, and at the radius of maximum wind its first and second
derivative are those the cubic core is built from. -/
theorem C47_outer (s : Storm) (hp : 0 < s.dP) (hb : 0 < s.beta) (hrho : 0 < s.rho) (hr : 0 < s.rMax) :
    ∃ V' : ℝ → ℝ, (∀ R, 0 < R → HasDerivAt (outer s) (V' R) R) ∧ V' s.rMax = first s ∧
      HasDerivAt V' (rawSecond s) s.rMax := by
  refine ⟨slope s, fun R hR => outer_deriv s R hp hb hrho hr hR, ?_, slope_deriv s hp hb hrho hr⟩
  unfold slope
  rw [delta_rMax s hr, rad_rMax s hr, sqrt_quarter, first_eq s hp hb hrho]
  have : √(big s) ≠ 0 := (sqrt_pos.2 (big_pos s hp hb hrho)).ne'
  field_simp
  ring

/-- The square of the maximum wind of Holland's relation. -/
theorem speed_sq (s : Storm) (hp : 0 < s.dP) (hb : 0 < s.beta) (hrho : 0 < s.rho)
    (hv : s.vMax = hollandSpeed s.beta s.dP s.rho) : 0 < s.vMax ∧ big s = 4 * s.vMax ^ 2 + (s.f * s.rMax) ^ 2 := by
  have e := exp_pos 1
  rw [hv]
  unfold hollandSpeed big
  refine ⟨sqrt_pos.2 (by positivity), ?_⟩
  rw [sq_sqrt (by positivity)]
  ring

theorem outer_rMax (s : Storm) (hr : 0 < s.rMax) : outer s s.rMax = √(big s) / 2 - s.rMax * |s.f| / 2 := by
  have := rad_rMax s hr
  rw [← sqrt_quarter, ← this]
  rfl

theorem fr_lt (s : Storm) (hp : 0 < s.dP) (hb : 0 < s.beta) (hrho : 0 < s.rho) (hr : 0 < s.rMax)
    (hv : s.vMax = hollandSpeed s.beta s.dP s.rho) : |s.f| * s.rMax < √(big s) ∧ 2 * s.vMax ≤ √(big s) ∧
      √(big s) ≤ 2 * s.vMax + |s.f| * s.rMax := by
  obtain ⟨v0, hB⟩ := speed_sq s hp hb hrho hv
  have a0 : 0 ≤ |s.f| * s.rMax := by positivity
  have e : (s.f * s.rMax) ^ 2 = (|s.f| * s.rMax) ^ 2 := by rw [mul_pow, mul_pow, sq_abs]
  refine ⟨lt_sqrt_of_sq_lt (by nlinarith), le_sqrt_of_sq_le (by nlinarith), ?_⟩
  rw [sqrt_le_left (by positivity)]
  rw [hB, e]
  nlinarith

/-- C47 fails: at the radius of maximum wind the core has the maximum wind, while the profile outside starts lower
unless the storm is on the equator; the step is at most half the radius times the Coriolis parameter. -/
theorem C47_holland_step_fails (s : Storm) (hp : 0 < s.dP) (hb : 0 < s.beta) (hrho : 0 < s.rho) (hr : 0 < s.rMax)
    (hv : s.vMax = hollandSpeed s.beta s.dP s.rho) (d2 : ℝ) :
    (core s d2 (first s) s.rMax = outer s s.rMax ↔ s.f = 0) ∧
    0 ≤ core s d2 (first s) s.rMax - outer s s.rMax ∧
    core s d2 (first s) s.rMax - outer s s.rMax ≤ s.rMax * |s.f| / 2 := by
  obtain ⟨v0, hB⟩ := speed_sq s hp hb hrho hv
  obtain ⟨l1, l2, l3⟩ := fr_lt s hp hb hrho hr hv
  rw [(C47_core s d2 (first s) hr).2.1, outer_rMax s hr]
  refine ⟨?_, by linarith, by linarith⟩
  constructor
  · intro h
    by_contra hf
    have a0 : 0 < |s.f| * s.rMax := by positivity
    have e : (s.f * s.rMax) ^ 2 = (|s.f| * s.rMax) ^ 2 := by rw [mul_pow, mul_pow, sq_abs]
    have q : √(big s) = 2 * s.vMax + |s.f| * s.rMax := by linarith
    have := sq_sqrt (big_pos s hp hb hrho).le
    rw [q, hB, e] at this
    nlinarith
  · intro hf
    rw [hB, hf]
    simp only [zero_mul, abs_zero, mul_zero, zero_div, sub_zero]
    rw [show (4 * s.vMax ^ 2 + 0 ^ 2 : ℝ) = (2 * s.vMax) ^ 2 by ring, sqrt_sq (by positivity)]
    ring

theorem first_neg (s : Storm) (hp : 0 < s.dP) (hb : 0 < s.beta) (hrho : 0 < s.rho) (hr : 0 < s.rMax)
    (hv : s.vMax = hollandSpeed s.beta s.dP s.rho) : first s ≤ 0 ∧ -(|s.f| / 2) ≤ first s ∧ (s.f ≠ 0 → first s < 0) := by
  obtain ⟨l1, -, -⟩ := fr_lt s hp hb hrho hr hv
  have y0 := sqrt_pos.2 (big_pos s hp hb hrho)
  rw [first_eq s hp hb hrho]
  have q : s.f ^ 2 * s.rMax / (2 * √(big s)) = |s.f| * (|s.f| * s.rMax / √(big s)) / 2 := by
    rw [← sq_abs]; field_simp
  rw [q]
  have r1 : |s.f| * s.rMax / √(big s) < 1 := by rwa [div_lt_one y0]
  have r0 : 0 ≤ |s.f| * s.rMax / √(big s) := by positivity
  have f0 := abs_nonneg s.f
  refine ⟨by nlinarith, by nlinarith, fun hf => ?_⟩
  have : 0 < |s.f| := by positivity
  nlinarith

/-- C47, partial: outside, the wind of Holland's profile is not negative and never exceeds the maximum wind. -/
theorem C47_outer_bound_partial (s : Storm) (hp : 0 < s.dP) (hb : 0 < s.beta) (hrho : 0 < s.rho) (hr : 0 < s.rMax)
    (hv : s.vMax = hollandSpeed s.beta s.dP s.rho) (R : ℝ) (hR : 0 < R) : 0 ≤ outer s R ∧ outer s R ≤ s.vMax := by
  have g0 := grad_pos s R hp hb hrho hr hR
  have e := exp_pos 1
  have d0 : 0 < delta s R := rpow_pos_of_pos (by positivity) _
  have g1 : grad s R ≤ s.vMax ^ 2 := by
    rw [hv]
    unfold hollandSpeed
    rw [sq_sqrt (by positivity)]
    unfold grad
    have h1 : delta s R ≤ exp (delta s R - 1) := by linarith [add_one_le_exp (delta s R - 1)]
    have h2 : delta s R * exp (-delta s R) ≤ exp (-1) := by
      have := mul_le_mul_of_nonneg_right h1 (exp_pos (-delta s R)).le
      rwa [← exp_add, show delta s R - 1 + -delta s R = -1 by ring] at this
    have h3 := mul_le_mul_of_nonneg_left h2 (show 0 ≤ s.dP * s.beta / s.rho by positivity)
    rw [exp_neg, ← mul_assoc] at h3
    calc _ ≤ s.dP * s.beta / s.rho * (exp 1)⁻¹ := by
            simpa [exp_neg] using h3
      _ = _ := by field_simp
  have v0 : 0 < s.vMax := (speed_sq s hp hb hrho hv).1
  have a0 : 0 ≤ R * |s.f| / 2 := by positivity
  have q : (R * s.f / 2) ^ 2 = (R * |s.f| / 2) ^ 2 := by rw [div_pow, div_pow, mul_pow, mul_pow, sq_abs]
  change 0 ≤ √(grad s R + (R * s.f / 2) ^ 2) - R * |s.f| / 2 ∧ √(grad s R + (R * s.f / 2) ^ 2) - R * |s.f| / 2 ≤ s.vMax
  rw [q]
  constructor
  · have := le_sqrt_of_sq_le (x := R * |s.f| / 2) (y := grad s R + (R * |s.f| / 2) ^ 2) (by linarith)
    linarith
  · have : √(grad s R + (R * |s.f| / 2) ^ 2) ≤ s.vMax + R * |s.f| / 2 := by
      rw [sqrt_le_left (by positivity)]
      nlinarith
    linarith

theorem holland_ok {s : Storm} {d2 : ℝ} (h : second s = .ok d2) (R : ℝ) :
    holland s R = .ok (sign s.f * (if R ≤ s.rMax then core s d2 (first s) R else outer s R)) := by
  unfold holland; rw [h]

/-- C47 fails: unless the storm is on the equator, somewhere inside the radius of maximum wind the wind exceeds the
maximum wind. -/
theorem C47_holland_exceeds_fails (s : Storm) (hp : 0 < s.dP) (hb : 0 < s.beta) (hrho : 0 < s.rho) (hr : 0 < s.rMax)
    (hv : s.vMax = hollandSpeed s.beta s.dP s.rho) (hf : s.f ≠ 0) (d2 : ℝ) (h2 : second s = .ok d2) :
    ∃ R V, 0 < R ∧ R < s.rMax ∧ holland s R = .ok V ∧ s.vMax < |V| := by
  have d1 := (first_neg s hp hb hrho hr hv).2.2 hf
  have v0 := (speed_sq s hp hb hrho hv).1
  set D := -first s * s.rMax with hD
  have D0 : 0 < D := by rw [hD]; exact mul_pos (by linarith) hr
  set M := s.vMax + |d2| * s.rMax ^ 2 / 2 with hM
  have M0 : 0 < M := by rw [hM]; positivity
  obtain ⟨w, w0, w1, w2⟩ : ∃ w : ℝ, 0 < w ∧ w ≤ 1 / 2 ∧ w * M ≤ D / 2 :=
    ⟨min (1 / 2) (D / 2 / M), by positivity, min_le_left _ _,
      le_trans (mul_le_mul_of_nonneg_right (min_le_right _ _) M0.le) (by rw [div_mul_cancel₀ _ M0.ne'])⟩
  refine ⟨s.rMax * (1 - w), _, mul_pos hr (by linarith), by nlinarith, holland_ok h2 _, ?_⟩
  rw [if_pos (by nlinarith), abs_mul, abs_sign hf, one_mul, core_eq _ _ _ _ hr.ne',
    mul_div_cancel_left₀ _ hr.ne', sub_sub_cancel]
  apply lt_of_lt_of_le _ (le_abs_self _)
  have t : -|d2| ≤ d2 := neg_abs_le d2
  have k0 : 0 ≤ w ^ 2 - w ^ 3 := by nlinarith [sq_nonneg w]
  have k1 : w ^ 2 - w ^ 3 ≤ w ^ 2 := by nlinarith [pow_pos w0 3]
  have hd : -(|d2| * s.rMax ^ 2 / 2 * w ^ 2) ≤ d2 * s.rMax ^ 2 / 2 * (w ^ 2 - w ^ 3) := by
    have c1 : -(|d2| * s.rMax ^ 2 / 2) ≤ d2 * s.rMax ^ 2 / 2 := by nlinarith [sq_nonneg s.rMax]
    have c2 : 0 ≤ |d2| * s.rMax ^ 2 / 2 := by positivity
    nlinarith [mul_le_mul_of_nonneg_right c1 k0, mul_le_mul_of_nonneg_left k1 c2]
  have hv3 : s.vMax * w ^ 3 ≤ s.vMax * w ^ 2 := mul_le_mul_of_nonneg_left (by nlinarith [sq_nonneg w]) v0.le
  have hw : 3 / 4 * w ≤ w - w ^ 3 := by nlinarith [mul_pos w0 w0]
  have e1 : -(first s * s.rMax * (w - w ^ 3)) = D * (w - w ^ 3) := by rw [hD]; ring
  have e2 : M * w ^ 2 ≤ D / 2 * w := by nlinarith
  have e3 : 3 / 4 * (D * w) ≤ D * (w - w ^ 3) := by nlinarith
  have e4 : 0 < D * w := mul_pos D0 w0
  rw [hM] at e2
  nlinarith

/-- C47: the assertion about the second derivative holds exactly if the storm is strong enough for its size and
latitude (always, if beta is at least the square root of 2). -/
theorem C47_second (s : Storm) (hp : 0.5 ≤ s.dP) (hb : 0 < s.beta) (hrho : 0 < s.rho) (hr : 0 < s.rMax) :
    second s = if (2 - s.beta ^ 2) * (s.f * s.rMax) ^ 2 < 4 * s.beta ^ 3 * s.dP / (exp 1 * s.rho) then .ok (rawSecond s)
      else .error .assertion := by
  have hp' : 0 < s.dP := by linarith
  have hB := big_pos s hp' hb hrho
  have e := exp_pos 1
  have na : ¬|s.dP| < 0.5 := by rw [abs_of_pos hp']; linarith
  unfold second
  simp only [na, and_false, if_false]
  have iff : rawSecond s < 0 ↔ (2 - s.beta ^ 2) * (s.f * s.rMax) ^ 2 < 4 * s.beta ^ 3 * s.dP / (exp 1 * s.rho) := by
    rw [rawSecond_eq s hp' hb hrho hr]
    have y0 := sqrt_pos.2 hB
    have den : 0 < s.rMax ^ 2 * big s * √(big s) := by positivity
    rw [div_neg_iff]
    have K : 0 < s.beta * s.dP / (exp 1 * s.rho) := by positivity
    constructor
    · rintro (⟨_, h⟩ | ⟨h, _⟩)
      · linarith
      · have : 2 * s.f ^ 2 * s.rMax ^ 2 - s.beta ^ 2 * big s < 0 := by
          by_contra hn
          push Not at hn
          have := mul_nonneg K.le hn
          linarith
        unfold big at this
        have q : s.beta ^ 2 * (4 * s.beta * s.dP / (exp 1 * s.rho)) = 4 * s.beta ^ 3 * s.dP / (exp 1 * s.rho) := by ring
        nlinarith
    · intro h
      right
      refine ⟨?_, den⟩
      apply mul_neg_of_pos_of_neg K
      unfold big
      have q : s.beta ^ 2 * (4 * s.beta * s.dP / (exp 1 * s.rho)) = 4 * s.beta ^ 3 * s.dP / (exp 1 * s.rho) := by ring
      nlinarith
  simp only [iff]

/-- C47: for a deficit below half a pascal the assertion holds whatever its size and latitude are, unless the second
derivative is exactly zero, as it is without a deficit. -/
theorem C47_second_weak (s : Storm) (hp : |s.dP| < 0.5) :
    (rawSecond s ≠ 0 → ∃ d2, second s = .ok d2 ∧ d2 < 0) ∧ (rawSecond s = 0 → second s = .error .assertion) ∧
      (s.dP = 0 → rawSecond s = 0) := by
  refine ⟨fun h => ?_, fun h => ?_, fun h => ?_⟩
  · unfold second
    rcases lt_or_gt_of_ne h with h | h
    · refine ⟨rawSecond s, ?_, h⟩
      simp [h, not_lt.2 h.le]
    · refine ⟨-2 * 1e-11, ?_, by norm_num⟩
      simp only [gt_iff_lt, h, hp, and_self, if_true]
      norm_num
  · unfold second; simp [h]
  · unfold rawSecond; simp [h]

theorem cubic_facts (w : ℝ) (w0 : 0 ≤ w) (w1 : w ≤ 1) :
    0 ≤ w - w ^ 3 ∧ w - w ^ 3 ≤ 2 / 5 ∧ 0 ≤ w ^ 2 - w ^ 3 ∧ 0 ≤ 1 - w ^ 3 - 3 * (w ^ 2 - w ^ 3) := by
  refine ⟨?_, ?_, ?_, ?_⟩
  · nlinarith [mul_nonneg w0 (sub_nonneg.2 w1)]
  · nlinarith [mul_nonneg (sq_nonneg (w - 0.577)) (show (0 : ℝ) ≤ w + 1.154 by linarith)]
  · nlinarith [sq_nonneg w]
  · have : 0 ≤ (1 - w) ^ 2 * (1 + 2 * w) := by positivity
    linarith [show 1 - w ^ 3 - 3 * (w ^ 2 - w ^ 3) = (1 - w) ^ 2 * (1 + 2 * w) by ring]

theorem second_low (s : Storm) (hp : 0 < s.dP) (hb : 0 < s.beta) (hb' : s.beta ≤ 3) (hrho : 0 < s.rho)
    (hr : 0 < s.rMax) (hv : s.vMax = hollandSpeed s.beta s.dP s.rho) : -(3 * s.vMax) ≤ rawSecond s * s.rMax ^ 2 / 2 := by
  obtain ⟨v0, -⟩ := speed_sq s hp hb hrho hv
  obtain ⟨-, l2, -⟩ := fr_lt s hp hb hrho hr hv
  have K : s.beta * s.dP / (exp 1 * s.rho) = s.vMax ^ 2 := by
    rw [hv]; unfold hollandSpeed; rw [sq_sqrt (by have := exp_pos 1; positivity)]
  have y0 := sqrt_pos.2 (big_pos s hp hb hrho)
  have B0 := big_pos s hp hb hrho
  rw [rawSecond_eq s hp hb hrho hr, K]
  have e : s.vMax ^ 2 * (2 * s.f ^ 2 * s.rMax ^ 2 - s.beta ^ 2 * big s) / (s.rMax ^ 2 * big s * √(big s)) * s.rMax ^ 2 / 2 =
      s.vMax ^ 2 * (s.f * s.rMax) ^ 2 / (big s * √(big s)) - s.beta ^ 2 * s.vMax * (s.vMax / √(big s)) / 2 := by
    field_simp
  rw [e]
  have t1 : 0 ≤ s.vMax ^ 2 * (s.f * s.rMax) ^ 2 / (big s * √(big s)) := by positivity
  have t2 : s.vMax / √(big s) ≤ 1 / 2 := by rw [div_le_iff₀ y0]; linarith
  have t3 : s.beta ^ 2 * s.vMax ≤ 9 * s.vMax := mul_le_mul_of_nonneg_right (by nlinarith) v0.le
  have t4 : 0 ≤ s.beta ^ 2 * s.vMax := by positivity
  have t5 := mul_le_mul_of_nonneg_left t2 t4
  linarith

theorem second_ok (s : Storm) (hp : 0.5 ≤ s.dP) (d2 : ℝ) (h : second s = .ok d2) : d2 = rawSecond s ∧ d2 < 0 := by
  have na : ¬|s.dP| < 0.5 := by rw [abs_of_pos (by linarith)]; linarith
  unfold second at h
  simp only [na, and_false, if_false] at h
  split_ifs at h with hn
  injection h with h
  exact ⟨h.symm, h ▸ hn⟩

theorem core_bound (s : Storm) (hp : 0.5 ≤ s.dP) (hb : 0 < s.beta) (hb' : s.beta ≤ 3) (hrho : 0 < s.rho)
    (hr : 0 < s.rMax) (hv : s.vMax = hollandSpeed s.beta s.dP s.rho) (d2 : ℝ) (h : second s = .ok d2) (R : ℝ)
    (hR : 0 < R) (c : R ≤ s.rMax) :
    0 ≤ core s d2 (first s) R ∧ core s d2 (first s) R ≤ s.vMax + s.rMax * |s.f| / 5 := by
  have hp' : 0 < s.dP := by linarith
  obtain ⟨v0, -⟩ := speed_sq s hp' hb hrho hv
  obtain ⟨f1, f2, -⟩ := first_neg s hp' hb hrho hr hv
  obtain ⟨hd, neg⟩ := second_ok s hp d2 h
  have low := second_low s hp' hb hb' hrho hr hv
  rw [← hd] at low
  rw [core_eq _ _ _ _ hr.ne']
  have w0 : 0 ≤ 1 - R / s.rMax := by
    have : R / s.rMax ≤ 1 := by rwa [div_le_one hr]
    linarith
  have w1 : 1 - R / s.rMax ≤ 1 := by
    have : 0 ≤ R / s.rMax := by positivity
    linarith
  generalize 1 - R / s.rMax = w at *
  obtain ⟨a1, a2, a3, a4⟩ := cubic_facts w w0 w1
  have b1 : 0 ≤ -first s * s.rMax := mul_nonneg (by linarith) hr.le
  have b2 : -first s * s.rMax ≤ |s.f| / 2 * s.rMax := mul_le_mul_of_nonneg_right (by linarith) hr.le
  have b3 : 0 ≤ |s.f| / 2 * s.rMax := by positivity
  have b4 : d2 * s.rMax ^ 2 / 2 ≤ 0 := by
    have : d2 * s.rMax ^ 2 ≤ 0 := mul_nonpos_of_nonpos_of_nonneg neg.le (sq_nonneg _)
    linarith
  have c1 := mul_nonneg b1 a1
  have c2 := mul_le_mul_of_nonneg_right low a3
  have c3 := mul_nonneg v0.le a4
  have c4 := mul_nonpos_of_nonpos_of_nonneg b4 a3
  have c5 := mul_le_mul b2 a2 a1 b3
  have c6 : 0 ≤ s.vMax * w ^ 3 := by positivity
  constructor <;> linarith

/-- C47, partial: everywhere, the wind of Holland's profile has the sense of the hemisphere and exceeds the maximum
wind by at most a fifth of the radius of maximum wind times the Coriolis parameter. -/
theorem C47_holland_bound_partial (s : Storm) (hp : 0.5 ≤ s.dP) (hb : 0 < s.beta) (hb' : s.beta ≤ 3) (hrho : 0 < s.rho)
    (hr : 0 < s.rMax) (hv : s.vMax = hollandSpeed s.beta s.dP s.rho) (R V : ℝ) (hR : 0 < R)
    (h : holland s R = .ok V) : 0 ≤ sign s.f * V ∧ |V| ≤ s.vMax + s.rMax * |s.f| / 5 := by
  have hp' : 0 < s.dP := by linarith
  have rf0 : 0 ≤ s.rMax * |s.f| / 5 := by positivity
  have v0 := (speed_sq s hp' hb hrho hv).1
  have fin : ∀ x : ℝ, 0 ≤ x → x ≤ s.vMax + s.rMax * |s.f| / 5 → V = sign s.f * x →
      0 ≤ sign s.f * V ∧ |V| ≤ s.vMax + s.rMax * |s.f| / 5 := by
    intro x x0 x1 e
    rw [e]
    by_cases hf : s.f = 0
    · rw [hf, sign_zero]; simp; positivity
    · rw [abs_mul, abs_sign hf, one_mul, abs_of_nonneg x0, ← mul_assoc]
      refine ⟨?_, x1⟩
      rcases lt_or_gt_of_ne hf with h | h
      · rw [sign_of_neg h]; linarith
      · rw [sign_of_pos h]; linarith
  cases hs : second s with
  | error e => rw [holland, hs] at h; cases h
  | ok d2 =>
    rw [holland_ok hs] at h
    have hV : V = sign s.f * (if R ≤ s.rMax then core s d2 (first s) R else outer s R) :=
      (Except.ok.inj h).symm
    by_cases c : R ≤ s.rMax
    · rw [if_pos c] at hV
      obtain ⟨o1, o2⟩ := core_bound s hp hb hb' hrho hr hv d2 hs R hR c
      exact fin _ o1 o2 hV
    · rw [if_neg c] at hV
      obtain ⟨o1, o2⟩ := C47_outer_bound_partial s hp' hb hrho hr hv R hR
      exact fin _ o1 (by linarith) hV

/-- C47: the shape parameter of Powell and others is always in a range in which the results above apply. -/
theorem C47_powell_beta (lat rMax : ℝ) : 0.8 ≤ powellBeta lat rMax ∧ powellBeta lat rMax ≤ 2.2 ∧
    (0 ≤ rMax → powellBeta lat rMax ≤ 2) := by
  have a := abs_nonneg lat
  refine ⟨?_, ?_, fun h => ?_⟩
  · unfold powellBeta
    simp only
    split_ifs <;> linarith
  · unfold powellBeta
    simp only
    split_ifs <;> linarith
  · have : 0 ≤ Units.convert rMax "m" "nm" := by
      rw [Units.convert_of (f := (0.000539957, 0)) (by decide) (by decide) (by decide +kernel),
        show Units.pre "m" "nm" = 0 by decide +kernel, show Units.post "m" "nm" = 0 by decide +kernel]
      norm_num
      positivity
    unfold powellBeta
    simp only
    split_ifs <;> linarith

/-- A storm of 50 hPa, radius of maximum wind 30 km, in the southern hemisphere. -/
noncomputable def sample : Storm := ⟨-1 / 20000, 5000, 30000, 1.15, 1.3, hollandSpeed 1.3 5000 1.15⟩

example : 0.5 ≤ sample.dP ∧ 0 < sample.beta ∧ sample.beta ≤ 3 ∧ 0 < sample.rho ∧ 0 < sample.rMax ∧ sample.f ≠ 0 ∧
    sample.vMax = hollandSpeed sample.beta sample.dP sample.rho ∧ ∃ d2, second sample = .ok d2 := by
  refine ⟨by norm_num [sample], by norm_num [sample], by norm_num [sample], by norm_num [sample], by norm_num [sample],
    by norm_num [sample], rfl, rawSecond sample, ?_⟩
  rw [C47_second _ (by norm_num [sample]) (by norm_num [sample]) (by norm_num [sample]) (by norm_num [sample]), if_pos]
  have e : exp 1 < 3 := by
    linarith [exp_one_lt_d9]
  have : (4 * sample.beta ^ 3 * sample.dP) / (3 * sample.rho) < 4 * sample.beta ^ 3 * sample.dP / (exp 1 * sample.rho) := by
    apply div_lt_div_of_pos_left <;> norm_num [sample] <;> first | linarith | positivity
  refine lt_trans ?_ this
  norm_num [sample]

/-- C47 fails for the double vortex: south of the equator the wind grows with the distance from the storm without
bound. -/
theorem C47_double_fails (s : Double) (hf : s.f < 0) (hp : 0 ≤ s.dP) (hb1 : 0 ≤ s.beta1) (hb2 : 0 ≤ s.beta2)
    (hrho : 0 < s.rho) (hr : 0 ≤ s.rMax) (hr2 : 0 ≤ s.rMax2) (R : ℝ) (hR : 0 < R) : R * |s.f| ≤ |doubleOuter s R| := by
  have k : 0 ≤ dp2 s.dP ∧ dp2 s.dP ≤ s.dP := by
    unfold dp2
    split_ifs with h
    · constructor
      · have : 0 ≤ 800 + (s.dP - 800) / 2000 := by linarith
        positivity
      · nlinarith
    · constructor <;> linarith
  have d1 : 0 ≤ s.dP - dp2 s.dP := by linarith [k.2]
  have t1 : 0 ≤ s.beta1 * (s.dP - dp2 s.dP) / s.rho * (s.rMax / R) ^ s.beta1 * exp (-((s.rMax / R) ^ s.beta1)) := by
    positivity
  have t2 : 0 ≤ s.beta2 * dp2 s.dP / s.rho * (s.rMax2 / R) ^ s.beta2 * exp (-((s.rMax2 / R) ^ s.beta2)) := by
    have := k.1
    positivity
  unfold doubleOuter
  rw [sign_of_neg hf]
  have a0 : 0 ≤ R * |s.f| / 2 := by positivity
  have q : (R * s.f / 2) ^ 2 = (R * |s.f| / 2) ^ 2 := by rw [div_pow, div_pow, mul_pow, mul_pow, sq_abs]
  rw [q]
  set t := s.beta1 * (s.dP - dp2 s.dP) / s.rho * (s.rMax / R) ^ s.beta1 * exp (-((s.rMax / R) ^ s.beta1)) +
    s.beta2 * dp2 s.dP / s.rho * (s.rMax2 / R) ^ s.beta2 * exp (-((s.rMax2 / R) ^ s.beta2)) with ht
  have := le_sqrt_of_sq_le (x := R * |s.f| / 2) (y := t + (R * |s.f| / 2) ^ 2) (by rw [ht]; linarith)
  have a := neg_le_abs (-1 * √(t + (R * |s.f| / 2) ^ 2) - R * |s.f| / 2)
  linarith

/-! C74: vorticity. -/

/-- C74, partial: inside the radius of maximum wind, the vorticity of Holland's profile is that of its wind. -/
theorem C74_core_partial (s : Storm) (d2 : ℝ) (h : second s = .ok d2) :
    ∃ v : ℝ → ℝ, (∀ R, holland s R = .ok (v R)) ∧
      ∀ R, 0 < R → R < s.rMax → ∃ Z, hollandVort s R = .ok Z ∧ IsVorticity v R Z := by
  refine ⟨_, holland_ok h, fun R hR hlt => ⟨_, by unfold hollandVort; rw [h], sign s.f *
    (3 * aa s d2 (first s) * R ^ 2 + 2 * bb s d2 (first s) * R + cc s d2 (first s)), ?_, ?_⟩⟩
  · have := (core_deriv s d2 (first s) R).const_mul (sign s.f)
    refine this.congr_of_eventuallyEq ?_
    filter_upwards [gt_mem_nhds hlt] with x hx
    rw [if_pos (le_of_lt hx)]
  · simp only [if_pos hlt.le]
    unfold core coreVort
    field_simp
    ring

/-- C74 fails: outside the radius of maximum wind, the vorticity of Holland's profile is too large by twice the Coriolis
parameter. -/
theorem C74_outer_fails (s : Storm) (hp : 0 < s.dP) (hb : 0 < s.beta) (hrho : 0 < s.rho) (hr : 0 < s.rMax)
    (d2 : ℝ) (h : second s = .ok d2) :
    ∃ v : ℝ → ℝ, (∀ R, holland s R = .ok (v R)) ∧
      ∀ R, s.rMax < R → ∃ Z, hollandVort s R = .ok Z ∧ IsVorticity v R (Z - 2 * s.f) := by
  refine ⟨_, holland_ok h, fun R hlt => ⟨_, by unfold hollandVort; rw [h], sign s.f * slope s R, ?_, ?_⟩⟩
  · have := (outer_deriv s R hp hb hrho hr (by linarith)).const_mul (sign s.f)
    refine this.congr_of_eventuallyEq ?_
    filter_upwards [lt_mem_nhds hlt] with x hx
    rw [if_neg (not_le.2 hx)]
  · have hR : 0 < R := by linarith
    have y0 := sqrt_pos.2 (rad_pos s R hp hb hrho hr hR)
    simp only [if_neg (not_le.2 hlt)]
    have e1 : outer s R = √(rad s R) - R * |s.f| / 2 := rfl
    have e2 : s.beta * s.dP * delta s R * exp (-delta s R) / s.rho + (R * s.f / 2) ^ 2 = rad s R := by
      unfold rad grad; ring
    have e3 : sign s.f * |s.f| = s.f := by
      rcases lt_trichotomy s.f 0 with h | h | h
      · rw [sign_of_neg h, abs_of_neg h]; ring
      · rw [h]; simp
      · rw [sign_of_pos h, abs_of_pos h]; ring
    unfold outerVort slope
    rw [e2, e1]
    have e4 : 2 * s.f = 2 * (sign s.f * |s.f|) := by rw [e3]
    rw [e4]
    field_simp
    ring

/-- C74 fails: the vorticity of Jelesnianski's profile is that at a thousand times the radius. -/
theorem C74_jelesnianski_fails (s : Storm) (hr : 0 < s.rMax) (R : ℝ) (hR : 0 < R) :
    IsVorticity (jelesnianski s) (1000 * R) (jelesnianskiVort s R) := by
  have d0 : s.rMax ^ 2 + (1000 * R) ^ 2 ≠ 0 := by positivity
  have h1 : HasDerivAt (fun x : ℝ => 2 * s.vMax * s.rMax * x) (2 * s.vMax * s.rMax) (1000 * R) := by
    have := (hasDerivAt_id (1000 * R)).const_mul (2 * s.vMax * s.rMax)
    exact this.congr_deriv (by simp)
  have h2 : HasDerivAt (fun x : ℝ => s.rMax ^ 2 + x ^ 2) (2 * (1000 * R)) (1000 * R) := by
    have := (hasDerivAt_pow 2 (1000 * R)).const_add (s.rMax ^ 2)
    exact this.congr_deriv (by simp)
  refine ⟨_, (h1.div h2 d0).const_mul (sign s.f), ?_⟩
  unfold jelesnianskiVort jelesnianski
  simp only
  field_simp
  ring

/-- At the radius of maximum wind, for instance, the vorticity of Jelesnianski's profile is less than a hundred
thousandth of what it should be. -/
theorem C74_jelesnianski_size (s : Storm) (hr : 0 < s.rMax) (hv : 0 < s.vMax) (hf : 0 < s.f) :
    IsVorticity (jelesnianski s) s.rMax (s.vMax / s.rMax) ∧ |jelesnianskiVort s s.rMax| < s.vMax / s.rMax / 100000 := by
  constructor
  · have d0 : s.rMax ^ 2 + s.rMax ^ 2 ≠ 0 := by positivity
    have h1 : HasDerivAt (fun x : ℝ => 2 * s.vMax * s.rMax * x) (2 * s.vMax * s.rMax) s.rMax := by
      have := (hasDerivAt_id s.rMax).const_mul (2 * s.vMax * s.rMax)
      exact this.congr_deriv (by simp)
    have h2 : HasDerivAt (fun x : ℝ => s.rMax ^ 2 + x ^ 2) (2 * s.rMax) s.rMax := by
      have := (hasDerivAt_pow 2 s.rMax).const_add (s.rMax ^ 2)
      exact this.congr_deriv (by simp)
    refine ⟨_, (h1.div h2 d0).const_mul (sign s.f), ?_⟩
    unfold jelesnianski
    rw [sign_of_pos hf]
    field_simp
    ring
  · unfold jelesnianskiVort
    rw [sign_of_pos hf]
    have e : 1 * 2 * s.vMax * s.rMax / (s.rMax ^ 2 + (s.rMax * 1000) ^ 2) +
        1 * 2 * s.vMax * s.rMax * (s.rMax ^ 2 - (s.rMax * 1000) ^ 2) / (s.rMax ^ 2 + (s.rMax * 1000) ^ 2) ^ 2 =
        s.vMax / s.rMax * (4 / 1000001 ^ 2) := by
      field_simp
      ring
    simp only [e]
    have : 0 < s.vMax / s.rMax := by positivity
    rw [abs_of_pos (by positivity)]
    have : (4 / 1000001 ^ 2 : ℝ) < 1 / 100000 := by norm_num
    nlinarith

/-- C74 fails: inside the radius of maximum wind, the vorticity of Rankine's profile is right only at a radius of one
metre. -/
theorem C74_rankine_fails (s : Storm) (hr : 0 < s.rMax) (hv : 0 < s.vMax) (hf : s.f ≠ 0) (R : ℝ) (hR : 0 < R)
    (hlt : R < s.rMax) : IsVorticity (rankine s) R (rankineVort s R) ↔ R = 1 := by
  have d : HasDerivAt (rankine s) (sign s.f * (s.vMax / s.rMax)) R := by
    have := ((hasDerivAt_id R).div_const s.rMax).const_mul s.vMax |>.const_mul (sign s.f)
    have t : HasDerivAt (fun x => sign s.f * (s.vMax * (x / s.rMax))) (sign s.f * (s.vMax / s.rMax)) R :=
      this.congr_deriv (by ring)
    refine t.congr_of_eventuallyEq ?_
    filter_upwards [gt_mem_nhds hlt] with x hx
    unfold rankine
    rw [if_pos (le_of_lt hx)]
  have sg : sign s.f ≠ 0 := by
    intro h; exact hf (sign_eq_zero_iff.1 h)
  have val : rankine s R / R = sign s.f * (s.vMax / s.rMax) := by
    unfold rankine; rw [if_pos hlt.le]; field_simp
  have z : rankineVort s R = sign s.f * (s.vMax / s.rMax) * (R + 1) := by
    unfold rankineVort; rw [if_pos hlt.le]; field_simp
  have c : sign s.f * (s.vMax / s.rMax) ≠ 0 := mul_ne_zero sg (by positivity)
  constructor
  · rintro ⟨v', h1, h2⟩
    rw [h1.unique d, val, z] at h2
    have : sign s.f * (s.vMax / s.rMax) * (R - 1) = 0 := by linarith
    rcases mul_eq_zero.1 this with h | h
    · exact absurd h c
    · linarith
  · rintro rfl
    exact ⟨_, d, by rw [val, z]; ring⟩

/-- C74 fails, exactly: outside the radius of maximum wind, the vorticity computed for Rankine's profile differs from
the vorticity of its wind field by `α·vMax·(rMax − sign f · rMax^α)/R^(α+1)`, with `α = 1/2`. -/
theorem C74_rankine_outer (s : Storm) (hr : 0 < s.rMax) (R : ℝ) (hlt : s.rMax < R) (Z : ℝ) :
    IsVorticity (rankine s) R Z ↔
      Z = rankineVort s R + 1 / 2 * s.vMax * (s.rMax - sign s.f * s.rMax ^ (1 / 2 : ℝ)) / R ^ (3 / 2 : ℝ) := by
  have hR : 0 < R := hr.trans hlt
  have ha : alpha = 1 / 2 := by unfold alpha; norm_num
  have d : HasDerivAt (rankine s) (sign s.f * (s.vMax * (s.rMax ^ (1 / 2 : ℝ) * (-(1 / 2) * R ^ (-(3 / 2) : ℝ))))) R := by
    have h1 : HasDerivAt (fun x : ℝ => x ^ (-(1 / 2) : ℝ)) (-(1 / 2) * R ^ (-(3 / 2) : ℝ)) R := by
      have := Real.hasDerivAt_rpow_const (x := R) (p := -(1 / 2)) (.inl hR.ne')
      convert this using 3
      norm_num
    have t := ((h1.const_mul (s.rMax ^ (1 / 2 : ℝ))).const_mul s.vMax).const_mul (sign s.f)
    refine t.congr_of_eventuallyEq ?_
    filter_upwards [lt_mem_nhds hlt] with x hx
    have hx0 : 0 < x := hr.trans hx
    unfold rankine
    rw [if_neg (not_le.2 hx), ha, Real.div_rpow hr.le hx0.le, Real.rpow_neg hx0.le]
    rfl
  have z : rankineVort s R = rankine s R / R - 1 / 2 * s.vMax * s.rMax / R ^ (3 / 2 : ℝ) := by
    unfold rankineVort
    rw [if_neg (not_le.2 hlt), ha]
    norm_num
  have e : ∀ v', HasDerivAt (rankine s) v' R →
      v' = -(sign s.f * (1 / 2 * s.vMax * s.rMax ^ (1 / 2 : ℝ) / R ^ (3 / 2 : ℝ))) := by
    intro v' h
    rw [h.unique d, Real.rpow_neg hR.le, div_eq_mul_inv]
    ring
  constructor
  · rintro ⟨v', h1, h2⟩
    rw [h2, e v' h1, z]
    ring
  · intro h
    refine ⟨_, d, ?_⟩
    rw [h, e _ d, z]
    ring

/-- C74 fails: outside the radius of maximum wind, the vorticity computed for Rankine's profile is right only in the
northern hemisphere and for a radius of maximum wind of one metre. -/
theorem C74_rankine_outer_fails (s : Storm) (hr : 0 < s.rMax) (hv : 0 < s.vMax) (hf : s.f ≠ 0) (R : ℝ)
    (hlt : s.rMax < R) : IsVorticity (rankine s) R (rankineVort s R) ↔ 0 < s.f ∧ s.rMax = 1 := by
  have hR : 0 < R := hr.trans hlt
  rw [C74_rankine_outer s hr R hlt, eq_comm, add_eq_left, div_eq_zero_iff,
    or_iff_left (Real.rpow_pos_of_pos hR _).ne', mul_eq_zero, or_iff_right (by positivity), sub_eq_zero]
  rcases lt_or_gt_of_ne hf with h | h
  · rw [sign_of_neg h]
    have := Real.rpow_pos_of_pos hr (1 / 2)
    constructor
    · intro h'; linarith
    · intro h'; linarith [h'.1]
  · rw [sign_of_pos h, one_mul, ← Real.sqrt_eq_rpow]
    constructor
    · intro h'
      refine ⟨h, ?_⟩
      have h2 := Real.mul_self_sqrt hr.le
      rw [← h'] at h2
      nlinarith
    · rintro ⟨-, h'⟩
      rw [h']; simp

-- The storm of the example above is far from this: a radius of maximum wind of thirty kilometres.
example : ¬ IsVorticity (rankine ⟨1e-4, 5000, 30000, 1.15, 1.5, 50⟩) 60000
    (rankineVort ⟨1e-4, 5000, 30000, 1.15, 1.5, 50⟩ 60000) := by
  rw [C74_rankine_outer_fails _ (by norm_num) (by norm_num) (by norm_num) _ (by norm_num)]
  norm_num

/-- The maximum wind speeds of the wind fields (wind/windmodels.py) are those of the function `vmax`
(wind/vmax.py), for pressures in Pa. -/
theorem C46_models_agree (pc pe beta rho : ℝ) (h : 10000 ≤ pc) (hp : pc ≤ pe) :
    Vmax.vmax pc pe "willoughby" beta rho = .ok (willoughbySpeed (pe - pc)) ∧
    Vmax.vmax pc pe "holland" beta rho = .ok (hollandSpeed beta (pe - pc) rho) := by
  have h1 : Vmax.toPa pc = pc := by unfold Vmax.toPa; rw [if_neg (not_lt.2 h)]
  have h2 : Vmax.toPa pe = pe := by unfold Vmax.toPa; rw [if_neg (not_lt.2 (h.trans hp))]
  unfold Vmax.vmax willoughbySpeed hollandSpeed
  rw [h1, h2]
  simp [not_lt.2 hp]

/-- C47: the Coriolis parameter is twice the rate at which the earth turns (once in 24 hours) times the sine of the
latitude: nothing at the equator, a full turn every twelve hours at the poles, and odd in the latitude. The mapping
functions have the same parameter. -/
theorem C47_coriolis (lat : ℝ) : Sphere.coriolis lat = coriolis lat ∧
    coriolis lat = 2 * (2 * π / 86400) * sin (lat * π / 180) ∧
    coriolis (-lat) = -coriolis lat ∧ coriolis 0 = 0 ∧ coriolis 90 * (12 * 3600) = 2 * π := by
  refine ⟨?_, rfl, ?_, ?_, ?_⟩
  · unfold coriolis Sphere.coriolis Sphere.rad; ring
  · unfold coriolis; rw [show -lat * π / 180 = -(lat * π / 180) by ring, sin_neg]; ring
  · unfold coriolis; simp
  · unfold coriolis; rw [show 90 * π / 180 = π / 2 by ring, sin_pi_div_two]; ring

end Tcrm.Profiles
