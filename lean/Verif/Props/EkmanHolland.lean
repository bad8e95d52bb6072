import Verif.Props.Ekman
import Verif.Props.Compiled
/-!
C192: the surface wind of storms with Holland's profile, from the compiled and the Python code.
-/
namespace Tcrm.Compiled
open Real Tcrm.Boundary

theorem rawVel_pos (s : Profiles.Storm) (hp : 0.5 ≤ s.dP) (hb : 0 < s.beta) (hb' : s.beta ≤ 2)
    (hrho : 0 < s.rho) (hr : 0 < s.rMax) (hv : s.vMax = Profiles.hollandSpeed s.beta s.dP s.rho) (d2 : ℝ)
    (h : Profiles.second s = .ok d2) (R : ℝ) (hR : 0 < R) : 0 < rawVel (args s d2) R := by
  have hp' : 0 < s.dP := by linarith
  obtain ⟨v0, -⟩ := Profiles.speed_sq s hp' hb hrho hv
  rw [rawVel_eq]
  split_ifs with c
  · obtain ⟨hd, neg⟩ := Profiles.second_ok s hp d2 h
    obtain ⟨f1, f2, -⟩ := Profiles.first_neg s hp' hb hrho hr hv
    have low := second_low2 s hp' hb hb' hrho hr hv
    rw [← hd] at low
    rw [Profiles.core_eq _ _ _ _ hr.ne']
    have w0 : 0 ≤ 1 - R / s.rMax := by
      have : R / s.rMax ≤ 1 := by rwa [div_le_one hr]
      linarith
    have w1 : 1 - R / s.rMax < 1 := by
      have : 0 < R / s.rMax := by positivity
      linarith
    generalize 1 - R / s.rMax = w at *
    obtain ⟨a1, -, a3, -⟩ := Profiles.cubic_facts w w0 w1.le
    have b1 : 0 ≤ -Profiles.first s * s.rMax := mul_nonneg (by linarith) hr.le
    have c1 := mul_nonneg b1 a1
    have c2 := mul_le_mul_of_nonneg_right low a3
    have c3 : 0 < s.vMax * (1 - w ^ 2) := mul_pos v0 (by nlinarith)
    linarith
  · have g0 := Profiles.grad_pos s R hp' hb hrho hr hR
    have q : (R * s.f / 2) ^ 2 = (R * |s.f| / 2) ^ 2 := by rw [div_pow, div_pow, mul_pow, mul_pow, sq_abs]
    change 0 < √(Profiles.grad s R + (R * s.f / 2) ^ 2) - R * |s.f| / 2
    rw [q, sub_pos]
    exact lt_sqrt_of_sq_lt (by linarith)

/-- C192: off the equator, for every storm with Holland's profile (a shape parameter of at most 2 and a Rossby number
above one half) and at every radius where the waves are not in resonance, compiled code and Python code return the wind
of the boundary layer under the wind and vorticity of the profile. -/
theorem C192_holland (s : Profiles.Storm) (hp : 0.5 ≤ s.dP) (hb : 0 < s.beta) (hb' : s.beta ≤ 2)
    (hrho : 0 < s.rho) (hr : 0 < s.rMax) (hv : s.vMax = Profiles.hollandSpeed s.beta s.dP s.rho) (hf : s.f ≠ 0)
    (hro : s.rMax * |s.f| < 2 * s.vMax) (d2 : ℝ) (h : Profiles.second s = .ok d2) (R lam thetaFm vFm : ℝ) (hR : 0 < R) :
    ∃ V Z : ℝ, Profiles.holland s R = .ok V ∧ Profiles.hollandVort s R = .ok Z ∧
      0 < V * s.f ∧ 0 < (2 * V / R + s.f) * (s.f + Z) ∧
      ((V / R) ^ 2 ≠ (2 * V / R + s.f) * (s.f + Z) →
        ∃ u v p q, Spec.Layer s.f R V Z (vt s.vMax vFm s.rMax R) u v ∧
          p = u 0 (lam - thetaFm) + vt s.vMax vFm s.rMax R * cos (lam - thetaFm) ∧
          q = V + v 0 (lam - thetaFm) - vt s.vMax vFm s.rMax R * sin (lam - thetaFm) ∧
          fkerpert (args s d2) R lam thetaFm vFm = (p * cos lam - q * sin lam, p * sin lam + q * cos lam) ∧
          kepertPython s R lam thetaFm vFm = .ok (p * cos lam - q * sin lam, p * sin lam + q * cos lam)) := by
  have v0 := rawVel_pos s hp hb hb' hrho hr hv d2 h R hR
  have z0 := rawVort_pos s hp hb hb' hrho hr hv hro d2 h R hR
  have eV := C75_velocity_agrees s hp hb (by linarith) hrho hr hv hf d2 h R hR
  have eZ := (C75_vorticity_partial s d2 h R).2 (Or.inr ⟨hf, z0⟩)
  have sV : fhollandvel (args s d2) R = sign s.f * rawVel (args s d2) R := (fsign_eq _ _).2 (Or.inr ⟨hf, v0⟩)
  have sZ : fhollandvort (args s d2) R = sign s.f * rawVort (args s d2) R := (fsign_eq _ _).2 (Or.inr ⟨hf, z0⟩)
  have hVf : 0 < fhollandvel (args s d2) R * s.f := by
    rw [sV, mul_assoc, mul_comm, mul_assoc]
    exact mul_pos v0 (by
      rcases lt_or_gt_of_ne hf with g | g
      · rw [sign_of_neg g]; linarith
      · rw [sign_of_pos g]; linarith)
  have hst : 0 < (2 * fhollandvel (args s d2) R / R + s.f) * (s.f + fhollandvort (args s d2) R) := by
    rw [sV, sZ]
    have hq : 0 < rawVel (args s d2) R / R := div_pos v0 hR
    rcases lt_or_gt_of_ne hf with g | g
    · rw [sign_of_neg g]
      rw [show 2 * (-1 * rawVel (args s d2) R) / R = -2 * (rawVel (args s d2) R / R) by ring]
      nlinarith
    · rw [sign_of_pos g]
      rw [show 2 * (1 * rawVel (args s d2) R) / R = 2 * (rawVel (args s d2) R / R) by ring]
      nlinarith
  refine ⟨_, _, eV, eZ, hVf, hst, fun hg => ?_⟩
  obtain ⟨u, v, hl, e⟩ := C192_solution s.vMax (fhollandvel (args s d2) R) (fhollandvort (args s d2) R) s.f s.rMax R lam vFm
    thetaFm hR hVf hst hg
  have ek := C192_components _ _ _ _ _ _ _ _ _ _ _ e
  have ep : kepertPython s R lam thetaFm vFm = .ok (kepert s.vMax (fhollandvel (args s d2) R)
      (fhollandvort (args s d2) R) s.f s.rMax R lam vFm thetaFm) := by
    unfold kepertPython
    rw [eV, eZ]
  have ec := C75_kepert s d2 hf R lam thetaFm vFm eV eZ
  rw [ep] at ec
  refine ⟨u, v, _, _, hl, rfl, rfl, ?_, ?_⟩
  · rw [← Except.ok.inj ec, ek]
  · rw [ep, ek]

/-- The hypotheses are met by a storm of the southern hemisphere at every radius. -/
example (R : ℝ) (hR : 0 < R) : ∃ V Z : ℝ, Profiles.holland Profiles.sample R = .ok V ∧
    Profiles.hollandVort Profiles.sample R = .ok Z ∧
    0 < (2 * V / R + Profiles.sample.f) * (Profiles.sample.f + Z) := by
  have h2 : Profiles.second Profiles.sample = .ok (Profiles.rawSecond Profiles.sample) := by
    rw [Profiles.C47_second _ (by norm_num [Profiles.sample]) (by norm_num [Profiles.sample])
      (by norm_num [Profiles.sample]) (by norm_num [Profiles.sample]), if_pos]
    have e : exp 1 < 3 := by linarith [exp_one_lt_d9]
    have : (4 * Profiles.sample.beta ^ 3 * Profiles.sample.dP) / (3 * Profiles.sample.rho) <
        4 * Profiles.sample.beta ^ 3 * Profiles.sample.dP / (exp 1 * Profiles.sample.rho) := by
      apply div_lt_div_of_pos_left <;> norm_num [Profiles.sample] <;> first | linarith | positivity
    refine lt_trans ?_ this
    norm_num [Profiles.sample]
  have hro : Profiles.sample.rMax * |Profiles.sample.f| < 2 * Profiles.sample.vMax := by
    have : (1 : ℝ) < Profiles.sample.vMax := by
      change 1 < √(1.3 * 5000 / (exp 1 * 1.15))
      apply lt_sqrt_of_sq_lt
      rw [lt_div_iff₀ (by have := exp_pos 1; positivity)]
      have := exp_one_lt_d9
      linarith
    have e : Profiles.sample.rMax * |Profiles.sample.f| = 1.5 := by
      change 30000 * |(-1 / 20000 : ℝ)| = 1.5
      rw [abs_of_neg (by norm_num)]; norm_num
    rw [e]; linarith
  obtain ⟨V, Z, h3, h4, -, h5, -⟩ := C192_holland Profiles.sample (by norm_num [Profiles.sample])
    (by norm_num [Profiles.sample]) (by norm_num [Profiles.sample]) (by norm_num [Profiles.sample])
    (by norm_num [Profiles.sample]) rfl (by norm_num [Profiles.sample]) hro _ h2 R 0 0 0 hR
  exact ⟨V, Z, h3, h4, h5⟩

theorem steep_below : steep.f + rawVort (args steep (Profiles.rawSecond steep)) 60000 < 0 := by
  rw [rawVort_eq, if_neg (by norm_num [steep])]
  unfold Profiles.outerVort
  have d : Profiles.delta steep 60000 = 1 / 8 := by
    unfold Profiles.delta
    have : steep.rMax / 60000 = 1 / 2 := by norm_num [steep]
    rw [this, show steep.beta = ((3 : ℕ) : ℝ) by norm_num [steep], rpow_natCast]
    norm_num
  rw [d]
  have e0 : (0.8 : ℝ) < exp (-(1 / 8)) := by
    have := add_one_le_exp (-(1 / 8) : ℝ)
    linarith
  simp only [steep]
  generalize exp (-(1 / 8)) = x at *
  have hx : (3 * 5000 * (1 / 8) * x / 1.15 + (60000 * (1 / 10 ^ 6) / 2) ^ 2 : ℝ) = 37500 / 23 * x + 0.0009 := by
    norm_num; ring
  rw [hx]
  have S0 : 0 < √(37500 / 23 * x + 0.0009) := sqrt_pos.2 (by linarith)
  have S2 : √(37500 / 23 * x + 0.0009) ^ 2 = 37500 / 23 * x + 0.0009 := sq_sqrt (by linarith)
  generalize √(37500 / 23 * x + 0.0009) = S at *
  have S1 : S < 37500 / 23 * x := by
    by_contra hn
    push Not at hn
    nlinarith
  rw [abs_of_pos (by norm_num)]
  have : (1 / 10 ^ 6 + (1 / 10 ^ 6 + (3 ^ 2 * 5000 * (1 / 8) ^ 2 * x / (2 * 1.15 * 60000) -
      3 ^ 2 * 5000 * (1 / 8) * x / (2 * 1.15 * 60000) + 60000 * (1 / 10 ^ 6) ^ 2 / 4) / S + S / 60000) : ℝ) =
      (0.12 * S - 1.3125 * (37500 / 23 * x) + 0.0009 + S ^ 2) / (60000 * S) := by
    field_simp
    ring
  rw [this, S2]
  apply div_neg_of_neg_of_pos _ (by positivity)
  linarith

/-- C192: the restriction of the shape parameter is needed: outside a steep storm close to the equator the absolute
vorticity has the wrong sign, and the roots the program takes there are those of negative numbers. -/
theorem C192_steep_fails : ∃ (s : Profiles.Storm) (R V Z : ℝ), 0 < s.f ∧ 0 < R ∧ Profiles.holland s R = .ok V ∧
    Profiles.hollandVort s R = .ok Z ∧ 0 < V ∧ al V s.f R / be Z s.f < 0 ∧ al V s.f R * be Z s.f < 0 := by
  have hs : sign steep.f = 1 := sign_of_pos (by norm_num [steep])
  have g0 := Profiles.grad_pos steep 60000 (by norm_num [steep]) (by norm_num [steep]) (by norm_num [steep])
    (by norm_num [steep]) (by norm_num)
  have v0 : 0 < rawVel (args steep (Profiles.rawSecond steep)) 60000 := by
    rw [rawVel_eq, if_neg (by norm_num [steep])]
    have q : (60000 * steep.f / 2) ^ 2 = (60000 * |steep.f| / 2) ^ 2 := by rw [div_pow, div_pow, mul_pow, mul_pow, sq_abs]
    change 0 < √(Profiles.grad steep 60000 + (60000 * steep.f / 2) ^ 2) - 60000 * |steep.f| / 2
    rw [q, sub_pos]
    exact lt_sqrt_of_sq_lt (by linarith)
  have hf : (0 : ℝ) < steep.f := by norm_num [steep]
  have ha : 0 < al (rawVel (args steep (Profiles.rawSecond steep)) 60000) steep.f 60000 := by
    unfold al; positivity
  have hb : be (rawVort (args steep (Profiles.rawSecond steep)) 60000) steep.f < 0 := by
    unfold be
    exact div_neg_of_neg_of_pos steep_below (by norm_num)
  refine ⟨steep, 60000, _, _, hf, by norm_num, ?_, ?_, v0, div_neg_of_pos_of_neg ha hb, mul_neg_of_pos_of_neg ha hb⟩
  · rw [Profiles.holland_ok steep_second, hs, one_mul]
    rfl
  · unfold Profiles.hollandVort
    rw [steep_second]
    simp only [hs, one_mul]
    rfl

end Tcrm.Compiled
