import Verif.Model.Compiled
import Verif.Props.Profiles
/-!
C75: the compiled routines and the Python code they replace.
-/
namespace Tcrm.Compiled
open Real Tcrm.Boundary

theorem fsign_eq (x f : ℝ) : fsign x f = sign f * x ↔ x = 0 ∨ (f ≠ 0 ∧ 0 < x) := by
  unfold fsign
  rcases lt_trichotomy f 0 with h | h | h
  · rw [if_pos h, sign_of_neg h]
    constructor
    · intro e
      have : |x| = x := by linarith
      rcases (abs_eq_self.1 this).lt_or_eq with p | p
      · exact Or.inr ⟨h.ne, p⟩
      · exact Or.inl p.symm
    · rintro (p | ⟨-, p⟩)
      · rw [p]; simp
      · rw [abs_of_pos p]; ring
  · rw [h, if_neg (lt_irrefl _), sign_zero, zero_mul, abs_eq_zero]
    simp
  · rw [if_neg (not_lt.2 h.le), sign_of_pos h, one_mul, abs_eq_self]
    constructor
    · intro e
      rcases e.lt_or_eq with p | p
      · exact Or.inr ⟨h.ne', p⟩
      · exact Or.inl p.symm
    · rintro (p | ⟨-, p⟩) <;> linarith

theorem rawVel_eq (s : Profiles.Storm) (d2 R : ℝ) : rawVel (args s d2) R =
    if R ≤ s.rMax then Profiles.core s d2 (Profiles.first s) R else Profiles.outer s R := rfl

theorem rawVort_eq (s : Profiles.Storm) (d2 R : ℝ) : rawVort (args s d2) R =
    if R ≤ s.rMax then Profiles.coreVort s d2 (Profiles.first s) R else Profiles.outerVort s R := rfl

/-- C75: the compiled wind profile agrees with the Python code exactly if the storm is not on the equator and the wind
before the sign of the hemisphere is not negative (or the wind is zero). -/
theorem C75_velocity (s : Profiles.Storm) (d2 : ℝ) (h : Profiles.second s = .ok d2) (R : ℝ) :
    Profiles.holland s R = .ok (fhollandvel (args s d2) R) ↔
      rawVel (args s d2) R = 0 ∨ (s.f ≠ 0 ∧ 0 < rawVel (args s d2) R) := by
  rw [Profiles.holland_ok h, ← rawVel_eq, ← fsign_eq]
  constructor
  · intro e; exact (Except.ok.inj e).symm
  · intro e; exact congrArg _ e.symm

/-- C75: so it agrees at every radius for every storm off the equator, with the shape parameters in use. -/
theorem C75_velocity_agrees (s : Profiles.Storm) (hp : 0.5 ≤ s.dP) (hb : 0 < s.beta) (hb' : s.beta ≤ 3)
    (hrho : 0 < s.rho) (hr : 0 < s.rMax) (hv : s.vMax = Profiles.hollandSpeed s.beta s.dP s.rho) (hf : s.f ≠ 0) (d2 : ℝ)
    (h : Profiles.second s = .ok d2) (R : ℝ) (hR : 0 < R) :
    Profiles.holland s R = .ok (fhollandvel (args s d2) R) := by
  rw [C75_velocity s d2 h R, rawVel_eq]
  have : 0 ≤ if R ≤ s.rMax then Profiles.core s d2 (Profiles.first s) R else Profiles.outer s R := by
    split_ifs with c
    · exact (Profiles.core_bound s hp hb hb' hrho hr hv d2 h R hR c).1
    · exact (Profiles.C47_outer_bound_partial s (by linarith) hb hrho hr hv R hR).1
  rcases this.lt_or_eq with p | p
  · exact Or.inr ⟨hf, p⟩
  · exact Or.inl p.symm

/-- C75 fails on the equator: the Python code gives no wind at all, the compiled code the full wind. -/
theorem C75_equator_fails (s : Profiles.Storm) (hf : s.f = 0) (d2 : ℝ) (h : Profiles.second s = .ok d2) (R : ℝ) :
    Profiles.holland s R = .ok 0 ∧ fhollandvel (args s d2) R = |rawVel (args s d2) R| := by
  constructor
  · rw [Profiles.holland_ok h, hf, sign_zero, zero_mul]
  · unfold fhollandvel fsign
    rw [if_neg]
    change ¬s.f < 0
    rw [hf]; exact lt_irrefl _

/-- C75: the compiled vorticity agrees with the Python code exactly if the storm is not on the equator and the vorticity
before the sign of the hemisphere is not negative (or zero). -/
theorem C75_vorticity_partial (s : Profiles.Storm) (d2 : ℝ) (h : Profiles.second s = .ok d2) (R : ℝ) :
    Profiles.hollandVort s R = .ok (fhollandvort (args s d2) R) ↔
      rawVort (args s d2) R = 0 ∨ (s.f ≠ 0 ∧ 0 < rawVort (args s d2) R) := by
  have e : Profiles.hollandVort s R = .ok (sign s.f * rawVort (args s d2) R) := by
    unfold Profiles.hollandVort; rw [h]; rfl
  rw [e, ← fsign_eq]
  constructor
  · intro e; exact (Except.ok.inj e).symm
  · intro e; exact congrArg _ e.symm

open Classical in
/-- What the compiled routine computes from wind and vorticity. -/
theorem fkerpert_eq (a : Args) (R lam thetaFm vFm V Z : ℝ) (hV : fsign (rawVel a R) a.f = V) (hZ : fsign (rawVort a R) a.f = Z)
    (hs : fsign 1 a.f = sign a.f) : fkerpert a R lam thetaFm vFm = kepert a.vMax V Z a.f a.rMax R lam vFm thetaFm := by
  unfold fkerpert kepert kepertPolar
  rw [hV, hZ, hs]
  have ht : (if R > 2 * a.rMax then (if vFm > 0 ∧ a.vMax / vFm < 5 then vFm * |1.25 * (1 - vFm / a.vMax)| else vFm) *
      exp (-(R / (2 * a.rMax) - 1) ^ 2) else if vFm > 0 ∧ a.vMax / vFm < 5 then vFm * |1.25 * (1 - vFm / a.vMax)| else vFm) =
      vt a.vMax vFm a.rMax R := by
    unfold vt umod
    split_ifs <;> rfl
  have hal : (2 * V / R + a.f) / (2 * 50) = al V a.f R := rfl
  have hbe : (a.f + Z) / (2 * 50) = be Z a.f := rfl
  have hg : V / (2 * 50 * R) = gam V R := rfl
  simp only [ht, hal, hbe, hg]
  generalize vt a.vMax vFm a.rMax R = t
  generalize al V a.f R = A
  generalize be Z a.f = B
  generalize gam V R = G
  have hx : |0.002 / 50 * V / √(√(A * B))| = chi V A B := rfl
  have hn : |0.002 / 50 * V / √(√(A * B) + |G|)| = eta V A B G := rfl
  have hp : |0.002 / 50 * V / √(abs (√(A * B) - |G|))| = psi V A B G := rfl
  simp only [hx, hn, hp]
  generalize chi V A B = x
  generalize eta V A B G = n
  generalize psi V A B G = p
  generalize √(A / B) = ab
  by_cases h : |G| > √(A * B)
  · simp only [a0, am, ap, if_pos h]
  · simp only [a0, am, ap, if_neg h]

/-- C75: Kepert's wind field: where wind and vorticity agree, so do the surface winds. -/
theorem C75_kepert (s : Profiles.Storm) (d2 : ℝ) (hf : s.f ≠ 0) (R lam thetaFm vFm : ℝ)
    (h1 : Profiles.holland s R = .ok (fhollandvel (args s d2) R))
    (h2 : Profiles.hollandVort s R = .ok (fhollandvort (args s d2) R)) :
    kepertPython s R lam thetaFm vFm = .ok (fkerpert (args s d2) R lam thetaFm vFm) := by
  have hs : fsign 1 (args s d2).f = sign (args s d2).f := by
    have := (fsign_eq 1 (args s d2).f).2 (Or.inr ⟨hf, one_pos⟩)
    rwa [mul_one] at this
  unfold kepertPython
  rw [h1, h2, fkerpert_eq _ _ _ _ _ _ _ rfl rfl hs]
  rfl

theorem coreVort_eq (s : Profiles.Storm) (d2 d1 R : ℝ) (hr : s.rMax ≠ 0) :
    Profiles.coreVort s d2 d1 R = s.vMax / s.rMax * (1 + (1 - R / s.rMax) + 4 * (1 - R / s.rMax) ^ 2) +
      d1 * (1 - (1 - R / s.rMax) - 4 * (1 - R / s.rMax) ^ 2) +
      d2 * s.rMax / 2 * (4 * (1 - R / s.rMax) ^ 2 - 2 * (1 - R / s.rMax)) := by
  unfold Profiles.coreVort Profiles.cc Profiles.bb Profiles.aa
  field_simp
  ring

theorem second_low2 (s : Profiles.Storm) (hp : 0 < s.dP) (hb : 0 < s.beta) (hb' : s.beta ≤ 2) (hrho : 0 < s.rho)
    (hr : 0 < s.rMax) (hv : s.vMax = Profiles.hollandSpeed s.beta s.dP s.rho) :
    -s.vMax ≤ Profiles.rawSecond s * s.rMax ^ 2 / 2 := by
  obtain ⟨v0, -⟩ := Profiles.speed_sq s hp hb hrho hv
  obtain ⟨-, l2, -⟩ := Profiles.fr_lt s hp hb hrho hr hv
  have K : s.beta * s.dP / (exp 1 * s.rho) = s.vMax ^ 2 := by
    rw [hv]; unfold Profiles.hollandSpeed; rw [sq_sqrt (by have := exp_pos 1; positivity)]
  have y0 := sqrt_pos.2 (Profiles.big_pos s hp hb hrho)
  have B0 := Profiles.big_pos s hp hb hrho
  rw [Profiles.rawSecond_eq s hp hb hrho hr, K]
  have e : s.vMax ^ 2 * (2 * s.f ^ 2 * s.rMax ^ 2 - s.beta ^ 2 * Profiles.big s) / (s.rMax ^ 2 * Profiles.big s * √(Profiles.big s)) *
      s.rMax ^ 2 / 2 = s.vMax ^ 2 * (s.f * s.rMax) ^ 2 / (Profiles.big s * √(Profiles.big s)) -
        s.beta ^ 2 * s.vMax * (s.vMax / √(Profiles.big s)) / 2 := by
    field_simp
  rw [e]
  have t1 : 0 ≤ s.vMax ^ 2 * (s.f * s.rMax) ^ 2 / (Profiles.big s * √(Profiles.big s)) := by positivity
  have t2 : s.vMax / √(Profiles.big s) ≤ 1 / 2 := by rw [div_le_iff₀ y0]; linarith
  have t3 : s.beta ^ 2 * s.vMax ≤ 4 * s.vMax := mul_le_mul_of_nonneg_right (by nlinarith) v0.le
  have t4 : 0 ≤ s.beta ^ 2 * s.vMax := by positivity
  have t5 := mul_le_mul_of_nonneg_left t2 t4
  linarith

/-- The vorticity before the sign of the hemisphere is positive if the shape parameter is at most 2. -/
theorem rawVort_pos (s : Profiles.Storm) (hp : 0.5 ≤ s.dP) (hb : 0 < s.beta) (hb' : s.beta ≤ 2)
    (hrho : 0 < s.rho) (hr : 0 < s.rMax) (hv : s.vMax = Profiles.hollandSpeed s.beta s.dP s.rho)
    (hro : s.rMax * |s.f| < 2 * s.vMax) (d2 : ℝ) (h : Profiles.second s = .ok d2) (R : ℝ) (hR : 0 < R) :
    0 < rawVort (args s d2) R := by
  have hp' : 0 < s.dP := by linarith
  obtain ⟨v0, -⟩ := Profiles.speed_sq s hp' hb hrho hv
  rw [rawVort_eq]
  split_ifs with c
  · obtain ⟨hd, neg⟩ := Profiles.second_ok s hp d2 h
    obtain ⟨f1, f2, -⟩ := Profiles.first_neg s hp' hb hrho hr hv
    have low := second_low2 s hp' hb hb' hrho hr hv
    rw [← hd] at low
    rw [coreVort_eq _ _ _ _ hr.ne']
    have w0 : 0 ≤ 1 - R / s.rMax := by
      have : R / s.rMax ≤ 1 := by rwa [div_le_one hr]
      linarith
    have w1 : 1 - R / s.rMax < 1 := by
      have : 0 < R / s.rMax := by positivity
      linarith
    generalize 1 - R / s.rMax = w at *
    have a1 : 0 < s.vMax / s.rMax := by positivity
    have a2 : |s.f| / 2 < s.vMax / s.rMax := by rw [lt_div_iff₀ hr]; linarith
    have a3 : -(s.vMax / s.rMax) ≤ d2 * s.rMax / 2 := by
      rw [show d2 * s.rMax / 2 = d2 * s.rMax ^ 2 / 2 / s.rMax by field_simp, ← neg_div]
      exact div_le_div_of_nonneg_right low hr.le
    have a4 : d2 * s.rMax / 2 ≤ 0 := by
      have := mul_nonpos_of_nonpos_of_nonneg neg.le hr.le
      linarith
    have a5 : -(s.vMax / s.rMax) < Profiles.first s := by linarith
    generalize s.vMax / s.rMax = q at *
    generalize d2 * s.rMax / 2 = e at *
    generalize Profiles.first s = d at *
    have b1 : -q ≤ d * (1 - w - 4 * w ^ 2) := by
      by_cases k : 0 ≤ 1 - w - 4 * w ^ 2
      · nlinarith [sq_nonneg w]
      · push Not at k
        nlinarith [mul_nonneg_of_nonpos_of_nonpos f1 k.le]
    have b2 : -(q * (4 * w ^ 2)) + 0 ≤ e * (4 * w ^ 2 - 2 * w) ∧ (0 < w → -(q * (4 * w ^ 2)) < e * (4 * w ^ 2 - 2 * w)) := by
      by_cases k : 0 ≤ 4 * w ^ 2 - 2 * w
      · have := mul_le_mul_of_nonneg_right a3 k
        refine ⟨by nlinarith, fun hw => by nlinarith⟩
      · push Not at k
        have := mul_nonneg_of_nonpos_of_nonpos a4 k.le
        refine ⟨by nlinarith [sq_nonneg w], fun hw => by nlinarith [mul_pos a1 (pow_pos hw 2)]⟩
    rcases w0.lt_or_eq with hw | hw
    · have := b2.2 hw
      nlinarith
    · rw [← hw]
      norm_num
      linarith
  · unfold Profiles.outerVort
    have d0 : 0 < Profiles.delta s R := rpow_pos_of_pos (by positivity) _
    have e0 := exp_pos (-Profiles.delta s R)
    generalize Profiles.delta s R = d at *
    generalize exp (-d) = e at *
    have S0 : 0 < √(s.beta * s.dP * d * e / s.rho + (R * s.f / 2) ^ 2) := sqrt_pos.2 (by positivity)
    have S2 := sq_sqrt (show 0 ≤ s.beta * s.dP * d * e / s.rho + (R * s.f / 2) ^ 2 by positivity)
    generalize √(s.beta * s.dP * d * e / s.rho + (R * s.f / 2) ^ 2) = S at *
    have X0 : 0 < s.beta * s.dP * d * e / s.rho := by positivity
    have q : |s.f| + (s.beta ^ 2 * s.dP * d ^ 2 * e / (2 * s.rho * R) - s.beta ^ 2 * s.dP * d * e / (2 * s.rho * R) +
        R * s.f ^ 2 / 4) / S + S / R = |s.f| + (s.beta * d / 2 * (s.beta * s.dP * d * e / s.rho) -
          s.beta / 2 * (s.beta * s.dP * d * e / s.rho) + (R * s.f / 2) ^ 2 + S ^ 2) / (R * S) := by
      field_simp
      ring
    rw [q, S2]
    generalize s.beta * s.dP * d * e / s.rho = X at *
    have n1 : 0 < s.beta * d / 2 * X := by positivity
    have n2 : s.beta / 2 * X ≤ X := by nlinarith
    have : 0 < (s.beta * d / 2 * X - s.beta / 2 * X + (R * s.f / 2) ^ 2 + (X + (R * s.f / 2) ^ 2)) / (R * S) := by
      apply div_pos _ (by positivity)
      nlinarith [sq_nonneg (R * s.f / 2)]
    have := abs_nonneg s.f
    linarith

/-- C75: with the compiled code or without, Kepert's wind field is the same at every place, for every storm off the
equator whose shape parameter is at most 2 and whose maximum wind exceeds half the Coriolis parameter times the radius
of maximum wind. -/
theorem C75_kepert_agrees (s : Profiles.Storm) (hp : 0.5 ≤ s.dP) (hb : 0 < s.beta) (hb' : s.beta ≤ 2)
    (hrho : 0 < s.rho) (hr : 0 < s.rMax) (hv : s.vMax = Profiles.hollandSpeed s.beta s.dP s.rho) (hf : s.f ≠ 0)
    (hro : s.rMax * |s.f| < 2 * s.vMax) (d2 : ℝ) (h : Profiles.second s = .ok d2) (R lam thetaFm vFm : ℝ) (hR : 0 < R) :
    kepertPython s R lam thetaFm vFm = .ok (fkerpert (args s d2) R lam thetaFm vFm) :=
  C75_kepert s d2 hf R lam thetaFm vFm
    (C75_velocity_agrees s hp hb (by linarith) hrho hr hv hf d2 h R hR)
    ((C75_vorticity_partial s d2 h R).2 (Or.inr ⟨hf, rawVort_pos s hp hb hb' hrho hr hv hro d2 h R hR⟩))

example : Profiles.sample.rMax * |Profiles.sample.f| < 2 * Profiles.sample.vMax ∧ Profiles.sample.beta ≤ 2 := by
  constructor
  · have : (1 : ℝ) < Profiles.sample.vMax := by
      change 1 < √(1.3 * 5000 / (exp 1 * 1.15))
      apply lt_sqrt_of_sq_lt
      rw [lt_div_iff₀ (by have := exp_pos 1; positivity)]
      have := exp_one_lt_d9
      linarith
    have e : Profiles.sample.rMax * |Profiles.sample.f| = 1.5 := by
      change 30000 * |(-1 / 20000 : ℝ)| = 1.5
      rw [abs_of_neg (by norm_num)]; norm_num
    rw [e]; linarith
  · norm_num [Profiles.sample]

/-- A storm of 50 hPa close to the equator with a steep profile. -/
noncomputable def steep : Profiles.Storm := ⟨1 / 10 ^ 6, 5000, 30000, 1.15, 3, Profiles.hollandSpeed 3 5000 1.15⟩

theorem steep_second : Profiles.second steep = .ok (Profiles.rawSecond steep) := by
  rw [Profiles.C47_second _ (by norm_num [steep]) (by norm_num [steep]) (by norm_num [steep]) (by norm_num [steep]), if_pos]
  have e := exp_pos 1
  have : 0 < 4 * steep.beta ^ 3 * steep.dP / (exp 1 * steep.rho) := by
    have : (0 : ℝ) < 4 * steep.beta ^ 3 * steep.dP := by norm_num [steep]
    have : (0 : ℝ) < steep.rho := by norm_num [steep]
    positivity
  refine lt_of_le_of_lt ?_ this
  norm_num [steep]

theorem steep_neg : rawVort (args steep (Profiles.rawSecond steep)) 60000 < 0 := by
  rw [rawVort_eq, if_neg (by norm_num [steep])]
  unfold Profiles.outerVort
  have d : Profiles.delta steep 60000 = 1 / 8 := by
    unfold Profiles.delta
    have : steep.rMax / 60000 = 1 / 2 := by norm_num [steep]
    rw [this, show steep.beta = ((3 : ℕ) : ℝ) by norm_num [steep], rpow_natCast]
    norm_num
  rw [d]
  have e0 : (0.8 : ℝ) < exp (-(1 / 8)) := by
    have := add_one_le_exp (-(1 / 8) : ℝ)
    linarith
  simp only [steep]
  generalize exp (-(1 / 8)) = x at *
  have hx : (3 * 5000 * (1 / 8) * x / 1.15 + (60000 * (1 / 10 ^ 6) / 2) ^ 2 : ℝ) = 37500 / 23 * x + 0.0009 := by
    norm_num; ring
  rw [hx]
  have S0 : 0 < √(37500 / 23 * x + 0.0009) := sqrt_pos.2 (by linarith)
  have S2 : √(37500 / 23 * x + 0.0009) ^ 2 = 37500 / 23 * x + 0.0009 := sq_sqrt (by linarith)
  generalize √(37500 / 23 * x + 0.0009) = S at *
  have S1 : S < 37500 / 23 * x := by
    by_contra hn
    push Not at hn
    nlinarith
  rw [abs_of_pos (by norm_num)]
  have : (1 / 10 ^ 6 + (3 ^ 2 * 5000 * (1 / 8) ^ 2 * x / (2 * 1.15 * 60000) - 3 ^ 2 * 5000 * (1 / 8) * x / (2 * 1.15 * 60000) +
      60000 * (1 / 10 ^ 6) ^ 2 / 4) / S + S / 60000 : ℝ) =
      (0.06 * S - 1.3125 * (37500 / 23 * x) + 0.0009 + S ^ 2) / (60000 * S) := by
    field_simp
    ring
  rw [this, S2]
  apply div_neg_of_neg_of_pos _ (by positivity)
  linarith

/-- C75 fails: for such a storm the vorticity of the compiled code has the wrong sign. -/
theorem C75_vorticity_fails : ∃ (s : Profiles.Storm) (d2 R : ℝ), Profiles.second s = .ok d2 ∧ s.f ≠ 0 ∧ 0 < R ∧
    ∃ Z, Profiles.hollandVort s R = .ok Z ∧ Z < 0 ∧ fhollandvort (args s d2) R = -Z := by
  refine ⟨steep, _, 60000, steep_second, by norm_num [steep], by norm_num, rawVort (args steep (Profiles.rawSecond steep)) 60000,
    ?_, steep_neg, ?_⟩
  · unfold Profiles.hollandVort
    rw [steep_second]
    have : sign steep.f = 1 := sign_of_pos (by norm_num [steep])
    simp only [this, one_mul]
    rfl
  · unfold fhollandvort fsign
    rw [if_neg, abs_of_neg steep_neg]
    change ¬steep.f < 0
    norm_num [steep]

/-- C75: distances and angles agree, except that the compiled code replaces every distance below 1e-30 km. -/
theorem C75_distance (cLon cLat lon lat : ℝ) : (beardist cLon cLat lon lat).2 = pyTheta cLon cLat lon lat ∧
    ((beardist cLon cLat lon lat).1 = pyDist cLon cLat lon lat ∨
      (0 < pyDist cLon cLat lon lat ∧ pyDist cLon cLat lon lat < 1e-30 ∧ (beardist cLon cLat lon lat).1 = 1e-30)) := by
  have r : ∀ x : ℝ, x * (π / 180) = rad x := fun x => by unfold rad; ring
  have half : ∀ x : ℝ, 0.5 * x = x / 2 := fun x => by norm_num; ring
  have e : ∀ p q : ℝ, sin (p / 2) * sin (p / 2) + cos (rad cLat) * cos (rad lat) * sin (q / 2) * sin (q / 2) =
      sin (p / 2) ^ 2 + cos (rad cLat) * cos (rad lat) * sin (q / 2) ^ 2 := fun p q => by ring
  unfold beardist pyTheta pyDist
  simp only [r, half, e]
  refine ⟨trivial, ?_⟩
  generalize sin ((rad lat - rad cLat) / 2) ^ 2 + cos (rad cLat) * cos (rad lat) * sin ((rad lon - rad cLon) / 2) ^ 2 = a
  have c0 : 0 ≤ atan2 √|a| √(1 - a) := Complex.arg_nonneg_iff.2 (sqrt_nonneg _)
  generalize atan2 √|a| √(1 - a) = c at *
  by_cases h : 6367 * (2 * c) = 0
  · left
    rw [h, if_pos rfl]
    exact max_eq_right (by norm_num)
  · rw [if_neg h]
    have hc : 0 < 6367 * (2 * c) := lt_of_le_of_ne (by positivity) (Ne.symm h)
    rcases le_or_gt 1e-30 (6367 * (2 * c)) with k | k
    · left; exact max_eq_left k
    · right; exact ⟨hc, k, max_eq_right k.le⟩

example : ∃ d2, Profiles.second steep = .ok d2 ∧ steep.f ≠ 0 ∧ 0.5 ≤ steep.dP ∧ steep.beta ≤ 3 ∧
    steep.vMax = Profiles.hollandSpeed steep.beta steep.dP steep.rho :=
  ⟨_, steep_second, by norm_num [steep], by norm_num [steep], by norm_num [steep], rfl⟩

end Tcrm.Compiled
