import Verif.Spec.Balance
import Verif.Props.Profiles
import Verif.Model.Pressure
/-!
C152: wind and pressure of a storm are in gradient balance.
-/
namespace Tcrm.Balance
open Real Profiles

/-- The derivative of one exponential of the pressure profiles. -/
theorem exp_deriv (a b R : ℝ) (ha : 0 < a) (hR : 0 < R) :
    HasDerivAt (fun R => exp (-(a / 1000 / (R / 1000)) ^ b)) (b * (a / R) ^ b * exp (-(a / R) ^ b) / R) R := by
  have h := (delta_deriv ⟨0, 0, a, 0, b, 0⟩ R ha hR).neg.exp
  have e : (fun R => exp (-(a / 1000 / (R / 1000)) ^ b)) = fun x => exp ((-delta ⟨0, 0, a, 0, b, 0⟩) x) := by
    funext x
    simp only [Pi.neg_apply, delta]
    rw [div_div_div_cancel_right₀ (by norm_num)]
  rw [e]
  refine h.congr_deriv ?_
  simp only [delta, Pi.neg_apply]
  ring

theorem sign_mul_self {f : ℝ} : f * sign f = |f| := by
  rcases lt_trichotomy f 0 with h | h | h
  · rw [sign_of_neg h, abs_of_neg h]; ring
  · rw [h]; simp
  · rw [sign_of_pos h, abs_of_pos h]; ring

/-- The one solution of the balance with the direction of the Coriolis force. -/
theorem root_unique {f rho R g t : ℝ} (hf : f ≠ 0) (hR : 0 < R)
    (ht : g / rho = t / R) (h0 : 0 ≤ t) (v : ℝ) :
    (0 ≤ sign f * v ∧ v ^ 2 / R + f * v = g / rho) ↔ v = sign f * (√(t + (R * f / 2) ^ 2) - R * |f| / 2) := by
  have hs : sign f * sign f = 1 := by
    rcases lt_or_gt_of_ne hf with h | h
    · rw [sign_of_neg h]; ring
    · rw [sign_of_pos h]; ring
  have hq : (R * f / 2) ^ 2 = (R * |f| / 2) ^ 2 := by rw [div_pow, div_pow, mul_pow, mul_pow, sq_abs]
  have hf0 : 0 < |f| := abs_pos.2 hf
  set w := sign f * v with hw
  have hv : v = sign f * w := by rw [hw, ← mul_assoc, hs, one_mul]
  have hv2 : v ^ 2 = w ^ 2 := by rw [hv]; calc (sign f * w) ^ 2 = (sign f * sign f) * w ^ 2 := by ring
    _ = w ^ 2 := by rw [hs, one_mul]
  have hfv : f * v = |f| * w := by rw [hv, ← mul_assoc, sign_mul_self]
  rw [hv2, hfv, ht, hq]
  have key : w ^ 2 / R + |f| * w = t / R ↔ (w + R * |f| / 2) ^ 2 = t + (R * |f| / 2) ^ 2 := by
    rw [div_add' _ _ _ hR.ne', div_left_inj' hR.ne']
    constructor <;> intro h <;> nlinarith
  rw [key]
  have a0 : 0 ≤ R * |f| / 2 := by positivity
  constructor
  · rintro ⟨h1, h2⟩
    rw [← h2, sqrt_sq (by linarith), hv]
    ring
  · intro h
    have hw' : w = √(t + (R * |f| / 2) ^ 2) - R * |f| / 2 := by
      rw [hw, h, ← mul_assoc, hs, one_mul]
    rw [hw']
    constructor
    · have := le_sqrt_of_sq_le (x := R * |f| / 2) (y := t + (R * |f| / 2) ^ 2) (by linarith)
      linarith
    · rw [sub_add_cancel, sq_sqrt (by positivity)]

/-- C152, in part: outside the radius of maximum wind, the wind of Holland's profile is the one that balances Holland's
pressure: cyclonic, and there is no other.  (Schloemer's is the case of `beta` 1.)  Pressures as they are asked for,
with distances in kilometres. -/
theorem C152_holland_partial (s : Storm) (pc penv : ℝ) (hdP : s.dP = penv - pc) (hp : 0 < s.dP) (hb : 0 < s.beta)
    (hrho : 0 < s.rho) (hr : 0 < s.rMax) (hf : s.f ≠ 0) (R : ℝ) (hR : s.rMax < R) (V : ℝ)
    (hV : Profiles.holland s R = .ok V) (v : ℝ) :
    (0 ≤ sign s.f * v ∧
      Balanced s.f s.rho (fun R => Pressure.holland pc penv (s.rMax / 1000) s.beta (R / 1000)) R v) ↔ v = V := by
  have hR0 : 0 < R := hr.trans hR
  have hd : HasDerivAt (fun R => Pressure.holland pc penv (s.rMax / 1000) s.beta (R / 1000))
      (s.dP * (s.beta * delta s R * exp (-delta s R) / R)) R := by
    have := ((exp_deriv s.rMax s.beta R hr hR0).const_mul s.dP).const_add pc
    rw [hdP] at this ⊢
    exact this
  have hVe : V = sign s.f * outer s R := by
    unfold Profiles.holland at hV
    split at hV
    · cases hV
    · rw [if_neg (not_le.2 hR)] at hV
      exact (Except.ok.inj hV).symm
  have hdel : 0 < delta s R := by unfold delta; positivity
  have hiff : Balanced s.f s.rho (fun R => Pressure.holland pc penv (s.rMax / 1000) s.beta (R / 1000)) R v ↔
      v ^ 2 / R + s.f * v = s.dP * (s.beta * delta s R * exp (-delta s R) / R) / s.rho := by
    constructor
    · rintro ⟨g, hg, h⟩
      rw [h, hg.unique hd]
    · exact fun h => ⟨_, hd, h⟩
  rw [hiff, hVe, outer]
  exact root_unique hf hR0 (t := s.dP * s.beta / s.rho * delta s R * exp (-delta s R))
    (by ring) (by positivity) v

/-- C152 fails at the radius of maximum wind: there the wind, as that of the core, is too strong for the pressure. -/
theorem C152_rmax_fails (s : Storm) (pc penv : ℝ) (hdP : s.dP = penv - pc) (hp : 0 < s.dP) (hb : 0 < s.beta)
    (hrho : 0 < s.rho) (hr : 0 < s.rMax) (hf : s.f ≠ 0) (hv : s.vMax = hollandSpeed s.beta s.dP s.rho) (V : ℝ)
    (hV : Profiles.holland s s.rMax = .ok V) :
    ¬ Balanced s.f s.rho (fun R => Pressure.holland pc penv (s.rMax / 1000) s.beta (R / 1000)) s.rMax V := by
  have hd : HasDerivAt (fun R => Pressure.holland pc penv (s.rMax / 1000) s.beta (R / 1000))
      (s.dP * (s.beta * (s.rMax / s.rMax) ^ s.beta * exp (-(s.rMax / s.rMax) ^ s.beta) / s.rMax)) s.rMax := by
    have := ((exp_deriv s.rMax s.beta s.rMax hr hr).const_mul s.dP).const_add pc
    rw [hdP] at this ⊢
    exact this
  rw [div_self hr.ne', one_rpow] at hd
  have hVe : V = sign s.f * s.vMax := by
    unfold Profiles.holland at hV
    split at hV
    · cases hV
    · rw [if_pos le_rfl, (C47_core s _ _ hr).2.1] at hV
      exact (Except.ok.inj hV).symm
  rintro ⟨g, hg, h⟩
  rw [hg.unique hd] at h
  have v0 : 0 < s.vMax := (speed_sq s hp hb hrho hv).1
  have hv2 : V ^ 2 = s.vMax ^ 2 := by
    rw [hVe]
    rcases lt_or_gt_of_ne hf with h | h
    · rw [sign_of_neg h]; ring
    · rw [sign_of_pos h]; ring
  have hfv : s.f * V = |s.f| * s.vMax := by rw [hVe, ← mul_assoc, sign_mul_self]
  have e : s.vMax ^ 2 / s.rMax = s.dP * (s.beta * 1 * exp (-1) / s.rMax) / s.rho := by
    rw [hv, hollandSpeed, sq_sqrt (by positivity), exp_neg]
    field_simp
  rw [hv2, hfv, e] at h
  have : 0 < |s.f| * s.vMax := mul_pos (abs_pos.2 hf) v0
  linarith

/-- C152 fails on the equator: there is no wind at all, for any pressure gradient. -/
theorem C152_equator_fails (s : Storm) (pc penv : ℝ) (hdP : s.dP = penv - pc) (hp : 0 < s.dP) (hb : 0 < s.beta)
    (hrho : 0 < s.rho) (hr : 0 < s.rMax) (hf : s.f = 0) (R : ℝ) (hR : 0 < R) (V : ℝ)
    (hV : Profiles.holland s R = .ok V) :
    V = 0 ∧ ¬ Balanced s.f s.rho (fun R => Pressure.holland pc penv (s.rMax / 1000) s.beta (R / 1000)) R V := by
  have hVe : V = 0 := by
    unfold Profiles.holland at hV
    split at hV
    · cases hV
    · rw [hf, sign_zero, zero_mul] at hV
      exact (Except.ok.inj hV).symm
  refine ⟨hVe, ?_⟩
  rintro ⟨g, hg, h⟩
  have := ((exp_deriv s.rMax s.beta R hr hR).const_mul s.dP).const_add pc
  rw [hdP] at this
  rw [hg.unique this, hVe, ← hdP] at h
  have : 0 < s.dP * (s.beta * (s.rMax / R) ^ s.beta * exp (-(s.rMax / R) ^ s.beta) / R) / s.rho := by positivity
  rw [← h] at this
  simp at this

/-- The derivative of the pressure of the double vortex. -/
theorem double_deriv (s : Double) (pc penv : ℝ) (hdP : s.dP = penv - pc) (hr : 0 < s.rMax) (r2 : ℝ) (hr2 : 0 < r2)
    (R : ℝ) (hR : 0 < R) :
    HasDerivAt (fun R => Pressure.doubleHolland pc penv (s.rMax / 1000) (r2 / 1000) (some s.beta1) (some s.beta2) (R / 1000))
      (s.rho * ((s.beta1 * (s.dP - dp2 s.dP) * (s.rMax / R) ^ s.beta1 * exp (-(s.rMax / R) ^ s.beta1) +
        s.beta2 * dp2 s.dP * (r2 / R) ^ s.beta2 * exp (-(r2 / R) ^ s.beta2)) / s.rho / R)) R ∨ s.rho = 0 := by
  by_cases hrho : s.rho = 0
  · exact .inr hrho
  left
  have h1 := ((exp_deriv s.rMax s.beta1 R hr hR).const_mul (s.dP - dp2 s.dP)).const_add pc
  have h2 := (exp_deriv r2 s.beta2 R hr2 hR).const_mul (dp2 s.dP)
  rw [hdP] at h1 h2 ⊢
  refine (h1.add h2).congr_deriv ?_
  field_simp

/-- What the double vortex gives at a point of the grid outside the core. -/
theorem double_at {s : Double} {grid Vs : List ℝ} (h : double s grid = .ok Vs) {i : ℕ} {R V : ℝ} (hi : grid[i]? = some R)
    (hV : Vs[i]? = some V) (hc : s.dP < 1500 ∨ s.rMax < R) : V = doubleOuter s R := by
  unfold double at h
  simp only at h
  split at h
  · rw [← Except.ok.inj h, List.getElem?_map, hi, Option.map_some, Option.some.injEq] at hV
    rw [← hV, if_neg (by
      rintro ⟨a, b⟩
      rcases hc with c | c <;> linarith)]
  · cases h

/-- C152 for the double vortex, in part: north of the equator, for the same radii and parameters, the wind outside
the core balances the pressure. -/
theorem C152_double_partial (s : Double) (pc penv : ℝ) (hdP : s.dP = penv - pc) (hp : 0 < s.dP) (hb1 : 0 < s.beta1)
    (hb2 : 0 < s.beta2) (hrho : 0 < s.rho) (hr : 0 < s.rMax) (hr2 : 0 < s.rMax2) (hf : 0 < s.f)
    (grid Vs : List ℝ) (h : double s grid = .ok Vs) (i : ℕ) (R V : ℝ) (hi : grid[i]? = some R) (hV : Vs[i]? = some V)
    (hR : 0 < R) (hc : s.dP < 1500 ∨ s.rMax < R) (v : ℝ) :
    (0 ≤ v ∧ Balanced s.f s.rho (fun R => Pressure.doubleHolland pc penv (s.rMax / 1000) (s.rMax2 / 1000) (some s.beta1)
      (some s.beta2) (R / 1000)) R v) ↔ v = V := by
  rw [double_at h hi hV hc]
  have hd := (double_deriv s pc penv hdP hr s.rMax2 hr2 R hR).resolve_right hrho.ne'
  have k : 0 ≤ dp2 s.dP ∧ dp2 s.dP ≤ s.dP := by
    unfold dp2
    split_ifs with h
    · constructor
      · have : 0 ≤ 800 + (s.dP - 800) / 2000 := by linarith
        positivity
      · nlinarith
    · constructor <;> linarith
  have k1 : 0 ≤ s.dP - dp2 s.dP := by linarith [k.2]
  have k2 := k.1
  set t := (s.beta1 * (s.dP - dp2 s.dP) * (s.rMax / R) ^ s.beta1 * exp (-(s.rMax / R) ^ s.beta1) +
        s.beta2 * dp2 s.dP * (s.rMax2 / R) ^ s.beta2 * exp (-(s.rMax2 / R) ^ s.beta2)) / s.rho with ht
  have ht0 : 0 ≤ t := by rw [ht]; positivity
  have hiff : Balanced s.f s.rho (fun R => Pressure.doubleHolland pc penv (s.rMax / 1000) (s.rMax2 / 1000) (some s.beta1)
      (some s.beta2) (R / 1000)) R v ↔ v ^ 2 / R + s.f * v = s.rho * (t / R) / s.rho := by
    constructor
    · rintro ⟨g, hg, h⟩
      rw [h, hg.unique hd]
    · exact fun h => ⟨_, hd, h⟩
  have := root_unique hf.ne' hR (g := s.rho * (t / R)) (rho := s.rho) (t := t)
    (by field_simp) ht0 v
  rw [sign_of_pos hf, one_mul, one_mul] at this
  rw [hiff, this, doubleOuter, sign_of_pos hf, one_mul]
  have e : s.beta1 * (s.dP - dp2 s.dP) / s.rho * (s.rMax / R) ^ s.beta1 * exp (-((s.rMax / R) ^ s.beta1)) +
      s.beta2 * dp2 s.dP / s.rho * (s.rMax2 / R) ^ s.beta2 * exp (-((s.rMax2 / R) ^ s.beta2)) = t := by
    rw [ht]; ring
  rw [e]

/-- C152 fails for the double vortex south of the equator: no wind outside the core balances the pressure. -/
theorem C152_double_south_fails (s : Double) (pc penv : ℝ) (hdP : s.dP = penv - pc) (hp : 0 < s.dP) (hb1 : 0 < s.beta1)
    (hb2 : 0 < s.beta2) (hrho : 0 < s.rho) (hr : 0 < s.rMax) (hr2 : 0 < s.rMax2) (hf : s.f < 0)
    (grid Vs : List ℝ) (h : double s grid = .ok Vs) (i : ℕ) (R V : ℝ) (hi : grid[i]? = some R) (hV : Vs[i]? = some V)
    (hR : 0 < R) (hc : s.dP < 1500 ∨ s.rMax < R) :
    ¬ Balanced s.f s.rho (fun R => Pressure.doubleHolland pc penv (s.rMax / 1000) (s.rMax2 / 1000) (some s.beta1)
      (some s.beta2) (R / 1000)) R V := by
  rw [double_at h hi hV hc]
  have hd := (double_deriv s pc penv hdP hr s.rMax2 hr2 R hR).resolve_right hrho.ne'
  have k : 0 ≤ dp2 s.dP ∧ dp2 s.dP ≤ s.dP := by
    unfold dp2
    split_ifs with h
    · constructor
      · have : 0 ≤ 800 + (s.dP - 800) / 2000 := by linarith
        positivity
      · nlinarith
    · constructor <;> linarith
  have k1 : 0 ≤ s.dP - dp2 s.dP := by linarith [k.2]
  have k2 := k.1
  set t := (s.beta1 * (s.dP - dp2 s.dP) * (s.rMax / R) ^ s.beta1 * exp (-(s.rMax / R) ^ s.beta1) +
        s.beta2 * dp2 s.dP * (s.rMax2 / R) ^ s.beta2 * exp (-(s.rMax2 / R) ^ s.beta2)) / s.rho with ht
  have ht0 : 0 ≤ t := by rw [ht]; positivity
  rintro ⟨g, hg, h⟩
  rw [hg.unique hd, mul_div_cancel_left₀ _ hrho.ne', doubleOuter, sign_of_neg hf] at h
  have e : s.beta1 * (s.dP - dp2 s.dP) / s.rho * (s.rMax / R) ^ s.beta1 * exp (-((s.rMax / R) ^ s.beta1)) +
      s.beta2 * dp2 s.dP / s.rho * (s.rMax2 / R) ^ s.beta2 * exp (-((s.rMax2 / R) ^ s.beta2)) = t := by
    rw [ht]; ring
  rw [e] at h
  have q : √(t + (R * s.f / 2) ^ 2) ^ 2 = t + (R * s.f / 2) ^ 2 := sq_sqrt (by positivity)
  set y := √(t + (R * s.f / 2) ^ 2) with hy
  have y0 : 0 < y := sqrt_pos.2 (by
    have h1 : R * s.f < 0 := mul_neg_of_pos_of_neg hR hf
    have h2 : 0 < (R * s.f / 2) ^ 2 := by
      have : R * s.f / 2 < 0 := by linarith
      nlinarith
    linarith)
  rw [abs_of_neg hf, div_add' _ _ _ hR.ne', div_left_inj' hR.ne'] at h
  nlinarith [mul_pos hR y0, mul_pos (mul_pos hR y0) (neg_pos.2 hf)]

/-- C152 fails for the double vortex with the radii of the second maximum it has unless others are given: 250
(kilometres) for the pressure, 150 (metres) for the wind.  There is a distance where no storm is in balance. -/
theorem C152_double_default_fails (s : Double) (pc penv : ℝ) (hdP : s.dP = penv - pc) (hp : 0 < s.dP) (hb1 : 0 < s.beta1)
    (hb2 : 0 < s.beta2) (hrho : 0 < s.rho) (hr : 0 < s.rMax) (hr2 : s.rMax2 = 150) (hf : 0 < s.f)
    (grid Vs : List ℝ) (h : double s grid = .ok Vs) (i : ℕ) (V : ℝ) (hi : grid[i]? = some 250000) (hV : Vs[i]? = some V)
    (hc : s.dP < 1500 ∨ s.rMax < 250000) :
    ¬ Balanced s.f s.rho (fun R => Pressure.doubleHolland pc penv (s.rMax / 1000) 250 (some s.beta1)
      (some s.beta2) (R / 1000)) 250000 V := by
  have hd := (double_deriv s pc penv hdP hr 250000 (by norm_num) 250000 (by norm_num)).resolve_right hrho.ne'
  rw [show (250000 : ℝ) / 1000 = 250 by norm_num] at hd
  obtain ⟨-, g', hg', h'⟩ := (C152_double_partial s pc penv hdP hp hb1 hb2 hrho hr (by rw [hr2]; norm_num) hf grid Vs h i 250000 V hi hV
    (by norm_num) hc _).2 rfl
  rw [hg'.unique ((double_deriv s pc penv hdP hr s.rMax2 (by rw [hr2]; norm_num) 250000
    (by norm_num)).resolve_right hrho.ne')] at h'
  rintro ⟨g, hg, h⟩
  rw [hg.unique hd, h'] at h
  have k2 : 0 < dp2 s.dP := by
    unfold dp2
    split_ifs with h
    · have : 0 < 800 + (s.dP - 800) / 2000 := by linarith
      positivity
    · linarith
  rw [mul_div_cancel_left₀ _ hrho.ne', mul_div_cancel_left₀ _ hrho.ne', div_left_inj' (by norm_num),
    div_left_inj' hrho.ne', add_right_inj, hr2, div_self (by norm_num), one_rpow] at h
  set x := ((150 : ℝ) / 250000) ^ s.beta2 with hx
  have x0 : 0 < x := by rw [hx]; positivity
  have x1 : x < 1 := rpow_lt_one (by norm_num) (by norm_num) hb2
  have hlt : x * exp (-x) < exp (-1) := by
    have := add_one_lt_exp (x := x - 1) (by linarith)
    have h3 : exp (x - 1) = exp (-1) / exp (-x) := by rw [← exp_sub]; ring_nf
    rw [h3, lt_div_iff₀ (exp_pos _)] at this
    linarith
  have : s.beta2 * dp2 s.dP * (x * exp (-x)) < s.beta2 * dp2 s.dP * exp (-1) :=
    mul_lt_mul_of_pos_left hlt (by positivity)
  linarith

/-- The storm of C47 meets the conditions of the theorems about Holland's profile, at every distance. -/
example (R : ℝ) : ∃ V, Profiles.holland sample R = .ok V ∧ 0 < sample.dP ∧ 0 < sample.beta ∧ 0 < sample.rho ∧ 0 < sample.rMax ∧
    sample.f ≠ 0 ∧ sample.dP = 101000 - 96000 := by
  have h : ∃ d2, second sample = .ok d2 := by
    refine ⟨rawSecond sample, ?_⟩
    rw [C47_second _ (by norm_num [sample]) (by norm_num [sample]) (by norm_num [sample]) (by norm_num [sample]), if_pos]
    have e : exp 1 < 3 := by linarith [exp_one_lt_d9]
    have : (4 * sample.beta ^ 3 * sample.dP) / (3 * sample.rho) < 4 * sample.beta ^ 3 * sample.dP / (exp 1 * sample.rho) := by
      apply div_lt_div_of_pos_left <;> norm_num [sample] <;> first | linarith | positivity
    refine lt_trans ?_ this
    norm_num [sample]
  obtain ⟨d2, h⟩ := h
  unfold Profiles.holland
  rw [h]
  exact ⟨_, rfl, by norm_num [sample], by norm_num [sample], by norm_num [sample], by norm_num [sample],
    by norm_num [sample], by norm_num [sample]⟩

/-- A double vortex that meets the conditions. -/
example (f : ℝ) (hf : f ^ 2 ≤ 1e-8) (grid : List ℝ) : ∃ Vs, double ⟨⟨f, 5000, 30000, 1, 1, 0⟩, 1, 1, 30000⟩ grid = .ok Vs := by
  have h : doubleSecond ⟨⟨f, 5000, 30000, 1, 1, 0⟩, 1, 1, 30000⟩ < 0 := by
    have hE : exp 1 < 3 := by linarith [exp_one_lt_d9]
    have hE0 := exp_pos 1
    have hd : dp2 5000 = 802.1 := by unfold dp2; norm_num
    simp only [doubleSecond, hd]
    rw [div_self (by norm_num), one_rpow, exp_neg]
    apply add_neg_of_nonpos_of_neg
    · apply mul_nonpos_of_nonpos_of_nonneg
      · apply div_nonpos_of_nonpos_of_nonneg (by norm_num)
        have : (0 : ℝ) ≤ 4 * 1 * (5000 - 802.1) / (1 * exp 1) + (4 * 1 * 802.1 / 1) * 1 * (exp 1)⁻¹ + (30000 * f) ^ 2 := by
          have : (0 : ℝ) ≤ 4 * 1 * (5000 - 802.1) / (1 * exp 1) := div_nonneg (by norm_num) (by positivity)
          positivity
        positivity
      · positivity
    · apply mul_neg_of_pos_of_neg
      · apply div_pos one_pos
        have : (0 : ℝ) < 4 * 1 * (5000 - 802.1) / (1 * exp 1) := div_pos (by norm_num) (by positivity)
        have : (0 : ℝ) < √(4 * 1 * (5000 - 802.1) / (1 * exp 1) + (4 * 1 * 802.1 / 1) * 1 * 2 + (exp 1)⁻¹ + (30000 * f) ^ 2) := by
          apply sqrt_pos.2
          positivity
        linarith
      · have hi : (1 : ℝ) / 3 < (exp 1)⁻¹ := by rw [← one_div]; exact one_div_lt_one_div_of_lt hE0 hE
        simp only [div_eq_mul_inv, mul_inv]
        norm_num at hf ⊢
        nlinarith
  unfold double
  simp only [h, if_true]
  exact ⟨_, rfl⟩

end Tcrm.Balance
