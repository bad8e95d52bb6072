import Verif.Props.Boundary
import Verif.Props.Profiles
/-!
C76: a storm and its mirror image in the other hemisphere, from the profile to the two components of the wind.
-/
namespace Tcrm.Boundary
open Real Tcrm.Profiles

/-- The mirror image, on the other side of the equator, of a wind blowing east (`1`) and north (`2`). -/
def mirrored (w : ℝ × ℝ) : ℝ × ℝ := (w.1, -w.2)

/-- C76: in the other hemisphere the profiles of Jelesnianski, Rankine, Holland and the one of 2010 give the opposite
rotation of the same strength at every radius, and fail for the same storms. -/
theorem C76_profiles_mirror (s : Storm) (R : ℝ) :
    jelesnianski { s with f := -s.f } R = -jelesnianski s R ∧ rankine { s with f := -s.f } R = -rankine s R ∧
      (∀ v, holland s R = .ok v → holland { s with f := -s.f } R = .ok (-v)) ∧
      (∀ e, holland s R = .error e → holland { s with f := -s.f } R = .error e) ∧
      ∀ lat rGale, newHolland { s with f := -s.f } (-lat) rGale R = -newHolland s lat rGale R := by
  have h2 : second { s with f := -s.f } = second s := by
    have : rawSecond { s with f := -s.f } = rawSecond s := by unfold rawSecond; simp only [abs_neg, neg_mul, neg_sq]
    unfold second
    simp only [this]
  have h1 : first { s with f := -s.f } = first s := by unfold first; simp only [abs_neg, neg_mul, neg_sq]
  have hc : ∀ d2 d1, core { s with f := -s.f } d2 d1 R = core s d2 d1 R := fun d2 d1 => rfl
  have ho : outer { s with f := -s.f } R = outer s R := by
    unfold outer
    simp only [abs_neg, mul_neg, neg_div, neg_sq]
    rfl
  refine ⟨?_, ?_, ?_, ?_, ?_⟩
  · unfold jelesnianski; simp only [sign_neg']; ring
  · unfold rankine; simp only [sign_neg', neg_mul]
  · intro v hv
    unfold holland at hv ⊢
    rw [h2]
    cases hs : second s with
    | error e => rw [hs] at hv; cases hv
    | ok d2 =>
      rw [hs] at hv
      simp only [Except.ok.injEq] at hv ⊢
      rw [← hv, h1, hc, ho, sign_neg', neg_mul]
  · intro e he
    unfold holland at he ⊢
    rw [h2]
    cases hs : second s with
    | error e' => rw [hs] at he
    | ok d2 => rw [hs] at he; cases he
  · intro lat rGale
    unfold newHolland
    simp only [sign_neg', abs_neg, neg_mul]

/-- C76: so do the vorticities of Jelesnianski's and Holland's profiles. -/
theorem C76_vorticity_mirror (s : Storm) (R : ℝ) :
    jelesnianskiVort { s with f := -s.f } R = -jelesnianskiVort s R ∧
      (∀ z, hollandVort s R = .ok z → hollandVort { s with f := -s.f } R = .ok (-z)) ∧
      ∀ e, hollandVort s R = .error e → hollandVort { s with f := -s.f } R = .error e := by
  have h2 : second { s with f := -s.f } = second s := by
    have : rawSecond { s with f := -s.f } = rawSecond s := by unfold rawSecond; simp only [abs_neg, neg_mul, neg_sq]
    unfold second
    simp only [this]
  have h1 : first { s with f := -s.f } = first s := by unfold first; simp only [abs_neg, neg_mul, neg_sq]
  have hc : ∀ d2 d1, coreVort { s with f := -s.f } d2 d1 R = coreVort s d2 d1 R := fun d2 d1 => rfl
  have ho : outerVort { s with f := -s.f } R = outerVort s R := by
    unfold outerVort
    simp only [abs_neg, mul_neg, neg_div, neg_sq]
    rfl
  refine ⟨?_, ?_, ?_⟩
  · unfold jelesnianskiVort; simp only [sign_neg']; ring
  · intro v hv
    unfold hollandVort at hv ⊢
    rw [h2]
    cases hs : second s with
    | error e => rw [hs] at hv; cases hv
    | ok d2 =>
      rw [hs] at hv
      simp only [Except.ok.injEq] at hv ⊢
      rw [← hv, h1, hc, ho, sign_neg', neg_mul]
  · intro e he
    unfold hollandVort at he ⊢
    rw [h2]
    cases hs : second s with
    | error e' => rw [hs] at he
    | ok d2 => rw [hs] at he; cases he

/-- C76 fails: the vorticity of Rankine's profile beyond the radius of maximum wind is not reversed in the other
hemisphere: the two do not cancel. -/
theorem C76_rankine_vorticity_fails (s : Storm) (hr : 0 < s.rMax) (hv : 0 < s.vMax) (R : ℝ) (hR : s.rMax < R) :
    rankineVort { s with f := -s.f } R + rankineVort s R < 0 := by
  have hm := (C76_profiles_mirror s R).2.1
  have hR0 : 0 < R := hr.trans hR
  unfold rankineVort
  rw [if_neg (by exact not_le.2 hR), if_neg (not_le.2 hR), hm]
  have : 0 < alpha * s.vMax * s.rMax / R ^ (alpha + 1) := by
    have := rpow_pos_of_pos hR0 (alpha + 1)
    unfold alpha at *
    positivity
  rw [neg_div]
  simp only
  linarith

/-- C76 fails: the wind of the double vortex is not reversed in the other hemisphere beyond its core: the two add up to
the distance times the Coriolis parameter. -/
theorem C76_double_mirror_fails (s : Double) (R : ℝ) :
    doubleOuter { s with f := -s.f } R + doubleOuter s R = -(R * |s.f|) := by
  unfold doubleOuter
  simp only [sign_neg', abs_neg, mul_neg, neg_div, neg_sq, neg_mul]
  ring

/-- The wind of Kepert's field from its radial and tangential parts. -/
theorem kepert_components (Vm V Z f rMax R lam vFm thetaFm : ℝ) :
    kepert Vm V Z f rMax R lam vFm thetaFm =
      let p := kepertPolar Vm V Z f rMax R lam vFm thetaFm
      (p.1 * cos lam - p.2 * sin lam, p.2 * cos lam + p.1 * sin lam) := by
  unfold kepert
  simp only
  generalize kepertPolar Vm V Z f rMax R lam vFm thetaFm = p
  have hn : √(p.1 ^ 2 + p.2 ^ 2) = ‖(⟨p.2, p.1⟩ : ℂ)‖ := by
    rw [Complex.norm_eq_sqrt_sq_add_sq, add_comm]
  have hc := Complex.norm_mul_cos_arg (⟨p.2, p.1⟩ : ℂ)
  have hs := Complex.norm_mul_sin_arg (⟨p.2, p.1⟩ : ℂ)
  simp only at hc hs
  unfold atan2
  rw [hn, sin_sub, cos_sub]
  refine Prod.ext ?_ ?_
  · simp only
    rw [mul_sub, ← mul_assoc, ← mul_assoc, hc, hs]
  · simp only
    rw [mul_add, ← mul_assoc, ← mul_assoc, hc, hs]

/-- C76: with Kepert's field, the mirror image of a storm (on the other side of the equator, moving in the mirrored
direction) has the mirrored wind at the mirrored place. -/
theorem C76_kepert_field (Vm V Z f rMax R lam vFm thetaFm : ℝ) :
    kepert Vm (-V) (-Z) (-f) rMax R (-lam) vFm (-thetaFm) = mirrored (kepert Vm V Z f rMax R lam vFm thetaFm) := by
  have ha : al (-V) (-f) R = -al V f R := by unfold al; ring
  have hb : be (-Z) (-f) = -be Z f := by unfold be; ring
  have hg : gam (-V) R = -gam V R := by unfold gam; ring
  have hx : ∀ a b, chi (-V) a b = chi V a b := fun a b => by
    unfold chi; rw [mul_neg, neg_div, abs_neg]
  have hn : ∀ a b g, eta (-V) a b g = eta V a b g := fun a b g => by
    unfold eta; rw [mul_neg, neg_div, abs_neg]
  have hp : ∀ a b g, psi (-V) a b g = psi V a b g := fun a b g => by
    unfold psi; rw [mul_neg, neg_div, abs_neg]
  have hnc : ∀ a b, chi V (-a) (-b) = chi V a b := fun a b => by unfold chi; rw [neg_mul_neg]
  have hne : ∀ a b g, eta V (-a) (-b) (-g) = eta V a b g := fun a b g => by unfold eta; rw [neg_mul_neg, abs_neg]
  have hpe : ∀ a b g, psi V (-a) (-b) (-g) = psi V a b g := fun a b g => by unfold psi; rw [neg_mul_neg, abs_neg]
  have hA : ∀ x, a0 (-V) x = -a0 V x := fun x => by
    unfold a0; push_cast; ring
  have e1 : ∀ i : ℂ, i * (((-lam : ℝ) : ℂ) - ((-thetaFm : ℝ) : ℂ)) * ((sign (-f) : ℝ) : ℂ) =
      i * ((lam : ℂ) - thetaFm) * ((sign f : ℝ) : ℂ) := fun i => by
    rw [sign_neg']; push_cast; ring
  have key : (kepertPolar Vm (-V) (-Z) (-f) rMax R (-lam) vFm (-thetaFm)).1 =
        (kepertPolar Vm V Z f rMax R lam vFm thetaFm).1 ∧
      (kepertPolar Vm (-V) (-Z) (-f) rMax R (-lam) vFm (-thetaFm)).2 =
        -(kepertPolar Vm V Z f rMax R lam vFm thetaFm).2 := by
    unfold kepertPolar
    simp only [ha, hb, hg, hx, hn, hp, hnc, hne, hpe, hA, neg_mul_neg, neg_div_neg_eq, abs_neg, e1]
    rw [sign_neg', show -lam - -thetaFm = -(lam - thetaFm) by ring, cos_neg, sin_neg]
    simp only [Complex.neg_re, Complex.neg_im]
    constructor <;> ring
  rw [kepert_components, kepert_components]
  simp only [mirrored, key.1, key.2, cos_neg, sin_neg]
  refine Prod.ext ?_ ?_ <;> simp only <;> ring

/-- C76: with McConochie's field likewise, if the angle of the maximum wind is reversed too. -/
theorem C76_mcconochie_field (f rMax V peak R lam vFm thetaFm thetaMax : ℝ) :
    mcconochie (-f) rMax (-V) peak R (-lam) vFm (-thetaFm) (-thetaMax) =
      mirrored (mcconochie f rMax V peak R lam vFm thetaFm thetaMax) := by
  have hs : mcSpeed (-V) peak (-lam) vFm (-thetaFm) (-thetaMax) = -mcSpeed V peak lam vFm thetaFm thetaMax := by
    unfold mcSpeed
    rw [show -thetaFm + -thetaMax * π / 180 - -lam = -(thetaFm + thetaMax * π / 180 - lam) by ring, cos_neg]
    ring
  have hw : ∀ v, swrf (-v) = swrf v := fun v => by unfold swrf; rw [abs_neg]
  unfold mcconochie mirrored
  simp only [hs, hw, sign_neg']
  rw [show - -sign f * mcInflow rMax R * π / 180 - -lam = -(-sign f * mcInflow rMax R * π / 180 - lam) by ring,
    sin_neg, cos_neg]
  refine Prod.ext ?_ ?_ <;> simp only <;> ring

/-- C76 fails for Hubbert's field: the mirror image of a storm has the mirrored wind only where the motion of the storm
does not contribute to the wind. -/
theorem C76_hubbert_field_fails (f rMax V R lam vFm thetaFm thetaMax : ℝ) :
    hubbert (-f) rMax (-V) R (-lam) vFm (-thetaFm) (-thetaMax) =
        mirrored (hubbert f rMax V R lam vFm thetaFm thetaMax) ↔
      vFm = 0 ∨ cos (thetaFm + thetaMax * π / 180 - lam) = 0 := by
  have hs : hubbertSpeed (-V) (-lam) vFm (-thetaFm) (-thetaMax) =
      -hubbertSpeed V lam vFm thetaFm thetaMax - 2 * (vFm * cos (thetaFm + thetaMax * π / 180 - lam)) := by
    unfold hubbertSpeed
    rw [cos_add_pi, cos_add_pi, show -thetaFm + -thetaMax * π / 180 - -lam = -(thetaFm + thetaMax * π / 180 - lam) by ring,
      cos_neg]
    ring
  unfold hubbert mirrored
  simp only [hs, sign_neg']
  rw [show - -sign f * hubbertInflow rMax R * π / 180 - -lam = -(-sign f * hubbertInflow rMax R * π / 180 - lam) by ring,
    sin_neg, cos_neg, Prod.mk.injEq]
  generalize -sign f * hubbertInflow rMax R * π / 180 - lam = phi
  generalize hubbertSpeed V lam vFm thetaFm thetaMax = w
  rw [← mul_eq_zero]
  generalize vFm * cos (thetaFm + thetaMax * π / 180 - lam) = q
  constructor
  · rintro ⟨h1, h2⟩
    have a : q * sin phi = 0 := by linarith
    have b : q * cos phi = 0 := by linarith
    have := sin_sq_add_cos_sq phi
    have : q * (sin phi ^ 2 + cos phi ^ 2) = 0 := by
      rw [mul_add, pow_two, pow_two, ← mul_assoc, ← mul_assoc, a, b]; ring
    rwa [sin_sq_add_cos_sq, mul_one] at this
  · intro h
    rw [h]
    constructor <;> ring

/-- A storm moving east: ahead of it, the two winds of Hubbert's field do not mirror each other. -/
example : hubbert (-1) 1 (-30) 2 (-0) 10 (-0) (-0) ≠ mirrored (hubbert 1 1 30 2 0 10 0 0) := by
  rw [Ne, C76_hubbert_field_fails]
  simp

/-- The hypotheses are met by a usual storm: 30 km, 40 m/s, seen at 60 km. -/
example : (0 : ℝ) < 30000 ∧ (0 : ℝ) < 40 ∧ (30000 : ℝ) < 60000 := by norm_num

end Tcrm.Boundary
