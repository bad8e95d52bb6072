import Verif.Props.Profiles
import Mathlib.Analysis.Complex.ExponentialBounds
/-!
C47 for the double vortex and the profile of 2010.
-/
namespace Tcrm.Profiles
open Real

/-! The double vortex. -/

/-- The first vortex and the second one, as single vortices. -/
noncomputable def Double.one (s : Double) : Storm := ⟨s.f, s.dP - dp2 s.dP, s.rMax, s.rho, s.beta1, s.vMax⟩
noncomputable def Double.two (s : Double) : Storm := ⟨s.f, dp2 s.dP, s.rMax2, s.rho, s.beta2, s.vMax⟩

/-- The square of the gradient wind. -/
noncomputable def drad (s : Double) (R : ℝ) : ℝ := grad s.one R + grad s.two R + (R * s.f / 2) ^ 2

theorem doubleOuter_eq (s : Double) (R : ℝ) : doubleOuter s R = sign s.f * √(drad s R) - R * |s.f| / 2 := by
  unfold doubleOuter drad grad delta Double.one Double.two
  simp only
  rw [mul_comm s.beta1, mul_comm s.beta2]

/-- Slope of `grad`. -/
noncomputable def gslope (s : Storm) (R : ℝ) : ℝ :=
  s.beta ^ 2 * s.dP / s.rho / R * ((delta s R ^ 2 - delta s R) * exp (-delta s R))

/-- Curvature of `grad`. -/
noncomputable def gcurve (s : Storm) (R : ℝ) : ℝ :=
  s.beta ^ 2 * s.dP / s.rho / R ^ 2 * (exp (-delta s R) * delta s R) *
    (s.beta * (delta s R ^ 2 - 3 * delta s R + 1) + (1 - delta s R))

theorem gslope_deriv (s : Storm) (R : ℝ) (hr : 0 < s.rMax) (hR : 0 < R) : HasDerivAt (gslope s) (gcurve s R) R := by
  have d := delta_deriv s R hr hR
  have h1 : HasDerivAt (fun R : ℝ => s.beta ^ 2 * s.dP / s.rho / R) (-(s.beta ^ 2 * s.dP / s.rho) / R ^ 2) R := by
    have := (hasDerivAt_inv hR.ne').const_mul (s.beta ^ 2 * s.dP / s.rho)
    refine HasDerivAt.congr_deriv this ?_
    ring
  have := h1.mul (((d.pow 2).sub d).mul d.neg.exp)
  unfold gslope gcurve
  refine HasDerivAt.congr_deriv this ?_
  simp only [Pi.neg_apply, Pi.sub_apply, Pi.pow_apply, Pi.mul_apply]
  field_simp
  ring

/-- Slope and curvature of the root. -/
noncomputable def dslope (s : Double) (R : ℝ) : ℝ := gslope s.one R + gslope s.two R + R * s.f ^ 2 / 2
noncomputable def dcurve (s : Double) (R : ℝ) : ℝ := gcurve s.one R + gcurve s.two R + s.f ^ 2 / 2

theorem drad_deriv (s : Double) (R : ℝ) (hr : 0 < s.rMax) (hr2 : 0 < s.rMax2) (hR : 0 < R) :
    HasDerivAt (drad s) (dslope s R) R ∧ HasDerivAt (dslope s) (dcurve s R) R := by
  constructor
  · have h1 : HasDerivAt (fun R : ℝ => (R * s.f / 2) ^ 2) (R * s.f ^ 2 / 2) R := by
      have := (((hasDerivAt_id R).mul_const s.f).div_const 2).pow 2
      refine HasDerivAt.congr_deriv this ?_
      simp
      ring
    exact ((grad_deriv s.one R hr hR).add (grad_deriv s.two R hr2 hR)).add h1
  · have h1 : HasDerivAt (fun R : ℝ => R * s.f ^ 2 / 2) (s.f ^ 2 / 2) R := by
      have := ((hasDerivAt_id R).mul_const (s.f ^ 2)).div_const 2
      refine HasDerivAt.congr_deriv this ?_
      ring
    exact ((gslope_deriv s.one R hr hR).add (gslope_deriv s.two R hr2 hR)).add h1

/-- The curvature of `√drad`, in terms of its radicand. -/
noncomputable def trueCurve (s : Double) (R : ℝ) : ℝ :=
  dcurve s R / (2 * √(drad s R)) - dslope s R ^ 2 / (4 * (drad s R * √(drad s R)))

theorem root_deriv (s : Double) (hp : ∀ R, 0 < R → 0 < drad s R) (hr : 0 < s.rMax) (hr2 : 0 < s.rMax2) :
    ∀ R, 0 < R → HasDerivAt (fun R => √(drad s R)) (dslope s R / (2 * √(drad s R))) R ∧
      HasDerivAt (fun R => dslope s R / (2 * √(drad s R))) (trueCurve s R) R := by
  intro R hR
  obtain ⟨h1, h2⟩ := drad_deriv s R hr hr2 hR
  have hs := h1.sqrt (hp R hR).ne'
  refine ⟨hs, ?_⟩
  have hq : 0 < √(drad s R) := sqrt_pos.2 (hp R hR)
  have := h2.div (hs.const_mul 2) (by positivity)
  refine HasDerivAt.congr_deriv this ?_
  unfold trueCurve
  have e : drad s R = √(drad s R) ^ 2 := (sq_sqrt (hp R hR).le).symm
  generalize √(drad s R) = q at *
  rw [e]
  field_simp
  ring

theorem drad_pos (s : Double) (hp : 0 < s.dP) (hb1 : 0 < s.beta1) (hb2 : 0 < s.beta2) (hrho : 0 < s.rho)
    (hr : 0 < s.rMax) (hr2 : 0 < s.rMax2) : 0 < dp2 s.dP ∧ 0 < s.dP - dp2 s.dP ∧ ∀ R, 0 < R → 0 < drad s R := by
  have k : 0 < dp2 s.dP ∧ dp2 s.dP < s.dP := by
    unfold dp2
    split_ifs with h
    · constructor
      · have : 0 < 800 + (s.dP - 800) / 2000 := by linarith
        positivity
      · nlinarith
    · constructor <;> linarith
  refine ⟨k.1, by linarith [k.2], fun R hR => ?_⟩
  have g1 := grad_pos s.one R (by simp only [Double.one]; linarith [k.2]) hb1 hrho hr hR
  have g2 := grad_pos s.two R k.1 hb2 hrho hr2 hR
  unfold drad
  positivity

/-- The curvature at the radius of maximum wind that the core is built with: the second term is divided by another
root. -/
theorem doubleSecond_eq (s : Double) (hp : 0 < s.dP) (hb1 : 0 < s.beta1) (hb2 : 0 < s.beta2) (hrho : 0 < s.rho)
    (hr : 0 < s.rMax) (hr2 : 0 < s.rMax2) : ∃ K : ℝ, 4 * drad s s.rMax < K ∧
      doubleSecond s = dcurve s s.rMax / √K - dslope s s.rMax ^ 2 / (4 * (drad s s.rMax * √(drad s s.rMax))) := by
  obtain ⟨k1, k2, k3⟩ := drad_pos s hp hb1 hb2 hrho hr hr2
  have e1 : delta s.one s.rMax = 1 := delta_rMax s.one hr
  have e2 : delta s.two s.rMax = (s.rMax2 / s.rMax) ^ s.beta2 := rfl
  have hnu : 0 < (s.rMax2 / s.rMax) ^ s.beta2 := rpow_pos_of_pos (by positivity) _
  generalize hn : (s.rMax2 / s.rMax) ^ s.beta2 = nu at *
  have hE : 0 < exp 1 := exp_pos 1
  have hen : exp (-nu) < 1 := by rw [← exp_zero]; exact exp_lt_exp.2 (by linarith)
  have hen0 : 0 < exp (-nu) := exp_pos _
  have hem : exp (-1) = 1 / exp 1 := by rw [exp_neg]; ring
  have S : 4 * drad s s.rMax = 4 * s.beta1 * (s.dP - dp2 s.dP) / (s.rho * exp 1) +
      (4 * s.beta2 * dp2 s.dP / s.rho) * nu * exp (-nu) + (s.rMax * s.f) ^ 2 := by
    unfold drad grad
    rw [e1, e2, hem]
    simp only [Double.one, Double.two]
    field_simp
    ring
  refine ⟨4 * s.beta1 * (s.dP - dp2 s.dP) / (s.rho * exp 1) + (4 * s.beta2 * dp2 s.dP / s.rho) * nu * 2 + exp (-nu) +
    (s.rMax * s.f) ^ 2, ?_, ?_⟩
  · rw [S]
    have : (4 * s.beta2 * dp2 s.dP / s.rho) * nu * exp (-nu) ≤ (4 * s.beta2 * dp2 s.dP / s.rho) * nu * 2 := by
      gcongr; linarith
    linarith
  · have hS1 : 4 * dslope s s.rMax = -(4 * s.beta1 ^ 2 * (s.dP - dp2 s.dP) / (s.rho * s.rMax * exp 1)) +
        (4 * s.beta1 ^ 2 * (s.dP - dp2 s.dP) / (s.rho * s.rMax * exp 1)) -
        (4 * s.beta2 ^ 2 * dp2 s.dP / s.rho) * (nu / s.rMax) * exp (-nu) +
        (4 * s.beta2 ^ 2 * dp2 s.dP / s.rho) * (nu ^ 2 / s.rMax) * exp (-nu) + 2 * s.rMax * s.f ^ 2 := by
      unfold dslope gslope
      rw [e1, e2]
      simp only [Double.one, Double.two]
      field_simp
      ring
    have hS2 : 4 * dcurve s s.rMax = (4 * s.beta1 ^ 3 * (s.dP - dp2 s.dP) / (s.rho * s.rMax ^ 2 * exp 1)) +
        (4 * s.beta1 ^ 2 * (s.dP - dp2 s.dP) / (s.rho * s.rMax ^ 2 * exp 1)) -
        (12 * s.beta1 ^ 3 * (s.dP - dp2 s.dP) / (s.rho * s.rMax ^ 2 * exp 1)) -
        (4 * s.beta1 ^ 2 * (s.dP - dp2 s.dP) / (s.rho * s.rMax ^ 2 * exp 1)) +
        (4 * s.beta1 ^ 3 * (s.dP - dp2 s.dP) / (s.rho * s.rMax ^ 2 * exp 1)) +
        (4 * s.beta2 ^ 3 * dp2 s.dP / s.rho) * (nu / s.rMax ^ 2) * exp (-nu) +
        (4 * s.beta2 ^ 2 * dp2 s.dP / s.rho) * (nu / s.rMax ^ 2) * exp (-nu) -
        (12 * s.beta2 ^ 3 * dp2 s.dP / s.rho) * nu ^ 2 / s.rMax ^ 2 * exp (-nu) -
        (4 * s.beta2 ^ 2 * dp2 s.dP / s.rho) * nu ^ 2 / s.rMax ^ 2 * exp (-nu) +
        (4 * s.beta2 ^ 3 * dp2 s.dP / s.rho) * nu ^ 3 / s.rMax ^ 2 * exp (-nu) + 2 * s.f ^ 2 := by
      unfold dcurve gcurve
      rw [e1, e2, hem]
      simp only [Double.one, Double.two]
      field_simp
      ring
    unfold doubleSecond
    simp only [hn]
    rw [← S, ← hS1, ← hS2]
    have hd := k3 s.rMax hr
    have hpow : (4 * drad s s.rMax) ^ (1.5 : ℝ) = 4 * drad s s.rMax * (2 * √(drad s s.rMax)) := by
      rw [show (1.5 : ℝ) = 1 + 1 / 2 by norm_num, rpow_add (by positivity), rpow_one, ← sqrt_eq_rpow,
        show (4 : ℝ) * drad s s.rMax = 2 ^ 2 * drad s s.rMax by norm_num, sqrt_mul (by positivity), sqrt_sq (by norm_num)]
    rw [hpow]
    have hq : 0 < √(drad s s.rMax) := sqrt_pos.2 hd
    generalize √(4 * s.beta1 * (s.dP - dp2 s.dP) / (s.rho * exp 1) + (4 * s.beta2 * dp2 s.dP / s.rho) * nu * 2 + exp (-nu) +
      (s.rMax * s.f) ^ 2) = k
    have t1 : -1 / (8 * (4 * drad s s.rMax * (2 * √(drad s s.rMax)))) * (4 * dslope s s.rMax) ^ 2 =
        -(dslope s s.rMax ^ 2 / (4 * (drad s s.rMax * √(drad s s.rMax)))) := by
      field_simp
      ring
    rw [t1]
    ring

/-- C47 fails for the core of the double vortex: the curvature it is given at the radius of maximum wind is the one of
the outer profile only if the curvature of the radicand vanishes. -/
theorem C47_double_curvature_fails (s : Double) (hp : 0 < s.dP) (hb1 : 0 < s.beta1) (hb2 : 0 < s.beta2) (hrho : 0 < s.rho)
    (hr : 0 < s.rMax) (hr2 : 0 < s.rMax2) (hf : 0 < s.f) :
    ∃ (W S : ℝ → ℝ) (c : ℝ), (∀ R, 0 < R → HasDerivAt (doubleOuter s) (W R) R) ∧ HasDerivAt W c s.rMax ∧
      (∀ R, 0 < R → HasDerivAt (fun R => (doubleOuter s R + R * |s.f| / 2) ^ 2) (S R) R) ∧
      (doubleSecond s = c ↔ HasDerivAt S 0 s.rMax) := by
  obtain ⟨-, -, k3⟩ := drad_pos s hp hb1 hb2 hrho hr hr2
  have hroot := root_deriv s k3 hr hr2
  obtain ⟨K, hK, he⟩ := doubleSecond_eq s hp hb1 hb2 hrho hr hr2
  have hfun : doubleOuter s = fun R => √(drad s R) - R * |s.f| / 2 := by
    funext R; rw [doubleOuter_eq, sign_of_pos hf, one_mul]
  refine ⟨fun R => dslope s R / (2 * √(drad s R)) - |s.f| / 2, dslope s, trueCurve s s.rMax, ?_, ?_, ?_, ?_⟩
  · intro R hR
    have h2 : HasDerivAt (fun R : ℝ => R * |s.f| / 2) (|s.f| / 2) R := by
      have := ((hasDerivAt_id R).mul_const |s.f|).div_const 2
      refine HasDerivAt.congr_deriv this ?_
      ring
    rw [hfun]
    exact (hroot R hR).1.sub h2
  · exact (hroot s.rMax hr).2.sub_const _
  · intro R hR
    refine ((drad_deriv s R hr hr2 hR).1).congr_of_eventuallyEq ?_
    filter_upwards [lt_mem_nhds hR] with x hx
    rw [hfun]
    simp only [sub_add_cancel]
    exact sq_sqrt (k3 x hx).le
  · have hd := (drad_deriv s s.rMax hr hr2 hr).2
    have h1 : HasDerivAt (dslope s) 0 s.rMax ↔ dcurve s s.rMax = 0 := by
      constructor
      · intro h; exact hd.unique h
      · intro h; rw [h] at hd; exact hd
    rw [h1, he, trueCurve, sub_left_inj]
    have hq : 0 < √(drad s s.rMax) := sqrt_pos.2 (k3 _ hr)
    have hqK : 2 * √(drad s s.rMax) < √K := by
      have := sqrt_lt_sqrt (by linarith [k3 _ hr]) hK
      rwa [show (4 : ℝ) * drad s s.rMax = 2 ^ 2 * drad s s.rMax by norm_num, sqrt_mul (by positivity), sqrt_sq (by norm_num)] at this
    constructor
    · intro h
      rw [div_eq_div_iff (by linarith) (by linarith)] at h
      by_contra hne
      have := mul_left_cancel₀ hne h
      linarith
    · intro h; rw [h]; simp

/-- C47 for the core of the double vortex: it is calm in the centre, and at the radius of maximum wind it has the
largest magnitude of the grid, slope zero and the curvature computed, which is negative. -/
theorem C47_double_core_partial (s : Double) (hr : 0 < s.rMax) (hp : 1500 ≤ s.dP) (grid out : List ℝ)
    (h : double s grid = .ok out) : ∃ v W, (∀ R, HasDerivAt v (W R) R) ∧ v 0 = 0 ∧ W s.rMax = 0 ∧
      HasDerivAt W (doubleSecond s) s.rMax ∧ doubleSecond s < 0 ∧
      (grid ≠ [] → (∃ R ∈ grid, v s.rMax = |doubleOuter s R|) ∧ ∀ R ∈ grid, |doubleOuter s R| ≤ v s.rMax) ∧
      out = grid.map fun R => if R ≤ s.rMax then sign s.f * v R else doubleOuter s R := by
  simp only [double] at h
  split at h
  · rename_i hneg
    cases h
    obtain ⟨c0, c1, W, c2, c3, c4⟩ := C47_core { s.toStorm with vMax := (((grid.map (doubleOuter s)).map abs).max?).getD 0 }
      (doubleSecond s) 0 hr
    refine ⟨_, W, c2, c0, c3, c4, hneg, ?_, ?_⟩
    · intro hg
      have hne : ((grid.map (doubleOuter s)).map abs) ≠ [] := by simpa using hg
      obtain ⟨m, hm⟩ : ∃ m, ((grid.map (doubleOuter s)).map abs).max? = some m := by
        cases hm : ((grid.map (doubleOuter s)).map abs).max? with
        | none => exact absurd (List.max?_eq_none_iff.1 hm) hne
        | some m => exact ⟨m, rfl⟩
      have hv : core { s.toStorm with vMax := (((grid.map (doubleOuter s)).map abs).max?).getD 0 } (doubleSecond s) 0 s.rMax = m := by
        rw [c1, hm]; rfl
      rw [hv]
      obtain ⟨h1, h2⟩ := List.max?_eq_some_iff.1 hm
      constructor
      · rw [List.map_map, List.mem_map] at h1
        obtain ⟨R, hR, hRm⟩ := h1
        exact ⟨R, hR, hRm.symm⟩
      · intro R hR
        exact h2 _ (List.mem_map_of_mem (List.mem_map_of_mem hR))
    · refine List.map_congr_left fun R _ => ?_
      simp only [hp, true_and]
  · cases h

/-- C74 fails outside the core of the double vortex: north of the equator the vorticity is too large by
`R f² / 4` over the root, and south of it the slope of the wind comes in with the wrong sign as well. -/
theorem C74_double_outer_fails (s : Double) (hp : 0 < s.dP) (hb1 : 0 < s.beta1) (hb2 : 0 < s.beta2) (hrho : 0 < s.rho)
    (hr : 0 < s.rMax) (hr2 : 0 < s.rMax2) (hf0 : s.f ≠ 0) (R : ℝ) (hR : s.rMax < R) :
    ∃ S q : ℝ, HasDerivAt (fun R => (doubleOuter s R + R * |s.f| / 2) ^ 2) S R ∧ 0 < q ∧
      (0 < s.f → IsVorticity (doubleOuter s) R (doubleVort s R - R * s.f ^ 2 / (4 * q))) ∧
      (s.f < 0 → IsVorticity (doubleOuter s) R (doubleVort s R - (S + R * s.f ^ 2 / 4) / q)) := by
  obtain ⟨-, -, k3⟩ := drad_pos s hp hb1 hb2 hrho hr hr2
  have hR0 : 0 < R := hr.trans hR
  have hroot := (root_deriv s k3 hr hr2 R hR0).1
  have hq : 0 < √(drad s R) := sqrt_pos.2 (k3 R hR0)
  have hfun : doubleOuter s = fun R => sign s.f * √(drad s R) - R * |s.f| / 2 := by
    funext R; rw [doubleOuter_eq]
  have hlin : HasDerivAt (fun R : ℝ => R * |s.f| / 2) (|s.f| / 2) R := by
    have := ((hasDerivAt_id R).mul_const |s.f|).div_const 2
    refine HasDerivAt.congr_deriv this ?_
    ring
  have hV : HasDerivAt (doubleOuter s) (sign s.f * (dslope s R / (2 * √(drad s R))) - |s.f| / 2) R := by
    rw [hfun]
    exact (hroot.const_mul _).sub hlin
  have hZ : doubleVort s R = sign s.f * √(drad s R) / R - |s.f| +
      1 / 2 * (dslope s R + R * s.f ^ 2 / 2) / √(drad s R) := by
    have p1 : (s.rMax) ^ s.beta1 / R ^ (s.beta1 + 1) = delta s.one R / R := by
      unfold delta Double.one
      simp only
      rw [div_rpow hr.le hR0.le, rpow_add hR0, rpow_one, div_div]
    have p2 : (s.rMax2) ^ s.beta2 / R ^ (s.beta2 + 1) = delta s.two R / R := by
      unfold delta Double.two
      simp only
      rw [div_rpow hr2.le hR0.le, rpow_add hR0, rpow_one, div_div]
    have d1 : (s.rMax / R) ^ s.beta1 = delta s.one R := rfl
    have d2 : (s.rMax2 / R) ^ s.beta2 = delta s.two R := rfl
    have hrad : s.beta1 * (s.dP - dp2 s.dP) / s.rho * delta s.one R * exp (-delta s.one R) +
        s.beta2 * dp2 s.dP / s.rho * delta s.two R * exp (-delta s.two R) + (s.f * R / 2) ^ 2 = drad s R := by
      unfold drad grad Double.one Double.two
      simp only
      ring
    have m1 : -s.beta1 * s.rMax ^ s.beta1 / R ^ (s.beta1 + 1) = -s.beta1 * (delta s.one R / R) := by
      rw [← p1]; ring
    have m2 : -s.beta2 * s.rMax2 ^ s.beta2 / R ^ (s.beta2 + 1) = -s.beta2 * (delta s.two R / R) := by
      rw [← p2]; ring
    unfold doubleVort
    rw [if_neg (by intro h; linarith [h.2])]
    simp only [d1, d2, m1, m2, hrad]
    congr 2
    unfold dslope gslope
    have b1 : s.one.beta = s.beta1 := rfl
    have b2 : s.two.beta = s.beta2 := rfl
    have c1 : s.one.dP = s.dP - dp2 s.dP := rfl
    have c2 : s.two.dP = dp2 s.dP := rfl
    have r1 : s.one.rho = s.rho := rfl
    have r2 : s.two.rho = s.rho := rfl
    rw [b1, b2, c1, c2, r1, r2]
    field_simp
    ring
  refine ⟨dslope s R, √(drad s R), ?_, hq, ?_, ?_⟩
  · refine ((drad_deriv s R hr hr2 hR0).1).congr_of_eventuallyEq ?_
    filter_upwards [lt_mem_nhds hR0] with x hx
    rw [hfun]
    simp only [sub_add_cancel, mul_pow, sq_sqrt (k3 x hx).le]
    rw [← sq_abs, abs_sign hf0]
    ring
  · intro hf
    refine ⟨_, hV, ?_⟩
    rw [hZ, doubleOuter_eq, sign_of_pos hf]
    field_simp
    ring
  · intro hf
    refine ⟨_, hV, ?_⟩
    rw [hZ, doubleOuter_eq, sign_of_neg hf]
    field_simp
    ring

/-- C74 fails in the core of the double vortex: the vorticity is that of a core with another maximum wind (the one of the
wind-speed relation instead of the largest on the grid, `m`) and, south of the equator, bent the other way. -/
theorem C74_double_core_fails (s : Double) (hr : 0 < s.rMax) (hp : 1500 ≤ s.dP) (m R : ℝ) (hR0 : 0 < R)
    (hR : R ≤ s.rMax) :
    IsVorticity (fun R => sign s.f * core { s.toStorm with vMax := m } (doubleSecond s) 0 R) R
      (doubleVort s R + (sign s.f - 1) * doubleSecond s * (2 * R - s.rMax) * (R - s.rMax) / s.rMax +
        sign s.f * (m - s.vMax) * (4 * R ^ 2 / s.rMax ^ 3 - 9 * R / s.rMax ^ 2 + 6 / s.rMax)) := by
  refine ⟨_, (core_deriv _ _ _ _).const_mul _, ?_⟩
  unfold doubleVort
  rw [if_pos ⟨hp, hR⟩]
  simp only [coreVort, core, cc, bb, aa]
  field_simp
  ring

/-! The profile of 2010. -/

/-- C47 fails for the profile of 2010: the radius of gales is 150 m unless given, and the wind at twice the radius of
maximum wind is above 1000 m/s. -/
theorem C47_newHolland_fails : ∃ s : Storm, ∃ lat : ℝ, s.dP = 5000 ∧ s.rMax = 30000 ∧ s.rho = 1.15 ∧ 0 < s.f ∧
    newHolland s lat 150 s.rMax < 45 ∧ 1000 < newHolland s lat 150 (2 * s.rMax) := by
  refine ⟨⟨1 / 20000, 5000, 30000, 1.15, 1, 0⟩, 195 / 7, rfl, rfl, rfl, by norm_num, ?_, ?_⟩
  · have hb : (-0.000044 : ℝ) * (5000 / 100) ^ 2 + 0.01 * (5000 / 100) - 0.014 * |195 / 7| + 1 = 1 := by
      rw [abs_of_pos (by norm_num)]; norm_num
    simp only [newHolland, hb, lt_irrefl, if_false]
    rw [sign_of_pos (by norm_num), one_mul, rpow_one, show (0.5 : ℝ) = 1 / 2 by norm_num, ← sqrt_eq_rpow,
      sqrt_lt' (by norm_num), div_self (by norm_num), exp_neg]
    have he := exp_one_gt_d9
    rw [mul_one, ← div_eq_mul_inv, div_lt_iff₀ (exp_pos 1)]
    norm_num at *
    linarith
  · have hb : (-0.000044 : ℝ) * (5000 / 100) ^ 2 + 0.01 * (5000 / 100) - 0.014 * |195 / 7| + 1 = 1 := by
      rw [abs_of_pos (by norm_num)]; norm_num
    simp only [newHolland, hb, rpow_one]
    rw [if_pos (by norm_num), sign_of_pos (by norm_num), one_mul]
    have h17 : 0 < log 17 := log_pos (by norm_num)
    have hrg : log (1 * 5000 * (30000 / 150) * exp (-1 * (30000 / 150)) / 1.15) < 0 := by
      apply log_neg (by positivity)
      have : exp (-1 * (30000 / 150)) < 1 / 10 ^ 7 := by
        rw [show (-1 : ℝ) * (30000 / 150) = -(200 : ℕ) by norm_num, exp_neg, one_div]
        refine inv_strictAnti₀ (by norm_num) ?_
        have h2 : (2 : ℝ) < exp 1 := by linarith [exp_one_gt_d9]
        calc (10 : ℝ) ^ 7 < 2 ^ 200 := by norm_num
          _ ≤ exp 1 ^ 200 := by gcongr
          _ = exp (200 : ℕ) := by rw [← exp_nat_mul]; norm_num
      rw [div_lt_one (by norm_num)]
      linarith
    have hxn := div_neg_of_pos_of_neg h17 hrg
    generalize log 17 / log (1 * 5000 * (30000 / 150) * exp (-1 * (30000 / 150)) / 1.15) = xn at *
    have hd : (0.5 : ℝ) ≤ exp (-(30000 / (2 * 30000))) := by
      have := add_one_le_exp (-(30000 / (2 * 30000)) : ℝ)
      norm_num at this ⊢
      linarith
    have hbase : (1000 : ℝ) < 5000 * 1 / 1.15 * (30000 / (2 * 30000)) * exp (-(30000 / (2 * 30000))) := by
      have : (1000 : ℝ) < 5000 * 1 / 1.15 * (30000 / (2 * 30000)) * 0.5 := by norm_num
      refine this.trans_le ?_
      gcongr
    refine hbase.trans_le ?_
    refine le_trans (rpow_one _).symm.le (rpow_le_rpow_of_exponent_le (by linarith) ?_)
    norm_num
    linarith

/-- A storm of 50 hPa with a second vortex of twice the radius: the radicand bends down. -/
noncomputable def sample2 : Double := ⟨⟨1 / 20000, 5000, 30000, 1.15, 1, 0⟩, 1, 1, 60000⟩

example : 0 < sample2.dP ∧ 0 < sample2.beta1 ∧ 0 < sample2.beta2 ∧ 0 < sample2.rho ∧ 0 < sample2.rMax ∧
    0 < sample2.rMax2 ∧ 0 < sample2.f := by
  norm_num [sample2]

theorem sample2_curve : dcurve sample2 sample2.rMax < 0 := by
  have e1 : delta sample2.one sample2.rMax = 1 := delta_rMax sample2.one (by norm_num [sample2, Double.one])
  have e2 : delta sample2.two sample2.rMax = 2 := by norm_num [delta, sample2, Double.two]
  unfold dcurve gcurve
  rw [e1, e2]
  norm_num [sample2, Double.one, Double.two, dp2]
  have h1 : (1 : ℝ) / 4 < exp (-1) := by
    rw [exp_neg, ← one_div]
    exact one_div_lt_one_div_of_lt (exp_pos 1) (by linarith [exp_one_lt_d9])
  have h2 : 0 < exp (-2 : ℝ) := exp_pos _
  nlinarith

/-- Its core is given another curvature than its outer profile has. -/
example : doubleSecond sample2 ≠ trueCurve sample2 sample2.rMax ∧ ∃ out, double sample2 [20000, 30000, 60000] = .ok out := by
  have hp : 0 < sample2.dP := by norm_num [sample2]
  obtain ⟨K, hK, he⟩ := doubleSecond_eq sample2 hp (by norm_num [sample2]) (by norm_num [sample2])
    (by norm_num [sample2]) (by norm_num [sample2]) (by norm_num [sample2])
  obtain ⟨-, -, k3⟩ := drad_pos sample2 hp (by norm_num [sample2]) (by norm_num [sample2])
    (by norm_num [sample2]) (by norm_num [sample2]) (by norm_num [sample2])
  have hd := k3 sample2.rMax (by norm_num [sample2])
  have hc := sample2_curve
  have hq : 0 < √(drad sample2 sample2.rMax) := sqrt_pos.2 hd
  have hqK : 2 * √(drad sample2 sample2.rMax) < √K := by
    have := sqrt_lt_sqrt (by linarith) hK
    rwa [show (4 : ℝ) * drad sample2 sample2.rMax = 2 ^ 2 * drad sample2 sample2.rMax by norm_num,
      sqrt_mul (by positivity), sqrt_sq (by norm_num)] at this
  constructor
  · rw [he, trueCurve, Ne, sub_left_inj, div_eq_div_iff (by linarith) (by linarith)]
    intro h
    have := mul_left_cancel₀ hc.ne h
    linarith
  · have hneg : doubleSecond sample2 < 0 := by
      rw [he]
      have h1 := div_neg_of_neg_of_pos hc (by linarith : 0 < √K)
      have h2 : 0 ≤ dslope sample2 sample2.rMax ^ 2 / (4 * (drad sample2 sample2.rMax * √(drad sample2 sample2.rMax))) := by
        positivity
      linarith
    exact ⟨_, by simp only [double, hneg, if_true]; rfl⟩

end Tcrm.Profiles
