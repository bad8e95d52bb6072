import Verif.Model.Boundary
import Verif.Spec.Ekman
import Mathlib.Analysis.SpecialFunctions.ExpDeriv
import Mathlib.Analysis.Complex.RealDeriv
import Mathlib.Tactic.LinearCombination
import Mathlib.Tactic.FieldSimp
/-!
C192: waves of the boundary layer.
-/
namespace Tcrm.Boundary
open Real

/-- One wave: amplitude `A`, vertical exponent `q`, `k` times around the storm. -/
noncomputable def wave (A q : ℂ) (k : ℝ) (z s : ℝ) : ℂ := A * Complex.exp (q * z + Complex.I * k * s)

theorem wave_z (A q : ℂ) (k z s : ℝ) : HasDerivAt (fun x => wave A q k x s) (wave (q * A) q k z s) z := by
  have h : HasDerivAt (fun x : ℝ => q * (x : ℂ) + Complex.I * k * s) q z := by
    have := ((Complex.ofRealCLM.hasDerivAt (x := z)).const_mul q).add_const (Complex.I * k * s)
    simpa using this
  have := (h.cexp).const_mul A
  refine this.congr_deriv ?_
  simp only [wave]
  ring

theorem wave_s (A q : ℂ) (k z s : ℝ) : HasDerivAt (wave A q k z) (wave (Complex.I * k * A) q k z s) s := by
  have h : HasDerivAt (fun x : ℝ => q * (z : ℂ) + Complex.I * k * x) (Complex.I * k) s := by
    have := ((Complex.ofRealCLM.hasDerivAt (x := s)).const_mul (Complex.I * k)).const_add (q * (z : ℂ))
    simpa using this
  have := (h.cexp).const_mul A
  refine this.congr_deriv ?_
  simp only [wave]
  ring

theorem wave_cont (A q : ℂ) (k : ℝ) : Continuous (Function.uncurry (wave A q k)) := by
  unfold Function.uncurry wave
  fun_prop

theorem hasDerivAt_re {g : ℝ → ℂ} {g' : ℂ} {x : ℝ} (h : HasDerivAt g g' x) :
    HasDerivAt (fun x => (g x).re) g'.re x := by
  exact Complex.reCLM.hasFDerivAt.comp_hasDerivAt x h

theorem hasDerivAt_im {g : ℝ → ℂ} {g' : ℂ} {x : ℝ} (h : HasDerivAt g g' x) :
    HasDerivAt (fun x => (g x).im) g'.im x := by
  exact Complex.imCLM.hasFDerivAt.comp_hasDerivAt x h

theorem wave_periodic (A q : ℂ) (k z s : ℝ) (hk : k = 0 ∨ k = 1 ∨ k = -1) :
    wave A q k z (s + 2 * π) = wave A q k z s := by
  have h2 : Complex.exp (2 * π * Complex.I) = 1 := Complex.exp_two_pi_mul_I
  rcases hk with rfl | rfl | rfl
  · simp [wave]
  · simp only [wave]
    rw [show q * (z : ℂ) + Complex.I * ((1 : ℝ) : ℂ) * ((s + 2 * π : ℝ) : ℂ) =
      (q * z + Complex.I * ((1 : ℝ) : ℂ) * s) + 2 * π * Complex.I by push_cast; ring, Complex.exp_add, h2, mul_one]
  · simp only [wave]
    rw [show q * (z : ℂ) + Complex.I * ((-1 : ℝ) : ℂ) * (s : ℂ) =
      (q * z + Complex.I * ((-1 : ℝ) : ℂ) * ((s + 2 * π : ℝ) : ℂ)) + 2 * π * Complex.I by push_cast; ring,
      Complex.exp_add _ (2 * π * Complex.I), h2, mul_one]

theorem wave_norm (A q : ℂ) (k z s : ℝ) : ‖wave A q k z s‖ = ‖A‖ * Real.exp (q.re * z) := by
  simp [wave, Complex.norm_exp]

theorem wave_decay (A q : ℂ) (k : ℝ) (hq : q.re < 0) (ε : ℝ) (hε : 0 < ε) :
    ∃ h, ∀ z s, h ≤ z → ‖wave A q k z s‖ < ε := by
  have ht : Filter.Tendsto (fun z : ℝ => ‖A‖ * Real.exp (q.re * z)) Filter.atTop (nhds (‖A‖ * 0)) :=
    (Real.tendsto_exp_atBot.comp (Filter.tendsto_id.const_mul_atTop_of_neg hq)).const_mul _
  rw [mul_zero] at ht
  obtain ⟨h, hh⟩ := Filter.eventually_atTop.1 (ht.eventually (gt_mem_nhds hε))
  exact ⟨h, fun z s hz => by rw [wave_norm]; exact hh z hz⟩

/-- Radial wind of three waves: the symmetric one and those that go once around the storm. -/
noncomputable def uu (ab σ : ℝ) (q0 qm qp A0 Am Ap : ℂ) (z s : ℝ) : ℝ :=
  ab * (σ * (wave A0 q0 0 z s).re + (wave Am qm (-σ) z s).re + (wave Ap qp σ z s).re)

/-- Tangential wind of the three waves -/
noncomputable def vv (σ : ℝ) (q0 qm qp A0 Am Ap : ℂ) (z s : ℝ) : ℝ :=
  (wave A0 q0 0 z s).im + σ * ((wave Am qm (-σ) z s).im + (wave Ap qp σ z s).im)

theorem uu_z (ab σ : ℝ) (q0 qm qp A0 Am Ap : ℂ) (z s : ℝ) :
    HasDerivAt (fun x => uu ab σ q0 qm qp A0 Am Ap x s) (uu ab σ q0 qm qp (q0 * A0) (qm * Am) (qp * Ap) z s) z := by
  unfold uu
  exact ((((hasDerivAt_re (wave_z A0 q0 0 z s)).const_mul σ).add (hasDerivAt_re (wave_z Am qm (-σ) z s))).add
    (hasDerivAt_re (wave_z Ap qp σ z s))).const_mul ab

theorem vv_z (σ : ℝ) (q0 qm qp A0 Am Ap : ℂ) (z s : ℝ) :
    HasDerivAt (fun x => vv σ q0 qm qp A0 Am Ap x s) (vv σ q0 qm qp (q0 * A0) (qm * Am) (qp * Ap) z s) z := by
  unfold vv
  exact (hasDerivAt_im (wave_z A0 q0 0 z s)).add (((hasDerivAt_im (wave_z Am qm (-σ) z s)).add
    (hasDerivAt_im (wave_z Ap qp σ z s))).const_mul σ)

theorem uu_s (ab σ : ℝ) (q0 qm qp A0 Am Ap : ℂ) (z s : ℝ) :
    HasDerivAt (uu ab σ q0 qm qp A0 Am Ap z) (uu ab σ q0 qm qp (Complex.I * (0 : ℝ) * A0)
      (Complex.I * (-σ : ℝ) * Am) (Complex.I * σ * Ap) z s) s := by
  unfold uu
  exact ((((hasDerivAt_re (wave_s A0 q0 0 z s)).const_mul σ).add (hasDerivAt_re (wave_s Am qm (-σ) z s))).add
    (hasDerivAt_re (wave_s Ap qp σ z s))).const_mul ab

theorem vv_s (σ : ℝ) (q0 qm qp A0 Am Ap : ℂ) (z s : ℝ) :
    HasDerivAt (vv σ q0 qm qp A0 Am Ap z) (vv σ q0 qm qp (Complex.I * (0 : ℝ) * A0)
      (Complex.I * (-σ : ℝ) * Am) (Complex.I * σ * Ap) z s) s := by
  unfold vv
  exact (hasDerivAt_im (wave_s A0 q0 0 z s)).add (((hasDerivAt_im (wave_s Am qm (-σ) z s)).add
    (hasDerivAt_im (wave_s Ap qp σ z s))).const_mul σ)

theorem uu_cont (ab σ : ℝ) (q0 qm qp A0 Am Ap : ℂ) : Continuous (Function.uncurry (uu ab σ q0 qm qp A0 Am Ap)) := by
  unfold Function.uncurry uu wave
  fun_prop

theorem vv_cont (σ : ℝ) (q0 qm qp A0 Am Ap : ℂ) : Continuous (Function.uncurry (vv σ q0 qm qp A0 Am Ap)) := by
  unfold Function.uncurry vv wave
  fun_prop

theorem uu_smooth (ab : ℝ) {σ : ℝ} (hσ : σ = 1 ∨ σ = -1) (q0 qm qp A0 Am Ap : ℂ) :
    Spec.Smooth (uu ab σ q0 qm qp A0 Am Ap) (uu ab σ q0 qm qp (q0 * A0) (qm * Am) (qp * Ap))
      (uu ab σ q0 qm qp (q0 * (q0 * A0)) (qm * (qm * Am)) (qp * (qp * Ap)))
      (uu ab σ q0 qm qp (Complex.I * (0 : ℝ) * A0) (Complex.I * (-σ : ℝ) * Am) (Complex.I * σ * Ap)) where
  height := uu_z ab σ q0 qm qp A0 Am Ap
  height2 := uu_z ab σ q0 qm qp _ _ _
  around := uu_s ab σ q0 qm qp A0 Am Ap
  cont := uu_cont ..
  contz := uu_cont ..
  contzz := uu_cont ..
  conts := uu_cont ..
  periodic z s := by
    unfold uu
    rw [wave_periodic _ _ _ _ _ (Or.inl rfl), wave_periodic _ _ _ _ _ (Or.inr hσ),
      wave_periodic _ _ _ _ _ (Or.inr (by rcases hσ with rfl | rfl <;> norm_num))]

theorem vv_smooth {σ : ℝ} (hσ : σ = 1 ∨ σ = -1) (q0 qm qp A0 Am Ap : ℂ) :
    Spec.Smooth (vv σ q0 qm qp A0 Am Ap) (vv σ q0 qm qp (q0 * A0) (qm * Am) (qp * Ap))
      (vv σ q0 qm qp (q0 * (q0 * A0)) (qm * (qm * Am)) (qp * (qp * Ap)))
      (vv σ q0 qm qp (Complex.I * (0 : ℝ) * A0) (Complex.I * (-σ : ℝ) * Am) (Complex.I * σ * Ap)) where
  height := vv_z σ q0 qm qp A0 Am Ap
  height2 := vv_z σ q0 qm qp _ _ _
  around := vv_s σ q0 qm qp A0 Am Ap
  cont := vv_cont ..
  contz := vv_cont ..
  contzz := vv_cont ..
  conts := vv_cont ..
  periodic z s := by
    unfold vv
    rw [wave_periodic _ _ _ _ _ (Or.inl rfl), wave_periodic _ _ _ _ _ (Or.inr hσ),
      wave_periodic _ _ _ _ _ (Or.inr (by rcases hσ with rfl | rfl <;> norm_num))]

theorem wave_mul (c A q : ℂ) (k z s : ℝ) : wave (c * A) q k z s = c * wave A q k z s := by
  simp only [wave]; ring

/-- The interior equations of the three waves; `r` is the mean exponent. -/
theorem interior {ab σ r g : ℝ} (hσ : σ = 1 ∨ σ = -1) {q0 qm qp : ℂ} (h0 : q0 * q0 = 2 * Complex.I * r)
    (hm : qm * qm = 2 * Complex.I * (r - g : ℝ)) (hp : qp * qp = 2 * Complex.I * (r + g : ℝ)) (A0 Am Ap : ℂ) (z s : ℝ) :
    uu ab σ q0 qm qp (q0 * (q0 * A0)) (qm * (qm * Am)) (qp * (qp * Ap)) z s =
      2 * σ * g * uu ab σ q0 qm qp (Complex.I * (0 : ℝ) * A0) (Complex.I * (-σ : ℝ) * Am) (Complex.I * σ * Ap) z s -
        2 * σ * (ab * r) * vv σ q0 qm qp A0 Am Ap z s ∧
    ab * vv σ q0 qm qp (q0 * (q0 * A0)) (qm * (qm * Am)) (qp * (qp * Ap)) z s =
      2 * σ * g * (ab * vv σ q0 qm qp (Complex.I * (0 : ℝ) * A0) (Complex.I * (-σ : ℝ) * Am) (Complex.I * σ * Ap) z s) +
        2 * σ * r * uu ab σ q0 qm qp A0 Am Ap z s := by
  simp only [uu, vv, ← mul_assoc, h0, hm, hp]
  simp only [wave_mul]
  rcases hσ with rfl | rfl <;> constructor <;> simp <;> ring

/-- The amplitude of the symmetric wave: `X` is `q A0` divided by the drag. -/
theorem a0_surface {V x : ℝ} (hx : 0 < x) :
    (-(1 + Complex.I) * a0 V x).re = x * (a0 V x).re ∧
    (-(1 + Complex.I) * a0 V x).im = x * (V + 2 * (a0 V x).im) := by
  have hd : (2 * x ^ 2 + 3 * x + 2 : ℝ) ≠ 0 := by positivity
  have e : a0 V x = ((-(x * V) / (2 * x ^ 2 + 3 * x + 2) : ℝ) : ℂ) +
      ((-(x * (1 + x) * V) / (2 * x ^ 2 + 3 * x + 2) : ℝ) : ℂ) * Complex.I := by
    have hc : (2 * (x : ℂ) ^ 2 + 3 * x + 2) ≠ 0 := by exact_mod_cast hd
    simp only [a0]
    push_cast
    field_simp
    ring
  generalize hP : -(x * V) / (2 * x ^ 2 + 3 * x + 2) = P at e
  generalize hQ : -(x * (1 + x) * V) / (2 * x ^ 2 + 3 * x + 2) = Q at e
  rw [div_eq_iff hd] at hP hQ
  have hQP : Q = (1 + x) * P := by
    apply mul_right_cancel₀ hd
    linear_combination (1 + x) * hP - hQ
  rw [e, hQP]
  constructor
  · simp
    ring
  · simp
    linear_combination hP

/-- The amplitudes of the two waves around the storm satisfy the conditions at the surface. -/
theorem am_ap (third : Prop) [Decidable third] {ab n p : ℝ} (t : ℝ) (ha : 0 < ab) (hn : 0 < n) (hp : 0 < p) :
    (3 * p + 2 * (if third then 1 - Complex.I else 1 + Complex.I)) * am third ab n p t * ab -
        p * ((starRingEnd ℂ) (ap third ab n p t)) * ab = -(p * (1 + 2 * ab) * t) ∧
    (3 * n + 2 * (1 + Complex.I)) * ap third ab n p t * ab -
        n * ((starRingEnd ℂ) (am third ab n p t)) * ab = -(n * (1 - 2 * ab) * t) := by
  have hnp : 0 < n * p := mul_pos hn hp
  have hac : (ab : ℂ) ≠ 0 := by exact_mod_cast ha.ne'
  by_cases h : third
  · simp only [am, ap, if_pos h]
    have hD : (2 - 2 * Complex.I + 3 * (n + p) + (2 + 2 * Complex.I) * n * p : ℂ) ≠ 0 := by
      intro h0
      have := congrArg Complex.re h0
      simp at this
      nlinarith
    have hD' : (2 + 2 * Complex.I + 3 * (n + p) + (2 - 2 * Complex.I) * n * p : ℂ) ≠ 0 := by
      intro h0
      have := congrArg Complex.re h0
      simp at this
      nlinarith
    have hC : (starRingEnd ℂ) (2 - 2 * Complex.I + 3 * (n + p) + (2 + 2 * Complex.I) * n * p : ℂ) =
        2 + 2 * Complex.I + 3 * (n + p) + (2 - 2 * Complex.I) * n * p := by
      apply Complex.ext <;> simp
    have hC' : (starRingEnd ℂ) (2 + 2 * Complex.I + 3 * (n + p) + (2 - 2 * Complex.I) * n * p : ℂ) =
        2 - 2 * Complex.I + 3 * (n + p) + (2 + 2 * Complex.I) * n * p := by
      apply Complex.ext <;> simp
    constructor
    · rw [map_div₀, map_mul, Complex.conj_ofReal, hC']
      generalize hd : (2 - 2 * Complex.I + 3 * (n + p) + (2 + 2 * Complex.I) * n * p : ℂ) = d at hD
      field_simp
      rw [← hd]
      apply Complex.ext <;> simp <;> ring
    · rw [map_div₀, map_mul, Complex.conj_ofReal, hC]
      generalize hd : (2 + 2 * Complex.I + 3 * (n + p) + (2 - 2 * Complex.I) * n * p : ℂ) = d at hD'
      field_simp
      rw [← hd]
      apply Complex.ext <;> simp <;> ring
  · simp only [am, ap, if_neg h]
    have hD : ((2 + 2 * Complex.I) * (1 + n * p) + 3 * p + 3 * Complex.I * n : ℂ) ≠ 0 := by
      intro h0
      have := congrArg Complex.re h0
      simp at this
      nlinarith
    have hD' : ((2 + 2 * Complex.I) * (1 + n * p) + 3 * n + 3 * Complex.I * p : ℂ) ≠ 0 := by
      intro h0
      have := congrArg Complex.re h0
      simp at this
      nlinarith
    have hC : (starRingEnd ℂ) ((2 + 2 * Complex.I) * (1 + n * p) + 3 * p + 3 * Complex.I * n : ℂ) =
        -Complex.I * ((2 + 2 * Complex.I) * (1 + n * p) + 3 * n + 3 * Complex.I * p) := by
      apply Complex.ext <;> simp <;> ring
    have hC' : (starRingEnd ℂ) ((2 + 2 * Complex.I) * (1 + n * p) + 3 * n + 3 * Complex.I * p : ℂ) =
        -Complex.I * ((2 + 2 * Complex.I) * (1 + n * p) + 3 * p + 3 * Complex.I * n) := by
      apply Complex.ext <;> simp <;> ring
    have hI : Complex.I ≠ 0 := Complex.I_ne_zero
    constructor
    · rw [map_div₀, map_mul, Complex.conj_ofReal, hC']
      generalize hd : ((2 + 2 * Complex.I) * (1 + n * p) + 3 * p + 3 * Complex.I * n : ℂ) = d at hD
      field_simp
      rw [← hd]
      apply Complex.ext <;> simp <;> ring
    · rw [map_div₀, map_mul, Complex.conj_ofReal, hC]
      generalize hd : ((2 + 2 * Complex.I) * (1 + n * p) + 3 * n + 3 * Complex.I * p : ℂ) = d at hD'
      field_simp
      rw [← hd]
      apply Complex.ext <;> simp <;> ring

theorem wave_surface (A q : ℂ) (k s : ℝ) : (wave A q k 0 s).re = A.re * cos (k * s) - A.im * sin (k * s) ∧
    (wave A q k 0 s).im = A.re * sin (k * s) + A.im * cos (k * s) := by
  have e : wave A q k 0 s = A * (cos (k * s) + sin (k * s) * Complex.I : ℂ) := by
    simp only [wave]
    rw [show q * ((0 : ℝ) : ℂ) + Complex.I * k * s = ((k * s : ℝ) : ℂ) * Complex.I by push_cast; ring, Complex.exp_mul_I]
    push_cast
    rfl
  rw [e]
  simp [← Complex.ofReal_mul, ← Complex.ofReal_cos, ← Complex.ofReal_sin]

/-- The conditions at the surface of the three waves; `c` is the drag coefficient times the wind divided by the
diffusivity. -/
theorem surface (third : Prop) [Decidable third] {ab σ c V t x n p : ℝ} (hσ : σ = 1 ∨ σ = -1) (ha : 0 < ab)
    (hx : 0 < x) (hn : 0 < n) (hp : 0 < p) {q0 qm qp : ℂ} (h0 : q0 * x = -(1 + Complex.I) * c)
    (hm : qm * p = -(if third then 1 - Complex.I else 1 + Complex.I) * c) (hq : qp * n = -(1 + Complex.I) * c) (s : ℝ) :
    uu ab σ q0 qm qp (q0 * a0 V x) (qm * am third ab n p t) (qp * ap third ab n p t) 0 s =
      c * (uu ab σ q0 qm qp (a0 V x) (am third ab n p t) (ap third ab n p t) 0 s + t * cos s) ∧
    vv σ q0 qm qp (q0 * a0 V x) (qm * am third ab n p t) (qp * ap third ab n p t) 0 s =
      c * (V + 2 * (vv σ q0 qm qp (a0 V x) (am third ab n p t) (ap third ab n p t) 0 s - t * sin s)) := by
  obtain ⟨e1, e2⟩ := am_ap third t ha hn hp
  obtain ⟨f1, f2⟩ := a0_surface (V := V) hx
  generalize am third ab n p t = X at *
  generalize ap third ab n p t = Y at *
  generalize a0 V x = A at *
  have hpc : (p : ℂ) ≠ 0 := by exact_mod_cast hp.ne'
  have hnc : (n : ℂ) ≠ 0 := by exact_mod_cast hn.ne'
  have g1 : 2 * (qm * X) * ab = c * (3 * X * ab - (starRingEnd ℂ) Y * ab + (1 + 2 * ab) * t) := by
    apply mul_left_cancel₀ hpc
    linear_combination (2 * X * ab) * hm - c * e1
  have g2 : 2 * (qp * Y) * ab = c * (3 * Y * ab - (starRingEnd ℂ) X * ab + (1 - 2 * ab) * t) := by
    apply mul_left_cancel₀ hnc
    linear_combination (2 * Y * ab) * hq - c * e2
  have g0 : q0 * A * x = c * (-(1 + Complex.I) * A) := by linear_combination A * h0
  generalize qm * X = G at *
  generalize qp * Y = H at *
  generalize q0 * A = B at *
  have b1 : B.re = c * A.re := by
    have := congrArg Complex.re g0
    rw [Complex.re_ofReal_mul, f1, Complex.re_mul_ofReal] at this
    apply mul_right_cancel₀ hx.ne'
    linarith
  have b2 : B.im = c * (V + 2 * A.im) := by
    have := congrArg Complex.im g0
    rw [Complex.im_ofReal_mul, f2, Complex.im_mul_ofReal] at this
    apply mul_right_cancel₀ hx.ne'
    linarith
  have r1 := congrArg Complex.re g1
  have i1 := congrArg Complex.im g1
  have r2 := congrArg Complex.re g2
  have i2 := congrArg Complex.im g2
  simp at r1 i1 r2 i2
  simp only [uu, vv, (wave_surface _ _ _ _).1, (wave_surface _ _ _ _).2]
  simp only [zero_mul, cos_zero, sin_zero, mul_one, mul_zero, sub_zero, zero_add, neg_mul, cos_neg, sin_neg]
  have hc : cos (σ * s) = cos s := by rcases hσ with rfl | rfl <;> simp
  have hs : sin (σ * s) = σ * sin s := by rcases hσ with rfl | rfl <;> simp
  rw [hc, hs, b1, b2]
  constructor
  · linear_combination cos s / 2 * (r1 + r2) + σ * sin s / 2 * (i1 - i2)
  · apply mul_right_cancel₀ ha.ne'
    rcases hσ with rfl | rfl
    · linear_combination cos s / 2 * (i1 + i2) + sin s / 2 * (r2 - r1)
    · linear_combination -cos s / 2 * (i1 + i2) + sin s / 2 * (r2 - r1)

end Tcrm.Boundary
