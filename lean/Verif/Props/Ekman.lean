import Verif.Lemmas.Ekman
import Verif.Lemmas.EkmanUnique
/-!
C192: the surface wind of Kepert's wind field is that of the linear boundary layer.
-/
namespace Tcrm.Boundary
open Real

theorem q_sq (x : ℝ) (hx : 0 ≤ x) : -(1 + Complex.I) * (√x : ℂ) * (-(1 + Complex.I) * (√x : ℂ)) = 2 * Complex.I * x := by
  have h : (√x : ℂ) * (√x : ℂ) = x := by rw [← Complex.ofReal_mul, mul_self_sqrt hx]
  linear_combination (1 + Complex.I) ^ 2 * h + x * Complex.I_sq

theorem q_sq' (x : ℝ) (hx : 0 ≤ x) : -(1 - Complex.I) * (√x : ℂ) * (-(1 - Complex.I) * (√x : ℂ)) = 2 * Complex.I * (-x : ℝ) := by
  have h : (√x : ℂ) * (√x : ℂ) = x := by rw [← Complex.ofReal_mul, mul_self_sqrt hx]
  push_cast
  linear_combination (1 - Complex.I) ^ 2 * h + x * Complex.I_sq

theorem drag {V y : ℝ} (hy : 0 < y) (hV : V ≠ 0) : 0 < |0.002 / 50 * V / √y| ∧
    √y * |0.002 / 50 * V / √y| = 0.002 * |V| / 50 := by
  have h : 0 < √y := sqrt_pos.2 hy
  have h' : 0 < |V| := abs_pos.2 hV
  rw [abs_div, abs_mul, abs_of_pos h, abs_of_pos (by norm_num : (0 : ℝ) < 0.002 / 50)]
  constructor
  · positivity
  · field_simp

open Classical in
/-- C192: the surface wind of Kepert's field is the bottom of a solution of the equations of the boundary layer. -/
theorem C192_solution (Vm V Z f rMax R lam vFm thetaFm : ℝ) (hR : 0 < R) (hV : 0 < V * f)
    (hs : 0 < (2 * V / R + f) * (f + Z)) (hg : (V / R) ^ 2 ≠ (2 * V / R + f) * (f + Z)) :
    ∃ u v, Spec.Layer f R V Z (vt Vm vFm rMax R) u v ∧
      kepertPolar Vm V Z f rMax R lam vFm thetaFm =
        (u 0 (lam - thetaFm) + vt Vm vFm rMax R * cos (lam - thetaFm),
          V + v 0 (lam - thetaFm) - vt Vm vFm rMax R * sin (lam - thetaFm)) := by
  set t := vt Vm vFm rMax R with ht
  set a := al V f R with haDef
  set b := be Z f with hbDef
  set g := gam V R with hgDef
  set ab := √(a / b) with habDef
  set r := √(a * b) with hrDef
  set σ := sign f with hσDef
  have hV0 : V ≠ 0 := by rintro rfl; simp at hV
  have hf0 : f ≠ 0 := by rintro rfl; simp at hV
  have ea : 2 * V / R + f = 100 * a := by rw [haDef]; unfold al; ring
  have eb : f + Z = 100 * b := by rw [hbDef]; unfold be; ring
  have eg : V / R = 100 * g := by rw [hgDef]; unfold gam; field_simp; ring
  have hσ : σ = 1 ∨ σ = -1 := by
    rcases lt_or_gt_of_ne hf0 with h | h
    · right; exact sign_of_neg h
    · left; exact sign_of_pos h
  have hab0 : 0 < a * b := by rw [ea, eb] at hs; nlinarith
  have hr0 : 0 < r := sqrt_pos.2 hab0
  have hb0 : b ≠ 0 := by rintro h; rw [h] at hab0; simp at hab0
  have hab : 0 < ab := sqrt_pos.2 (by
    have : a / b = a * b / b ^ 2 := by field_simp
    rw [this]; positivity)
  have sg : g = σ * |g| ∧ a = σ * |a| := by
    rcases lt_or_gt_of_ne hf0 with h | h
    · have hv : V < 0 := by nlinarith
      have h1 : V / R < 0 := div_neg_of_neg_of_pos hv hR
      have h2 : σ = -1 := sign_of_neg h
      have h3 : 2 * V / R + f < 0 := by rw [mul_div_assoc]; linarith
      rw [abs_of_neg (by linarith), abs_of_neg (by linarith), h2]
      constructor <;> ring
    · have hv : 0 < V := by nlinarith
      have h1 : 0 < V / R := div_pos hv hR
      have h2 : σ = 1 := sign_of_pos h
      have h3 : 0 < 2 * V / R + f := by rw [mul_div_assoc]; linarith
      rw [abs_of_pos (by linarith), abs_of_pos (by linarith), h2]
      constructor <;> ring
  have sb : b = σ * |b| := by
    rcases hσ with h | h
    · rw [h, one_mul, one_mul] at sg
      rw [h, one_mul]
      have : 0 ≤ a := by rw [sg.2]; exact abs_nonneg a
      rw [abs_of_pos]
      by_contra hb
      nlinarith
    · rw [h] at sg ⊢
      have : a ≤ 0 := by have := abs_nonneg a; linarith [sg.2]
      rw [abs_of_neg]
      · ring
      · by_contra hb
        nlinarith
  have e1 : ab * r = |a| := by
    rw [habDef, hrDef, ← sqrt_mul' _ hab0.le, show a / b * (a * b) = a ^ 2 by field_simp, sqrt_sq_eq_abs]
  have e2 : ab * |b| = r := by
    rw [habDef, hrDef, ← sqrt_sq_eq_abs b, ← sqrt_mul' _ (sq_nonneg b)]
    congr 1
    field_simp
  have hne : r - |g| ≠ 0 := by
    intro h
    apply hg
    have h1 : r = |g| := by linarith
    have h2 : r ^ 2 = a * b := sq_sqrt hab0.le
    rw [h1, sq_abs] at h2
    rw [eg, ea, eb]
    linear_combination 10000 * h2
  have hd : 0 < abs (r - |g|) := abs_pos.2 hne
  have hrg : 0 < r + |g| := by positivity
  obtain ⟨x0, x1⟩ := drag (V := V) hr0 hV0
  obtain ⟨n0, n1⟩ := drag (V := V) hrg hV0
  obtain ⟨p0, p1⟩ := drag (V := V) hd hV0
  set c := 0.002 * |V| / 50 with hcDef
  set q0 : ℂ := -(1 + Complex.I) * (√r : ℂ) with hq0
  set qp : ℂ := -(1 + Complex.I) * (√(r + |g|) : ℂ) with hqp
  set qm : ℂ := -(if |g| > r then 1 - Complex.I else 1 + Complex.I) * (√(abs (r - |g|)) : ℂ) with hqm
  have k0 : q0 * q0 = 2 * Complex.I * r := q_sq r hr0.le
  have kp : qp * qp = 2 * Complex.I * (r + |g| : ℝ) := q_sq _ hrg.le
  have km : qm * qm = 2 * Complex.I * (r - |g| : ℝ) := by
    by_cases h : |g| > r
    · rw [hqm, if_pos h, q_sq' _ (abs_nonneg _), abs_of_neg (by linarith), neg_neg]
    · rw [hqm, if_neg h, q_sq _ (abs_nonneg _), abs_of_nonneg (by linarith)]
  have c0 : q0 * (chi V a b : ℝ) = -(1 + Complex.I) * c := by
    rw [hq0, ← x1]; simp only [chi]; push_cast; ring
  have cp : qp * (eta V a b g : ℝ) = -(1 + Complex.I) * c := by
    rw [hqp, ← n1]; simp only [eta]; push_cast; ring
  have cm : qm * (psi V a b g : ℝ) = -(if |g| > r then 1 - Complex.I else 1 + Complex.I) * c := by
    rw [hqm, ← p1]; simp only [psi]; push_cast; ring
  have d0 : q0.re < 0 := by rw [hq0]; simp [sqrt_pos.2 hr0]
  have dp : qp.re < 0 := by rw [hqp]; simp [sqrt_pos.2 hrg]
  have dm : qm.re < 0 := by rw [hqm]; split <;> simp [sqrt_pos.2 hd, hne]
  set A0 := a0 V (chi V a b) with hA0
  set Am := am (|g| > r) ab (eta V a b g) (psi V a b g) t with hAm
  set Ap := ap (|g| > r) ab (eta V a b g) (psi V a b g) t with hAp
  refine ⟨uu ab σ q0 qm qp A0 Am Ap, vv σ q0 qm qp A0 Am Ap, ⟨_, _, _, _, _, _, uu_smooth ab hσ q0 qm qp A0 Am Ap,
    vv_smooth hσ q0 qm qp A0 Am Ap, ?_, ?_, ?_, ?_, ?_⟩, ?_⟩
  · intro z s _
    have := (interior (ab := ab) hσ k0 km kp A0 Am Ap z s).1
    rw [eg, ea, this, e1]
    generalize uu ab σ q0 qm qp (Complex.I * (0 : ℝ) * A0) (Complex.I * (-σ : ℝ) * Am) (Complex.I * σ * Ap) z s = us
    linear_combination (100 * us) * sg.1 - (100 * vv σ q0 qm qp A0 Am Ap z s) * sg.2
  · intro z s _
    have := (interior (ab := ab) hσ k0 km kp A0 Am Ap z s).2
    apply mul_left_cancel₀ hab.ne'
    rw [eg, eb]
    generalize vv σ q0 qm qp (Complex.I * (0 : ℝ) * A0) (Complex.I * (-σ : ℝ) * Am) (Complex.I * σ * Ap) z s = vs at *
    generalize uu ab σ q0 qm qp A0 Am Ap z s = u at *
    linear_combination -50 * this + (100 * ab * vs) * sg.1 + (100 * ab * u) * sb + (100 * u * σ) * e2
  · intro s
    have : uu ab σ q0 qm qp (q0 * A0) (qm * Am) (qp * Ap) 0 s = c * (uu ab σ q0 qm qp A0 Am Ap 0 s + t * cos s) :=
      (surface (|g| > r) (V := V) (t := t) hσ hab x0 n0 p0 c0 cm cp s).1
    rw [this, hcDef]
    ring
  · intro s
    have : vv σ q0 qm qp (q0 * A0) (qm * Am) (qp * Ap) 0 s = c * (V + 2 * (vv σ q0 qm qp A0 Am Ap 0 s - t * sin s)) :=
      (surface (|g| > r) (V := V) (t := t) hσ hab x0 n0 p0 c0 cm cp s).2
    rw [this, hcDef]
    ring
  · intro ε hε
    have hε' : 0 < ε / (3 * (ab + 1)) := by positivity
    obtain ⟨h1, H1⟩ := wave_decay A0 q0 0 d0 _ hε'
    obtain ⟨h2, H2⟩ := wave_decay Am qm (-σ) dm _ hε'
    obtain ⟨h3, H3⟩ := wave_decay Ap qp σ dp _ hε'
    refine ⟨max h1 (max h2 h3), fun z s hz => ?_⟩
    have w1 := H1 z s (le_trans (le_max_left _ _) hz)
    have w2 := H2 z s (le_trans (le_trans (le_max_left _ _) (le_max_right _ _)) hz)
    have w3 := H3 z s (le_trans (le_trans (le_max_right _ _) (le_max_right _ _)) hz)
    have r1 := Complex.abs_re_le_norm (wave A0 q0 0 z s)
    have r2 := Complex.abs_re_le_norm (wave Am qm (-σ) z s)
    have r3 := Complex.abs_re_le_norm (wave Ap qp σ z s)
    have i1 := Complex.abs_im_le_norm (wave A0 q0 0 z s)
    have i2 := Complex.abs_im_le_norm (wave Am qm (-σ) z s)
    have i3 := Complex.abs_im_le_norm (wave Ap qp σ z s)
    have hσ1 : |σ| = 1 := by rcases hσ with h | h <;> rw [h] <;> simp
    have e3 : (ab + 1) * (3 * (ε / (3 * (ab + 1)))) = ε := by field_simp
    generalize ε / (3 * (ab + 1)) = δ at *
    constructor
    · unfold uu
      rw [abs_mul, abs_of_pos hab]
      have h4 := abs_add_three (σ * (wave A0 q0 0 z s).re) (wave Am qm (-σ) z s).re (wave Ap qp σ z s).re
      rw [abs_mul, hσ1, one_mul] at h4
      have h6 : |σ * (wave A0 q0 0 z s).re + (wave Am qm (-σ) z s).re + (wave Ap qp σ z s).re| ≤ 3 * δ := by linarith
      linarith [mul_le_mul_of_nonneg_left h6 hab.le]
    · unfold vv
      have h4 := abs_add_le (wave A0 q0 0 z s).im (σ * ((wave Am qm (-σ) z s).im + (wave Ap qp σ z s).im))
      rw [abs_mul, hσ1, one_mul] at h4
      have h5 := abs_add_le (wave Am qm (-σ) z s).im (wave Ap qp σ z s).im
      have h6 : 0 < ab * (3 * δ) := by positivity
      linarith
  · have w0 : wave A0 q0 0 0 (lam - thetaFm) = A0 := by simp [wave]
    have w1 : wave Am qm (-σ) 0 (lam - thetaFm) = Am * Complex.exp (-Complex.I * (lam - thetaFm) * σ) := by
      simp only [wave]; congr 2; push_cast; ring
    have w2 : wave Ap qp σ 0 (lam - thetaFm) = Ap * Complex.exp (Complex.I * (lam - thetaFm) * σ) := by
      simp only [wave]; congr 2; push_cast; ring
    simp only [uu, vv, w0, w1, w2, kepertPolar]
    refine Prod.ext ?_ ?_
    · simp only [← haDef, ← hbDef, ← hgDef, ← habDef, ← hrDef, ← hσDef, ← ht, ← hA0, ← hAm, ← hAp]
      ring
    · simp only [← haDef, ← hbDef, ← hgDef, ← habDef, ← hrDef, ← hσDef, ← ht, ← hA0, ← hAm, ← hAp]
      ring

/-- C192: the boundary layer has no other solution. -/
theorem C192_unique (V Z f R t : ℝ) (hs : 0 < (2 * V / R + f) * (f + Z)) {u v u' v' : ℝ → ℝ → ℝ}
    (h : Spec.Layer f R V Z t u v) (h' : Spec.Layer f R V Z t u' v') (z s : ℝ) (hz : 0 ≤ z) :
    u z s = u' z s ∧ v z s = v' z s := by
  obtain ⟨uz, uzz, us, vz, vzz, vs, su, sv, e1, e2, e3, e4, e5⟩ := h
  obtain ⟨uz', uzz', us', vz', vzz', vs', su', sv', e1', e2', e3', e4', e5'⟩ := h'
  have := no_motion (k := V / R) (c := 0.002 * |V|) hs (by positivity) (sub_smooth su su') (sub_smooth sv sv')
    (fun z s hz => by linear_combination e1 z s hz - e1' z s hz)
    (fun z s hz => by linear_combination e2 z s hz - e2' z s hz)
    (fun s => by linear_combination e3 s - e3' s) (fun s => by linear_combination e4 s - e4' s)
    (fun ε hε => by
      obtain ⟨h1, H1⟩ := e5 (ε / 2) (by positivity)
      obtain ⟨h2, H2⟩ := e5' (ε / 2) (by positivity)
      refine ⟨max h1 h2, fun z s hz => ?_⟩
      have a1 := H1 z s (le_trans (le_max_left _ _) hz)
      have a2 := H2 z s (le_trans (le_max_right _ _) hz)
      have b1 := abs_sub (u z s) (u' z s)
      have b2 := abs_sub (v z s) (v' z s)
      constructor <;> linarith [a1.1, a1.2, a2.1, a2.2]) z s hz
  constructor <;> linarith [this.1, this.2]

/-- C192: the radial and the tangential surface wind are those of the boundary layer, and no others. -/
theorem C192_surface (Vm V Z f rMax R lam vFm thetaFm : ℝ) (hR : 0 < R) (hV : 0 < V * f)
    (hs : 0 < (2 * V / R + f) * (f + Z)) (hg : (V / R) ^ 2 ≠ (2 * V / R + f) * (f + Z)) (p q : ℝ) :
    kepertPolar Vm V Z f rMax R lam vFm thetaFm = (p, q) ↔
      ∃ u v, Spec.Layer f R V Z (vt Vm vFm rMax R) u v ∧
        p = u 0 (lam - thetaFm) + vt Vm vFm rMax R * cos (lam - thetaFm) ∧
        q = V + v 0 (lam - thetaFm) - vt Vm vFm rMax R * sin (lam - thetaFm) := by
  obtain ⟨u, v, hl, e⟩ := C192_solution Vm V Z f rMax R lam vFm thetaFm hR hV hs hg
  rw [e, Prod.mk.injEq]
  constructor
  · rintro ⟨rfl, rfl⟩
    exact ⟨u, v, hl, rfl, rfl⟩
  · rintro ⟨u', v', hl', rfl, rfl⟩
    have := C192_unique V Z f R _ hs hl hl' 0 (lam - thetaFm) le_rfl
    rw [this.1, this.2]
    exact ⟨rfl, rfl⟩

/-- C192: the components to the east and to the north are those of the radial wind `p` away from the centre and
the tangential wind `q` anti-clockwise around it, at the direction `lam`. -/
theorem C192_components (Vm V Z f rMax R lam vFm thetaFm p q : ℝ)
    (h : kepertPolar Vm V Z f rMax R lam vFm thetaFm = (p, q)) :
    kepert Vm V Z f rMax R lam vFm thetaFm = (p * cos lam - q * sin lam, p * sin lam + q * cos lam) := by
  have hn : √(p ^ 2 + q ^ 2) = ‖(⟨q, p⟩ : ℂ)‖ := by
    rw [Complex.norm_eq_sqrt_sq_add_sq, add_comm]
  have hc : ‖(⟨q, p⟩ : ℂ)‖ * cos (Complex.arg ⟨q, p⟩) = q := Complex.norm_mul_cos_arg _
  have hs : ‖(⟨q, p⟩ : ℂ)‖ * sin (Complex.arg ⟨q, p⟩) = p := Complex.norm_mul_sin_arg _
  simp only [kepert, h, atan2, hn, sin_sub, cos_sub]
  refine Prod.ext ?_ ?_
  · linear_combination cos lam * hs - sin lam * hc
  · linear_combination cos lam * hc + sin lam * hs

/-- C192: the speed the boundary layer moves with is that of the storm, within twice the radius of maximum winds of
a storm whose winds are five times as fast; otherwise it is less, as long as the storm moves at most 1.8 times as fast
as its winds, and it is not negative. -/
theorem C192_translation (Vm vFm rMax R : ℝ) (hr : 0 < rMax) (hv : 0 < vFm) (hm : vFm ≤ 1.8 * Vm) :
    (R ≤ 2 * rMax → 5 * vFm ≤ Vm → vt Vm vFm rMax R = vFm) ∧
    (vt Vm vFm rMax R = vFm → R ≤ 2 * rMax ∧ (5 * vFm ≤ Vm ∨ vFm = 1.8 * Vm)) ∧
    0 ≤ vt Vm vFm rMax R ∧ vt Vm vFm rMax R ≤ vFm := by
  have hV : 0 < Vm := by linarith
  have h5 : Vm / vFm < 5 ↔ Vm < 5 * vFm := by rw [div_lt_iff₀ hv]
  have hq : vFm / Vm ≤ 1.8 := by rw [div_le_iff₀ hV]; exact hm
  have hu : 0 ≤ umod Vm vFm ∧ umod Vm vFm ≤ vFm ∧ (umod Vm vFm = vFm → 5 * vFm ≤ Vm ∨ vFm = 1.8 * Vm) := by
    unfold umod
    split
    · next h =>
      have h2 : 0.2 < vFm / Vm := by rw [lt_div_iff₀ hV]; linarith [h5.1 h.2]
      have h3 : |1.25 * (1 - vFm / Vm)| ≤ 1 := by rw [abs_le]; constructor <;> linarith
      refine ⟨by positivity, by nlinarith, fun he => Or.inr ?_⟩
      have h4 : |1.25 * (1 - vFm / Vm)| = 1 := by
        apply mul_left_cancel₀ hv.ne'
        rw [he, mul_one]
      rcases (abs_eq zero_le_one).1 h4 with h6 | h6
      · exfalso; linarith
      · have : vFm / Vm = 1.8 := by linarith
        rw [div_eq_iff hV.ne'] at this
        exact this
    · next h =>
      exact ⟨hv.le, le_rfl, fun _ => Or.inl (by
        rw [not_and, h5, not_lt] at h
        exact h hv)⟩
  unfold vt
  split
  · next h =>
    have hd : 0 < R / (2 * rMax) - 1 := by
      rw [sub_pos, lt_div_iff₀ (by linarith)]; linarith
    have h1 : exp (-(R / (2 * rMax) - 1) ^ 2) < 1 := by
      rw [exp_lt_one_iff]; nlinarith
    have h0 := exp_pos (-(R / (2 * rMax) - 1) ^ 2)
    refine ⟨fun h' => absurd h (not_lt.2 h'), fun he => ?_, by nlinarith [hu.1], by nlinarith [hu.1, hu.2.1]⟩
    exfalso
    nlinarith [hu.1, hu.2.1]
  · next h =>
    refine ⟨fun _ h' => ?_, fun he => ⟨not_lt.1 h, hu.2.2 he⟩, hu.1, hu.2.1⟩
    unfold umod
    rw [if_neg]
    rw [not_and, h5]
    intro _
    linarith

/-- The hypotheses are met by a storm of the southern hemisphere: 100 km from the centre the wind is 40 m/s clockwise,
its vorticity and the Coriolis parameter are -4e-4 and -5e-5 per second. -/
example (lam : ℝ) : ∃ u v, Spec.Layer (-5e-5) 100000 (-40) (-4e-4) 5 u v ∧
    kepertPolar 50 (-40) (-4e-4) (-5e-5) 60000 100000 lam 5 1 =
      (u 0 (lam - 1) + 5 * cos (lam - 1), -40 + v 0 (lam - 1) - 5 * sin (lam - 1)) := by
  have h := C192_solution 50 (-40) (-4e-4) (-5e-5) 60000 100000 lam 5 1 (by norm_num) (by norm_num) (by norm_num)
    (by norm_num)
  rwa [(C192_translation 50 5 60000 100000 (by norm_num) (by norm_num) (by norm_num)).1 (by norm_num) (by norm_num)] at h

end Tcrm.Boundary
