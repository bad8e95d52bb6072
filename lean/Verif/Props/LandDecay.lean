import Verif.Model.LandDecay
import Mathlib.Tactic.Linarith
import Mathlib.Tactic.Positivity
import Mathlib.Tactic.NormNum
import Mathlib.Tactic.Ring
/-!
C216: cyclones fill over land.
-/
namespace Tcrm.LandDecay

theorem deficit_eq (tol eps p e : ℝ) : e - pChange tol eps p e = (e - p) * Real.exp (-rate (e - p) eps * tol) := by
  simp [pChange]

/-- C216: over the sea the pressure does not change. -/
theorem C216_sea (eps pCentre pEnv : ℝ) : pChange 0 eps pCentre pEnv = pCentre := by simp [pChange]

/-- C216: whatever the random term and the time, the pressure of a cyclone stays below that of its environment. -/
theorem C216_below (tol eps pCentre pEnv : ℝ) : pChange tol eps pCentre pEnv < pEnv ↔ pCentre < pEnv := by
  have h := deficit_eq tol eps pCentre pEnv
  have hp := Real.exp_pos (-rate (pEnv - pCentre) eps * tol)
  constructor
  · intro h1
    have : 0 < (pEnv - pCentre) * Real.exp (-rate (pEnv - pCentre) eps * tol) := by rw [← h]; linarith
    have := (pos_iff_pos_of_mul_pos this).2 hp
    linarith
  · intro h1
    have : 0 < (pEnv - pCentre) * Real.exp (-rate (pEnv - pCentre) eps * tol) := mul_pos (by linarith) hp
    rw [← h] at this
    linarith

/-- C216: over land a cyclone fills just if the random term is above the negative of the mean rate. -/
theorem C216_fills (tol eps pCentre pEnv : ℝ) (ht : 0 < tol) (hp : pCentre < pEnv) :
    pCentre < pChange tol eps pCentre pEnv ↔ -(0.008 + 0.0008 * (pEnv - pCentre)) < eps := by
  have hd : 0 < pEnv - pCentre := by linarith
  have h := deficit_eq tol eps pCentre pEnv
  have e1 : pCentre < pChange tol eps pCentre pEnv ↔ Real.exp (-rate (pEnv - pCentre) eps * tol) < 1 := by
    constructor
    · intro h1
      have : (pEnv - pCentre) * Real.exp (-rate (pEnv - pCentre) eps * tol) < (pEnv - pCentre) * 1 := by
        rw [← h]; linarith
      exact lt_of_mul_lt_mul_left this hd.le
    · intro h1
      have := mul_lt_mul_of_pos_left h1 hd
      rw [← h] at this
      linarith
  rw [e1, Real.exp_lt_one_iff, rate]
  constructor
  · intro h1
    by_contra hc
    push Not at hc
    have : 0 ≤ -(0.008 + 0.0008 * (pEnv - pCentre) + eps) * tol := mul_nonneg (by linarith) ht.le
    linarith
  · intro h1
    exact mul_neg_of_neg_of_pos (by linarith) ht

/-- C216 (the failure): for a random term below that (eight of its standard deviations for the smallest deficit) the
cyclone becomes more intense over land. -/
theorem C216_deepens_fails (tol eps pCentre pEnv : ℝ) (ht : 0 < tol) (hp : pCentre < pEnv)
    (he : eps < -(0.008 + 0.0008 * (pEnv - pCentre))) : pChange tol eps pCentre pEnv < pCentre := by
  have hd : 0 < pEnv - pCentre := by linarith
  have h := deficit_eq tol eps pCentre pEnv
  have h1 : 1 < Real.exp (-rate (pEnv - pCentre) eps * tol) := by
    rw [Real.one_lt_exp_iff, rate]
    exact mul_pos (by linarith) ht
  have := mul_lt_mul_of_pos_left h1 hd
  rw [← h] at this
  linarith

/-- C216: the longer over land the more a cyclone fills. -/
theorem C216_longer (tol tol' eps pCentre pEnv : ℝ) (ht : tol < tol') (hp : pCentre < pEnv)
    (he : -(0.008 + 0.0008 * (pEnv - pCentre)) < eps) :
    pChange tol eps pCentre pEnv < pChange tol' eps pCentre pEnv := by
  have hd : 0 < pEnv - pCentre := by linarith
  have h := deficit_eq tol eps pCentre pEnv
  have h' := deficit_eq tol' eps pCentre pEnv
  have hr : 0 < rate (pEnv - pCentre) eps := by rw [rate]; linarith
  have h1 : Real.exp (-rate (pEnv - pCentre) eps * tol') < Real.exp (-rate (pEnv - pCentre) eps * tol) := by
    apply Real.exp_lt_exp.2
    have := mul_lt_mul_of_pos_left ht hr
    linarith
  have := mul_lt_mul_of_pos_left h1 hd
  rw [← h, ← h'] at this
  linarith

/-- C216: more intense cyclones fill faster: the greater deficit loses the greater part. -/
theorem C216_intense (tol eps p q pEnv : ℝ) (ht : 0 < tol) (hpq : p < q) (hq : q < pEnv) :
    (pEnv - pChange tol eps p pEnv) / (pEnv - p) < (pEnv - pChange tol eps q pEnv) / (pEnv - q) := by
  rw [deficit_eq, deficit_eq, mul_div_cancel_left₀ _ (by linarith), mul_div_cancel_left₀ _ (by linarith)]
  apply Real.exp_lt_exp.2
  simp only [rate]
  have : 0 < (0.0008 * (q - p)) * tol := mul_pos (by linarith) ht
  linarith

/-- C216: in every sequence of steps the pressure stays below that of the environment, and if the random terms are not below
-0.008 it never falls. -/
theorem C216_run (dt pEnv : ℝ) (hdt : 0 ≤ dt) : ∀ (xs : List (Bool × ℝ)) (tol p : ℝ), 0 ≤ tol → p < pEnv →
    (run dt pEnv (tol, p) xs).2 < pEnv ∧ ((∀ x ∈ xs, -0.008 ≤ x.2) → p ≤ (run dt pEnv (tol, p) xs).2)
  | [], tol, p, _, hp => ⟨hp, fun _ => le_refl _⟩
  | x :: xs, tol, p, ht, hp => by
    set t' := if x.1 then tol + dt else 0 with ht'
    have h0 : 0 ≤ t' := by rw [ht']; split <;> linarith
    have hb := (C216_below t' x.2 p pEnv).2 hp
    obtain ⟨h1, h2⟩ := C216_run dt pEnv hdt xs t' _ h0 hb
    have e : run dt pEnv (tol, p) (x :: xs) = run dt pEnv (t', pChange t' x.2 p pEnv) xs := rfl
    rw [e]
    refine ⟨h1, fun hx => ?_⟩
    have h3 := h2 fun y hy => hx y (by simp [hy])
    have hxe := hx x (by simp)
    refine le_trans ?_ h3
    rcases h0.eq_or_lt with h | h
    · rw [← h, C216_sea]
    · exact ((C216_fills t' x.2 p pEnv h hp).2 (by linarith)).le

/-- C216: filling step by step is not filling once: after two steps over land the deficit has lost the time of
the first step twice. -/
theorem C216_twice (dt p pEnv : ℝ) (hdt : 0 < dt) (hp : p < pEnv) :
    ∃ q, run dt pEnv (0, p) [(true, 0), (true, 0)] = (2 * dt, q) ∧
      pEnv - q = (pEnv - p) * Real.exp (-rate (pEnv - p) 0 * dt) *
        Real.exp (-rate ((pEnv - p) * Real.exp (-rate (pEnv - p) 0 * dt)) 0 * (2 * dt)) ∧
      pChange dt 0 p pEnv < q := by
  have e : run dt pEnv (0, p) [(true, 0), (true, 0)] =
      (2 * dt, pChange (2 * dt) 0 (pChange dt 0 p pEnv) pEnv) := by
    simp only [run, List.foldl_cons, List.foldl_nil, step, if_true, zero_add]
    rw [show dt + dt = 2 * dt by ring]
  have hb := (C216_below dt 0 p pEnv).2 hp
  refine ⟨_, e, ?_, (C216_fills _ _ _ _ (by linarith) hb).2 (by linarith)⟩
  rw [deficit_eq, deficit_eq]

-- a cyclone of 950 hPa in an environment of 1010 hPa, six hours over land
example : (950 : ℝ) < pChange 6 0 950 1010 ∧ pChange 6 0 950 1010 < 1010 :=
  ⟨(C216_fills _ _ _ _ (by norm_num) (by norm_num)).2 (by norm_num), (C216_below _ _ _ _).2 (by norm_num)⟩

example : pChange 6 (-0.1) 950 1010 < 950 := C216_deepens_fails _ _ _ _ (by norm_num) (by norm_num) (by norm_num)

end Tcrm.LandDecay
