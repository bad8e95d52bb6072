import Verif.Model.Vmax
import Verif.Props.Units
/-!
C46: wind-pressure relations.
-/
namespace Tcrm.Vmax
open Tcrm.Units (convert)
open Real

theorem hPa_Pa (x : ℝ) : convert x "hPa" "Pa" = x * 100 := by
  rw [Units.convert_of (f := (100, 0)) (by decide) (by decide) (by decide +kernel)]
  rw [show Units.pre "hPa" "Pa" = 0 by decide, show Units.post "hPa" "Pa" = 0 by decide]
  norm_num

theorem Pa_hPa (x : ℝ) : convert x "Pa" "hPa" = x / 100 := by
  rw [Units.convert_of (f := (0.01, 0)) (by decide) (by decide) (by decide +kernel)]
  rw [show Units.pre "Pa" "hPa" = 0 by decide, show Units.post "Pa" "hPa" = 0 by decide]
  norm_num; ring

/-- The pressure in Pa of a number which is in Pa, or below 10000 and in hPa. -/
noncomputable def pascals (p : ℝ) : ℝ := if p < 10000 then 100 * p else p

theorem toPa_eq (p : ℝ) : toPa p = pascals p := by
  unfold toPa pascals; rw [hPa_Pa, mul_comm]

/-- C46: a central pressure above the environmental pressure is an error, whatever the relation and the
units. -/
theorem C46_error (pc pe : ℝ) (type : String) (beta rho : ℝ) :
    vmax pc pe type beta rho = .error .valueError ↔ pascals pe < pascals pc := by
  unfold vmax
  simp only [toPa_eq]
  constructor
  · intro h
    by_contra hn
    rw [if_neg hn] at h
    split_ifs at h <;> cases h
  · intro h
    rw [if_pos h]

/-- C46, partial: central pressure to maximum wind and back, for the relations of Willoughby and Rahn and of
Holland. For that of Atkinson and Holliday see `C46_atkinson`. -/
theorem C46_inverse_partial (pc pe : ℝ) (type : String) (beta rho : ℝ) (hb : 0 < beta) (hr : 0 < rho)
    (ht : type = "willoughby" ∨ type = "holland") (h : pascals pc ≤ pascals pe) :
    ∃ v, vmax pc pe type beta rho = .ok v ∧ 0 ≤ v ∧ pDiff v pe type beta rho = .ok (pascals pc) := by
  have d : 0 ≤ pascals pe - pascals pc := by linarith
  have e1 := exp_pos 1
  unfold vmax pDiff
  simp only [toPa_eq, if_neg (not_lt.2 h)]
  rcases ht with rfl | rfl
  · refine ⟨0.6252 * √(pascals pe - pascals pc), by simp, by positivity, ?_⟩
    simp only [if_true]
    rw [mul_div_cancel_left₀ _ (by norm_num), sq_sqrt d, sub_sub_cancel]
  · have n : ¬("holland" = "willoughby") := by decide
    refine ⟨√(beta * (pascals pe - pascals pc) / (exp 1 * rho)), by simp [n], by positivity, ?_⟩
    simp only [n, if_false, if_true]
    rw [sq_sqrt (by positivity)]
    congr 1
    field_simp
    ring

example : pascals 950 ≤ pascals 101000 ∧ pascals 950 = 95000 := by unfold pascals; norm_num

/-- C46: maximum wind to central pressure and back. -/
theorem C46_inverse' (v pe : ℝ) (type : String) (beta rho : ℝ) (hb : 0 < beta) (hr : 0 < rho) (hv : 0 ≤ v)
    (ht : type = "willoughby" ∨ type = "holland") :
    ∃ pc, pDiff v pe type beta rho = .ok pc ∧ (10000 ≤ pc → vmax pc pe type beta rho = .ok v) := by
  have e1 := exp_pos 1
  unfold vmax pDiff
  simp only [toPa_eq]
  rcases ht with rfl | rfl
  · refine ⟨pascals pe - (v / 0.6252) ^ 2, by simp, fun h => ?_⟩
    have : pascals (pascals pe - (v / 0.6252) ^ 2) = pascals pe - (v / 0.6252) ^ 2 := if_neg (not_lt.2 h)
    rw [this, if_neg (by nlinarith [sq_nonneg (v / 0.6252)])]
    simp only [if_true]
    rw [sub_sub_cancel, sqrt_sq (by positivity), mul_div_cancel₀ _ (by norm_num)]
  · have n : ¬("holland" = "willoughby") := by decide
    simp only [n, if_false, if_true]
    refine ⟨_, rfl, fun h => ?_⟩
    have : pascals (pascals pe - rho * exp 1 * v ^ 2 / beta) = pascals pe - rho * exp 1 * v ^ 2 / beta := if_neg (not_lt.2 h)
    have p : 0 ≤ rho * exp 1 * v ^ 2 / beta := by positivity
    rw [this, if_neg (by linarith)]
    rw [sub_sub_cancel]
    have : beta * (rho * exp 1 * v ^ 2 / beta) / (exp 1 * rho) = v ^ 2 := by field_simp
    rw [this, sqrt_sq hv]

/-- C46 fails for the relation of Atkinson and Holliday: maximum winds ignore the environmental pressure, the
inverse does not. Back and forth gives the same central pressure exactly if the environmental pressure is
1010 hPa. -/
theorem C46_atkinson_fails (pc pe : ℝ) (beta rho : ℝ) (h : pascals pc ≤ pascals pe) (h' : pascals pc ≤ 101000) :
    ∃ v, vmax pc pe "atkinson" beta rho = .ok v ∧ 0 ≤ v ∧
      pDiff v pe "atkinson" beta rho = .ok (pascals pc + (pascals pe - 101000)) := by
  have d : 0 ≤ 1010 - pascals pc / 100 := by linarith
  have n1 : ¬("atkinson" = "willoughby") := by decide
  have n2 : ¬("atkinson" = "holland") := by decide
  unfold vmax pDiff
  simp only [toPa_eq, if_neg (not_lt.2 h), n1, n2, if_false, if_true, Pa_hPa, if_neg (not_lt.2 d), hPa_Pa]
  refine ⟨_, rfl, by positivity, ?_⟩
  rw [mul_div_cancel_left₀ _ (by norm_num), ← rpow_mul d, show (0.644 * (1 / 0.644) : ℝ) = 1 by norm_num, rpow_one]
  congr 1
  ring

/-- C46 fails: above 1010 hPa, within an environmental pressure that is higher still, the relation of Atkinson and
Holliday gives no number. -/
theorem C46_atkinson_nan (pc pe : ℝ) (beta rho : ℝ) (h : pascals pc ≤ pascals pe) (h' : 101000 < pascals pc) :
    vmax pc pe "atkinson" beta rho = .error .nan := by
  have d : 1010 - pascals pc / 100 < 0 := by linarith
  have n1 : ¬("atkinson" = "willoughby") := by decide
  have n2 : ¬("atkinson" = "holland") := by decide
  unfold vmax
  simp only [toPa_eq, if_neg (not_lt.2 h), n1, n2, if_false, if_true, Pa_hPa, if_pos d]

/-- C46: a deeper storm never has a weaker maximum wind; strictly deeper is strictly stronger. -/
theorem C46_monotone (p1 p2 pe : ℝ) (type : String) (beta rho : ℝ) (hb : 0 < beta) (hr : 0 < rho) (v1 v2 : ℝ)
    (h : pascals p1 < pascals p2) (h1 : vmax p1 pe type beta rho = .ok v1) (h2 : vmax p2 pe type beta rho = .ok v2) :
    v2 < v1 := by
  have e1 := exp_pos 1
  unfold vmax at h1 h2
  simp only [toPa_eq, Pa_hPa] at h1 h2
  by_cases c1 : pascals pe < pascals p1
  · rw [if_pos c1] at h1; cases h1
  by_cases c2 : pascals pe < pascals p2
  · rw [if_pos c2] at h2; cases h2
  rw [if_neg c1] at h1
  rw [if_neg c2] at h2
  push Not at c1 c2
  split_ifs at h1 h2
  · cases h1; cases h2
    have : √(pascals pe - pascals p2) < √(pascals pe - pascals p1) := sqrt_lt_sqrt (by linarith) (by linarith)
    linarith
  · cases h1; cases h2
    apply sqrt_lt_sqrt
    · have : 0 ≤ pascals pe - pascals p2 := by linarith
      positivity
    · apply div_lt_div_of_pos_right _ (by positivity)
      exact mul_lt_mul_of_pos_left (by linarith) hb
  · cases h1; cases h2
    rename_i n2
    push Not at n2
    have := rpow_lt_rpow n2 (show 1010 - pascals p2 / 100 < 1010 - pascals p1 / 100 by linarith)
      (show (0 : ℝ) < 0.644 by norm_num)
    linarith

/-- C46: the result exists exactly for the three relations (and, for the third, pressures up to 1010 hPa). -/
theorem C46_exists (pc pe : ℝ) (type : String) (beta rho : ℝ) (h : pascals pc ≤ pascals pe) :
    (∃ v, vmax pc pe type beta rho = .ok v) ↔
      type = "willoughby" ∨ type = "holland" ∨ (type = "atkinson" ∧ pascals pc ≤ 101000) := by
  unfold vmax
  simp only [toPa_eq, if_neg (not_lt.2 h), Pa_hPa]
  by_cases h1 : type = "willoughby"
  · simp [h1]
  by_cases h2 : type = "holland"
  · simp [h2]
  by_cases h3 : type = "atkinson"
  · subst h3
    simp only [h1, h2, if_false, if_true, false_or, true_and]
    by_cases h4 : 1010 - pascals pc / 100 < 0
    · simp only [if_pos h4, reduceCtorEq, exists_false, false_iff]; intro; linarith
    · simp only [if_neg h4]
      refine ⟨fun _ => by linarith, fun _ => ⟨_, rfl⟩⟩
  · simp [h1, h2, h3]

end Tcrm.Vmax
