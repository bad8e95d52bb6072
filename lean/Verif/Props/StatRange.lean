import Verif.Model.StatRange
import Verif.Spec.StatRange
import Verif.Props.Arange64
import Mathlib.Tactic.Linarith
/-!
C208: bounds that make cells evenly spaced.
-/
namespace Tcrm.StatRange
open Tcrm.Binary64 Tcrm.Cells Tcrm.Arange64

theorem fl_fine {k : ℕ} {x : ℚ} (h : Fine k x) : fl x = x := by
  obtain ⟨n, hn, rfl⟩ := h
  exact fl_dyadic n k (hn.trans (by norm_num))

/-- The last of the points before the end -/
theorem last_step {a b s : ℚ} {l : List ℚ} (h : Steps a b s l) (h0 : (0 < s ∧ a < b) ∨ (s < 0 ∧ b < a)) :
    ∃ n : ℕ, l.getLast? = some (a + n * s) ∧ n + 1 = l.length := by
  obtain ⟨h1, h2⟩ := h
  have hpos : 0 < l.length := (h2 0).2 (by simpa using h0)
  refine ⟨l.length - 1, ?_, by omega⟩
  rw [List.getLast?_eq_getElem?, List.getElem?_eq_getElem (by omega), h1]

/-- The upper bound of evenly spaced cells, for bounds and steps with few binary digits: the first of the points from the lower bound
that reaches the upper one. -/
theorem C208_max_partial (k : ℕ) (a b s : ℚ) (ha : Fine k a) (hb : Fine k (b + s)) (hs : Fine k s) (hab : a ≤ b) (h0 : 0 < s) :
    ∃ r, statMaxRange a b s = .ok r ∧ Spec.FirstFrom a b s r := by
  have st := C187_exact_partial k a (b + s) s ha hb hs h0.ne'
  obtain ⟨n, hl, hn⟩ := last_step st (Or.inl ⟨h0, by linarith⟩)
  have in1 := (st.2 n).1 (by omega)
  have out1 := mt (st.2 (n + 1)).2 (by omega)
  have e1 : a + n * s < b + s := by
    rcases in1 with h | h
    · exact h.2
    · exact absurd h.1 (by linarith)
  have e2 : b ≤ a + n * s := by
    by_contra hc
    push Not at hc
    exact out1 (Or.inl ⟨h0, by push_cast; linarith⟩)
  refine ⟨a + n * s, ?_, ⟨n, rfl⟩, e2, fun m hm => ?_⟩
  · unfold statMaxRange bound
    rw [fl_fine hb, if_neg (not_lt.2 hab), if_neg (not_le.2 h0), hl]
  · by_contra hc
    push Not at hc
    have hmn : m < n := by
      by_contra h
      push Not at h
      have : (n : ℚ) ≤ m := by exact_mod_cast h
      nlinarith
    have : (m : ℚ) + 1 ≤ n := by exact_mod_cast hmn
    nlinarith

/-- The lower bound of evenly spaced cells, likewise -/
theorem C208_min_partial (k : ℕ) (a b s : ℚ) (ha : Fine k (a - s)) (hb : Fine k b) (hs : Fine k s) (hab : a ≤ b) (h0 : 0 < s) :
    ∃ r, statMinRange a b s = .ok r ∧ Spec.FirstBelow a b s r := by
  have st := C187_exact_partial k b (a - s) (-s) hb ha (fine_neg hs) (by linarith)
  obtain ⟨n, hl, hn⟩ := last_step st (Or.inr ⟨by linarith, by linarith⟩)
  have in1 := (st.2 n).1 (by omega)
  have out1 := mt (st.2 (n + 1)).2 (by omega)
  have e1 : a - s < b + n * -s := by
    rcases in1 with h | h
    · exact absurd h.1 (by linarith)
    · exact h.2
  have e2 : b + n * -s ≤ a := by
    by_contra hc
    push Not at hc
    exact out1 (Or.inr ⟨by linarith, by push_cast; linarith⟩)
  refine ⟨b + n * -s, ?_, ⟨n, by ring⟩, e2, fun m hm => ?_⟩
  · unfold statMinRange bound
    rw [fl_fine ha, if_neg (not_lt.2 hab), if_neg (not_le.2 h0), hl]
  · by_contra hc
    push Not at hc
    have hmn : m < n := by
      by_contra h
      push Not at h
      have : (n : ℚ) ≤ m := by exact_mod_cast h
      nlinarith
    have : (m : ℚ) + 1 ≤ n := by exact_mod_cast hmn
    nlinarith

/-- Bounds in the wrong order, or a step that is not positive, are rejected, for all doubles. -/
theorem C208_rejects (a b s : ℚ) (h : b < a ∨ s ≤ 0) :
    statMaxRange a b s = .error .valueError ∧ statMinRange a b s = .error .valueError := by
  unfold statMaxRange statMinRange bound
  by_cases hb : b < a
  · simp [hb]
  · simp [hb, h.resolve_left hb]

/-- Only such arguments are rejected with a `ValueError`. -/
theorem C208_accepts (a b s : ℚ) (h : a ≤ b ∧ 0 < s) :
    statMaxRange a b s ≠ .error .valueError ∧ statMinRange a b s ≠ .error .valueError := by
  unfold statMaxRange statMinRange bound
  rw [if_neg (not_lt.2 h.1), if_neg (not_le.2 h.2), if_neg (not_lt.2 h.1), if_neg (not_le.2 h.2)]
  constructor <;> split <;> simp

/-- In tenths of a degree the bound can be a whole step too far: from 1 to 1.2 by 0.1 the upper bound is the third point (about 1.3),
although the second one reaches 1.2 already. -/
theorem C208_tenths_fail : statMaxRange 1 (fl 1.2) (fl 0.1) = .ok (elem 1 (fl 0.1) 3) ∧ 1.29 < elem 1 (fl 0.1) 3 ∧
    fl 1.2 ≤ elem 1 (fl 0.1) 2 ∧ elem 1 (fl 0.1) 2 < 1.21 := by
  decide +kernel

/-- A step that is lost when it is added to the bound: no point is left, and the call ends with an `IndexError`. -/
theorem C208_small_step_fails (a s : ℚ) (hs : 0 < s) (hr : fl (a + s) = a) : statMaxRange a a s = .error .indexError := by
  unfold statMaxRange bound
  rw [hr, if_neg (lt_irrefl a), if_neg (not_le.2 hs)]
  have : Arange64.arange a a s = [] := by
    unfold Arange64.arange Arange64.size
    simp [fl_zero]
  rw [this]; rfl

/-! ### Examples -/

-- Cells of half a degree from 100 to 101.75, and of five degrees from 0 to -21
example : Fine 2 100 ∧ Fine 2 (101.75 + 0.5) ∧ Fine 2 0.5 ∧ statMaxRange 100 101.75 0.5 = .ok 102 := by
  refine ⟨⟨400, by decide, by norm_num⟩, ⟨409, by decide, by norm_num⟩, ⟨2, by decide, by norm_num⟩, by decide +kernel⟩

example : Fine 0 (-21 - 5) ∧ Fine 0 0 ∧ Fine 0 5 ∧ statMinRange (-21) 0 5 = .ok (-25) ∧ statMinRange (-20) 0 5 = .ok (-20) := by
  refine ⟨⟨-26, by decide, by norm_num⟩, ⟨0, by decide, by norm_num⟩, ⟨5, by decide, by norm_num⟩, by decide +kernel, by decide +kernel⟩

-- The hypotheses of `C208_small_step_fails`
example : fl (1 + 1 / 2 ^ 60) = 1 := by decide +kernel

end Tcrm.StatRange
