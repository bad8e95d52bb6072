import Verif.Model.Angles
import Mathlib.Tactic.Linarith
import Mathlib.Tactic.Ring
import Mathlib.Tactic.FieldSimp
/-!
C44: bearings and mathematical angles.
-/
namespace Tcrm.Angles
open Real

theorem mod2pi_spec (x : ℝ) : 0 ≤ mod2pi x ∧ mod2pi x < 2 * π ∧ ∃ k : ℤ, mod2pi x = x + k * (2 * π) := by
  have hp : 0 < 2 * π := by positivity
  unfold mod2pi
  refine ⟨?_, ?_, -⌊x / (2 * π)⌋, by push_cast; ring⟩
  · have := Int.floor_le (x / (2 * π))
    rw [le_div_iff₀ hp] at this
    linarith
  · have := Int.lt_floor_add_one (x / (2 * π))
    rw [div_lt_iff₀ hp] at this
    linarith

/-- C44: the results are always in `[0, 2 pi)`. -/
theorem C44_range (x : ℝ) : 0 ≤ bearing2theta x ∧ bearing2theta x < 2 * π ∧ 0 ≤ theta2bearing x ∧
    theta2bearing x < 2 * π :=
  ⟨(mod2pi_spec _).1, (mod2pi_spec _).2.1, (mod2pi_spec _).1, (mod2pi_spec _).2.1⟩

theorem small_multiple {d : ℝ} {k : ℤ} (h : d = k * (2 * π)) (h1 : d < 2 * π) (h2 : -(2 * π) < d) : d = 0 := by
  have hp : 0 < 2 * π := by positivity
  have k1 : k < 1 := by
    have : (k : ℝ) < 1 := by by_contra hn; nlinarith
    exact_mod_cast this
  have k2 : -1 < k := by
    have : (-1 : ℝ) < k := by by_contra hn; nlinarith
    exact_mod_cast this
  have : k = 0 := by omega
  rw [h, this]; simp

/-- C44: there and back gives the same angle up to full turns, and exactly the same angle if it was in
`[0, 2 pi)`. -/
theorem C44_inverse (x : ℝ) :
    (∃ k : ℤ, theta2bearing (bearing2theta x) = x + k * (2 * π)) ∧
    (∃ k : ℤ, bearing2theta (theta2bearing x) = x + k * (2 * π)) ∧
    (0 ≤ x → x < 2 * π → theta2bearing (bearing2theta x) = x ∧ bearing2theta (theta2bearing x) = x) := by
  have a : ∃ k : ℤ, theta2bearing (bearing2theta x) = x + k * (2 * π) := by
    obtain ⟨-, -, k, hk⟩ := mod2pi_spec (π / 2 - x)
    obtain ⟨-, -, l, hl⟩ := mod2pi_spec (2 * π - (bearing2theta x - π / 2))
    refine ⟨1 - k + l, ?_⟩
    unfold theta2bearing
    rw [hl]
    unfold bearing2theta
    rw [hk]
    push_cast
    ring
  have b : ∃ k : ℤ, bearing2theta (theta2bearing x) = x + k * (2 * π) := by
    obtain ⟨-, -, k, hk⟩ := mod2pi_spec (2 * π - (x - π / 2))
    obtain ⟨-, -, l, hl⟩ := mod2pi_spec (π / 2 - theta2bearing x)
    refine ⟨l - k - 1, ?_⟩
    unfold bearing2theta
    rw [hl]
    unfold theta2bearing
    rw [hk]
    push_cast
    ring
  refine ⟨a, b, fun h0 h1 => ⟨?_, ?_⟩⟩
  · obtain ⟨k, hk⟩ := a
    have r := C44_range (bearing2theta x)
    have := small_multiple (d := theta2bearing (bearing2theta x) - x) (k := k) (by rw [hk]; ring) (by linarith) (by linarith)
    linarith
  · obtain ⟨k, hk⟩ := b
    have r := C44_range (theta2bearing x)
    have := small_multiple (d := bearing2theta (theta2bearing x) - x) (k := k) (by rw [hk]; ring) (by linarith) (by linarith)
    linarith

/-- C44: the compass and the mathematical angle describe the same direction: north is up, east is to the
right. -/
theorem C44_direction (b : ℝ) : cos (bearing2theta b) = sin b ∧ sin (bearing2theta b) = cos b ∧
    sin (theta2bearing b) = cos b ∧ cos (theta2bearing b) = sin b := by
  obtain ⟨-, -, k, hk⟩ := mod2pi_spec (π / 2 - b)
  obtain ⟨-, -, l, hl⟩ := mod2pi_spec (2 * π - (b - π / 2))
  unfold bearing2theta theta2bearing
  rw [hk, hl, cos_add_int_mul_two_pi, sin_add_int_mul_two_pi, cos_add_int_mul_two_pi, sin_add_int_mul_two_pi,
    cos_pi_div_two_sub, sin_pi_div_two_sub, sin_two_pi_sub, cos_two_pi_sub, sin_sub_pi_div_two, cos_sub_pi_div_two]
  simp

example : bearing2theta (π / 2) = 0 ∧ theta2bearing 0 = π / 2 := by
  have h : bearing2theta (π / 2) = 0 := by simp [bearing2theta, mod2pi]
  have := (C44_inverse (π / 2)).2.2 (by positivity) (by linarith [pi_pos])
  rw [h] at this
  exact ⟨h, this.1⟩

end Tcrm.Angles
