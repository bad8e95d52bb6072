import Verif.Model.TrackDates
import Verif.Spec.TrackDates
import Verif.Spec.Times64
import Verif.Lemmas.Arange64
import Verif.Props.Times64
/-!
New times and dates of interpolated tracks, in double precision.
-/
namespace Tcrm.TrackDates

open Tcrm.TrackInterp Tcrm.Binary64 Tcrm.Times64
open Tcrm.DataProc (npRound)
open Tcrm.Akima (Increasing)

theorem fl_fl (x : ℚ) : fl (fl x) = fl x := fl_exact (fl_double x)

theorem fl_pos {x : ℚ} (h : 0 < x) : 0 < fl x := by
  have := (abs_le.1 (fl_error x)).1
  rw [abs_of_pos h] at this
  have : x / 2 ^ 53 < x := div_lt_self h (by norm_num)
  linarith

theorem elem_zero {δ : ℚ} (hδ : Double δ) (i : ℕ) : Arange64.elem 0 δ i = fl (i * δ) := by
  unfold Arange64.elem
  split
  · rename_i h; subst h; simp [fl_zero]
  · split
    · rename_i h; subst h; simp
    · simp only [zero_add, sub_zero, fl_fl, fl_exact hδ]

theorem newTimes64_eq {T δ : ℚ} (hT : 0 ≤ T) (hT' : T ≤ 2 ^ 27) (hδ : 0 < δ) (hd : Double δ) : ∃ n : ℕ,
    newTimes64 T δ = .ok (((List.range n).map fun k : ℕ => fl (k * δ)) ++ [T]) ∧
    (n : ℚ) * δ < T + 1 / 100 + 1 / 10 ^ 6 ∧ T + 1 / 100 - 1 / 10 ^ 6 ≤ (n + 1 : ℚ) * δ := by
  have e0 := abs_le.1 (fl_error (1 / 100))
  rw [abs_of_pos (by norm_num)] at e0
  set h := fl (1 / 100) with hh
  have h0 : 0 < h := fl_pos (by norm_num)
  have e1 := abs_le.1 (fl_error (T + h))
  have p1 : 0 < T + h := by linarith
  rw [abs_of_pos p1] at e1
  have b0 : 0 < fl (T + h) := fl_pos p1
  set b := fl (T + h) with hb
  have e2 := abs_le.1 (fl_error (b / δ))
  have p2 : 0 < b / δ := div_pos b0 hδ
  rw [abs_of_pos p2] at e2
  have q0 : 0 < fl (b / δ) := fl_pos p2
  have hsize : Arange64.size 0 b δ = ⌈fl (b / δ)⌉.toNat := by
    rw [Arange64.size, sub_zero, hb, fl_fl]
  set q := fl (b / δ) with hq
  have hc : 0 < ⌈q⌉ := Int.ceil_pos.2 q0
  obtain ⟨n, hn⟩ : ∃ n : ℕ, ⌈q⌉ = n + 1 := ⟨(⌈q⌉ - 1).toNat, by omega⟩
  have c1 : q ≤ n + 1 := by
    have := Int.le_ceil q
    rw [hn] at this
    exact_mod_cast this
  have c2 : (n : ℚ) < q := by
    have := Int.ceil_lt_add_one q
    rw [hn] at this
    push_cast at this
    linarith
  have bb : b ≤ 2 ^ 27 + 1 := by
    norm_num at hT' e0 e1 ⊢
    linarith
  have m1 : |q * δ - b| ≤ b / 2 ^ 53 := by
    have : q * δ - b = (q - b / δ) * δ := by field_simp
    rw [this, abs_mul, abs_of_pos hδ]
    have h3 : |q - b / δ| ≤ b / δ / 2 ^ 53 := abs_le.2 e2
    calc |q - b / δ| * δ ≤ b / δ / 2 ^ 53 * δ := mul_le_mul_of_nonneg_right h3 hδ.le
      _ = b / 2 ^ 53 := by field_simp
  rw [abs_le] at m1
  have l1 : (n : ℚ) * δ < q * δ := mul_lt_mul_of_pos_right c2 hδ
  have l2 : q * δ ≤ (n + 1) * δ := mul_le_mul_of_nonneg_right c1 hδ.le
  refine ⟨n, ?_, ?_, ?_⟩
  · unfold newTimes64
    rw [if_neg hδ.ne']
    have hsz : Arange64.size 0 b δ = n + 1 := by rw [hsize, hn]; rfl
    have hl : Arange64.arange 0 b δ = ((List.range n).map fun k : ℕ => fl (k * δ)) ++ [fl (n * δ)] := by
      rw [Arange64.arange, hsz, List.range_succ, List.map_append]
      simp only [elem_zero hd, List.map_cons, List.map_nil, funext (elem_zero hd)]
    simp only [← hh, ← hb, hl]
    rw [if_neg (by simp), List.dropLast_concat]
  · norm_num at e0 e1 m1 bb hT' ⊢
    linarith
  · norm_num at e0 e1 m1 bb hT' ⊢
    linarith

theorem times_of {T δ : ℚ} {n : ℕ} (hT : 0 ≤ T) (hT' : T ≤ 2 ^ 27) (hTd : Double T) (hδ : 1 / 50 ≤ δ)
    (h1 : (n : ℚ) * δ < T + 1 / 100 + 1 / 10 ^ 6) :
    (∀ k : ℕ, k < n → |fl (k * δ) - k * δ| ≤ 1 / 10 ^ 7 ∧ 0 ≤ fl (k * δ) ∧ fl (k * δ) < T) := by
  intro k hk
  have hδ0 : 0 < δ := by linarith
  have hk' : ((k + 1 : ℕ) : ℚ) ≤ n := by exact_mod_cast hk
  have h2 := mul_le_mul_of_nonneg_right hk' hδ0.le
  push_cast at h2
  have hk0 : (0 : ℚ) ≤ k * δ := by positivity
  have e := fl_error (k * δ)
  rw [abs_of_nonneg hk0] at e
  have h3 : |fl (k * δ) - k * δ| ≤ 1 / 10 ^ 7 := by
    refine e.trans ?_
    norm_num at h1 h2 hT' ⊢
    linarith
  refine ⟨h3, fl_nonneg hk0, ?_⟩
  rw [abs_le] at h3
  norm_num at h1 h3 ⊢
  linarith

end Tcrm.TrackDates
