import Mathlib.Analysis.Calculus.MeanValue
import Mathlib.Analysis.SpecialFunctions.Trigonometric.Deriv
import Mathlib.Analysis.SpecialFunctions.Trigonometric.Bounds
import Verif.Model.WindCurl
import Verif.Spec.WindCurl
/-!
C193: the vorticity of a sampled wind field.
-/
namespace Tcrm.Vorticity
open Spec

theorem masked_of {m v : ℝ} (h : ¬ Missing m v) : masked m v = some v := if_neg h

theorem masked_missing {m v : ℝ} (h : Missing m v) : masked m v = none := if_pos h

theorem missing_self (m : ℝ) : Missing m m := by
  unfold Missing
  have := abs_nonneg m
  rw [sub_self, abs_zero]
  positivity

theorem not_missing_of_small {v : ℝ} (h : |v| < 9e19) : ¬ Missing 1e20 v := by
  unfold Missing
  rw [abs_lt] at h
  rw [abs_of_neg (by linarith), abs_of_pos (by norm_num)]
  push Not
  linarith

theorem endpadded_before {α : Type} {n i : ℕ} (a : ℕ → α) (h : i < n) : endpadded n a i = a (before i) := by
  unfold endpadded before
  split
  · next h0 => rw [h0]
  · rw [if_pos (by omega)]

theorem endpadded_after {α : Type} {n i : ℕ} (a : ℕ → α) (h : i < n) : endpadded n a (i + 2) = a (after n i) := by
  unfold endpadded after
  rw [if_neg (by omega)]
  by_cases h1 : i + 1 < n
  · rw [if_pos (by omega), if_pos h1]
    congr 1
  · rw [if_neg (by omega), if_neg h1]
    congr 1
    omega

/-- C193: the derivative at a sample is the slope between the samples before and after it. -/
theorem C193_slope {m : ℝ} {n i : ℕ} (hi : i < n) (x y : ℕ → ℝ) (hy : ∀ k < n, ¬ Missing m (y k))
    (hx : ∀ k < n, ¬ Missing m (x k)) (hne : x (before i) ≠ x (after n i)) :
    deriv m n x y i = (y (after n i) - y (before i)) / (x (after n i) - x (before i)) := by
  have hb : before i < n := by unfold before; omega
  have ha : after n i < n := by unfold after; split <;> omega
  unfold deriv
  simp only [endpadded_before _ hi, endpadded_after _ hi]
  rw [masked_of (hy _ hb), masked_of (hy _ ha), masked_of (hx _ hb), masked_of (hx _ ha)]
  simp only [sub, divide]
  rw [if_neg (fun h => hne (by linarith))]
  rfl

/-- C193: a derivative is missing if a sample it is made of is missing or if it is made of one sample only; it does not
matter whether the sample at the place itself is missing. -/
theorem C193_missing {m : ℝ} {n i : ℕ} (hi : i < n) (x y : ℕ → ℝ) (hx : ∀ k < n, ¬ Missing m (x k)) :
    ((Missing m (y (before i)) ∨ Missing m (y (after n i)) ∨ x (before i) = x (after n i)) → deriv m n x y i = m) ∧
    (¬ (Missing m (y (before i)) ∨ Missing m (y (after n i)) ∨ x (before i) = x (after n i)) →
      deriv m n x y i = (y (after n i) - y (before i)) / (x (after n i) - x (before i))) := by
  have hb : before i < n := by unfold before; omega
  have ha : after n i < n := by unfold after; split <;> omega
  unfold deriv
  simp only [endpadded_before _ hi, endpadded_after _ hi]
  rw [masked_of (hx _ hb), masked_of (hx _ ha)]
  constructor
  · intro h
    by_cases h1 : Missing m (y (before i))
    · rw [masked_missing h1]
      cases masked m (y (after n i)) <;> rfl
    by_cases h2 : Missing m (y (after n i))
    · rw [masked_missing h2]
      rfl
    have h3 : x (before i) = x (after n i) := by tauto
    rw [masked_of h1, masked_of h2]
    simp only [sub, divide]
    rw [if_pos (by linarith)]
    rfl
  · intro h
    push Not at h
    obtain ⟨h1, h2, h3⟩ := h
    rw [masked_of h1, masked_of h2]
    simp only [sub, divide]
    rw [if_neg (fun e => h3 (by linarith))]
    rfl

example : deriv 1e20 5 (fun k => k) (fun k => if k = 2 then 1e20 else k ^ 2) 1 = 1e20 ∧
    deriv 1e20 5 (fun k => k) (fun k => if k = 2 then 1e20 else k ^ 2) 2 = 4 := by
  have hx : ∀ k < 5, ¬ Missing 1e20 ((k : ℕ) : ℝ) := by
    intro k hk
    apply not_missing_of_small
    rw [abs_of_nonneg (by positivity)]
    have : (k : ℝ) < 5 := by exact_mod_cast hk
    linarith
  constructor
  · apply (C193_missing (by norm_num) _ _ hx).1
    right; left
    simp only [after]
    norm_num
    have := missing_self 1e20
    norm_num at this
    exact this
  · rw [(C193_missing (by norm_num) _ _ hx).2]
    · simp only [after, before]
      norm_num
    · simp only [after, before]
      norm_num
      constructor
      · have := @not_missing_of_small 1 (by norm_num)
        norm_num at this
        exact this
      · have := @not_missing_of_small 9 (by norm_num)
        norm_num at this
        exact this

theorem slope_mean {f f' : ℝ → ℝ} (hf : ∀ t, HasDerivAt f (f' t) t) {a b : ℝ} (h : a ≠ b) :
    ∃ c, Between a b c ∧ (f b - f a) / (b - a) = f' c := by
  have hc : Continuous f := continuous_iff_continuousAt.2 fun t => (hf t).continuousAt
  rcases lt_or_gt_of_ne h with h | h
  · obtain ⟨c, hc1, hc2⟩ := exists_hasDerivAt_eq_slope f f' h hc.continuousOn (fun t _ => hf t)
    exact ⟨c, Or.inl ⟨hc1.1, hc1.2⟩, hc2.symm⟩
  · obtain ⟨c, hc1, hc2⟩ := exists_hasDerivAt_eq_slope f f' h hc.continuousOn (fun t _ => hf t)
    refine ⟨c, Or.inr ⟨hc1.1, hc1.2⟩, ?_⟩
    rw [hc2, ← neg_div_neg_eq]
    congr 1 <;> ring

/-- C193: the derivative of samples of a differentiable function is its derivative at a point strictly between the
samples before and after. -/
theorem C193_mean_value {m : ℝ} {n i : ℕ} (hi : i < n) (x : ℕ → ℝ) (f f' : ℝ → ℝ) (hf : ∀ t, HasDerivAt f (f' t) t)
    (hy : ∀ k < n, ¬ Missing m (f (x k))) (hx : ∀ k < n, ¬ Missing m (x k)) (hne : x (before i) ≠ x (after n i)) :
    ∃ c, Between (x (before i)) (x (after n i)) c ∧ deriv m n x (fun k => f (x k)) i = f' c := by
  rw [C193_slope hi x _ hy hx hne]
  exact slope_mean hf hne

/-- C193: at a sample in the middle of its neighbours the derivative of a quadratic function is exact. -/
theorem C193_quadratic {m : ℝ} {n i : ℕ} (h0 : 0 < i) (hi : i + 1 < n) (x : ℕ → ℝ) (a b c : ℝ)
    (hy : ∀ k < n, ¬ Missing m (a * x k ^ 2 + b * x k + c)) (hx : ∀ k < n, ¬ Missing m (x k))
    (hne : x (i - 1) ≠ x (i + 1)) (hmid : x (i + 1) - x i = x i - x (i - 1)) :
    deriv m n x (fun k => a * x k ^ 2 + b * x k + c) i = 2 * a * x i + b := by
  have e1 : before i = i - 1 := rfl
  have e2 : after n i = i + 1 := if_pos hi
  rw [C193_slope (by omega) x _ hy hx (by rw [e1, e2]; exact hne), e1, e2, div_eq_iff (by intro h; exact hne (by linarith))]
  have e : x i = (x (i + 1) + x (i - 1)) / 2 := by linarith
  rw [e]
  ring

/-- C193: off the middle, and at the ends, the error of the derivative of a quadratic function is that of the middle of
the neighbours. -/
theorem C193_quadratic_error {m : ℝ} {n i : ℕ} (hi : i < n) (x : ℕ → ℝ) (a b c : ℝ)
    (hy : ∀ k < n, ¬ Missing m (a * x k ^ 2 + b * x k + c)) (hx : ∀ k < n, ¬ Missing m (x k))
    (hne : x (before i) ≠ x (after n i)) :
    deriv m n x (fun k => a * x k ^ 2 + b * x k + c) i =
      2 * a * x i + b + 2 * a * ((x (before i) + x (after n i)) / 2 - x i) := by
  rw [C193_slope hi x _ hy hx hne, div_eq_iff (by intro h; exact hne (by linarith))]
  ring

/-- C193: the curl on a plane of a wind that is linear in the coordinates is exact everywhere, on any grid. -/
theorem C193_shear {m : ℝ} {nx ny ix iy : ℕ} (hix : ix < nx) (hiy : iy < ny) (x y : ℕ → ℝ) (a b c a' b' c' : ℝ)
    (hu : ∀ j < ny, ∀ i < nx, ¬ Missing m (a + b * x i + c * y j))
    (hv : ∀ j < ny, ∀ i < nx, ¬ Missing m (a' + b' * x i + c' * y j))
    (hx : ∀ k < nx, ¬ Missing m (x k)) (hy : ∀ k < ny, ¬ Missing m (y k))
    (hnx : x (before ix) ≠ x (after nx ix)) (hny : y (before iy) ≠ y (after ny iy))
    (hb : ¬ Missing m b') (hc : ¬ Missing m c) :
    cartesianCurl m nx ny x y (fun j i => a + b * x i + c * y j) (fun j i => a' + b' * x i + c' * y j) iy ix =
      b' - c := by
  unfold cartesianCurl
  have e1 : deriv m nx x (fun i => a' + b' * x i + c' * y iy) ix = b' := by
    rw [C193_slope hix x _ (fun k hk => hv iy hiy k hk) hx hnx, div_eq_iff (by intro h; exact hnx (by linarith))]
    ring
  have e2 : deriv m ny y (fun j => a + b * x ix + c * y j) iy = c := by
    rw [C193_slope hiy y _ (fun k hk => hu k hk ix hix) hy hny, div_eq_iff (by intro h; exact hny (by linarith))]
    ring
  simp only [e1, e2]
  rw [masked_of hb, masked_of hc]
  rfl

theorem rad_small {d : ℝ} (h : |d| ≤ 1000) : |rad d| < 9e19 := by
  unfold rad
  rw [abs_div, abs_mul, abs_of_pos Real.pi_pos, abs_of_pos (by norm_num : (0 : ℝ) < 180), div_lt_iff₀ (by norm_num)]
  have h1 := Real.pi_lt_four
  have h2 := Real.pi_pos
  nlinarith [abs_nonneg d]

theorem rad_ne {a b : ℝ} (h : a ≠ b) : rad a ≠ rad b := by
  unfold rad
  intro e
  apply h
  have hp := Real.pi_ne_zero
  field_simp at e
  linarith

theorem cos_rad_pos {d : ℝ} (h1 : -88 ≤ d) (h2 : d ≤ 88) : 0 < Real.cos (rad d) := by
  have := Real.pi_pos
  apply Real.cos_pos_of_mem_Ioo
  unfold rad
  constructor <;> nlinarith

/-- The curl on the sphere in terms of the two derivatives. -/
theorem curl_of {R : ℝ} {nx ny ix iy : ℕ} (x y : ℕ → ℝ) (Fx Fy : ℕ → ℕ → ℝ) (hR : R ≠ 0)
    (h1 : -88 ≤ y iy) (h2 : y iy ≤ 88) (hu : ∀ k, |Fx k ix| < 9e19) (dv du : ℝ)
    (e1 : deriv 1e20 nx (fun k => rad (x k)) (Fy iy) ix = dv)
    (e2 : deriv 1e20 ny (fun k => rad (y k)) (fun k => Fx k ix * Real.cos (rad (y k))) iy = du)
    (hdv : |dv| < 9e19) (hdu : |du| < 9e19) :
    sphericalCurl 1e20 R nx ny x y Fx Fy iy ix = (dv - du) / (R * Real.cos (rad (y iy))) := by
  unfold sphericalCurl
  have e3 : (fun k => filled 1e20 (mul (masked 1e20 (Fx k ix)) (Real.cos (y k * Real.pi / 180)))) =
      fun k => Fx k ix * Real.cos (rad (y k)) := by
    funext k
    rw [masked_of (not_missing_of_small (hu k))]
    rfl
  simp only [e3]
  unfold rad at e1 e2
  unfold rad
  rw [e1, e2, masked_of (not_missing_of_small hdv), masked_of (not_missing_of_small hdu), if_neg (by push Not; exact ⟨h2, h1⟩)]
  simp only [sub, divide]
  have := (cos_rad_pos h1 h2).ne'
  unfold rad at this
  rw [if_neg (mul_ne_zero hR this)]
  rfl

/-- C193: on a grid of distinct longitudes and latitudes, up to 88 degrees from the equator, the relative vorticity of a
differentiable wind field is the vorticity of the field near the place: its derivatives are taken between the longitudes
on both sides, on the same parallel, and between the latitudes on both sides, on the same meridian. -/
theorem C193_vorticity {nx ny ix iy : ℕ} (hix : ix < nx) (hiy : iy < ny) (x y : ℕ → ℝ) (u v du dv : ℝ → ℝ → ℝ)
    (hdv : ∀ s t, HasDerivAt (fun t => v t s) (dv t s) t)
    (hdu : ∀ t s, HasDerivAt (fun s => u t s * Real.cos s) (du t s) s)
    (hu : ∀ t s, |u t s| < 9e19) (hv : ∀ t s, |v t s| < 9e19) (bu : ∀ t s, |du t s| < 9e19)
    (bv : ∀ t s, |dv t s| < 9e19) (hx : ∀ k, |x k| ≤ 1000) (hy : ∀ k, |y k| ≤ 1000)
    (hnx : x (before ix) ≠ x (after nx ix)) (hny : y (before iy) ≠ y (after ny iy))
    (h1 : -88 ≤ y iy) (h2 : y iy ≤ 88) :
    ∃ a b, Between (rad (x (before ix))) (rad (x (after nx ix))) a ∧
      Between (rad (y (before iy))) (rad (y (after ny iy))) b ∧
      VorticityNear 6378137 u v (rad (x ix)) (rad (y iy)) a b
        (relative nx ny (fun j i => u (rad (x i)) (rad (y j))) (fun j i => v (rad (x i)) (rad (y j))) x y iy ix) := by
  have hc : ∀ t s, |u t s * Real.cos s| < 9e19 := by
    intro t s
    rw [abs_mul]
    have := Real.abs_cos_le_one s
    have := hu t s
    have := abs_nonneg (u t s)
    nlinarith
  obtain ⟨a, ha, ea⟩ := C193_mean_value (m := 1e20) hix (fun k => rad (x k)) (fun t => v t (rad (y iy)))
    (fun t => dv t (rad (y iy))) (hdv _) (fun k _ => not_missing_of_small (hv _ _))
    (fun k _ => not_missing_of_small (rad_small (hx k))) (rad_ne hnx)
  obtain ⟨b, hb, eb⟩ := C193_mean_value (m := 1e20) hiy (fun k => rad (y k))
    (fun s => u (rad (x ix)) s * Real.cos s) (fun s => du (rad (x ix)) s) (hdu _)
    (fun k _ => not_missing_of_small (hc _ _)) (fun k _ => not_missing_of_small (rad_small (hy k))) (rad_ne hny)
  refine ⟨a, b, ha, hb, _, _, hdv _ a, hdu _ b, ?_⟩
  exact curl_of x y _ _ (by norm_num) h1 h2 (fun k => hu _ _) _ _ ea eb (bv _ _) (bu _ _)

/-- The hypotheses can be met: a wind field on a grid of one degree, also at its corner. -/
example : ∃ a b, Between (rad 140) (rad 141) a ∧ Between (rad (-30)) (rad (-29)) b ∧
    VorticityNear 6378137 (fun _ _ => 10) (fun t _ => 5 * Real.sin t) (rad 140) (rad (-30)) a b
      (relative 21 21 (fun _ _ => 10) (fun _ i => 5 * Real.sin (rad (min (i : ℝ) 20 + 140)))
        (fun i => min (i : ℝ) 20 + 140) (fun j => min (j : ℝ) 20 - 30) 0 0) := by
  have b : ∀ k : ℕ, 0 ≤ min (k : ℝ) 20 ∧ min (k : ℝ) 20 ≤ 20 := fun k => ⟨le_min (by positivity) (by norm_num), min_le_right _ _⟩
  have sin_small : ∀ c t : ℝ, |c| ≤ 10 → |c * Real.sin t| < 9e19 := by
    intro c t hc
    rw [abs_mul]
    have := Real.abs_sin_le_one t
    have := abs_nonneg c
    nlinarith
  have cos_small : ∀ c t : ℝ, |c| ≤ 10 → |c * Real.cos t| < 9e19 := by
    intro c t hc
    rw [abs_mul]
    have := Real.abs_cos_le_one t
    have := abs_nonneg c
    nlinarith
  have := C193_vorticity (nx := 21) (ny := 21) (ix := 0) (iy := 0) (by norm_num) (by norm_num)
    (fun i => min (i : ℝ) 20 + 140) (fun j => min (j : ℝ) 20 - 30) (fun _ _ => 10) (fun t _ => 5 * Real.sin t)
    (fun _ s => 10 * (-Real.sin s)) (fun t _ => 5 * Real.cos t) (fun _ t => (Real.hasDerivAt_sin t).const_mul 5)
    (fun _ s => (Real.hasDerivAt_cos s).const_mul 10) (fun _ _ => by norm_num)
    (fun t _ => sin_small 5 t (by norm_num)) (fun _ s => by
      have := sin_small (-10) s (by norm_num)
      rwa [show 10 * -Real.sin s = -10 * Real.sin s by ring])
    (fun t _ => cos_small 5 t (by norm_num)) (fun k => by have := b k; rw [abs_of_nonneg] <;> linarith)
    (fun k => by have := b k; rw [abs_of_nonpos] <;> linarith) (by simp [before, after])
    (by norm_num [before, after])
    (by norm_num) (by norm_num)
  norm_num [before, after] at this ⊢
  exact this

/-- C193: air turning with the earth at rate `w` has vorticity `2 w sin phi`; on evenly spaced latitudes, `h` degrees
apart, the program returns it but for the factor `sin 2h / 2h`. -/
theorem C193_rotation {nx ny ix iy : ℕ} (hix : ix < nx) (h0 : 0 < iy) (hiy : iy + 1 < ny) (x y : ℕ → ℝ) (w h : ℝ)
    (hw : |w| < 1e8) (hh : 1e-3 ≤ h) (hx : ∀ k, |x k| ≤ 1000) (hy : ∀ k, |y k| ≤ 1000)
    (hnx : x (before ix) ≠ x (after nx ix)) (hn : y (iy + 1) = y iy + h) (hs : y (iy - 1) = y iy - h)
    (h1 : -88 ≤ y iy) (h2 : y iy ≤ 88) :
    relative nx ny (fun j _ => w * (6378137 * Real.cos (rad (y j)))) (fun _ _ => 0) x y iy ix =
      2 * w * Real.sin (rad (y iy)) * (Real.sin (2 * rad h) / (2 * rad h)) := by
  have hp := Real.pi_gt_three
  have hr : 1e-5 < rad h := by
    unfold rad
    rw [lt_div_iff₀ (by norm_num)]
    nlinarith
  have hu : ∀ k : ℕ, |w * (6378137 * Real.cos (rad (y k)))| < 9e19 := by
    intro k
    rw [abs_mul, abs_mul, abs_of_pos (by norm_num : (0 : ℝ) < 6378137)]
    have h1 := Real.abs_cos_le_one (rad (y k))
    have h2 := abs_nonneg (Real.cos (rad (y k)))
    have h3 := abs_nonneg w
    calc |w| * (6378137 * |Real.cos (rad (y k))|) ≤ |w| * (6378137 * 1) := by gcongr
      _ < 9e19 := by linarith
  have hu' : ∀ k : ℕ, |w * (6378137 * Real.cos (rad (y k))) * Real.cos (rad (y k))| < 9e19 := by
    intro k
    rw [abs_mul]
    have h1 := Real.abs_cos_le_one (rad (y k))
    have h2 := hu k
    have h3 := abs_nonneg (w * (6378137 * Real.cos (rad (y k))))
    nlinarith
  have e1 : before iy = iy - 1 := rfl
  have e2 : after ny iy = iy + 1 := if_pos hiy
  have rn : rad (y (iy + 1)) = rad (y iy) + rad h := by rw [hn]; unfold rad; ring
  have rs : rad (y (iy - 1)) = rad (y iy) - rad h := by rw [hs]; unfold rad; ring
  have hny : rad (y (before iy)) ≠ rad (y (after ny iy)) := by
    rw [e1, e2, rn, rs]
    intro e
    linarith
  have hcos := (cos_rad_pos h1 h2).ne'
  have ev : deriv 1e20 nx (fun k => rad (x k)) (fun _ => 0) ix = 0 := by
    rw [C193_slope hix _ _ (fun k _ => not_missing_of_small (by norm_num))
      (fun k _ => not_missing_of_small (rad_small (hx k))) (rad_ne hnx)]
    simp
  have trig : Real.cos (rad (y iy) + rad h) ^ 2 - Real.cos (rad (y iy) - rad h) ^ 2 =
      -(2 * Real.sin (rad (y iy)) * Real.cos (rad (y iy)) * Real.sin (2 * rad h)) := by
    rw [Real.cos_add, Real.cos_sub, Real.sin_two_mul]
    ring
  have eu : deriv 1e20 ny (fun k => rad (y k)) (fun k => w * (6378137 * Real.cos (rad (y k))) * Real.cos (rad (y k))) iy =
      -(w * 6378137 * (2 * Real.sin (rad (y iy)) * Real.cos (rad (y iy)) * Real.sin (2 * rad h)) / (2 * rad h)) := by
    rw [C193_slope (by omega) _ _ (fun k _ => not_missing_of_small (hu' k))
      (fun k _ => not_missing_of_small (rad_small (hy k))) hny, e1, e2, rn, rs]
    have : w * (6378137 * Real.cos (rad (y iy) + rad h)) * Real.cos (rad (y iy) + rad h) -
        w * (6378137 * Real.cos (rad (y iy) - rad h)) * Real.cos (rad (y iy) - rad h) =
        w * 6378137 * (Real.cos (rad (y iy) + rad h) ^ 2 - Real.cos (rad (y iy) - rad h) ^ 2) := by ring
    rw [this, trig, show rad (y iy) + rad h - (rad (y iy) - rad h) = 2 * rad h by ring]
    ring
  unfold relative
  have small : |-(w * 6378137 * (2 * Real.sin (rad (y iy)) * Real.cos (rad (y iy)) * Real.sin (2 * rad h)) / (2 * rad h))| <
      9e19 := by
    rw [abs_neg, abs_div, abs_mul, abs_mul, abs_mul, abs_mul, abs_mul, abs_of_pos (by linarith : (0 : ℝ) < 2 * rad h),
      abs_of_pos (by norm_num : (0 : ℝ) < 6378137), abs_of_pos (by norm_num : (0 : ℝ) < 2), div_lt_iff₀ (by linarith)]
    have q1 := Real.abs_sin_le_one (rad (y iy))
    have q2 := Real.abs_cos_le_one (rad (y iy))
    have q3 := Real.abs_sin_le_one (2 * rad h)
    have q4 := abs_nonneg (Real.sin (rad (y iy)))
    have q5 := abs_nonneg (Real.cos (rad (y iy)))
    have q6 := abs_nonneg (Real.sin (2 * rad h))
    have q7 := abs_nonneg w
    calc |w| * 6378137 * (2 * |Real.sin (rad (y iy))| * |Real.cos (rad (y iy))| * |Real.sin (2 * rad h)|)
        ≤ |w| * 6378137 * (2 * 1 * 1 * 1) := by gcongr
      _ < 9e19 * (2 * rad h) := by linarith
  have zero : |(0 : ℝ)| < 9e19 := by norm_num
  have hR : (6378137 : ℝ) ≠ 0 := by norm_num
  rw [curl_of x y (fun j _ => w * (6378137 * Real.cos (rad (y j)))) (fun _ _ => 0) hR h1 h2 hu 0 _ ev eu zero small]
  field_simp
  ring

/-- C193: the error of the vorticity of rotating air is at most a sixth of the square of twice the spacing in
radians, relative to the vorticity. -/
theorem C193_rotation_error {nx ny ix iy : ℕ} (hix : ix < nx) (h0 : 0 < iy) (hiy : iy + 1 < ny) (x y : ℕ → ℝ) (w h : ℝ)
    (hw : |w| < 1e8) (hh : 1e-3 ≤ h) (hx : ∀ k, |x k| ≤ 1000) (hy : ∀ k, |y k| ≤ 1000)
    (hnx : x (before ix) ≠ x (after nx ix)) (hn : y (iy + 1) = y iy + h) (hs : y (iy - 1) = y iy - h)
    (h1 : -88 ≤ y iy) (h2 : y iy ≤ 88) :
    |relative nx ny (fun j _ => w * (6378137 * Real.cos (rad (y j)))) (fun _ _ => 0) x y iy ix -
      2 * w * Real.sin (rad (y iy))| ≤ |2 * w * Real.sin (rad (y iy))| * ((2 * rad h) ^ 2 / 6) := by
  rw [C193_rotation hix h0 hiy x y w h hw hh hx hy hnx hn hs h1 h2]
  have hp := Real.pi_gt_three
  have hr : 0 < 2 * rad h := by unfold rad; positivity
  have s1 : Real.sin (2 * rad h) / (2 * rad h) < 1 := by
    rw [div_lt_one hr]
    exact Real.sin_lt hr
  have s2 : 1 - (2 * rad h) ^ 2 / 6 < Real.sin (2 * rad h) / (2 * rad h) := by
    rw [lt_div_iff₀ hr]
    have := Real.sin_gt_sub_cube hr
    nlinarith
  rw [show 2 * w * Real.sin (rad (y iy)) * (Real.sin (2 * rad h) / (2 * rad h)) - 2 * w * Real.sin (rad (y iy)) =
    2 * w * Real.sin (rad (y iy)) * (Real.sin (2 * rad h) / (2 * rad h) - 1) by ring, abs_mul]
  apply mul_le_mul_of_nonneg_left _ (abs_nonneg _)
  rw [abs_le]
  constructor <;> nlinarith

/-- The hypotheses can be met: a grid of one degree, and air turning with the earth. -/
example : |relative 21 21 (fun j _ => 7e-5 * (6378137 * Real.cos (rad (min (j : ℝ) 20 - 30)))) (fun _ _ => 0)
    (fun i => min (i : ℝ) 20 + 140) (fun j => min (j : ℝ) 20 - 30) 10 0 - 2 * 7e-5 * Real.sin (rad (-20))| ≤
    |2 * 7e-5 * Real.sin (rad (-20))| * ((2 * rad 1) ^ 2 / 6) := by
  have b : ∀ k : ℕ, 0 ≤ min (k : ℝ) 20 ∧ min (k : ℝ) 20 ≤ 20 := fun k => ⟨le_min (by positivity) (by norm_num), min_le_right _ _⟩
  have := C193_rotation_error (nx := 21) (ny := 21) (ix := 0) (iy := 10) (by norm_num) (by norm_num) (by norm_num)
    (fun i => min (i : ℝ) 20 + 140) (fun j => min (j : ℝ) 20 - 30) 7e-5 1 (by rw [abs_of_pos] <;> norm_num) (by norm_num)
    (fun k => by have := b k; rw [abs_of_nonneg] <;> linarith)
    (fun k => by have := b k; rw [abs_of_nonpos] <;> linarith) (by simp [before, after]) (by norm_num) (by norm_num)
    (by norm_num) (by norm_num)
  have e : min ((10 : ℕ) : ℝ) 20 - 30 = -20 := by norm_num
  rw [e] at this
  exact this

/-- C193: within two degrees of a pole the relative vorticity is missing. -/
theorem C193_poles {nx ny : ℕ} (u v : ℕ → ℕ → ℝ) (x y : ℕ → ℝ) (iy ix : ℕ) (h : y iy > 88 ∨ y iy < -88) :
    relative nx ny u v x y iy ix = 1e20 := by
  unfold relative sphericalCurl
  simp only [if_pos h]
  rfl

/-- C193: the relative vorticity is missing where the zonal wind to the north or to the south, or the meridional wind to
the west or to the east, is missing. -/
theorem C193_holes {nx ny ix iy : ℕ} (hix : ix < nx) (hiy : iy < ny) (u v : ℕ → ℕ → ℝ) (x y : ℕ → ℝ)
    (hx : ∀ k, |x k| ≤ 1000) (hy : ∀ k, |y k| ≤ 1000)
    (h : Missing 1e20 (u (before iy) ix) ∨ Missing 1e20 (u (after ny iy) ix) ∨ Missing 1e20 (v iy (before ix)) ∨
      Missing 1e20 (v iy (after nx ix))) :
    relative nx ny u v x y iy ix = 1e20 := by
  have hfill : ∀ k, Missing 1e20 (u k ix) → ∀ c : ℝ, filled 1e20 (mul (masked 1e20 (u k ix)) c) = 1e20 := by
    intro k hk c
    rw [masked_missing hk]
    rfl
  have hself : masked 1e20 1e20 = none := masked_missing (missing_self _)
  unfold relative sphericalCurl
  simp only
  have key : ∀ a b : Option ℝ, a = none ∨ b = none → ∀ c, divide (sub a b) c = none := by
    intro a b h c
    rcases h with h | h <;> subst h
    · rfl
    · cases a <;> rfl
  rw [key _ _ _ _]
  · simp [filled]
  · rcases h with h | h | h | h
    · right
      change masked 1e20 (deriv 1e20 ny (fun k => rad (y k)) _ iy) = none
      rw [(C193_missing hiy _ _ fun k _ => not_missing_of_small (rad_small (hy k))).1, hself]
      left
      rw [hfill _ h]
      exact missing_self _
    · right
      change masked 1e20 (deriv 1e20 ny (fun k => rad (y k)) _ iy) = none
      rw [(C193_missing hiy _ _ fun k _ => not_missing_of_small (rad_small (hy k))).1, hself]
      right; left
      rw [hfill _ h]
      exact missing_self _
    · left
      change masked 1e20 (deriv 1e20 nx (fun k => rad (x k)) _ ix) = none
      rw [(C193_missing hix _ _ fun k _ => not_missing_of_small (rad_small (hx k))).1 (Or.inl h), hself]
    · left
      change masked 1e20 (deriv 1e20 nx (fun k => rad (x k)) _ ix) = none
      rw [(C193_missing hix _ _ fun k _ => not_missing_of_small (rad_small (hx k))).1 (Or.inr (Or.inl h)), hself]

/-- C193: absolute vorticity is relative vorticity plus twice the turning of the earth, `2 pi` in a day, times the sine
of the latitude; where the relative vorticity is missing the absolute vorticity can still be told to be missing. -/
theorem C193_absolute {nx ny : ℕ} (u v : ℕ → ℕ → ℝ) (x y : ℕ → ℝ) (iy ix : ℕ) :
    absolute nx ny u v x y iy ix = relative nx ny u v x y iy ix + 2 * (2 * Real.pi / 86400) * Real.sin (rad (y iy)) ∧
    (relative nx ny u v x y iy ix = 1e20 → Missing 1e20 (absolute nx ny u v x y iy ix)) := by
  refine ⟨rfl, fun h => ?_⟩
  unfold absolute Missing
  rw [h]
  unfold Profiles.coriolis
  rw [add_sub_cancel_left, abs_mul, abs_of_pos (by positivity : (0 : ℝ) < 2 * (2 * Real.pi / 86400)),
    abs_of_pos (by norm_num : (0 : ℝ) < 1e20)]
  have h1 := Real.abs_sin_le_one (y iy * Real.pi / 180)
  have h2 := abs_nonneg (Real.sin (y iy * Real.pi / 180))
  have h3 := Real.pi_lt_four
  have h4 := Real.pi_pos
  have h5 : 2 * (2 * Real.pi / 86400) * |Real.sin (y iy * Real.pi / 180)| ≤ 2 * (2 * Real.pi / 86400) * 1 := by gcongr
  have h6 : 2 * (2 * Real.pi / 86400) < 1 := by rw [mul_div_assoc', div_lt_iff₀ (by norm_num)]; linarith
  norm_num
  linarith

end Tcrm.Vorticity
