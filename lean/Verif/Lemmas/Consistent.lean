import Verif.Props.Unbiased
/-!
Sample L-moments of a growing sample.
-/
namespace Tcrm.Unbiased
open Tcrm.Evd Tcrm.Autoreg MeasureTheory ProbabilityTheory Finset Filter

/-- The share of the first `n` numbers below `v` -/
noncomputable def F (u : ℕ → ℝ) (n : ℕ) (v : ℝ) : ℝ := ((range n).filter fun i => u i < v).card / n

theorem F_mono (u : ℕ → ℝ) (n : ℕ) : Monotone (F u n) := by
  intro a b h
  unfold F
  gcongr

theorem F_mem (u : ℕ → ℝ) (n : ℕ) (v : ℝ) : 0 ≤ F u n v ∧ F u n v ≤ 1 := by
  unfold F
  refine ⟨by positivity, ?_⟩
  rcases Nat.eq_zero_or_pos n with rfl | hn
  · simp
  · rw [div_le_one (by exact_mod_cast hn)]
    have := card_filter_le (range n) fun i => u i < v
    rw [card_range] at this
    exact_mod_cast this

/-- Convergence at rational points is uniform. -/
theorem F_uniform {u : ℕ → ℝ} (h : ∀ q : ℚ, 0 ≤ q → q ≤ 1 → Tendsto (fun n => F u n q) atTop (nhds q)) {e : ℝ} (he : 0 < e) :
    ∀ᶠ n in atTop, ∀ v : ℝ, 0 ≤ v → v ≤ 1 → |F u n v - v| ≤ e := by
  obtain ⟨M, hM⟩ := exists_nat_gt (2 / e)
  have hM0 : (0 : ℝ) < M := lt_trans (by positivity) hM
  have hMn : 0 < M := by exact_mod_cast hM0
  have hinv : 1 / (M : ℝ) ≤ e / 2 := by
    rw [div_le_div_iff₀ hM0 (by norm_num)]
    rw [div_lt_iff₀ he] at hM
    linarith
  have hgrid : ∀ᶠ n in atTop, ∀ i ∈ range (M + 1), |F u n ((i / M : ℚ) : ℝ) - ((i / M : ℚ) : ℝ)| ≤ e / 2 := by
    rw [eventually_all_finset]
    intro i hi
    have hi' : (i : ℚ) ≤ M := by exact_mod_cast Nat.lt_succ_iff.1 (mem_range.1 hi)
    have ht := h (i / M) (by positivity) (by rw [div_le_one (by exact_mod_cast hMn)]; exact hi')
    have := (Metric.tendsto_atTop.1 ht) (e / 2) (by positivity)
    obtain ⟨n0, hn0⟩ := this
    filter_upwards [eventually_ge_atTop n0] with n hn
    have := hn0 n hn
    rw [Real.dist_eq] at this
    exact this.le
  filter_upwards [hgrid] with n hn v h0 h1
  let i := min ⌊v * M⌋₊ (M - 1)
  have hi1 : (i : ℝ) ≤ v * M := by
    have : (i : ℝ) ≤ (⌊v * M⌋₊ : ℝ) := by exact_mod_cast min_le_left _ _
    exact this.trans (Nat.floor_le (by positivity))
  have hi2 : v * M ≤ i + 1 := by
    rcases le_or_gt ⌊v * M⌋₊ (M - 1) with hc | hc
    · have : i = ⌊v * M⌋₊ := min_eq_left hc
      rw [this]; exact (Nat.lt_floor_add_one _).le
    · have : i = M - 1 := min_eq_right hc.le
      have hMi : ((M - 1 : ℕ) : ℝ) + 1 = M := by
        have : M - 1 + 1 = M := by omega
        exact_mod_cast this
      rw [this, hMi]; nlinarith
  have hiM : i ≤ M - 1 := min_le_right _ _
  have a := hn i (mem_range.2 (by omega))
  have b := hn (i + 1) (mem_range.2 (by omega))
  push_cast at a b
  have m1 : F u n ((i : ℝ) / M) ≤ F u n v := F_mono u n (by rw [div_le_iff₀ hM0]; exact hi1)
  have m2 : F u n v ≤ F u n (((i : ℝ) + 1) / M) := F_mono u n (by rw [le_div_iff₀ hM0]; exact hi2)
  have g1 : v ≤ ((i : ℝ) + 1) / M := by rw [le_div_iff₀ hM0]; exact hi2
  have g2 : (i : ℝ) / M ≤ v := by rw [div_le_iff₀ hM0]; exact hi1
  have g3 : ((i : ℝ) + 1) / M = i / M + 1 / M := by ring
  rw [abs_le] at a b ⊢
  constructor <;> linarith [a.1, a.2, b.1, b.2]

/-- The weights approach powers of the share. -/
theorem weight_uniform (k : ℕ) : ∀ {e : ℝ}, 0 < e →
    ∀ᶠ n : ℕ in atTop, ∀ i < n, |(i.choose k : ℝ) / ((n - 1).choose k : ℝ) - ((i : ℝ) / n) ^ k| ≤ e := by
  induction k with
  | zero => intro e he; exact Eventually.of_forall fun n i _ => by simp [he.le]
  | succ k ih =>
    intro e he
    have hlim : ∀ᶠ n : ℕ in atTop, k + 2 ≤ n ∧ (2 * (k : ℝ) + 1) / e * 2 + 1 + k ≤ n :=
      (eventually_ge_atTop (k + 2)).and ((tendsto_natCast_atTop_atTop (R := ℝ)).eventually_ge_atTop _)
    filter_upwards [ih (half_pos he), hlim] with n h1 h2 i hi
    obtain ⟨hn, hb⟩ := h2
    have hnk : (0 : ℝ) < (n : ℝ) - 1 - k := by
      have : ((k + 2 : ℕ) : ℝ) ≤ n := by exact_mod_cast hn
      push_cast at this; linarith
    have hn0 : (0 : ℝ) < n := by have : 0 < n := by omega
                                 exact_mod_cast this
    have hr : (2 * (k : ℝ) + 1) / ((n : ℝ) - 1 - k) ≤ e / 2 := by
      rw [div_le_div_iff₀ hnk (by norm_num)]
      have : (2 * (k : ℝ) + 1) / e * 2 ≤ (n : ℝ) - 1 - k := by linarith
      have := mul_le_mul_of_nonneg_left this he.le
      have e1 : e * ((2 * (k : ℝ) + 1) / e * 2) = (2 * (k : ℝ) + 1) * 2 := by field_simp
      linarith
    have hc0 : (((n - 1).choose k : ℕ) : ℝ) ≠ 0 := by
      have := Nat.choose_pos (n := n - 1) (k := k) (by omega)
      exact_mod_cast this.ne'
    have hin : (i : ℝ) / n ≤ 1 := by rw [div_le_one hn0]; exact_mod_cast hi.le
    have hi0 : (0 : ℝ) ≤ (i : ℝ) / n := by positivity
    have hpow : ((i : ℝ) / n) ^ k ≤ 1 := pow_le_one₀ hi0 hin
    have hpow0 : 0 ≤ ((i : ℝ) / n) ^ k := by positivity
    rcases Nat.lt_or_ge i k with hik | hik
    · rw [Nat.choose_eq_zero_of_lt (show i < k + 1 by omega), Nat.cast_zero, zero_div, zero_sub, abs_neg, abs_of_nonneg (by positivity), pow_succ]
      have hki : (i : ℝ) ≤ k := by exact_mod_cast hik.le
      have : (i : ℝ) / n ≤ (2 * (k : ℝ) + 1) / ((n : ℝ) - 1 - k) := by
        rw [div_le_div_iff₀ hn0 hnk]
        have hk0 : (0 : ℝ) ≤ k := by positivity
        have hi00 : (0 : ℝ) ≤ i := by positivity
        nlinarith
      calc ((i : ℝ) / n) ^ k * (i / n) ≤ 1 * (i / n) := by gcongr
        _ ≤ e := by linarith
    · have hik' : (k : ℝ) ≤ i := by exact_mod_cast hik
      have hin' : (i : ℝ) ≤ n - 1 := by
        have : i + 1 ≤ n := hi
        have : ((i + 1 : ℕ) : ℝ) ≤ n := by exact_mod_cast this
        push_cast at this; linarith
      have hstep : ((i.choose (k + 1) : ℕ) : ℝ) / ((n - 1).choose (k + 1) : ℕ) =
          (i.choose k : ℝ) / ((n - 1).choose k : ℝ) * (((i : ℝ) - k) / ((n : ℝ) - 1 - k)) := by
        have a1 : ((i.choose (k + 1) : ℕ) : ℝ) * (k + 1) = (i.choose k : ℝ) * ((i : ℝ) - k) := by
          have := Nat.choose_succ_right_eq i k
          have h' : ((i.choose (k + 1) * (k + 1) : ℕ) : ℝ) = ((i.choose k * (i - k) : ℕ) : ℝ) := by rw [this]
          push_cast [Nat.cast_sub hik] at h'; exact h'
        have a2 : (((n - 1).choose (k + 1) : ℕ) : ℝ) * (k + 1) = ((n - 1).choose k : ℝ) * ((n : ℝ) - 1 - k) := by
          have := Nat.choose_succ_right_eq (n - 1) k
          have h' : (((n - 1).choose (k + 1) * (k + 1) : ℕ) : ℝ) = (((n - 1).choose k * (n - 1 - k) : ℕ) : ℝ) := by rw [this]
          rw [Nat.cast_mul, Nat.cast_mul, Nat.cast_sub (show k ≤ n - 1 by omega), Nat.cast_sub (show 1 ≤ n by omega)] at h'
          push_cast at h'; exact h'
        have hk1 : (k : ℝ) + 1 ≠ 0 := by positivity
        rw [← mul_div_mul_right _ _ hk1, a1, a2, mul_div_mul_comm]
      rw [hstep, pow_succ]
      set A := (i.choose k : ℝ) / ((n - 1).choose k : ℝ)
      set B := ((i : ℝ) - k) / ((n : ℝ) - 1 - k)
      have hB0 : 0 ≤ B := div_nonneg (by linarith) hnk.le
      have hB1 : B ≤ 1 := by rw [div_le_one hnk]; linarith
      have hBd : |B - i / n| ≤ (2 * (k : ℝ) + 1) / ((n : ℝ) - 1 - k) := by
        have e1 : B - i / n = ((i : ℝ) - k * n + i * k) / n / ((n : ℝ) - 1 - k) := by
          simp only [B]; field_simp; ring
        rw [e1, abs_div, abs_of_pos hnk]
        gcongr
        rw [abs_div, abs_of_pos hn0, div_le_iff₀ hn0, abs_le]
        have hk0 : (0 : ℝ) ≤ k := by positivity
        have hi00 : (0 : ℝ) ≤ i := by positivity
        have q1 : (i : ℝ) * k ≤ n * k := by gcongr
        have q2 : 0 ≤ (i : ℝ) * k := by positivity
        constructor <;> nlinarith
      have hAd := h1 i hi
      calc |A * B - ((i : ℝ) / n) ^ k * (i / n)| = |(A - ((i : ℝ) / n) ^ k) * B + ((i : ℝ) / n) ^ k * (B - i / n)| := by congr 1; ring
        _ ≤ |(A - ((i : ℝ) / n) ^ k) * B| + |((i : ℝ) / n) ^ k * (B - i / n)| := abs_add_le _ _
        _ = |A - ((i : ℝ) / n) ^ k| * B + ((i : ℝ) / n) ^ k * |B - i / n| := by
          rw [abs_mul, abs_mul, abs_of_nonneg hB0, abs_of_nonneg hpow0]
        _ ≤ e / 2 * 1 + 1 * (e / 2) := by
          gcongr
          exact hBd.trans hr
        _ = e := by ring

theorem pow_sub_le {a b : ℝ} (ha : 0 ≤ a) (ha' : a ≤ 1) (hb : 0 ≤ b) (hb' : b ≤ 1) (k : ℕ) : |a ^ k - b ^ k| ≤ k * |a - b| := by
  induction k with
  | zero => simp
  | succ k ih =>
    have h1 : a ^ k ≤ 1 := pow_le_one₀ ha ha'
    have h1' : 0 ≤ a ^ k := by positivity
    calc |a ^ (k + 1) - b ^ (k + 1)| = |a ^ k * (a - b) + (a ^ k - b ^ k) * b| := by congr 1; ring
      _ ≤ |a ^ k * (a - b)| + |(a ^ k - b ^ k) * b| := abs_add_le _ _
      _ = a ^ k * |a - b| + |a ^ k - b ^ k| * b := by rw [abs_mul, abs_mul, abs_of_nonneg h1', abs_of_nonneg hb]
      _ ≤ 1 * |a - b| + (k * |a - b|) * 1 := by gcongr
      _ = ((k + 1 : ℕ) : ℝ) * |a - b| := by push_cast; ring

/-- Weighted moments of a growing sample whose ranks are spread evenly -/
theorem weighted_limit {Q : ℝ → ℝ} (hQ : MonotoneOn Q (Set.Ioo 0 1)) {u : ℕ → ℝ} (hu : ∀ i, u i ∈ Set.Ioo (0 : ℝ) 1)
    (hd : ∀ i j, u i = u j → i = j) (hF : ∀ q : ℚ, 0 ≤ q → q ≤ 1 → Tendsto (fun n => F u n q) atTop (nhds q)) {k : ℕ} {x y : ℝ}
    (hx : Tendsto (fun n : ℕ => (∑ j ∈ range n, Q (u j) * u j ^ k) / n) atTop (nhds x))
    (hy : Tendsto (fun n : ℕ => (∑ j ∈ range n, |Q (u j)|) / n) atTop (nhds y)) :
    Tendsto (fun n => weightedMoment n ((((List.range n).map fun i => Q (u i)).mergeSort fun a b => decide (a ≤ b)).getD · 0) k)
      atTop (nhds x) := by
  have hdiff : Tendsto (fun n : ℕ => weightedMoment n ((((List.range n).map fun i => Q (u i)).mergeSort
      fun a b => decide (a ≤ b)).getD · 0) k - (∑ j ∈ range n, Q (u j) * u j ^ k) / n) atTop (nhds 0) := by
    rw [Metric.tendsto_atTop]
    intro e he
    have hy0 : 0 ≤ y := ge_of_tendsto' hy fun n => by positivity
    have hd' : 0 < e / ((k + 1) * (y + 2)) := by positivity
    have hbd : ∀ᶠ n : ℕ in atTop, (∑ j ∈ range n, |Q (u j)|) / n < y + 1 := hy.eventually (gt_mem_nhds (by linarith))
    have hall := ((weight_uniform k hd').and (F_uniform hF hd')).and hbd
    obtain ⟨n0, hn0⟩ := eventually_atTop.1 hall
    refine ⟨n0, fun n hn => ?_⟩
    obtain ⟨⟨hw, hf⟩, hb⟩ := hn0 n hn
    rw [Real.dist_eq, sub_zero]
    unfold weightedMoment
    rw [rank_sum hQ (fun i _ => hu i) (fun i _ j _ => hd i j) fun i => (i.choose k : ℝ) / ((n - 1).choose k : ℝ), ← sub_div, ← sum_sub_distrib,
      abs_div, Nat.abs_cast]
    have hterm : ∀ j ∈ range n, |((((range n).filter fun i => u i < u j).card.choose k : ℕ) : ℝ) / ((n - 1).choose k : ℝ) * Q (u j) -
        Q (u j) * u j ^ k| ≤ (k + 1) * (e / ((k + 1) * (y + 2))) * |Q (u j)| := by
      intro j hj
      have hr : ((range n).filter fun i => u i < u j).card < n := by
        have : ((range n).filter fun i => u i < u j) ⊂ range n := by
          refine filter_ssubset.2 ⟨j, hj, lt_irrefl _⟩
        have := card_lt_card this
        rwa [card_range] at this
      have h1 := hw _ hr
      have h2 := hf (u j) (hu j).1.le (hu j).2.le
      have h3 := pow_sub_le (F_mem u n (u j)).1 (F_mem u n (u j)).2 (hu j).1.le (hu j).2.le k
      set c := ((((range n).filter fun i => u i < u j).card.choose k : ℕ) : ℝ) / ((n - 1).choose k : ℝ)
      change |c - F u n (u j) ^ k| ≤ _ at h1
      have hk0 : (0 : ℝ) ≤ k := by positivity
      have h4 : |c - u j ^ k| ≤ (k + 1) * (e / ((k + 1) * (y + 2))) := by
        calc |c - u j ^ k| ≤ |c - F u n (u j) ^ k| + |F u n (u j) ^ k - u j ^ k| := abs_sub_le _ _ _
          _ ≤ e / ((k + 1) * (y + 2)) + k * (e / ((k + 1) * (y + 2))) := by
            refine add_le_add h1 (h3.trans ?_)
            gcongr
          _ = _ := by ring
      rw [show c * Q (u j) - Q (u j) * u j ^ k = (c - u j ^ k) * Q (u j) by ring, abs_mul]
      gcongr
    have hs : |∑ j ∈ range n, (((((range n).filter fun i => u i < u j).card.choose k : ℕ) : ℝ) / ((n - 1).choose k : ℝ) * Q (u j) -
        Q (u j) * u j ^ k)| ≤ (k + 1) * (e / ((k + 1) * (y + 2))) * ∑ j ∈ range n, |Q (u j)| := by
      rw [mul_sum]
      exact (abs_sum_le_sum_abs _ _).trans (sum_le_sum hterm)
    calc _ ≤ (k + 1) * (e / ((k + 1) * (y + 2))) * (∑ j ∈ range n, |Q (u j)|) / n := by gcongr
      _ = e / (y + 2) * ((∑ j ∈ range n, |Q (u j)|) / n) := by
        have : (k : ℝ) + 1 ≠ 0 := by positivity
        field_simp
      _ ≤ e / (y + 2) * (y + 1) := by gcongr
      _ < e := by
        rw [div_mul_eq_mul_div, div_lt_iff₀ (by linarith)]
        nlinarith
  have := hdiff.add hx
  simpa using this

end Tcrm.Unbiased
