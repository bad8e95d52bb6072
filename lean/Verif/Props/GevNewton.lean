import Verif.Props.LMomentsGev
import Verif.Lemmas.GevStart
/-!
C58 and C148 for every L-skewness: below -0.8 the shape is found by Newton-Raphson iterations.
-/
namespace Tcrm.Evd

/-- The shape that the iterations give. -/
theorem pelgev_low {l1 l2 t3 : ℝ} (hl : 0 < l2) (h0 : (1 / 2 : ℝ) ^ 1000 ≤ 1 + t3) (h1 : t3 < -0.8) :
    ∃ G, 2.8 ≤ G ∧ |skew G - t3| ≤ 1 / 1000000 ∧ pelgev l1 l2 t3 = withShape l1 l2 G := by
  have ht : 0 < 1 + t3 := lt_of_lt_of_le (by positivity) h0
  obtain ⟨G0, hG0, a28, a1, a2⟩ : ∃ G0, G0 = (if t3 ≤ -0.97 then 1 - Real.log (1 + t3) / 0.69314718 else approxNeg t3) ∧
      2.8 ≤ G0 ∧ |ratio G0 - (t3 + 3) * 0.5| ≤ 0.162 * (ratio G0 - 1) ∧
      2.8 * (ratio G0 - 1) ≤ G0 * (ratio G0 - 1) - 4.5 * |ratio G0 - (t3 + 3) * 0.5| := by
    split
    · rename_i h
      exact start_low h0 h
    · rename_i h
      exact ⟨_, rfl, start_mid (not_le.1 h).le h1.le⟩
  obtain ⟨b28, b⟩ := newton_near 20 a28 a1 a2
  refine ⟨newton ((t3 + 3) * 0.5) 20 G0, b28, ?_, ?_⟩
  · rw [skew_ratio (by norm_num at b28; linarith)]
    have hm := ratio_mul_le a28
    have hu := (slope_bounds a28).1
    have hu1 : ratio G0 - 1 ≤ 1 := by nlinarith
    have hE : |ratio G0 - (t3 + 3) * 0.5| ≤ 0.162 := by linarith
    have hp : (0.485 : ℝ) ^ 20 * |ratio G0 - (t3 + 3) * 0.5| ≤ 0.485 ^ 20 * 0.162 :=
      mul_le_mul_of_nonneg_left hE (by positivity)
    have hc : (0.485 : ℝ) ^ 20 * 0.162 ≤ 0.0000001 := by norm_num
    have hb := abs_le.1 (b.trans (add_le_add_right (hp.trans hc) _))
    rw [abs_le]
    norm_num at hb ⊢
    constructor <;> linarith [hb.1, hb.2]
  · unfold pelgev
    rw [if_neg (not_le.2 hl), if_neg (by rw [not_le, abs_lt]; norm_num at h1; constructor <;> linarith),
      if_neg (by norm_num at h1; linarith)]
    simp only [if_pos h1]
    rw [hG0]

/-- C148, C58: for L-skewness below -0.8 the iterations find a shape for which the fitted distribution has the mean,
the second L-moment and, to within a millionth, the L-skewness it was fitted to; every number in double precision that
exceeds -1 is allowed. -/
theorem C148_below {l1 l2 t3 loc scale k : ℝ} (hl : 0 < l2) (h0 : (1 / 2 : ℝ) ^ 1000 ≤ 1 + t3) (h1 : t3 < -0.8)
    (h : pelgev l1 l2 t3 = (loc, scale, k)) :
    L1 (gevQuantile loc scale k) = l1 ∧ L2 (gevQuantile loc scale k) = l2 ∧
    |L3 (gevQuantile loc scale k) / L2 (gevQuantile loc scale k) - t3| ≤ 1 / 1000000 := by
  obtain ⟨G, hG, hs, e⟩ := pelgev_low (l1 := l1) hl h0 h1
  have hk : k = G := by
    rw [e] at h
    simp only [withShape, Prod.mk.injEq] at h
    exact h.2.2.symm
  subst hk
  have hk0 : k ≠ 0 := by rintro rfl; norm_num at hG
  obtain ⟨e1, e2, e3⟩ := C58_distribution h hk0 (by norm_num at hG; linarith)
  refine ⟨e1, e2, ?_⟩
  rw [e3, e2, mul_div_cancel_left₀ _ hl.ne']
  rwa [skew, if_neg hk0] at hs

/-- An L-skewness of -0.99, and one of -0.9, meet the hypotheses; at the first the iterations start from the
logarithm, at the second from the rational approximation. -/
example : (1 / 2 : ℝ) ^ 1000 ≤ 1 + -0.99 ∧ (-0.99 : ℝ) < -0.8 ∧ (1 / 2 : ℝ) ^ 1000 ≤ 1 + -0.9 := by
  have : (1 / 2 : ℝ) ^ 1000 ≤ (1 / 2) ^ 10 := pow_le_pow_of_le_one (by norm_num) (by norm_num) (by norm_num)
  refine ⟨this.trans (by norm_num), by norm_num, this.trans (by norm_num)⟩

/-- C148: the fitted distribution has the L-skewness it was fitted to, to within 0.005, for every L-skewness. -/
theorem C148_all {l1 l2 t3 loc scale k : ℝ} (hl : 0 < l2) (h0 : (1 / 2 : ℝ) ^ 1000 ≤ 1 + t3) (h1 : t3 < 1)
    (h : pelgev l1 l2 t3 = (loc, scale, k)) :
    |L3 (gevQuantile loc scale k) / L2 (gevQuantile loc scale k) - t3| ≤ 1 / 200 := by
  rcases lt_or_ge t3 (-0.8) with h8 | h8
  · exact (C148_below hl h0 h8 h).2.2.trans (by norm_num)
  · exact C148_skewness hl h8 h1 h

/-- C58: the fitted distribution has the mean and the second L-moment it was fitted to, for every L-skewness; they
differ from the given ones by the rounding of the constants, and only if the shape is zero. -/
theorem C58_all {l1 l2 t3 loc scale k : ℝ} (hl : 0 < l2) (h0 : (1 / 2 : ℝ) ^ 1000 ≤ 1 + t3) (h1 : t3 < 1)
    (h : pelgev l1 l2 t3 = (loc, scale, k)) :
    |L1 (gevQuantile loc scale k) - l1| ≤ l2 / 1000 ∧ |L2 (gevQuantile loc scale k) - l2| ≤ l2 / 10 ^ 8 ∧
    (k ≠ 0 → L1 (gevQuantile loc scale k) = l1 ∧ L2 (gevQuantile loc scale k) = l2) := by
  have key : k ≠ 0 → L1 (gevQuantile loc scale k) = l1 ∧ L2 (gevQuantile loc scale k) = l2 := by
    intro hk
    rcases lt_or_ge t3 (-0.8) with h8 | h8
    · have := C148_below hl h0 h8 h
      exact ⟨this.1, this.2.1⟩
    · have hk1 := C58_shape (l1 := l1) (l2 := l2) h8
      rw [h] at hk1
      have := C58_distribution h hk hk1
      exact ⟨this.1, this.2.1⟩
  by_cases hk : k = 0
  · subst hk
    rcases lt_or_ge t3 (-0.8) with h8 | h8
    · obtain ⟨e1, e2, -⟩ := C148_below hl h0 h8 h
      rw [e1, e2, sub_self, sub_self, abs_zero]
      exact ⟨by positivity, by positivity, fun h => absurd rfl h⟩
    · have := C58_gumbel hl h8 h1 h
      exact ⟨this.1, this.2, key⟩
  · obtain ⟨e1, e2⟩ := key hk
    rw [e1, e2, sub_self, sub_self, abs_zero]
    exact ⟨by positivity, by positivity, fun _ => ⟨rfl, rfl⟩⟩

/-- C58 and C148 for a record of annual winds: the fitted distribution has the L-moments of the record. -/
theorem C148_record_all {data intervals : List ℝ} {m : ℕ} {yrs : ℝ} {f : Fit} {loc scale shape : ℝ}
    (h : gevfit data intervals m yrs = .ok f) (hl : f.loc = some loc) (hs : f.scale = some scale)
    (hk : f.shape = some shape)
    (h0 : (1 / 2 : ℝ) ^ 1000 ≤ 1 + sampleL3 data.length (data.getD · 0) / sampleL2 data.length (data.getD · 0)) :
    |L1 (gevQuantile loc scale shape) - sampleL1 data.length (data.getD · 0)| ≤ sampleL2 data.length (data.getD · 0) / 1000 ∧
    |L2 (gevQuantile loc scale shape) - sampleL2 data.length (data.getD · 0)| ≤ sampleL2 data.length (data.getD · 0) / 10 ^ 8 ∧
    |L3 (gevQuantile loc scale shape) / L2 (gevQuantile loc scale shape) -
      sampleL3 data.length (data.getD · 0) / sampleL2 data.length (data.getD · 0)| ≤ 1 / 200 := by
  rcases gevfit_ok h with rfl | ⟨-, -, -, hlen, l1, l2, t3, he, hl2, ht3, rfl⟩
  · simp [Fit.missing] at hl
  · rw [C45_sample_moments data hlen] at he
    simp only [Except.ok.injEq, Prod.mk.injEq] at he
    simp only [Option.some.injEq] at hl hs hk
    obtain ⟨rfl, rfl, rfl⟩ := he
    have hp := Prod.ext (y := (loc, scale, shape)) hl (Prod.ext hs hk)
    have h1 := (abs_lt.1 ht3).2
    exact ⟨(C58_all hl2 h0 h1 hp).1, (C58_all hl2 h0 h1 hp).2.1, C148_all hl2 h0 h1 hp⟩

end Tcrm.Evd
