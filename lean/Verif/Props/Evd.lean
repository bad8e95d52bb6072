import Verif.Model.Evd
import Verif.Props.LMoments
import Mathlib.Analysis.SpecialFunctions.Log.Basic
import Mathlib.Analysis.SpecialFunctions.Gamma.Basic
/-!
C23 (GEV fit), C24 (GPD levels and periods), C25 (empirical recurrence intervals), C58 (the GEV fit
reproduces the L-moments), C59 (range of the empirical intervals), C60 (cells without wind), C61
(confidence intervals).
-/
namespace Tcrm.Evd

open Finset

/-! ### C23 -/

theorem withShape_scale_pos {l1 l2 G : ℝ} (hl : 0 < l2) (hG : 0 < G) : 0 < (withShape l1 l2 G).2.1 := by
  have h1 : 0 < Real.Gamma (1 + G) := Real.Gamma_pos_of_pos (by linarith)
  have h2 : (2 : ℝ) ^ (-G) < 1 := Real.rpow_lt_one_of_one_lt_of_neg (by norm_num) (by linarith)
  have h3 : 0 < 1 - (2 : ℝ) ^ (-G) := by linarith
  show 0 < l2 * G / (Real.Gamma (1 + G) * (1 - (2 : ℝ) ^ (-G)))
  positivity

theorem withShape_shape (l1 l2 G : ℝ) : (withShape l1 l2 G).2.2 = G := rfl

/-- The scale is positive whenever the shape is. -/
theorem pelgev_scale_pos {l1 l2 t3 : ℝ} (h : 0 < (pelgev l1 l2 t3).2.2) : 0 < (pelgev l1 l2 t3).2.1 := by
  unfold pelgev at h ⊢
  split at h
  · exact absurd h (lt_irrefl 0)
  · next hl =>
    rw [if_neg hl]
    have hl' : 0 < l2 := not_le.1 hl
    split at h
    · exact absurd h (lt_irrefl 0)
    · next ht =>
      rw [if_neg ht]
      split at h
      · next h0 =>
        rw [if_pos h0]
        simp only at h ⊢
        split at h
        · exact absurd h (lt_irrefl 0)
        · next hs => rw [if_neg hs]; exact withShape_scale_pos hl' h
      · next h0 =>
        rw [if_neg h0]
        simp only at h ⊢
        split at h
        · next hs => rw [if_pos hs]; exact withShape_scale_pos hl' h
        · next hs => rw [if_neg hs]; exact withShape_scale_pos hl' h

/-- The level curve. -/
theorem gevLevel_eq_some {loc scale shp yrs t w : ℝ} (ht : 0 < t)
    (h : gevLevel loc scale shp yrs t = some w) :
    yrs < t ∧ w = loc + scale / shp * (1 - (-Real.log (1 - yrs / t)) ^ shp) := by
  unfold gevLevel at h
  split at h
  · cases h
  · next hn =>
    simp only [Option.some.injEq] at h
    have : yrs / t < 1 := by linarith
    rw [div_lt_one ht] at this
    exact ⟨this, by rw [← h]; simp⟩

theorem log_term {yrs t : ℝ} (hy : 0 < yrs) (h : yrs < t) : 0 < -Real.log (1 - yrs / t) := by
  have ht : 0 < t := hy.trans h
  have h1 : yrs / t < 1 := (div_lt_one ht).2 h
  have h2 : 0 < yrs / t := by positivity
  have := Real.log_neg (show 0 < 1 - yrs / t by linarith) (show 1 - yrs / t < 1 by linarith)
  linarith

theorem gevLevel_mono {loc scale shp yrs t t' w w' : ℝ} (hy : 0 < yrs) (hs : 0 < scale) (hk : 0 < shp)
    (ht : 0 < t) (htt : t < t') (h : gevLevel loc scale shp yrs t = some w)
    (h' : gevLevel loc scale shp yrs t' = some w') : w < w' := by
  obtain ⟨h1, rfl⟩ := gevLevel_eq_some ht h
  obtain ⟨h2, rfl⟩ := gevLevel_eq_some (ht.trans htt) h'
  have p1 := log_term hy h1
  have p2 := log_term hy h2
  have hlt : -Real.log (1 - yrs / t') < -Real.log (1 - yrs / t) := by
    have hd : yrs / t' < yrs / t := div_lt_div_of_pos_left hy ht htt
    have hd1 : yrs / t < 1 := (div_lt_one ht).2 h1
    have := Real.log_lt_log (show 0 < 1 - yrs / t by linarith) (show 1 - yrs / t < 1 - yrs / t' by linarith)
    linarith
  have hp := Real.rpow_lt_rpow p2.le hlt hk
  have hc : 0 < scale / shp := by positivity
  nlinarith

theorem gevLevel_lt {loc scale shp yrs t w : ℝ} (hy : 0 < yrs) (hs : 0 < scale) (hk : 0 < shp)
    (ht : 0 < t) (h : gevLevel loc scale shp yrs t = some w) : w < loc + scale / shp := by
  obtain ⟨h1, rfl⟩ := gevLevel_eq_some ht h
  have hp := Real.rpow_pos_of_pos (log_term hy h1) shp
  have hc : 0 < scale / shp := by positivity
  nlinarith

/-- What a successful fit is. -/
theorem gevfit_ok {data intervals : List ℝ} {m : ℕ} {yrs : ℝ} {f : Fit}
    (h : gevfit data intervals m yrs = .ok f) : f = .missing intervals.length ∨
      (∃ x ∈ data, 0 < x) ∧ m ≤ (data.filter (· ≠ 0)).length ∧
      (∃ x ∈ data, ∃ y ∈ data, x ≠ 0 ∧ y ≠ 0 ∧ x ≠ y) ∧ 2 < data.length ∧
      ∃ l1 l2 t3, samlmu3 data = .ok (l1, l2, t3) ∧ 0 < l2 ∧ |t3| < 1 ∧
        f = ⟨intervals.map fun t => if (pelgev l1 l2 t3).2.2 ≤ 0 then none
            else gevLevel (pelgev l1 l2 t3).1 (pelgev l1 l2 t3).2.1 (pelgev l1 l2 t3).2.2 yrs t,
          some (pelgev l1 l2 t3).1, some (pelgev l1 l2 t3).2.1, some (pelgev l1 l2 t3).2.2⟩ := by
  unfold gevfit at h
  split at h
  · cases h
  · split at h
    · next hpos =>
      simp only at h
      split at h
      · next hc =>
        by_cases hl : 2 < data.length
        · rw [samlmu3_eq hl] at h
          simp only at h
          split at h
          · left; cases h; rfl
          · next hm =>
            right
            push Not at hm
            obtain ⟨x, hx, y, hy, hxy⟩ := hc.1
            rw [List.mem_filter] at hx hy
            refine ⟨hpos, hc.2, ⟨x, hx.1, y, hy.1, by simpa using hx.2, by simpa using hy.2, hxy⟩, hl,
              _, _, _, samlmu3_eq hl, hm.1, hm.2, ?_⟩
            simp only [Except.ok.injEq] at h
            exact h.symm
        · rw [C45_too_few data (by omega)] at h
          cases h
      · left; cases h; rfl
    · left; cases h; rfl

/-- C23: a return level is reported only for a usable record: some positive value, enough non-zero
values, not all of them equal, a positive second L-moment, and an L-skewness inside (-1, 1). In all other
cases every level is missing. -/
theorem C23_reported_only_if_usable {data intervals : List ℝ} {m : ℕ} {yrs : ℝ} {f : Fit}
    (h : gevfit data intervals m yrs = .ok f) {w : ℝ} (hw : some w ∈ f.levels) :
    (∃ x ∈ data, 0 < x) ∧ m ≤ (data.filter (· ≠ 0)).length ∧
    (∃ x ∈ data, ∃ y ∈ data, x ≠ 0 ∧ y ≠ 0 ∧ x ≠ y) ∧
    0 < sampleL2 data.length (data.getD · 0) ∧
    |sampleL3 data.length (data.getD · 0) / sampleL2 data.length (data.getD · 0)| < 1 := by
  rcases gevfit_ok h with rfl | ⟨h1, h2, h3, h4, l1, l2, t3, hm, hl, ht, _⟩
  · simp [Fit.missing] at hw
  · rw [C45_sample_moments data h4] at hm
    simp only [Except.ok.injEq, Prod.mk.injEq] at hm
    obtain ⟨-, e2, e3⟩ := hm
    exact ⟨h1, h2, h3, by rw [e2]; exact hl, by rw [e3]; exact ht⟩

/-- C23: the unusable records are not refused but reported as missing (all parameters, too). -/
theorem C23_unusable_is_missing {data intervals : List ℝ} {m : ℕ} {yrs : ℝ} (hd : data ≠ [])
    (h : (∀ x ∈ data, x ≤ 0) ∨ (data.filter (· ≠ 0)).length < m ∨
      (∀ x ∈ data, ∀ y ∈ data, x ≠ 0 → y ≠ 0 → x = y)) :
    gevfit data intervals m yrs = .ok (.missing intervals.length) := by
  unfold gevfit
  rw [if_neg hd]
  split
  · next hp =>
    simp only
    rw [if_neg]
    rintro ⟨⟨x, hx, y, hy, hxy⟩, hm⟩
    rw [List.mem_filter] at hx hy
    rcases h with h | h | h
    · obtain ⟨z, hz, hz'⟩ := hp
      exact absurd (h z hz) (not_le.2 hz')
    · omega
    · exact hxy (h x hx.1 y hy.1 (by simpa using hx.2) (by simpa using hy.2))
  · rfl

/-- C23: the reported levels increase strictly with the return period, and stay below the bound given
by the parameters. -/
theorem C23_levels_increase {data intervals : List ℝ} {m : ℕ} {yrs : ℝ} {f : Fit} (hy : 0 < yrs)
    (h : gevfit data intervals m yrs = .ok f) {i j : ℕ} {t t' w w' : ℝ} (ht : 0 < t) (htt : t < t')
    (hi : intervals[i]? = some t) (hj : intervals[j]? = some t') (hwi : f.levels[i]? = some (some w))
    (hwj : f.levels[j]? = some (some w')) : w < w' := by
  rcases gevfit_ok h with rfl | ⟨_, _, _, _, l1, l2, t3, _, hl, ht3, rfl⟩
  · have := List.mem_of_getElem? hwi
    simp [Fit.missing] at this
  · simp only [List.getElem?_map, hi, hj, Option.map_some, Option.some.injEq] at hwi hwj
    split at hwi
    · cases hwi
    · next hk =>
      rw [if_neg hk] at hwj
      have hk' := not_le.1 hk
      exact gevLevel_mono hy (pelgev_scale_pos hk') hk' ht htt hwi hwj

theorem C23_levels_bounded {data intervals : List ℝ} {m : ℕ} {yrs : ℝ} {f : Fit} (hy : 0 < yrs)
    (h : gevfit data intervals m yrs = .ok f) {i : ℕ} {t w : ℝ} (ht : 0 < t)
    (hi : intervals[i]? = some t) (hwi : f.levels[i]? = some (some w)) :
    ∃ loc scale shp, f.loc = some loc ∧ f.scale = some scale ∧ f.shape = some shp ∧ 0 < shp ∧ 0 < scale ∧
      yrs < t ∧ w < loc + scale / shp := by
  rcases gevfit_ok h with rfl | ⟨_, _, _, _, l1, l2, t3, _, hl, ht3, rfl⟩
  · have := List.mem_of_getElem? hwi
    simp [Fit.missing] at this
  · simp only [List.getElem?_map, hi, Option.map_some, Option.some.injEq] at hwi
    split at hwi
    · cases hwi
    · next hk =>
      have hk' := not_le.1 hk
      exact ⟨_, _, _, rfl, rfl, rfl, hk', pelgev_scale_pos hk', (gevLevel_eq_some ht hwi).1,
        gevLevel_lt hy (pelgev_scale_pos hk') hk' ht hwi⟩

/-- C23: with a fitted positive shape, every period longer than a block has a reported level. -/
theorem C23_levels_reported {data intervals : List ℝ} {m : ℕ} {yrs : ℝ} {f : Fit}
    (h : gevfit data intervals m yrs = .ok f) {i : ℕ} {t shp : ℝ} (ht : 0 < t) (hty : yrs < t)
    (hi : intervals[i]? = some t) (hs : f.shape = some shp) (hp : 0 < shp) :
    ∃ w, f.levels[i]? = some (some w) := by
  rcases gevfit_ok h with rfl | ⟨_, _, _, _, l1, l2, t3, _, hl, ht3, rfl⟩
  · cases hs
  · simp only [Option.some.injEq] at hs
    have h1 : ¬ (1 - yrs / t ≤ 0) := by
      have := (div_lt_one ht).2 hty
      linarith
    simp only [List.getElem?_map, hi, Option.map_some, Option.some.injEq, hs, if_neg (not_le.2 hp), gevLevel,
      if_neg h1]
    exact ⟨_, rfl⟩

/-- The sign of the fitted shape is decided by the L-skewness. -/
theorem pelgev_shape_pos {l1 l2 t3 : ℝ} (hl : 0 < l2) (h1 : -0.8 ≤ t3) (h2 : t3 ≤ 0.1698) : 0 < (pelgev l1 l2 t3).2.2 := by
  unfold pelgev
  rw [if_neg (not_le.2 hl), if_neg (by rw [not_le, abs_lt]; constructor <;> linarith)]
  split
  · rename_i h0
    have hG : 1e-4 ≤ approxPos t3 := by
      unfold approxPos
      simp only
      obtain ⟨Z, hZ⟩ : ∃ Z, Z = 1 - t3 := ⟨_, rfl⟩
      rw [← hZ]
      have z1 : 0.8302 ≤ Z := by rw [hZ]; linarith
      have z2 : Z < 1 := by rw [hZ]; linarith
      have hD : 0 < 1 + Z * (-0.64363929 + Z * 0.08985247) := by nlinarith
      rw [le_div_iff₀ hD]
      have hD1 : 1 + Z * (-0.64363929 + Z * 0.08985247) ≤ 1 := by nlinarith
      have hN : -1 + Z * (1.59921491 + Z * (-0.48832213 + Z * 0.01573152)) =
          (Z - 0.8302) * (1.59921491 - 0.48832213 * (Z + 0.8302) + 0.01573152 * (Z * Z + 0.8302 * Z + 0.8302 * 0.8302)) +
          (-1 + 0.8302 * (1.59921491 + 0.8302 * (-0.48832213 + 0.8302 * 0.01573152))) := by ring
      have hF : 0 ≤ 1.59921491 - 0.48832213 * (Z + 0.8302) + 0.01573152 * (Z * Z + 0.8302 * Z + 0.8302 * 0.8302) := by nlinarith
      have := mul_nonneg (sub_nonneg.2 z1) hF
      have hc : (1e-4 : ℝ) ≤ -1 + 0.8302 * (1.59921491 + 0.8302 * (-0.48832213 + 0.8302 * 0.01573152)) := by norm_num
      rw [hN]
      nlinarith
    simp only
    rw [if_neg (by rw [not_lt, abs_of_pos (by linarith)]; norm_num at hG ⊢; linarith), withShape_shape]
    norm_num at hG ⊢
    linarith
  · rename_i h0
    rw [not_lt] at h0
    simp only
    rw [if_neg (not_lt.2 h1), withShape_shape]
    unfold approxNeg
    obtain ⟨s, hs⟩ : ∃ s, s = -t3 := ⟨_, rfl⟩
    have ht : t3 = -s := by linarith
    have s0 : 0 ≤ s := by linarith
    have s1 : s ≤ 0.8 := by linarith
    rw [ht]
    apply div_pos
    · have a : 0 ≤ s * s := mul_nonneg s0 s0
      have b : 0 ≤ s * s * s := mul_nonneg a s0
      have c : s * s ≤ 0.8 * s := mul_le_mul_of_nonneg_right s1 s0
      have d : s * s * s * s ≤ 0.8 * (s * s * s) := by nlinarith
      have e : -s * (-1.21096399 + -s * (-2.50728214 + -s * (-1.13455566 + -s * -0.07138022))) =
        1.21096399 * s - 2.50728214 * (s * s) + 1.13455566 * (s * s * s) - 0.07138022 * (s * s * s * s) := by ring
      rw [e]
      nlinarith [sq_nonneg (s - 0.8), mul_nonneg s0 (sub_nonneg.2 s1), mul_nonneg a (sub_nonneg.2 s1)]
    · have e : 1 + -s * (2.06189696 + -s * (1.31912239 + -s * 0.25077104)) =
        1 - 2.06189696 * s + 1.31912239 * (s * s) - 0.25077104 * (s * s * s) := by ring
      rw [e]
      nlinarith [mul_nonneg s0 (sub_nonneg.2 s1), mul_nonneg (mul_nonneg s0 s0) (sub_nonneg.2 s1), sq_nonneg (s - 0.8)]

theorem pelgev_shape_nonpos {l1 l2 t3 : ℝ} (hl : 0 < l2) (h1 : 0.17 ≤ t3) (h2 : t3 < 1) : (pelgev l1 l2 t3).2.2 ≤ 0 := by
  unfold pelgev
  rw [if_neg (not_le.2 hl), if_neg (by rw [not_le, abs_lt]; constructor <;> linarith), if_pos (by linarith)]
  simp only
  split
  · simp
  · rw [withShape_shape]
    unfold approxPos
    simp only
    obtain ⟨Z, hZ⟩ : ∃ Z, Z = 1 - t3 := ⟨_, rfl⟩
    rw [← hZ]
    have z1 : Z ≤ 0.83 := by rw [hZ]; linarith
    have z2 : 0 < Z := by rw [hZ]; linarith
    have hD : 0 < 1 + Z * (-0.64363929 + Z * 0.08985247) := by nlinarith
    rw [div_nonpos_iff]
    right
    refine ⟨?_, hD.le⟩
    have hN : -1 + Z * (1.59921491 + Z * (-0.48832213 + Z * 0.01573152)) =
        (Z - 0.83) * (1.59921491 - 0.48832213 * (Z + 0.83) + 0.01573152 * (Z * Z + 0.83 * Z + 0.83 * 0.83)) +
        (-1 + 0.83 * (1.59921491 + 0.83 * (-0.48832213 + 0.83 * 0.01573152))) := by ring
    have hF : 0 ≤ 1.59921491 - 0.48832213 * (Z + 0.83) + 0.01573152 * (Z * Z + 0.83 * Z + 0.83 * 0.83) := by nlinarith
    have := mul_nonpos_of_nonpos_of_nonneg (sub_nonpos.2 z1) hF
    have hc : -1 + 0.83 * (1.59921491 + 0.83 * (-0.48832213 + 0.83 * 0.01573152)) ≤ (0 : ℝ) := by norm_num
    rw [hN]
    linarith

/-- C23: what decides whether the levels of a usable record are reported is its L-skewness: with 0.17 or more (a heavy tail)
every level is missing, although the parameters are reported. -/
theorem C23_skewed_missing {data intervals : List ℝ} {m : ℕ} {yrs : ℝ} {f : Fit} (h : gevfit data intervals m yrs = .ok f)
    (hs : 0.17 * sampleL2 data.length (data.getD · 0) ≤ sampleL3 data.length (data.getD · 0)) :
    ∀ v ∈ f.levels, v = none := by
  rcases gevfit_ok h with rfl | ⟨h1, h2, h3, h4, l1, l2, t3, hm, hl, ht, rfl⟩
  · simp [Fit.missing]
  · rw [C45_sample_moments data h4] at hm
    simp only [Except.ok.injEq, Prod.mk.injEq] at hm
    obtain ⟨-, e2, e3⟩ := hm
    rw [e2] at hs e3
    have : 0.17 ≤ t3 := by rw [← e3, le_div_iff₀ hl]; exact hs
    intro v hv
    obtain ⟨t, -, rfl⟩ := List.mem_map.1 hv
    rw [if_pos (pelgev_shape_nonpos hl this (abs_lt.1 ht).2)]

/-- C23: with an L-skewness from -0.8 to 0.1698 all levels of a usable record are reported, for the periods longer than a
block. -/
theorem C23_usable_reported {data intervals : List ℝ} {m : ℕ} {yrs : ℝ} {f : Fit} (h : gevfit data intervals m yrs = .ok f)
    (hpos : ∃ x ∈ data, 0 < x) (hcount : m ≤ (data.filter (· ≠ 0)).length)
    (hdiff : ∃ x ∈ data, ∃ y ∈ data, x ≠ 0 ∧ y ≠ 0 ∧ x ≠ y) (hl2 : 0 < sampleL2 data.length (data.getD · 0))
    (hs : -0.8 * sampleL2 data.length (data.getD · 0) ≤ sampleL3 data.length (data.getD · 0))
    (hs' : sampleL3 data.length (data.getD · 0) ≤ 0.1698 * sampleL2 data.length (data.getD · 0))
    {i : ℕ} {t : ℝ} (ht : 0 < t) (hty : yrs < t) (hi : intervals[i]? = some t) :
    ∃ w, f.levels[i]? = some (some w) := by
  have t1 : -0.8 ≤ sampleL3 data.length (data.getD · 0) / sampleL2 data.length (data.getD · 0) := (le_div_iff₀ hl2).2 hs
  have t2 : sampleL3 data.length (data.getD · 0) / sampleL2 data.length (data.getD · 0) ≤ 0.1698 := (div_le_iff₀ hl2).2 hs'
  have hd : data ≠ [] := by rintro rfl; simp at hpos
  have hlen : 2 < data.length := by
    by_contra hc
    unfold gevfit at h
    rw [if_neg hd, if_pos hpos] at h
    simp only at h
    rw [if_pos, C45_too_few data (by omega)] at h
    · cases h
    · obtain ⟨x, hx, y, hy, x0, y0, hxy⟩ := hdiff
      refine ⟨⟨x, ?_, y, ?_, hxy⟩, hcount⟩ <;> rw [List.mem_filter] <;> simp_all
  have hf : ∃ shp, f.shape = some shp ∧ 0 < shp := by
    unfold gevfit at h
    rw [if_neg hd, if_pos hpos] at h
    simp only at h
    rw [if_pos, C45_sample_moments data hlen] at h
    · simp only at h
      rw [if_neg] at h
      · simp only [Except.ok.injEq] at h
        rw [← h]
        exact ⟨_, rfl, pelgev_shape_pos hl2 t1 t2⟩
      · push Not
        exact ⟨hl2, by rw [abs_lt]; constructor <;> linarith⟩
    · obtain ⟨x, hx, y, hy, x0, y0, hxy⟩ := hdiff
      refine ⟨⟨x, ?_, y, ?_, hxy⟩, hcount⟩ <;> rw [List.mem_filter] <;> simp_all
  obtain ⟨shp, a, b⟩ := hf
  exact C23_levels_reported h ht hty hi a b

/-- C23: the fit of a cell does not depend on the order of the annual values. -/
theorem C23_record_order {r r' : List ℝ} (h : r.Perm r') (intervals : List ℝ) (m : ℕ) (yrs : ℝ) :
    gevCell r intervals m yrs = gevCell r' intervals m yrs := by
  have hs : (r.mergeSort fun a b => decide (a ≤ b)) = r'.mergeSort fun a b => decide (a ≤ b) := by
    refine List.Perm.eq_of_pairwise (le := fun a b => decide (a ≤ b)) ?_
      (List.pairwise_mergeSort ?_ ?_ r) (List.pairwise_mergeSort ?_ ?_ r')
      ((List.mergeSort_perm _ _).trans (h.trans (List.mergeSort_perm _ _).symm))
    · intro a b _ _ h1 h2
      exact le_antisymm (of_decide_eq_true h1) (of_decide_eq_true h2)
    all_goals intros; simp_all [le_total]
    all_goals exact le_trans (by assumption) (by assumption)
  have h1 : r = [] ↔ r' = [] := ⟨fun e => by subst e; exact List.nil_perm.1 h,
    fun e => by subst e; exact List.perm_nil.1 h⟩
  have h2 : (∃ x ∈ r, x > 0) ↔ ∃ x ∈ r', x > 0 :=
    ⟨fun ⟨x, hx, hp⟩ => ⟨x, h.mem_iff.1 hx, hp⟩, fun ⟨x, hx, hp⟩ => ⟨x, h.mem_iff.2 hx, hp⟩⟩
  unfold gevCell
  rw [hs]
  simp only [h1, h2]

/-- A usable record with a positive shape: 1, 2, 3 has L-skewness 0; the level for 10 years is
reported. -/
example : ∃ f w, gevfit [1, 2, 3] [10] 2 1 = .ok f ∧ f.levels = [some w] := by
  have hm : samlmu3 [1, 2, 3] = .ok (2, 2 / 3, 0) := by
    rw [samlmu3_eq (by simp)]
    simp [sum_range_succ, p1, p2]
    norm_num
  have hp : (pelgev 2 (2 / 3) 0).2.2 = 0.28377530 := by
    unfold pelgev
    rw [if_neg (by norm_num), if_neg (by norm_num), if_neg (by norm_num)]
    simp only
    rw [if_neg (by norm_num), withShape_shape]
    unfold approxNeg
    norm_num
  have hg : gevfit [1, 2, 3] [10] 2 1 = .ok ⟨[10].map fun t => if (pelgev 2 (2 / 3) 0).2.2 ≤ 0 then none
      else gevLevel (pelgev 2 (2 / 3) 0).1 (pelgev 2 (2 / 3) 0).2.1 (pelgev 2 (2 / 3) 0).2.2 1 t,
      some (pelgev 2 (2 / 3) 0).1, some (pelgev 2 (2 / 3) 0).2.1, some (pelgev 2 (2 / 3) 0).2.2⟩ := by
    unfold gevfit
    rw [if_neg (by simp), if_pos ⟨1, by simp, by norm_num⟩]
    simp only
    rw [if_pos ⟨⟨1, by simp, 2, by simp, by norm_num⟩, by norm_num [List.filter]⟩, hm]
    simp only
    rw [if_neg (by norm_num)]
  have hv : ∃ w, gevLevel (pelgev 2 (2 / 3) 0).1 (pelgev 2 (2 / 3) 0).2.1 (pelgev 2 (2 / 3) 0).2.2 1 10 =
      some w := by
    rw [gevLevel, if_neg (by norm_num)]
    exact ⟨_, rfl⟩
  obtain ⟨w, hv⟩ := hv
  refine ⟨_, w, hg, ?_⟩
  simp only [List.map_cons, List.map_nil, hv]
  rw [if_neg (by rw [hp]; norm_num)]

/-- The two kinds of records: 1, 2, 3 is symmetric, 1, 2, 4.5 has L-skewness 3/7. -/
example : sampleL2 3 (([1, 2, 3] : List ℝ).getD · 0) = 2 / 3 ∧ sampleL3 3 (([1, 2, 3] : List ℝ).getD · 0) = 0 ∧
    sampleL2 3 (([1, 2, 4.5] : List ℝ).getD · 0) = 7 / 6 ∧ sampleL3 3 (([1, 2, 4.5] : List ℝ).getD · 0) = 1 / 2 := by
  refine ⟨?_, ?_, ?_, ?_⟩ <;> norm_num [sampleL2, sampleL3, sum_range_succ]

example : ∃ f, gevfit [1, 2, 4.5] [10] 2 1 = .ok f ∧ f.shape ≠ none := by
  have hm : samlmu3 [1, 2, 4.5] = .ok (2.5, 7 / 6, 3 / 7) := by
    rw [samlmu3_eq (by simp)]
    simp [sum_range_succ, p1, p2]
    norm_num
  unfold gevfit
  rw [if_neg (by simp), if_pos ⟨1, by simp, by norm_num⟩]
  simp only
  rw [if_pos ⟨⟨1, by simp, 2, by simp, by norm_num⟩, by norm_num [List.filter]⟩, hm]
  simp only
  rw [if_neg (by norm_num [abs_of_pos])]
  exact ⟨_, rfl, by simp⟩

/-! ### C60: cells that no event reaches -/

/-- C60 fails: a cell whose record is zero throughout gets the return level 0 and parameters 0, not the
missing value. -/
theorem C60_zero_cell_fails {record : List ℝ} (hr : record ≠ []) (h : ∀ x ∈ record, x ≤ 0)
    (intervals : List ℝ) (m : ℕ) (yrs : ℝ) : gevCell record intervals m yrs =
      .ok ⟨List.replicate intervals.length (some 0), some 0, some 0, some 0⟩ := by
  unfold gevCell
  rw [if_neg hr, if_neg]
  rintro ⟨x, hx, hp⟩
  exact absurd (h x hx) (not_le.2 hp)

example : (∀ x ∈ ([0, 0, 0] : List ℝ), x ≤ 0) := by simp

/-- C60 for the cells with at least one positive value: a record that cannot be fitted is missing. -/
theorem C60_missing_partial {record : List ℝ} (hp : ∃ x ∈ record, 0 < x) {intervals : List ℝ} {m : ℕ}
    {yrs : ℝ} (h : (record.filter (· ≠ 0)).length < m ∨
      (∀ x ∈ record, ∀ y ∈ record, x ≠ 0 → y ≠ 0 → x = y)) :
    gevCell record intervals m yrs = .ok (.missing intervals.length) := by
  have hr : record ≠ [] := by rintro rfl; simp at hp
  have hmem : ∀ x, x ∈ (record.mergeSort fun a b => decide (a ≤ b)) ↔ x ∈ record := fun x =>
    (List.mergeSort_perm _ _).mem_iff
  unfold gevCell
  rw [if_neg hr, if_pos hp]
  refine C23_unusable_is_missing ?_ ?_
  · intro e
    obtain ⟨x, hx, _⟩ := hp
    have := (hmem x).2 hx
    rw [e] at this; simp at this
  · right
    rcases h with h | h
    · left
      have := ((List.mergeSort_perm record fun a b => decide (a ≤ b)).filter (· ≠ 0)).length_eq
      omega
    · right
      intro x hx y hy
      exact h x ((hmem x).1 hx) y ((hmem y).1 hy)

/-! ### C58 -/

/-- First two L-moments of a GEV distribution (Hosking 1990, table 1), shape `k ≠ 0`, `k > -1`. -/
noncomputable def gevL1 (loc scale k : ℝ) : ℝ := loc + scale * (1 - Real.Gamma (1 + k)) / k
noncomputable def gevL2 (scale k : ℝ) : ℝ := scale * (1 - (2 : ℝ) ^ (-k)) * Real.Gamma (1 + k) / k

/-- C58: the fitted GEV distribution has exactly the given first two L-moments, whenever its shape is
above -1 and not 0. -/
theorem C58_moments_reproduced {l1 l2 t3 : ℝ} (hk : (pelgev l1 l2 t3).2.2 ≠ 0)
    (hk1 : -1 < (pelgev l1 l2 t3).2.2) :
    gevL1 (pelgev l1 l2 t3).1 (pelgev l1 l2 t3).2.1 (pelgev l1 l2 t3).2.2 = l1 ∧
    gevL2 (pelgev l1 l2 t3).2.1 (pelgev l1 l2 t3).2.2 = l2 := by
  have key : ∀ G : ℝ, G ≠ 0 → -1 < G →
      gevL1 (withShape l1 l2 G).1 (withShape l1 l2 G).2.1 (withShape l1 l2 G).2.2 = l1 ∧
      gevL2 (withShape l1 l2 G).2.1 (withShape l1 l2 G).2.2 = l2 := by
    intro G hG hG1
    have h1 : Real.Gamma (1 + G) ≠ 0 := (Real.Gamma_pos_of_pos (by linarith)).ne'
    have h2 : 1 - (2 : ℝ) ^ (-G) ≠ 0 := by
      intro e
      have e' : (2 : ℝ) ^ (-G) = 1 := by linarith
      rcases lt_or_gt_of_ne hG with h | h
      · have := Real.one_lt_rpow (show (1 : ℝ) < 2 by norm_num) (show 0 < -G by linarith)
        linarith
      · have := Real.rpow_lt_one_of_one_lt_of_neg (show (1 : ℝ) < 2 by norm_num) (show -G < 0 by linarith)
        linarith
    constructor
    · simp [gevL1, withShape]
    · simp only [gevL2, withShape]
      field_simp
  unfold pelgev at hk hk1 ⊢
  split at hk
  · exact absurd rfl hk
  · next hl =>
    rw [if_neg hl] at hk1 ⊢
    split at hk
    · exact absurd rfl hk
    · next ht =>
      rw [if_neg ht] at hk1 ⊢
      split at hk
      · next h0 =>
        rw [if_pos h0] at hk1 ⊢
        simp only at hk hk1 ⊢
        split at hk
        · exact absurd rfl hk
        · next hs =>
          rw [if_neg hs] at hk1 ⊢
          exact key _ hk hk1
      · next h0 =>
        rw [if_neg h0] at hk1 ⊢
        simp only at hk hk1 ⊢
        split at hk
        · next hs => rw [if_pos hs] at hk1 ⊢; exact key _ hk hk1
        · next hs => rw [if_neg hs] at hk1 ⊢; exact key _ hk hk1

/-! ### C24 -/

/-- C24: level of the period of a level, and period of the level of a period. -/
theorem C24_period_of_level {T mu shape scale rate npyr : ℝ} (hT : 0 < T) (hk : shape ≠ 0)
    (hs : 0 < scale) (hr : 0 < rate) (hn : 0 < npyr) :
    gpdRecurrenceInterval (gpdReturnLevel T mu shape scale rate npyr) mu shape scale rate npyr = T := by
  unfold gpdRecurrenceInterval gpdReturnLevel
  have hb : 0 < T * npyr * rate := by positivity
  have : (mu + scale / shape * ((T * npyr * rate) ^ shape - 1) - mu) * (shape / scale) + 1 =
      (T * npyr * rate) ^ shape := by
    field_simp; ring
  rw [this, ← Real.rpow_mul hb.le, mul_one_div_cancel hk, Real.rpow_one]
  field_simp

theorem C24_level_of_period {x mu shape scale rate npyr : ℝ} (hk : shape ≠ 0) (hs : 0 < scale)
    (hr : 0 < rate) (hn : 0 < npyr) (hx : 0 < (x - mu) * (shape / scale) + 1) :
    gpdReturnLevel (gpdRecurrenceInterval x mu shape scale rate npyr) mu shape scale rate npyr = x := by
  unfold gpdRecurrenceInterval gpdReturnLevel
  have : ((x - mu) * (shape / scale) + 1) ^ (1 / shape) / (npyr * rate) * npyr * rate =
      ((x - mu) * (shape / scale) + 1) ^ (1 / shape) := by field_simp
  rw [this, ← Real.rpow_mul hx.le, one_div_mul_cancel hk, Real.rpow_one]
  field_simp; ring

/-- C24: return levels increase strictly with the period. -/
theorem C24_levels_increase {T T' mu shape scale rate npyr : ℝ} (hT : 0 < T) (hTT : T < T')
    (hk : shape ≠ 0) (hs : 0 < scale) (hr : 0 < rate) (hn : 0 < npyr) :
    gpdReturnLevel T mu shape scale rate npyr < gpdReturnLevel T' mu shape scale rate npyr := by
  unfold gpdReturnLevel
  have hb : 0 < T * npyr * rate := by positivity
  have hlt : T * npyr * rate < T' * npyr * rate := by
    have : 0 < npyr * rate := by positivity
    nlinarith
  rcases lt_or_gt_of_ne hk with h | h
  · have hp := Real.rpow_lt_rpow_of_neg hb hlt h
    have hc : scale / shape < 0 := div_neg_of_pos_of_neg hs h
    nlinarith
  · have hp := Real.rpow_lt_rpow hb.le hlt h
    have hc : 0 < scale / shape := by positivity
    nlinarith

/-- C24: the level is above the threshold if and only if the period is longer than the mean interval
between exceedances. -/
theorem C24_above_threshold_iff {T mu shape scale rate npyr : ℝ} (hT : 0 < T) (hk : shape ≠ 0)
    (hs : 0 < scale) (hr : 0 < rate) (hn : 0 < npyr) :
    mu < gpdReturnLevel T mu shape scale rate npyr ↔ 1 / (npyr * rate) < T := by
  have hq : 0 < npyr * rate := by positivity
  have h0 : gpdReturnLevel (1 / (npyr * rate)) mu shape scale rate npyr = mu := by
    unfold gpdReturnLevel
    have : 1 / (npyr * rate) * npyr * rate = 1 := by field_simp
    rw [this, Real.one_rpow]; ring
  have hp : 0 < 1 / (npyr * rate) := by positivity
  constructor
  · intro h
    by_contra hc
    rcases eq_or_lt_of_le (not_lt.1 hc) with e | e
    · rw [e, h0] at h; exact lt_irrefl _ h
    · have := C24_levels_increase (mu := mu) hT e hk hs hr hn
      rw [h0] at this; linarith
  · intro h
    have := C24_levels_increase (mu := mu) hp h hk hs hr hn
    rwa [h0] at this

/-- C24: with a negative shape all levels are below `mu - scale / shape`. -/
theorem C24_bounded {T mu shape scale rate npyr : ℝ} (hT : 0 < T) (hk : shape < 0) (hs : 0 < scale)
    (hr : 0 < rate) (hn : 0 < npyr) : gpdReturnLevel T mu shape scale rate npyr < mu - scale / shape := by
  unfold gpdReturnLevel
  have hp := Real.rpow_pos_of_pos (show 0 < T * npyr * rate by positivity) shape
  have hc : scale / shape < 0 := div_neg_of_pos_of_neg hs hk
  nlinarith

/-- C24 for the fit: whatever the library returns, levels are reported only for a shape that is not
positive, and when it is negative, with positive scale and exceedances in the record, they increase with
the period and are bounded. -/
theorem C24_fit_levels {fit : List ℝ → Option (ℝ × ℝ)} {mu : ℝ} {data intervals : List ℝ} {numsim m : ℕ}
    {f : Fit} (h : gpdfit fit mu data intervals numsim m = .ok f) {w : ℝ} (hw : some w ∈ f.levels) :
    m ≤ data.length ∧ ∃ shape scale rate, f.shape = some shape ∧ f.scale = some scale ∧ shape ≤ 0 ∧
      0 ≤ rate ∧ f.levels = intervals.map fun t => some (gpdReturnLevel t mu shape scale rate 365.25) := by
  unfold gpdfit at h
  split at h
  · cases h; simp [Fit.missing] at hw
  · next hm =>
    refine ⟨not_lt.1 hm, ?_⟩
    split at h
    · cases h
    · simp only at h
      split at h
      · cases h; simp [Fit.missing] at hw
      · split at h
        · cases h; simp [Fit.missing] at hw
        · next hk =>
          cases h
          exact ⟨_, _, _, rfl, rfl, not_lt.1 hk, by positivity, rfl⟩

/-- C24 for the fit: one level is reported for every period asked for; a record that is too short, cannot be fitted or has a
positive shape is reported as missing throughout. -/
theorem C24_fit_missing {fit : List ℝ → Option (ℝ × ℝ)} {mu : ℝ} {data intervals : List ℝ} {numsim m : ℕ}
    {f : Fit} (h : gpdfit fit mu data intervals numsim m = .ok f) :
    f.levels.length = intervals.length ∧
    (m ≤ data.length → data ≠ [] → ∀ zeros, zeros + data.length = ⌊(numsim : ℝ) * 365.25⌋₊ →
      (∃ shape scale, fit ((List.replicate zeros 0 ++ data).filter (· > mu)) = some (shape, scale) ∧ shape ≤ 0 ∧
        f.shape = some shape ∧ f.scale = some scale ∧ f.loc = some mu ∧ ∀ l ∈ f.levels, l ≠ none) ∨
      ((∀ shape scale, fit ((List.replicate zeros 0 ++ data).filter (· > mu)) = some (shape, scale) → 0 < shape) ∧
        (∀ l ∈ f.levels, l = none) ∧ f.shape = none ∧ f.scale = none ∧ f.loc = none)) ∧
    (data.length < m → (∀ l ∈ f.levels, l = none) ∧ f.shape = none ∧ f.scale = none ∧ f.loc = none) := by
  unfold gpdfit at h
  split at h
  · next hm =>
    cases h
    refine ⟨by simp [Fit.missing], fun h _ => absurd h (not_le.2 hm), fun _ => ?_⟩
    simp [Fit.missing]
  · next hm =>
    refine ⟨?_, ?_, fun h => absurd h hm⟩
    · split at h
      · cases h
      · simp only at h
        split at h
        · cases h; simp [Fit.missing]
        · split at h <;> cases h <;> simp [Fit.missing]
    · intro _ hd zeros hz
      have hl : data.length ≠ 0 := by simpa using hd
      rw [fillDays, if_neg (by tauto), if_neg (by omega), show ⌊(numsim : ℝ) * 365.25⌋₊ - data.length = zeros by omega] at h
      simp only at h
      split at h
      · next e => cases h; right; exact ⟨fun a b e' => (by rw [e] at e'; cases e'), by simp [Fit.missing]⟩
      · next shape scale e =>
        split at h
        · next hk =>
          cases h; right
          exact ⟨fun a b e' => (by rw [e] at e'; cases e'; exact hk), by simp [Fit.missing]⟩
        · next hk => cases h; exact .inl ⟨shape, scale, e, not_lt.1 hk, rfl, rfl, rfl, by simp⟩

example : gpdReturnLevel 2 20 (-1) 3 1 1 = 21.5 ∧ gpdRecurrenceInterval 21.5 20 (-1) 3 1 1 = 2 := by
  constructor
  · norm_num [gpdReturnLevel, Real.rpow_neg]
  · norm_num [gpdRecurrenceInterval, Real.rpow_neg]

/-! ### C25 -/

/-- C25: the empirical recurrence intervals are positive and increase strictly with the rank. -/
theorem C25_intervals_increase {nobs : ℝ} {k k' : ℕ} (hk : k < k') (hk' : (k' : ℝ) < nobs + 1) :
    0 < emprp nobs k ∧ emprp nobs k < emprp nobs k' := by
  have h0 : (0 : ℝ) ≤ k := Nat.cast_nonneg k
  have hlt : (k : ℝ) < k' := by exact_mod_cast hk
  have hn : 0 < nobs + 1 := by linarith
  have h1 : (k : ℝ) / (nobs + 1) < k' / (nobs + 1) := by
    exact div_lt_div_of_pos_right hlt hn
  have h2 : (k' : ℝ) / (nobs + 1) < 1 := (div_lt_one hn).2 hk'
  unfold emprp
  constructor
  · have : 0 < 1 - (k : ℝ) / (nobs + 1) := by linarith
    positivity
  · have := one_div_lt_one_div_of_lt (show 0 < 1 - (k' : ℝ) / (nobs + 1) by linarith)
      (show 1 - (k' : ℝ) / (nobs + 1) < 1 - k / (nobs + 1) by linarith)
    exact div_lt_div_of_pos_right this (by norm_num)

/-- `searchsorted` on increasing knots. -/
theorem filter_range_prefix (p : ℕ → Bool) (hp : ∀ i j, i ≤ j → p j = true → p i = true) (n : ℕ) :
    ∃ c ≤ n, (List.range n).filter p = List.range c ∧ ∀ i < n, p i = true ↔ i < c := by
  induction n with
  | zero => exact ⟨0, le_refl _, rfl, fun i hi => absurd hi (Nat.not_lt_zero i)⟩
  | succ n ih =>
    obtain ⟨c, hc, e, hi⟩ := ih
    rw [List.range_succ, List.filter_append, e]
    by_cases h : p n = true
    · have hcn : c = n := by
        by_contra hne
        have hlt : c < n := by omega
        exact absurd ((hi c hlt).1 (hp c n hlt.le h)) (lt_irrefl _)
      refine ⟨n + 1, le_refl _, by simp [h, hcn, List.range_succ], fun i hi' => ⟨fun _ => hi', fun _ => ?_⟩⟩
      exact hp i n (by omega) h
    · refine ⟨c, by omega, by simp [h], fun i hi' => ?_⟩
      rcases Nat.lt_succ_iff_lt_or_eq.1 hi' with h' | rfl
      · exact hi i h'
      · exact ⟨fun h' => absurd h' h, fun h' => by omega⟩

theorem interp_cases {n : ℕ} {x y : ℕ → ℝ} {t w : ℝ} (hn : 2 ≤ n)
    (hx : ∀ i j, 1 ≤ i → i < j → j ≤ n → x i < x j) (h : interpLinear n x y t = .ok w) :
    ∃ hi, 2 ≤ hi ∧ hi ≤ n ∧ x (hi - 1) ≤ t ∧ t ≤ x hi ∧ (2 < hi → x (hi - 1) < t) ∧
      w = y (hi - 1) + (y hi - y (hi - 1)) / (x hi - x (hi - 1)) * (t - x (hi - 1)) := by
  unfold interpLinear at h
  split at h
  · cases h
  · next hr =>
    push Not at hr
    obtain ⟨_, h1, h2⟩ := hr
    -- the predicate restricted to the knots
    obtain ⟨c, hc, e, hi⟩ := filter_range_prefix (fun i => decide (i < n ∧ x (i + 1) < t)) (by
      intro i j hij hj
      simp only [decide_eq_true_eq] at hj ⊢
      refine ⟨by omega, ?_⟩
      rcases Nat.eq_or_lt_of_le hij with rfl | hlt
      · exact hj.2
      · exact (hx _ _ (by omega) (by omega) (by omega)).trans hj.2) n
    have e' : ((List.range n).filter fun i => decide (x (i + 1) < t)) = List.range c := by
      rw [← e]
      refine List.filter_congr fun i hi => ?_
      have := List.mem_range.1 hi
      simp [this]
    have hi' : ∀ i < n, x (i + 1) < t ↔ i < c := fun i hin => by
      have := hi i hin
      simpa [hin] using this
    rw [e', List.length_range] at h
    have hcn : c < n := by
      by_contra hcon
      have : c = n := by omega
      have := (hi' (n - 1) (by omega)).2 (by omega)
      rw [show n - 1 + 1 = n by omega] at this
      linarith
    simp only at h
    rw [if_neg (by omega)] at h
    simp only [Except.ok.injEq] at h
    refine ⟨max 2 (c + 1), le_max_left _ _, by omega, ?_, ?_, ?_, h.symm⟩
    · rcases Nat.lt_or_ge c 2 with hc2 | hc2
      · rw [show max 2 (c + 1) - 1 = 1 by omega]; exact h1
      · rw [show max 2 (c + 1) - 1 = c - 1 + 1 by omega]
        exact ((hi' (c - 1) (by omega)).2 (by omega)).le
    · rcases Nat.lt_or_ge c 1 with hc1 | hc1
      · have : ¬ x (0 + 1) < t := fun hh => by have := (hi' 0 (by omega)).1 hh; omega
        rw [show max 2 (c + 1) = 2 by omega]
        exact (not_lt.1 this).trans (hx 1 2 (by omega) (by omega) hn).le
      · rw [show max 2 (c + 1) = c + 1 by omega]
        exact not_lt.1 fun hh => absurd ((hi' c hcn).1 hh) (lt_irrefl _)
    · intro hgt
      rw [show max 2 (c + 1) - 1 = c - 1 + 1 by omega]
      exact (hi' (c - 1) (by omega)).2 (by omega)

/-- Linear interpolation of increasing values is monotone. -/
theorem interp_mono {n : ℕ} {x y : ℕ → ℝ} {t t' w w' : ℝ} (hn : 2 ≤ n)
    (hx : ∀ i j, 1 ≤ i → i < j → j ≤ n → x i < x j) (hy : ∀ i j, 1 ≤ i → i ≤ j → j ≤ n → y i ≤ y j)
    (htt : t ≤ t') (h : interpLinear n x y t = .ok w) (h' : interpLinear n x y t' = .ok w') : w ≤ w' := by
  obtain ⟨a, a1, a2, a3, a4, a5, rfl⟩ := interp_cases hn hx h
  obtain ⟨b, b1, b2, b3, b4, b5, rfl⟩ := interp_cases hn hx h'
  have dxa := sub_pos.2 (hx (a - 1) a (by omega) (by omega) a2)
  have dxb := sub_pos.2 (hx (b - 1) b (by omega) (by omega) b2)
  have dya := sub_nonneg.2 (hy (a - 1) a (by omega) (by omega) a2)
  have dyb := sub_nonneg.2 (hy (b - 1) b (by omega) (by omega) b2)
  rcases Nat.lt_trichotomy a b with hab | rfl | hab
  · have h1 : (y a - y (a - 1)) / (x a - x (a - 1)) * (t - x (a - 1)) ≤ y a - y (a - 1) := by
      rw [div_mul_eq_mul_div, div_le_iff₀ dxa]
      exact mul_le_mul_of_nonneg_left (by linarith) dya
    have h2 : 0 ≤ (y b - y (b - 1)) / (x b - x (b - 1)) * (t' - x (b - 1)) :=
      mul_nonneg (div_nonneg dyb dxb.le) (by linarith)
    have h3 := hy a (b - 1) (by omega) (by omega) (by omega)
    linarith
  · have : 0 ≤ (y a - y (a - 1)) / (x a - x (a - 1)) := div_nonneg dya dxa.le
    nlinarith [mul_le_mul_of_nonneg_left (show t - x (a - 1) ≤ t' - x (a - 1) by linarith) this]
  · have := b5
    have h1 : x b ≤ x (a - 1) := by
      rcases Nat.eq_or_lt_of_le (show b ≤ a - 1 by omega) with e | e
      · rw [← e]
      · exact (hx b (a - 1) (by omega) e (by omega)).le
    have h2 := a5 (by omega)
    linarith

/-- The filled and sorted record. -/
theorem fillDays_ok {data filled : List ℝ} {days : ℕ} (h : fillDays data days = .ok filled) :
    filled = List.replicate (days - data.length) 0 ++ data ∧ data.length ≤ days := by
  unfold fillDays at h
  split at h
  · cases h
  · split at h
    · cases h
    · next hl => cases h; exact ⟨rfl, not_lt.1 hl⟩

theorem days_ge {numsim : ℕ} (h : 1 ≤ numsim) : 2 ≤ ⌊(365.25 : ℝ) * numsim⌋₊ := by
  have : (1 : ℝ) ≤ numsim := by exact_mod_cast h
  exact Nat.le_floor (by push_cast; nlinarith)

/-- C25: the reported level never decreases when the interval increases, for a record of wind speeds
(not negative) of any length. -/
theorem C25_levels_increase {data intervals ws : List ℝ} {numsim : ℕ} (hn : 1 ≤ numsim)
    (hd : ∀ x ∈ data, 0 ≤ x) (h : empfit data intervals numsim = .ok ws) {i j : ℕ} {t t' w w' : ℝ}
    (htt : t ≤ t') (hi : intervals[i]? = some t) (hj : intervals[j]? = some t')
    (hwi : ws[i]? = some w) (hwj : ws[j]? = some w') : w ≤ w' := by
  unfold empfit at h
  simp only at h
  split at h
  · cases h
  · next wspd hf =>
    have hmap : ∀ (l : List ℝ) (g : ℝ → Except Err ℝ) (r : List ℝ), l.mapM g = .ok r →
        ∀ (i : ℕ) (t w : ℝ), l[i]? = some t → r[i]? = some w → g t = .ok w := by
      intro l g
      induction l with
      | nil => intro r _ i t w ht; simp at ht
      | cons a l ih =>
        intro r hr i t w ht hw
        simp only [List.mapM_cons, bind, Except.bind] at hr
        split at hr
        · cases hr
        · next b hb =>
          split at hr
          · cases hr
          · next r' hr' =>
            simp only [pure, Except.pure, Except.ok.injEq] at hr
            subst hr
            cases i with
            | zero => simp only [List.getElem?_cons_zero, Option.some.injEq] at ht hw; rw [← ht, hb, hw]
            | succ i =>
              simp only [List.getElem?_cons_succ] at ht hw
              exact ih r' hr' i t w ht hw
    obtain ⟨hfe, hle⟩ := fillDays_ok hf
    have hlen : wspd.length = ⌊(365.25 : ℝ) * numsim⌋₊ := by rw [hfe]; simp at hle ⊢; omega
    have hsort : wspd.Pairwise (· ≤ ·) := by
      rw [hfe, List.pairwise_append]
      refine ⟨?_, ?_, ?_⟩
      · rw [List.pairwise_replicate]; simp
      · have := List.pairwise_mergeSort (le := fun a b : ℝ => decide (a ≤ b))
          (by intro a b c h1 h2; exact decide_eq_true (le_trans (of_decide_eq_true h1) (of_decide_eq_true h2)))
          (by intro a b; simp [le_total]) data
        exact this.imp fun h => of_decide_eq_true h
      · intro a ha b hb
        rw [(List.mem_replicate.1 ha).2]
        exact hd b ((List.mergeSort_perm _ _).mem_iff.1 hb)
    refine interp_mono (days_ge hn) (x := emprp (365.25 * numsim))
      (y := fun k => wspd.getD (k - 1) 0) ?_ ?_ htt (hmap _ _ _ h i t w hi hwi)
      (hmap _ _ _ h j t' w' hj hwj)
    · intro a b _ hab hb
      refine (C25_intervals_increase hab ?_).2
      have h1 : (b : ℝ) ≤ (⌊(365.25 : ℝ) * numsim⌋₊ : ℝ) := by exact_mod_cast hb
      have h2 : (⌊(365.25 : ℝ) * numsim⌋₊ : ℝ) ≤ 365.25 * numsim := Nat.floor_le (by positivity)
      linarith
    · intro a b ha hab hb
      have h1 : a - 1 < wspd.length := by omega
      have h2 : b - 1 < wspd.length := by omega
      simp only [List.getD_eq_getElem?_getD, List.getElem?_eq_getElem h1, List.getElem?_eq_getElem h2,
        Option.getD_some]
      rcases Nat.eq_or_lt_of_le (show a - 1 ≤ b - 1 by omega) with e | e
      · simp [e]
      · exact List.pairwise_iff_getElem.1 hsort _ _ h1 h2 e

/-- C25: the level reported for the recurrence interval of rank `k` is the `k`-th smallest daily value
of the simulated period (zeros on the days without an event). -/
theorem C25_level_of_rank {data : List ℝ} {numsim k : ℕ} (hn : 1 ≤ numsim) (hd : data ≠ [])
    (hl : data.length ≤ ⌊(365.25 : ℝ) * numsim⌋₊) (hk : 1 ≤ k) (hk' : k ≤ ⌊(365.25 : ℝ) * numsim⌋₊) :
    empfit data [emprp (365.25 * numsim) k] numsim =
      .ok [(List.replicate (⌊(365.25 : ℝ) * numsim⌋₊ - data.length) 0 ++
        data.mergeSort fun a b => decide (a ≤ b)).getD (k - 1) 0] := by
  have hdl : data.length ≠ 0 := by simpa [List.length_eq_zero_iff] using hd
  have hdays := days_ge hn
  have hx : ∀ i j : ℕ, 1 ≤ i → i < j → j ≤ ⌊(365.25 : ℝ) * numsim⌋₊ →
      emprp (365.25 * numsim) i < emprp (365.25 * numsim) j := by
    intro a b _ hab hb
    refine (C25_intervals_increase hab ?_).2
    have h1 : (b : ℝ) ≤ (⌊(365.25 : ℝ) * numsim⌋₊ : ℝ) := by exact_mod_cast hb
    have h2 : (⌊(365.25 : ℝ) * numsim⌋₊ : ℝ) ≤ 365.25 * numsim := Nat.floor_le (by positivity)
    linarith
  have hw : fillDays (data.mergeSort fun a b => decide (a ≤ b)) ⌊(365.25 : ℝ) * numsim⌋₊ = .ok
      (List.replicate (⌊(365.25 : ℝ) * numsim⌋₊ - data.length) 0 ++
        data.mergeSort fun a b => decide (a ≤ b)) := by
    unfold fillDays
    rw [if_neg (fun h => hdl (by simpa using h.1)), if_neg (by simpa using hl)]
    simp
  have hinj : ∀ i j : ℕ, 1 ≤ i → i ≤ ⌊(365.25 : ℝ) * numsim⌋₊ → 1 ≤ j → j ≤ ⌊(365.25 : ℝ) * numsim⌋₊ →
      emprp (365.25 * numsim) i ≤ emprp (365.25 * numsim) j → i ≤ j := by
    intro i j h1 h2 h3 h4 hle
    by_contra hc
    exact absurd (hx j i h3 (by omega) h2) (not_lt.2 hle)
  generalize hW : (List.replicate (⌊(365.25 : ℝ) * numsim⌋₊ - data.length) 0 ++
        data.mergeSort fun a b => decide (a ≤ b)) = W at hw ⊢
  have hv : interpLinear ⌊(365.25 : ℝ) * numsim⌋₊ (emprp (365.25 * numsim))
      (fun k => W.getD (k - 1) 0) (emprp (365.25 * numsim) k) = .ok (W.getD (k - 1) 0) := by
    have hex : ∃ v, interpLinear ⌊(365.25 : ℝ) * numsim⌋₊ (emprp (365.25 * numsim))
        (fun k => W.getD (k - 1) 0) (emprp (365.25 * numsim) k) = .ok v := by
      unfold interpLinear
      rw [if_neg]
      · simp only
        split <;> exact ⟨_, rfl⟩
      · push Not
        refine ⟨by omega, ?_, ?_⟩
        · rcases Nat.eq_or_lt_of_le hk with e | e
          · rw [← e]
          · exact (hx 1 k (le_refl _) e hk').le
        · rcases Nat.eq_or_lt_of_le hk' with e | e
          · rw [← e]
          · exact (hx k _ hk e (le_refl _)).le
    obtain ⟨v, hv⟩ := hex
    obtain ⟨hi, h2, hn', ha, hb, hc, rfl⟩ := interp_cases hdays hx hv
    rw [hv]
    have e1 := hinj _ _ (by omega) (by omega) hk hk' ha
    have e2 := hinj _ _ hk hk' (by omega) hn' hb
    rcases Nat.eq_or_lt_of_le e2 with e | e
    · subst e
      have : emprp (365.25 * numsim) k - emprp (365.25 * numsim) (k - 1) ≠ 0 :=
        (sub_pos.2 (hx (k - 1) k (by omega) (by omega) hk')).ne'
      congr 1
      rw [div_mul_cancel₀ _ this]
      ring
    · have : k = hi - 1 := by omega
      rw [this]
      simp
  unfold empfit
  simp only [hw]
  simp only [List.mapM_cons, List.mapM_nil, bind, Except.bind, hv, pure, Except.pure]

example : ([30, 20] : List ℝ).length ≤ ⌊(365.25 : ℝ) * (1 : ℕ)⌋₊ := Nat.le_floor (by norm_num)

/-! ### C59: which intervals can be evaluated -/

/-- C59: the interval equal to the number of simulated years can be evaluated if and only if that number
is a multiple of four. -/
theorem C59_full_period_iff {data : List ℝ} {numsim : ℕ} (hn : 1 ≤ numsim) (hd : data ≠ [])
    (hl : data.length ≤ ⌊(365.25 : ℝ) * numsim⌋₊) :
    (∃ ws, empfit data [(numsim : ℝ)] numsim = .ok ws) ↔ 4 ∣ numsim := by
  have hn' : (1 : ℝ) ≤ numsim := by exact_mod_cast hn
  have hdl : data.length ≠ 0 := by simpa [List.length_eq_zero_iff] using hd
  set N : ℝ := 365.25 * numsim with hN
  have hNpos : 365 ≤ N := by rw [hN]; nlinarith
  have hfill : ∃ wspd, fillDays (data.mergeSort fun a b => decide (a ≤ b)) ⌊N⌋₊ = .ok wspd := by
    unfold fillDays
    rw [if_neg (fun h => hdl (by simpa using h.1)), if_neg (by simpa using hl)]
    exact ⟨_, rfl⟩
  obtain ⟨wspd, hw⟩ := hfill
  have hfl : (⌊N⌋₊ : ℝ) ≤ N := Nat.floor_le (by linarith)
  have hfl' : N < ⌊N⌋₊ + 1 := Nat.lt_floor_add_one N
  have hgap : 0 < N + 1 - ⌊N⌋₊ := by linarith
  have hlast : emprp N ⌊N⌋₊ = (N + 1) / (N + 1 - ⌊N⌋₊) / 365.25 := by
    unfold emprp
    have : N + 1 ≠ 0 := by linarith
    have h2 := hgap.ne'
    have h3 : 1 - (⌊N⌋₊ : ℝ) / (N + 1) = (N + 1 - ⌊N⌋₊) / (N + 1) := by field_simp
    rw [h3, one_div_div]
  have hfirst : emprp N 1 ≤ numsim := by
    have hp : (0 : ℝ) < 1 - 1 / (N + 1) := by
      have : 1 / (N + 1) < 1 := by rw [div_lt_one (by linarith)]; linarith
      linarith
    have : 1 / (N + 1) ≤ 1 / 2 := one_div_le_one_div_of_le (by norm_num) (by linarith)
    have h2 : 1 / (1 - 1 / (N + 1)) ≤ 1 / (1 / 2) := one_div_le_one_div_of_le (by norm_num) (by linarith)
    have : emprp N 1 = 1 / (1 - 1 / (N + 1)) / 365.25 := by simp [emprp]
    rw [this, div_le_iff₀ (by norm_num)]
    norm_num at h2 ⊢
    nlinarith
  -- evaluation succeeds iff the interval is at most the last knot
  have hstep : (∃ ws, empfit data [(numsim : ℝ)] numsim = .ok ws) ↔ (numsim : ℝ) ≤ emprp N ⌊N⌋₊ := by
    unfold empfit
    simp only [← hN, hw]
    constructor
    · rintro ⟨ws, h⟩
      by_contra hc
      have : interpLinear ⌊N⌋₊ (emprp N) (fun k => wspd.getD (k - 1) 0) numsim = .error .valueError := by
        unfold interpLinear
        rw [if_pos (Or.inr (Or.inr (not_le.1 hc)))]
      simp only [List.mapM_cons, bind, Except.bind, this] at h
      cases h
    · intro hle
      have : ∃ v, interpLinear ⌊N⌋₊ (emprp N) (fun k => wspd.getD (k - 1) 0) numsim = .ok v := by
        unfold interpLinear
        rw [if_neg]
        · simp only
          split
          · exact ⟨_, rfl⟩
          · exact ⟨_, rfl⟩
        · push Not
          have := days_ge hn
          rw [← hN] at this
          exact ⟨by omega, hfirst, hle⟩
      obtain ⟨v, hv⟩ := this
      exact ⟨[v], by simp only [List.mapM_cons, List.mapM_nil, bind, Except.bind, hv, pure, Except.pure]⟩
  rw [hstep, hlast, le_div_iff₀ (by norm_num), le_div_iff₀ hgap]
  have hcomm : (numsim : ℝ) * 365.25 = N := by rw [hN]; ring
  rw [hcomm]
  -- the fractional part
  obtain ⟨q, r, hr, hqr⟩ : ∃ q r, r < 4 ∧ numsim = 4 * q + r :=
    ⟨numsim / 4, numsim % 4, Nat.mod_lt _ (by norm_num), (Nat.div_add_mod numsim 4).symm⟩
  have hNq : N = ((1461 * q + 365 * r : ℕ) : ℝ) + r / 4 := by
    rw [hN, hqr]; push_cast; ring
  have hr4 : (r : ℝ) / 4 < 1 := by
    have : (r : ℝ) < 4 := by exact_mod_cast hr
    linarith
  have hr0 : (0 : ℝ) ≤ r / 4 := by positivity
  have hfloor : ⌊N⌋₊ = 1461 * q + 365 * r := by
    rw [hNq, Nat.floor_eq_iff (by positivity)]
    constructor <;> linarith
  have hfr : N + 1 - (⌊N⌋₊ : ℝ) = 1 + r / 4 := by
    rw [hfloor]; linarith
  rw [hfr]
  constructor
  · intro h
    have : r = 0 := by
      by_contra hne
      have h1 : (1 : ℝ) ≤ r := by exact_mod_cast Nat.one_le_iff_ne_zero.2 hne
      nlinarith
    exact ⟨q, by omega⟩
  · rintro ⟨k, hk⟩
    have : r = 0 := by omega
    rw [this]; simp

/-- C59 fails: 1001 simulated years, an interval of 1001 years is within the simulation but refused. -/
theorem C59_counterexample : ¬ ∃ ws, empfit [30] [((1001 : ℕ) : ℝ)] 1001 = .ok ws := by
  rw [C59_full_period_iff (by norm_num) (by simp)]
  · norm_num
  · have := days_ge (show 1 ≤ 1001 by norm_num)
    simp only [List.length_singleton]
    omega

/-! ### C61: confidence intervals -/

/-- C61 fails: the confidence interval calculation raises TypeError whatever the record and the sample
size are (the number of samples is a float). -/
theorem C61_fails {R : Type} (nrecords sampleSize : ℤ) (rest : List ℚ → Except Err R) :
    calculateCI nrecords sampleSize rest = .error .typeError := rfl

end Tcrm.Evd
