import Verif.Lemmas.Windfield
/-!
C17, C18, C19: the regional wind field of a track, and its combination over the tracks of a file.

In C17 and C18 the margin is `M` and the grid step `r` hundredths of a degree (`margin = M/100`,
`resolution = r/100`); limits and positions are arbitrary rationals.
-/
namespace Tcrm.Windfield

/-- **C17**: in a bounded domain, if the grid step divides the double margin, the calculation
succeeds for every track, and every cell of the result records the extremes of the contributions
of the time steps. -/
theorem C17_regional_extremes (P : Params) (gl : Limits) (M r : ℤ) (hM : 0 ≤ M) (hr : 0 < r)
    (hd : r ∣ 2 * M) (hPm : P.margin = M / 100) (hPr : P.resolution = r / 100)
    (hPd : P.domain = .bounded) (p0 : ℝ) (track : List TimeStep) :
    ∃ f, regionalExtremes P gl p0 track = .ok (f, regionAxis gl.xMin gl.xMax P.margin P.resolution,
        regionAxis gl.yMin gl.yMax P.margin P.resolution) ∧
      ∀ j i, Extreme P.dir p0 (track.filterMap (contribution gl M r j i)) (f j i) := by
  obtain ⟨f, e, h⟩ := pasteAll_bounded P gl M r hM hr hPm hPr hPd p0 (track.filter (inRegion gl))
    (fun t ht => (List.mem_filter.1 ht).2)
    (fun t _ => ⟨Int.add_ediv_of_dvd_right hd, Int.add_ediv_of_dvd_right hd⟩) [] (fun _ _ => ⟨0, 0, 0, 0, p0⟩)
    (fun j i => extreme_nil P.dir p0)
  refine ⟨f, ?_, fun j i => ?_⟩
  · rw [regionalExtremes, if_neg]
    · simp only [e]
    · rw [hPr, pyInt_hundredths]; omega
  · have : (track.filter (inRegion gl)).filterMap (contribution gl M r j i) =
        track.filterMap (contribution gl M r j i) := by
      rw [List.filterMap_filter]
      congr 1
      funext t
      by_cases ht : inRegion gl t = true
      · simp [ht]
      · simp [contribution, ht]
    rw [← this]
    exact h j i

/-- A track of one step on a 10° × 10° region with margin 1° and resolution 0.5° contributes to
the cell under the storm. -/
example : contribution ⟨100, 110, -20, -10⟩ 100 50 12 12 ⟨105, -15, fun _ _ => (3, 4, 950)⟩ =
    some (3, 4, 950) := if_pos (by decide +kernel)

/-- **C18**: the window lies inside the regional grid along each axis, for every storm position
accepted as inside the region. -/
theorem C18_window_inside (c lo hi : ℚ) (M r : ℤ) (hM : 0 ≤ M) (hr : 0 < r) (h : lo ≤ c) (h' : c ≤ hi) :
    0 ≤ (window .bounded c lo hi (M / 100) (r / 100)).1 ∧
    (window .bounded c lo hi (M / 100) (r / 100)).1 < (window .bounded c lo hi (M / 100) (r / 100)).2 ∧
    (window .bounded c lo hi (M / 100) (r / 100)).2 ≤ ((regionAxis lo hi (M / 100) (r / 100)).length : ℤ) := by
  obtain ⟨h1, h2, h3⟩ := window_inside c lo hi M r hM hr h h'
  rw [window_bounded c lo hi M r hM hr h]
  exact ⟨h1, by simp only; omega, h3⟩

/-- **C18**: the window and the local grid have the same number of points along an axis if and
only if the remainders of the storm's offset and of the double margin add up to less than a grid
step. -/
theorem C18_shapes_match_iff (c lo hi : ℚ) (M r : ℤ) (hM : 0 ≤ M) (hr : 0 < r) (h : lo ≤ c) :
    (window .bounded c lo hi (M / 100) (r / 100)).2 - (window .bounded c lo hi (M / 100) (r / 100)).1 =
      ((localAxis c none none (M / 100) (r / 100)).length : ℤ) ↔
    (pyInt (100 * c) - pyInt (100 * lo)) % r + 2 * M % r < r := by
  have hs : 0 ≤ steps M r := Int.ediv_nonneg (by omega) hr.le
  rw [window_bounded c lo hi M r hM hr h, localAxis_length c M r hr, max_eq_left (by omega)]
  simp only [firstIndex, steps]
  generalize pyInt (100 * c) - pyInt (100 * lo) = a
  generalize 2 * M = b
  have a1 := Int.mul_ediv_add_emod a r
  have a2 := Int.emod_nonneg a hr.ne'
  have a3 := Int.emod_lt_of_pos a hr
  have b1 := Int.mul_ediv_add_emod b r
  have b2 := Int.emod_nonneg b hr.ne'
  have b3 := Int.emod_lt_of_pos b hr
  constructor
  · intro he
    have : (a + b) / r = a / r + b / r := by omega
    by_contra hc
    have : (a + b) / r = a / r + b / r + 1 := by
      rw [Int.ediv_eq_iff_of_pos hr]
      constructor <;> nlinarith
    omega
  · intro hlt
    have : (a + b) / r = a / r + b / r := by
      rw [Int.ediv_eq_iff_of_pos hr]
      constructor <;> nlinarith
    omega

/-- **C18**, what holds: the shapes always agree if the grid step divides the double margin. -/
theorem C18_shapes_partial (c lo hi : ℚ) (M r : ℤ) (hM : 0 ≤ M) (hr : 0 < r) (hd : r ∣ 2 * M) (h : lo ≤ c) :
    (window .bounded c lo hi (M / 100) (r / 100)).2 - (window .bounded c lo hi (M / 100) (r / 100)).1 =
      ((localAxis c none none (M / 100) (r / 100)).length : ℤ) := by
  rw [C18_shapes_match_iff c lo hi M r hM hr h, Int.emod_eq_zero_of_dvd hd, add_zero]
  exact Int.emod_lt_of_pos _ hr

/-- **C18** is false in general: whenever the grid step is at most the double margin and does not
divide it, in every region at least one grid step tall there is a storm position for which the
calculation fails (the local field does not fit the window). -/
theorem C18_mismatch_fails (P : Params) (gl : Limits) (M r : ℤ) (hM : 0 ≤ M) (hr : 0 < r)
    (hd : ¬ r ∣ 2 * M) (hle : r ≤ 2 * M) (hPm : P.margin = M / 100) (hPr : P.resolution = r / 100)
    (hPd : P.domain = .bounded) (p0 : ℝ) (hx : gl.xMin ≤ gl.xMax) (n : ℤ) (hn : gl.yMin = n / 100)
    (hy : gl.yMin + r / 100 ≤ gl.yMax) (wind : ℤ → ℤ → ℝ × ℝ × ℝ) :
    ∃ lon lat, inRegion gl ⟨lon, lat, wind⟩ = true ∧
      regionalExtremes P gl p0 [⟨lon, lat, wind⟩] = .error .valueError := by
  refine ⟨gl.xMin, ((n + r - 1 : ℤ) : ℚ) / 100, ?_, ?_⟩
  have hr' : (1 : ℚ) ≤ r := by exact_mod_cast hr
  have hlo : gl.yMin ≤ ((n + r - 1 : ℤ) : ℚ) / 100 := by
    rw [hn]; push_cast; linarith
  have hhi : ((n + r - 1 : ℤ) : ℚ) / 100 ≤ gl.yMax := by
    rw [hn] at hy; push_cast; linarith
  · simp [inRegion, hx]
    refine ⟨?_, ?_⟩
    · simpa using hlo
    · simpa using hhi
  · have hr' : (1 : ℚ) ≤ r := by exact_mod_cast hr
    have hlo : gl.yMin ≤ ((n + r - 1 : ℤ) : ℚ) / 100 := by
      rw [hn]; push_cast; linarith
    have hhi : ((n + r - 1 : ℤ) : ℚ) / 100 ≤ gl.yMax := by
      rw [hn] at hy; push_cast; linarith
    have hin : inRegion gl ⟨gl.xMin, ((n + r - 1 : ℤ) : ℚ) / 100, wind⟩ = true := by
      simp only [inRegion, decide_eq_true_eq]
      exact ⟨le_refl _, hx, hlo, hhi⟩
    rw [regionalExtremes, if_neg (by rw [hPr, pyInt_hundredths]; omega)]
    simp only [List.filter_cons, hin, if_true, List.filter_nil, pasteAll]
    have hiff := C18_shapes_match_iff (((n + r - 1 : ℤ) : ℚ) / 100) gl.yMin gl.yMax M r hM hr hlo
    obtain ⟨w1, w2, w3⟩ := C18_window_inside (((n + r - 1 : ℤ) : ℚ) / 100) gl.yMin gl.yMax M r hM hr hlo hhi
    have hs : 1 ≤ steps M r := by
      rw [steps, Int.le_ediv_iff_mul_le hr]; omega
    have hl := localAxis_length (((n + r - 1 : ℤ) : ℚ) / 100) M r hr
    rw [max_eq_left (by omega)] at hl
    have hno : ¬ ((pyInt (100 * (((n + r - 1 : ℤ) : ℚ) / 100)) - pyInt (100 * gl.yMin)) % r + 2 * M % r < r) := by
      rw [hn, pyInt_hundredths, pyInt_hundredths, show n + r - 1 - n = r - 1 by ring,
        Int.emod_eq_of_lt (by omega) (by omega)]
      have h0 : 2 * M % r ≠ 0 := fun h0 => hd (Int.dvd_of_emod_eq_zero h0)
      have h1 := Int.emod_nonneg (2 * M) hr.ne'
      omega
    rw [← hiff] at hno
    rw [show pasteStep P gl (regionAxis gl.yMin gl.yMax P.margin P.resolution)
      (regionAxis gl.xMin gl.xMax P.margin P.resolution) ⟨gl.xMin, ((n + r - 1 : ℤ) : ℚ) / 100, wind⟩
      (fun _ _ => ⟨0, 0, 0, 0, p0⟩) = .error .valueError from ?_]
    simp only [pasteStep, hPm, hPr, hPd, reduceCtorEq, if_false]
    rw [if_neg]
    rintro ⟨hf, -⟩
    rw [fits] at hf
    have e0 := bound_nonneg (regionAxis gl.yMin gl.yMax (M / 100) (r / 100)).length _ w1 (by omega)
    have e1 := bound_nonneg (regionAxis gl.yMin gl.yMax (M / 100) (r / 100)).length _ (by omega) w3
    rcases hf with hf | hf
    · apply hno; omega
    · omega

/-- For example: margin 2°, resolution 0.03°. -/
example : ¬ (3 : ℤ) ∣ 2 * 200 ∧ (3 : ℤ) ≤ 2 * 200 := by decide

/-- **C18**: the local field is pasted less than one grid step away from where it was calculated:
in thousandths of a degree, point `k` of the window lies within `10 r` of point `k` of the local
grid. -/
theorem C18_displacement (c lo : ℚ) (M r : ℤ) (hr : 0 < r) (k : ℤ) :
    |10 * (pyInt (100 * lo) - M + r * (firstIndex c lo r + k)) - (pyInt (1000 * c) - 10 * M + 10 * r * k)| <
      10 * r := by
  have h1 := Int.mul_ediv_add_emod (pyInt (100 * c) - pyInt (100 * lo)) r
  have h2 := Int.emod_nonneg (pyInt (100 * c) - pyInt (100 * lo)) hr.ne'
  have h3 := Int.emod_lt_of_pos (pyInt (100 * c) - pyInt (100 * lo)) hr
  have h4 : -10 < pyInt (1000 * c) - 10 * pyInt (100 * c) ∧ pyInt (1000 * c) - 10 * pyInt (100 * c) < 10 ∧
      (0 < pyInt (1000 * c) - 10 * pyInt (100 * c) → 0 ≤ c) := by
    by_cases hc : 0 ≤ c
    · rw [pyInt, if_pos (by linarith), pyInt, if_pos (by linarith)]
      have a1 := Int.floor_le (1000 * c)
      have a2 := Int.lt_floor_add_one (1000 * c)
      have b1 := Int.floor_le (100 * c)
      have b2 := Int.lt_floor_add_one (100 * c)
      refine ⟨?_, ?_, fun _ => hc⟩
      · have : ((-10 : ℤ) : ℚ) < ((⌊1000 * c⌋ - 10 * ⌊100 * c⌋ : ℤ) : ℚ) := by push_cast; linarith
        exact_mod_cast this
      · have : ((⌊1000 * c⌋ - 10 * ⌊100 * c⌋ : ℤ) : ℚ) < ((10 : ℤ) : ℚ) := by push_cast; linarith
        exact_mod_cast this
    · have hc' : c < 0 := not_le.1 hc
      rw [pyInt, if_neg (by linarith), pyInt, if_neg (by linarith)]
      have a1 := Int.le_ceil (1000 * c)
      have a2 := Int.ceil_lt_add_one (1000 * c)
      have b1 := Int.le_ceil (100 * c)
      have b2 := Int.ceil_lt_add_one (100 * c)
      have hle : ⌈1000 * c⌉ ≤ 10 * ⌈100 * c⌉ := by
        rw [Int.ceil_le]; push_cast; linarith
      refine ⟨?_, by omega, fun h => by omega⟩
      have : ((-10 : ℤ) : ℚ) < ((⌈1000 * c⌉ - 10 * ⌈100 * c⌉ : ℤ) : ℚ) := by push_cast; linarith
      exact_mod_cast this
  rw [firstIndex, abs_lt]
  rw [show 10 * (pyInt (100 * lo) - M + r * ((pyInt (100 * c) - pyInt (100 * lo)) / r + k)) -
      (pyInt (1000 * c) - 10 * M + 10 * r * k) =
      10 * (r * ((pyInt (100 * c) - pyInt (100 * lo)) / r)) - 10 * (pyInt (100 * c) - pyInt (100 * lo)) -
        (pyInt (1000 * c) - 10 * pyInt (100 * c)) by ring]
  omega

/-- **C18**: which cells receive a contribution along an axis (coordinates in hundredths of a
degree): all within the margin of the storm, and none farther than the margin plus a grid step. -/
theorem C18_reach (c lo : ℚ) (M r : ℤ) (hr : 0 < r) (hd : r ∣ 2 * M) (j : ℤ) :
    let Y := pyInt (100 * lo) - M + r * j
    (|Y - pyInt (100 * c)| ≤ M → 0 ≤ j - firstIndex c lo r ∧ j - firstIndex c lo r ≤ steps M r) ∧
    (0 ≤ j - firstIndex c lo r ∧ j - firstIndex c lo r ≤ steps M r →
      |Y - pyInt (100 * c)| < M + r) := by
  simp only [firstIndex, steps]
  obtain ⟨b, hb⟩ := hd
  rw [hb, Int.mul_ediv_cancel_left _ hr.ne']
  have h1 := Int.mul_ediv_add_emod (pyInt (100 * c) - pyInt (100 * lo)) r
  have h2 := Int.emod_nonneg (pyInt (100 * c) - pyInt (100 * lo)) hr.ne'
  have h3 := Int.emod_lt_of_pos (pyInt (100 * c) - pyInt (100 * lo)) hr
  generalize (pyInt (100 * c) - pyInt (100 * lo)) / r = q at *
  generalize (pyInt (100 * c) - pyInt (100 * lo)) % r = e at *
  constructor
  · intro h
    rw [abs_le] at h
    constructor
    · by_contra hc
      have : r * (j - q) ≤ r * (-1) := by apply mul_le_mul_of_nonneg_left _ hr.le; omega
      rw [mul_sub] at this
      omega
    · by_contra hc
      have : r * (b + 1) ≤ r * (j - q) := by apply mul_le_mul_of_nonneg_left _ hr.le; omega
      rw [mul_sub, mul_add] at this
      omega
  · rintro ⟨ha, hb'⟩
    have h4 : 0 ≤ r * (j - q) := mul_nonneg hr.le ha
    have h5 : r * (j - q) ≤ r * b := mul_le_mul_of_nonneg_left hb' hr.le
    rw [mul_sub] at h4 h5
    rw [abs_lt]
    omega

/-- **C18**, full domain: with non-zero limits given in hundredths of a degree and a grid step
dividing the extended extent, the local grid has exactly the points of the regional grid. -/
theorem C18_full_domain (c : ℚ) (a b M r : ℤ) (hr : 0 < r) (ha : a ≠ 0) (hb : b ≠ 0)
    (hd : r ∣ b - a + 2 * M) :
    localAxis c (some (a / 100)) (some (b / 100)) (M / 100) (r / 100) =
      (regionAxis (a / 100) (b / 100) (M / 100) (r / 100)).map (10 * ·) := by
  have ha' : ((a : ℚ) / 100) ≠ 0 := div_ne_zero (by exact_mod_cast ha) (by norm_num)
  have hb' : ((b : ℚ) / 100) ≠ 0 := div_ne_zero (by exact_mod_cast hb) (by norm_num)
  simp only [localAxis, regionAxis, given, Option.filter, ha', hb', ne_eq, not_false_eq_true,
    decide_true, if_true, pyInt_hundredths, pyInt_thousandths, pyInt_thousandths', arange, List.map_map]
  obtain ⟨q, hq⟩ := hd
  have e1 : -((10 * a - 10 * M - (10 * b + 10 * M + 1)) / (10 * r)) = q + 1 := by
    rw [show 10 * a - 10 * M - (10 * b + 10 * M + 1) = -(10 * (b - a + 2 * M)) - 1 by ring,
      neg_div_pred _ _ (by omega), Int.mul_ediv_mul_of_pos _ _ (by norm_num), hq,
      Int.mul_ediv_cancel_left _ hr.ne']
  have e2 : -((a - M - (b + M + r)) / r) = q + 1 := by
    rw [show a - M - (b + M + r) = -((q + 1) * r) by linarith, ← neg_mul,
      Int.mul_ediv_cancel _ hr.ne']
    ring
  rw [e1, e2]
  apply List.map_congr_left
  intro k _
  simp only [Function.comp]
  ring

/-- **C18** is false for a full domain with a limit at 0° (the limit is taken as not given): the
local grid then has a different number of points, and the calculation fails. -/
theorem C18_full_domain_zero_limit_fails (wind : ℤ → ℤ → ℝ × ℝ × ℝ) (dir : ℝ → ℝ → ℝ) (p0 : ℝ) :
    regionalExtremes ⟨1, 1, .full, dir⟩ ⟨0, 10, -20, -10⟩ p0 [⟨5, -15, wind⟩] = .error .valueError := by
  have h1 : inRegion ⟨0, 10, -20, -10⟩ ⟨5, -15, wind⟩ = true := by
    have : ((0 : ℚ) ≤ 5 ∧ (5 : ℚ) ≤ 10 ∧ (-20 : ℚ) ≤ -15 ∧ (-15 : ℚ) ≤ -10) := by norm_num
    exact decide_eq_true this
  have h3 : ¬ pyInt (100 * 1) = 0 := by decide +kernel
  have h2 : ¬ fits (localAxis 5 (some 0) (some 10) 1 1).length
      (bound (regionAxis 0 10 1 1).length (window .full 5 0 10 1 1).2 -
        bound (regionAxis 0 10 1 1).length (window .full 5 0 10 1 1).1) := by decide +kernel
  rw [regionalExtremes, if_neg h3]
  simp only [List.filter_cons, h1, if_true, List.filter_nil, pasteAll, pasteStep]
  rw [if_neg (fun h => h2 h.2)]

/-- **C18** is false for a resolution that is not a whole number of hundredths: with 0.025° the
local grid steps by 0.025° and the regional grid by 0.02°, and the calculation fails. -/
theorem C18_fine_resolution_fails (wind : ℤ → ℤ → ℝ × ℝ × ℝ) (dir : ℝ → ℝ → ℝ) (p0 : ℝ) :
    regionalExtremes ⟨2, 1 / 40, .bounded, dir⟩ ⟨100, 110, -20, -10⟩ p0 [⟨105, -15, wind⟩] =
      .error .valueError := by
  have h1 : inRegion ⟨100, 110, -20, -10⟩ ⟨105, -15, wind⟩ = true := by
    have : ((100 : ℚ) ≤ 105 ∧ (105 : ℚ) ≤ 110 ∧ (-20 : ℚ) ≤ -15 ∧ (-15 : ℚ) ≤ -10) := by norm_num
    exact decide_eq_true this
  have h3 : ¬ pyInt (100 * (1 / 40)) = 0 := by decide +kernel
  have h2 : ¬ fits (localAxis 105 none none 2 (1 / 40)).length
      (bound (regionAxis 100 110 2 (1 / 40)).length (window .bounded 105 100 110 2 (1 / 40)).2 -
        bound (regionAxis 100 110 2 (1 / 40)).length (window .bounded 105 100 110 2 (1 / 40)).1) := by
    decide +kernel
  rw [regionalExtremes, if_neg h3]
  simp only [List.filter_cons, h1, if_true, List.filter_nil, pasteAll, pasteStep, reduceCtorEq, if_false]
  rw [if_neg (fun h => h2 h.2)]

/-! ### C19 -/

/-- **C19**, what holds: the combined gust is the maximum and the combined pressure the minimum
over the tracks of the file. -/
theorem C19_extremes_partial (c : Cell) (cs : List Cell) (d : Cell) (h : combineTracks (c :: cs) = .ok d) :
    ((∀ x ∈ c :: cs, x.gust ≤ d.gust) ∧ ∃ x ∈ c :: cs, d.gust = x.gust) ∧
    ((∀ x ∈ c :: cs, d.pressure ≤ x.pressure) ∧ ∃ x ∈ c :: cs, d.pressure = x.pressure) := by
  simp only [combineTracks, Except.ok.injEq] at h
  subst h
  induction cs generalizing c with
  | nil => simp
  | cons b cs ih =>
    obtain ⟨⟨g1, g2, g3, g4⟩, p1, p2, p3, p4⟩ := ih (combineCell c b)
    have hg : c.gust ≤ (combineCell c b).gust ∧ b.gust ≤ (combineCell c b).gust ∧
        ((combineCell c b).gust = c.gust ∨ (combineCell c b).gust = b.gust) := by
      simp only [combineCell]
      split_ifs with h1
      · exact ⟨h1.le, le_refl _, Or.inr rfl⟩
      · exact ⟨le_refl _, not_lt.1 h1, Or.inl rfl⟩
    have hp : (combineCell c b).pressure ≤ c.pressure ∧ (combineCell c b).pressure ≤ b.pressure ∧
        ((combineCell c b).pressure = c.pressure ∨ (combineCell c b).pressure = b.pressure) := by
      simp only [combineCell]
      split_ifs with h1
      · exact ⟨h1.le, le_refl _, Or.inr rfl⟩
      · exact ⟨le_refl _, not_lt.1 h1, Or.inl rfl⟩
    rw [List.foldl_cons]
    have hself := g1 (combineCell c b) (by simp)
    have hselfp := p1 (combineCell c b) (by simp)
    refine ⟨⟨?_, ?_⟩, ?_, ?_⟩
    · intro x hx
      simp only [List.mem_cons] at hx
      rcases hx with rfl | rfl | hx
      · exact hg.1.trans hself
      · exact hg.2.1.trans hself
      · exact g1 x (by simp [hx])
    · rcases List.mem_cons.1 g3 with rfl | h3
      · rcases hg.2.2 with h | h
        · exact ⟨c, by simp, by rw [g4, h]⟩
        · exact ⟨b, by simp, by rw [g4, h]⟩
      · exact ⟨g2, by simp [h3], g4⟩
    · intro x hx
      simp only [List.mem_cons] at hx
      rcases hx with rfl | rfl | hx
      · exact hselfp.trans hp.1
      · exact hselfp.trans hp.2.1
      · exact p1 x (by simp [hx])
    · rcases List.mem_cons.1 p3 with rfl | h3
      · rcases hp.2.2 with h | h
        · exact ⟨c, by simp, by rw [p4, h]⟩
        · exact ⟨b, by simp, by rw [p4, h]⟩
      · exact ⟨p2, by simp [h3], p4⟩

/-- **C19** is false: bearing and wind components are always those of the first track of the
file, whatever the other tracks are. -/
theorem C19_components_of_first_track (c : Cell) (cs : List Cell) (d : Cell)
    (h : combineTracks (c :: cs) = .ok d) : d.bearing = c.bearing ∧ d.ux = c.ux ∧ d.uy = c.uy := by
  simp only [combineTracks, Except.ok.injEq] at h
  subst h
  induction cs generalizing c with
  | nil => simp
  | cons b cs ih =>
    rw [List.foldl_cons]
    obtain ⟨h1, h2, h3⟩ := ih (combineCell c b)
    have hno : ¬ b.gust > (if b.gust > c.gust then b.gust else c.gust) := by
      split_ifs with h1
      · exact lt_irrefl _
      · exact h1
    refine ⟨h1, ?_, ?_⟩
    · rw [h2]; simp only [combineCell]; rw [if_neg hno]
    · rw [h3]; simp only [combineCell]; rw [if_neg hno]

/-- **C19** is false, concretely: gust 20 m/s of the second track with the 10 m/s component of
the first. -/
theorem C19_counterexample : ∃ d, combineTracks [⟨10, 90, 10, 0, 950⟩, ⟨20, 180, 0, 20, 940⟩] = .ok d ∧
    d.gust = 20 ∧ d.ux = 10 ∧ d.uy = 0 ∧ d.bearing = 90 := by
  refine ⟨_, rfl, ?_⟩
  simp only [List.foldl_cons, List.foldl_nil, combineCell]
  norm_num

end Tcrm.Windfield
