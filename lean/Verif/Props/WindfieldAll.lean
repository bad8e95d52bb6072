import Verif.Props.Windfield
/-!
C17 for every margin and resolution, and for the full domain.
-/
namespace Tcrm.Windfield

/-- A local field that does not fit: the step fails. -/
theorem pasteStep_mismatch (P : Params) (gl : Limits) (M r : ℤ) (hM : 0 ≤ M) (hr : 0 < r) (hle : r ≤ 2 * M)
    (hPm : P.margin = M / 100) (hPr : P.resolution = r / 100) (hPd : P.domain = .bounded) {t : TimeStep}
    (ht : inRegion gl t = true) (f : ℕ → ℕ → Cell)
    (hno : ¬ ((pyInt (100 * t.lat) - pyInt (100 * gl.yMin)) % r + 2 * M % r < r ∧
      (pyInt (100 * t.lon) - pyInt (100 * gl.xMin)) % r + 2 * M % r < r)) :
    pasteStep P gl (regionAxis gl.yMin gl.yMax P.margin P.resolution)
      (regionAxis gl.xMin gl.xMax P.margin P.resolution) t f = .error .valueError := by
  simp only [inRegion, decide_eq_true_eq] at ht
  obtain ⟨x1, x2, y1, y2⟩ := ht
  have hs : 1 ≤ steps M r := by rw [steps, Int.le_ediv_iff_mul_le hr]; omega
  have key : ∀ {c lo hi : ℚ}, lo ≤ c → c ≤ hi → fits (localAxis c none none (M / 100) (r / 100)).length
      (bound (regionAxis lo hi (M / 100) (r / 100)).length (window .bounded c lo hi (M / 100) (r / 100)).2 -
        bound (regionAxis lo hi (M / 100) (r / 100)).length (window .bounded c lo hi (M / 100) (r / 100)).1) →
      (pyInt (100 * c) - pyInt (100 * lo)) % r + 2 * M % r < r := by
    intro c lo hi h1 h2 hf
    obtain ⟨w1, w2, w3⟩ := C18_window_inside c lo hi M r hM hr h1 h2
    have hl := localAxis_length c M r hr
    rw [max_eq_left (by omega)] at hl
    rw [← C18_shapes_match_iff c lo hi M r hM hr h1]
    have e0 := bound_nonneg (regionAxis lo hi (M / 100) (r / 100)).length _ w1 (by omega)
    have e1 := bound_nonneg (regionAxis lo hi (M / 100) (r / 100)).length _ (by omega) w3
    rcases hf with hf | hf <;> omega
  simp only [pasteStep, hPm, hPr, hPd, reduceCtorEq, if_false]
  rw [if_neg]
  rintro ⟨h1, h2⟩
  exact hno ⟨key y1 y2 h1, key x1 x2 h2⟩

theorem pasteAll_error (P : Params) (gl : Limits) (lats lons : List ℤ) {t : TimeStep}
    (he : ∀ f, pasteStep P gl lats lons t f = .error .valueError) : ∀ (ts : List TimeStep) (f : ℕ → ℕ → Cell), t ∈ ts →
    ∃ e, pasteAll P gl lats lons ts f = .error e
  | s :: ts, f, h => by
    simp only [pasteAll]
    cases hs : pasteStep P gl lats lons s f with
    | error e => exact ⟨e, rfl⟩
    | ok f' =>
      rcases List.mem_cons.1 h with rfl | h
      · rw [he f] at hs; exact nomatch hs
      · exact pasteAll_error P gl lats lons he ts f' h

/-- **C18**: with a grid step of more than the double margin the local field is a single value, which fits every window:
the calculation in a bounded domain succeeds for every track. -/
theorem C18_coarse (P : Params) (gl : Limits) (M r : ℤ) (hM : 0 ≤ M) (hr : 2 * M < r)
    (hPm : P.margin = M / 100) (hPr : P.resolution = r / 100) (hPd : P.domain = .bounded) (p0 : ℝ) (track : List TimeStep) :
    ∃ f, regionalExtremes P gl p0 track = .ok (f, regionAxis gl.xMin gl.xMax P.margin P.resolution,
      regionAxis gl.yMin gl.yMax P.margin P.resolution) := by
  have hr0 : 0 < r := by omega
  have hl : ∀ c, (localAxis c none none (M / 100) (r / 100)).length = 1 := by
    intro c
    have := localAxis_length c M r hr0
    rw [steps, Int.ediv_eq_zero_of_lt (by omega) hr] at this
    simpa using this
  have all : ∀ (ts : List TimeStep) f, ∃ g, pasteAll P gl (regionAxis gl.yMin gl.yMax P.margin P.resolution)
      (regionAxis gl.xMin gl.xMax P.margin P.resolution) ts f = .ok g := by
    intro ts
    induction ts with
    | nil => exact fun f => ⟨f, rfl⟩
    | cons t ts ih =>
      intro f
      have hstep : ∃ g, pasteStep P gl (regionAxis gl.yMin gl.yMax P.margin P.resolution)
          (regionAxis gl.xMin gl.xMax P.margin P.resolution) t f = .ok g := by
        simp only [pasteStep, hPm, hPr, hPd, reduceCtorEq, if_false]
        rw [if_pos ⟨Or.inr (hl _), Or.inr (hl _)⟩]
        exact ⟨_, rfl⟩
      obtain ⟨g, hg⟩ := hstep
      simp only [pasteAll, hg]
      exact ih g
  obtain ⟨g, hg⟩ := all (track.filter (inRegion gl)) (fun _ _ => ⟨0, 0, 0, 0, p0⟩)
  refine ⟨g, ?_⟩
  rw [regionalExtremes, if_neg (by rw [hPr, pyInt_hundredths]; omega)]
  simp only [hg]

/-- **C17**: in a bounded domain, for every margin and every grid step up to its double: the calculation succeeds exactly if
for every position of the storm in the region the local field fits the window (`C18_shapes_match_iff`); then every cell
of the result records the extremes of the contributions of the time steps. -/
theorem C17_whenever (P : Params) (gl : Limits) (M r : ℤ) (hM : 0 ≤ M) (hr : 0 < r) (hle : r ≤ 2 * M)
    (hPm : P.margin = M / 100) (hPr : P.resolution = r / 100) (hPd : P.domain = .bounded) (p0 : ℝ) (track : List TimeStep) :
    ((∃ out, regionalExtremes P gl p0 track = .ok out) ↔ ∀ t ∈ track, gl.xMin ≤ t.lon → t.lon ≤ gl.xMax → gl.yMin ≤ t.lat →
      t.lat ≤ gl.yMax → (pyInt (100 * t.lat) - pyInt (100 * gl.yMin)) % r + 2 * M % r < r ∧
      (pyInt (100 * t.lon) - pyInt (100 * gl.xMin)) % r + 2 * M % r < r) ∧
    ∀ f xs ys, regionalExtremes P gl p0 track = .ok (f, xs, ys) →
      xs = regionAxis gl.xMin gl.xMax P.margin P.resolution ∧ ys = regionAxis gl.yMin gl.yMax P.margin P.resolution ∧
      ∀ j i, Extreme P.dir p0 (track.filterMap (contribution gl M r j i)) (f j i) := by
  have hstep : ¬ pyInt (100 * P.resolution) = 0 := by rw [hPr, pyInt_hundredths]; omega
  have good : (∀ t ∈ track, inRegion gl t = true → (pyInt (100 * t.lat) - pyInt (100 * gl.yMin)) % r + 2 * M % r < r ∧
      (pyInt (100 * t.lon) - pyInt (100 * gl.xMin)) % r + 2 * M % r < r) →
      ∃ f, regionalExtremes P gl p0 track = .ok (f, regionAxis gl.xMin gl.xMax P.margin P.resolution,
        regionAxis gl.yMin gl.yMax P.margin P.resolution) ∧
      ∀ j i, Extreme P.dir p0 (track.filterMap (contribution gl M r j i)) (f j i) := by
    intro hall
    obtain ⟨f, e, h⟩ := pasteAll_bounded P gl M r hM hr hPm hPr hPd p0 (track.filter (inRegion gl))
      (fun t ht => (List.mem_filter.1 ht).2)
      (fun t ht => by
        obtain ⟨h1, h2⟩ := hall t (List.mem_filter.1 ht).1 (List.mem_filter.1 ht).2
        exact ⟨(match_iff _ M r hr).2 h1, (match_iff _ M r hr).2 h2⟩) [] (fun _ _ => ⟨0, 0, 0, 0, p0⟩)
      (fun j i => extreme_nil P.dir p0)
    refine ⟨f, ?_, fun j i => ?_⟩
    · rw [regionalExtremes, if_neg hstep]
      simp only [e]
    · have : (track.filter (inRegion gl)).filterMap (contribution gl M r j i) =
          track.filterMap (contribution gl M r j i) := by
        rw [List.filterMap_filter]
        congr 1
        funext t
        by_cases ht : inRegion gl t = true
        · simp [ht]
        · simp [contribution, ht]
      rw [← this]
      exact h j i
  have bad : ∀ t ∈ track, inRegion gl t = true → ¬ ((pyInt (100 * t.lat) - pyInt (100 * gl.yMin)) % r + 2 * M % r < r ∧
      (pyInt (100 * t.lon) - pyInt (100 * gl.xMin)) % r + 2 * M % r < r) → ∀ out, regionalExtremes P gl p0 track ≠ .ok out := by
    intro t ht hin hno out he
    obtain ⟨e, h⟩ := pasteAll_error P gl (regionAxis gl.yMin gl.yMax P.margin P.resolution)
      (regionAxis gl.xMin gl.xMax P.margin P.resolution) (pasteStep_mismatch P gl M r hM hr hle hPm hPr hPd hin · hno)
      (track.filter (inRegion gl)) (fun _ _ => ⟨0, 0, 0, 0, p0⟩) (List.mem_filter.2 ⟨ht, hin⟩)
    rw [regionalExtremes, if_neg hstep] at he
    simp only [h] at he
    exact nomatch he
  have hin : ∀ t, inRegion gl t = true ↔ gl.xMin ≤ t.lon ∧ t.lon ≤ gl.xMax ∧ gl.yMin ≤ t.lat ∧ t.lat ≤ gl.yMax :=
    fun t => by simp [inRegion]
  have hcond : (∃ out, regionalExtremes P gl p0 track = .ok out) → ∀ t ∈ track, inRegion gl t = true →
      (pyInt (100 * t.lat) - pyInt (100 * gl.yMin)) % r + 2 * M % r < r ∧
      (pyInt (100 * t.lon) - pyInt (100 * gl.xMin)) % r + 2 * M % r < r := by
    rintro ⟨out, ho⟩ t ht hi
    by_contra hno
    exact bad t ht hi hno out ho
  refine ⟨⟨fun h t ht a b c d => hcond h t ht ((hin t).2 ⟨a, b, c, d⟩), fun h => ?_⟩, ?_⟩
  · obtain ⟨f, hf, -⟩ := good fun t ht hi => by
      obtain ⟨a, b, c, d⟩ := (hin t).1 hi
      exact h t ht a b c d
    exact ⟨_, hf⟩
  · intro f xs ys he
    obtain ⟨f', hf, hx⟩ := good (hcond ⟨_, he⟩)
    rw [he] at hf
    injection hf with hf
    injection hf with h1 h2
    injection h2 with h2 h3
    subst h1
    exact ⟨h2, h3, hx⟩

/-- A grid step of 0.03° with a margin of 2°: a storm at the southern limit fits, one 0.02° north of it does not. -/
example : (3 : ℤ) ≤ 2 * 200 ∧ (pyInt (100 * (-20)) - pyInt (100 * (-20))) % 3 + 2 * 200 % 3 < 3 ∧
    ¬ ((pyInt (100 * (-19.98)) - pyInt (100 * (-20))) % 3 + 2 * 200 % 3 < 3) := by decide +kernel

/-- **C17**, full domain, with limits that are not 0, in hundredths of a degree, and a grid step that divides the extended
extents: the calculation succeeds for every track; every cell records the extremes of the winds at that very place over
all times the storm is in the region. -/
theorem C17_full_domain (P : Params) (x0 x1 y0 y1 M r : ℤ) (hr : 0 < r) (hM : 0 ≤ M) (hx : x0 ≤ x1) (hy : y0 ≤ y1)
    (hne : x0 ≠ 0 ∧ x1 ≠ 0 ∧ y0 ≠ 0 ∧ y1 ≠ 0) (hdx : r ∣ x1 - x0 + 2 * M) (hdy : r ∣ y1 - y0 + 2 * M)
    (hPm : P.margin = M / 100) (hPr : P.resolution = r / 100) (hPd : P.domain = .full) (p0 : ℝ) (track : List TimeStep) :
    ∃ f, regionalExtremes P ⟨x0 / 100, x1 / 100, y0 / 100, y1 / 100⟩ p0 track = .ok (f,
        regionAxis (x0 / 100) (x1 / 100) P.margin P.resolution, regionAxis (y0 / 100) (y1 / 100) P.margin P.resolution) ∧
      ∀ (j i : ℕ) (lat lon : ℤ), (regionAxis (y0 / 100) (y1 / 100) P.margin P.resolution)[j]? = some lat →
        (regionAxis (x0 / 100) (x1 / 100) P.margin P.resolution)[i]? = some lon →
        Extreme P.dir p0 ((track.filter fun t => decide ((x0 : ℚ) / 100 ≤ t.lon ∧ t.lon ≤ (x1 : ℚ) / 100 ∧
          (y0 : ℚ) / 100 ≤ t.lat ∧ t.lat ≤ (y1 : ℚ) / 100)).map fun t => t.wind (10 * lat) (10 * lon)) (f j i) := by
  set gl : Limits := ⟨x0 / 100, x1 / 100, y0 / 100, y1 / 100⟩ with hgl
  set lats := regionAxis gl.yMin gl.yMax P.margin P.resolution with hlats
  set lons := regionAxis gl.xMin gl.xMax P.margin P.resolution with hlons
  have hly : ∀ c, localAxis c (some gl.yMin) (some gl.yMax) P.margin P.resolution = lats.map (10 * ·) := by
    intro c; rw [hlats, hPm, hPr]; exact C18_full_domain c y0 y1 M r hr hne.2.2.1 hne.2.2.2 hdy
  have hlx : ∀ c, localAxis c (some gl.xMin) (some gl.xMax) P.margin P.resolution = lons.map (10 * ·) := by
    intro c; rw [hlons, hPm, hPr]; exact C18_full_domain c x0 x1 M r hr hne.1 hne.2.1 hdx
  -- the window is the whole axis
  have hwin : ∀ (a b : ℤ) (c : ℚ), a ≤ b → r ∣ b - a + 2 * M →
      bound (regionAxis (a / 100) (b / 100) P.margin P.resolution).length
        (window P.domain c (a / 100) (b / 100) P.margin P.resolution).1 = 0 ∧
      bound (regionAxis (a / 100) (b / 100) P.margin P.resolution).length
        (window P.domain c (a / 100) (b / 100) P.margin P.resolution).2 =
        (regionAxis (a / 100) (b / 100) P.margin P.resolution).length := by
    intro a b c hab hdv
    have hlen : ((regionAxis (a / 100) (b / 100) P.margin P.resolution).length : ℤ) = (b - a + 2 * M) / r + 1 := by
      obtain ⟨q, hq⟩ := hdv
      simp only [hPm, hPr, regionAxis, arange_length, pyInt_hundredths]
      have hq0 : 0 ≤ q := by nlinarith
      rw [show a - M - (b + M + r) = -((q + 1) * r) by linarith, ← neg_mul, Int.mul_ediv_cancel _ hr.ne', hq,
        Int.mul_ediv_cancel_left _ hr.ne', neg_neg]
      omega
    have hw : window P.domain c (a / 100) (b / 100) P.margin P.resolution =
        (0, pyInt (((b + M - (a - M) + 2 * M : ℤ) : ℚ) / r) + 1) := by
      simp only [hPm, hPr, hPd, window, reduceCtorEq, if_false, pyInt_hundredths]
    rw [hw, pyInt_div _ _ (by omega) hr]
    have hge : (b - a + 2 * M) / r ≤ (b + M - (a - M) + 2 * M) / r := Int.ediv_le_ediv hr (by omega)
    have hnn : 0 ≤ (b - a + 2 * M) / r := Int.ediv_nonneg (by omega) hr.le
    refine ⟨by simp [bound], ?_⟩
    simp only [bound]
    rw [if_neg (by omega)]
    omega
  have step : ∀ (t : TimeStep) (f : ℕ → ℕ → Cell), ∃ f', pasteStep P gl lats lons t f = .ok f' ∧
      ∀ (j i : ℕ) (lat lon : ℤ), lats[j]? = some lat → lons[i]? = some lon →
        f' j i = updateCell P.dir (t.wind (10 * lat) (10 * lon)) (f j i) := by
    intro t f
    obtain ⟨wy0, wy1⟩ := hwin y0 y1 t.lat hy hdy
    obtain ⟨wx0, wx1⟩ := hwin x0 x1 t.lon hx hdx
    have wy0' : bound lats.length (window P.domain t.lat gl.yMin gl.yMax P.margin P.resolution).1 = 0 := wy0
    have wy1' : bound lats.length (window P.domain t.lat gl.yMin gl.yMax P.margin P.resolution).2 = lats.length := wy1
    have wx0' : bound lons.length (window P.domain t.lon gl.xMin gl.xMax P.margin P.resolution).1 = 0 := wx0
    have wx1' : bound lons.length (window P.domain t.lon gl.xMin gl.xMax P.margin P.resolution).2 = lons.length := wx1
    unfold pasteStep
    simp only [wy0', wy1', wx0', wx1', if_pos hPd, hly, hlx, List.length_map, Nat.sub_zero]
    rw [if_pos ⟨Or.inl rfl, Or.inl rfl⟩]
    refine ⟨_, rfl, ?_⟩
    intro j i lat lon hj hi
    have hjl := (List.getElem?_eq_some_iff.1 hj).1
    have hil := (List.getElem?_eq_some_iff.1 hi).1
    have ey : (lats.map (10 * ·)).getD (if lats.length = 1 then 0 else j) 0 = 10 * lat := by
      have : (if lats.length = 1 then 0 else j) = j := by split_ifs with h1 <;> omega
      rw [this, List.getD_eq_getElem?_getD, List.getElem?_map, hj]; rfl
    have ex : (lons.map (10 * ·)).getD (if lons.length = 1 then 0 else i) 0 = 10 * lon := by
      have : (if lons.length = 1 then 0 else i) = i := by split_ifs with h1 <;> omega
      rw [this, List.getD_eq_getElem?_getD, List.getElem?_map, hi]; rfl
    rw [if_pos ⟨Nat.zero_le _, hjl, Nat.zero_le _, hil⟩, ey, ex]
  have all : ∀ (ts pre : List TimeStep) (f : ℕ → ℕ → Cell), (∀ (j i : ℕ) (lat lon : ℤ), lats[j]? = some lat → lons[i]? = some lon →
      Extreme P.dir p0 (pre.map fun t => t.wind (10 * lat) (10 * lon)) (f j i)) →
      ∃ f', pasteAll P gl lats lons ts f = .ok f' ∧ ∀ (j i : ℕ) (lat lon : ℤ), lats[j]? = some lat → lons[i]? = some lon →
      Extreme P.dir p0 ((pre ++ ts).map fun t => t.wind (10 * lat) (10 * lon)) (f' j i) := by
    intro ts
    induction ts with
    | nil => intro pre f hf; exact ⟨f, rfl, by simpa using hf⟩
    | cons t ts ih =>
      intro pre f hf
      obtain ⟨f1, e1, h1⟩ := step t f
      obtain ⟨f', e2, h2⟩ := ih (pre ++ [t]) f1 fun j i lat lon hj hi => by
        rw [h1 j i lat lon hj hi, List.map_append]
        exact extreme_snoc _ _ _ _ _ (hf j i lat lon hj hi)
      refine ⟨f', by simp only [pasteAll, e1]; exact e2, ?_⟩
      simpa using h2
  obtain ⟨f, e, h⟩ := all (track.filter (inRegion gl)) [] (fun _ _ => ⟨0, 0, 0, 0, p0⟩)
    (fun j i lat lon _ _ => extreme_nil P.dir p0)
  refine ⟨f, ?_, fun j i lat lon hj hi => h j i lat lon hj hi⟩
  rw [regionalExtremes, if_neg (by rw [hPr, pyInt_hundredths]; omega)]
  simp only [← hlats, ← hlons, e]

/-- A region from 100°E to 110°E and from 20°S to 10°S with margin 1° and resolution 0.5° -/
example : (50 : ℤ) ∣ 11000 - 10000 + 2 * 100 ∧ (50 : ℤ) ∣ -1000 - -2000 + 2 * 100 := by decide

end Tcrm.Windfield
