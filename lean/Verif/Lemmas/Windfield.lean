import Verif.Spec.Windfield
import Mathlib.Tactic.Linarith
import Mathlib.Tactic.Ring
import Mathlib.Tactic.FieldSimp
namespace Tcrm.Windfield

/-! ### Integer conversion and ranges -/

theorem pyInt_mono {x y : ℚ} (h : x ≤ y) : pyInt x ≤ pyInt y := by
  simp only [pyInt]
  split_ifs with hx hy hy
  · exact Int.floor_le_floor h
  · linarith
  · have h1 : ⌈x⌉ ≤ 0 := Int.ceil_le.2 (by push_cast; linarith)
    have h2 : 0 ≤ ⌊y⌋ := Int.floor_nonneg.2 hy
    omega
  · exact Int.ceil_le_ceil h

@[simp] theorem pyInt_intCast (n : ℤ) : pyInt (n : ℚ) = n := by
  simp only [pyInt]; split_ifs <;> simp

theorem pyInt_div (a r : ℤ) (ha : 0 ≤ a) (hr : 0 < r) : pyInt ((a : ℚ) / r) = a / r := by
  have hr' : (0 : ℚ) < r := by exact_mod_cast hr
  have ha' : (0 : ℚ) ≤ a := by exact_mod_cast ha
  rw [pyInt, if_pos (div_nonneg ha' hr'.le), Int.floor_eq_iff]
  have h1 := Int.mul_ediv_add_emod a r
  have h2 := Int.emod_nonneg a hr.ne'
  have h3 := Int.emod_lt_of_pos a hr
  constructor
  · rw [le_div_iff₀ hr']
    have : (a / r) * r ≤ a := by rw [mul_comm]; omega
    exact_mod_cast this
  · rw [div_lt_iff₀ hr']
    have : a < (a / r + 1) * r := by rw [add_mul, mul_comm (a / r)]; omega
    exact_mod_cast this

theorem pyInt_hundredths (M : ℤ) : pyInt (100 * ((M : ℚ) / 100)) = M := by
  rw [show (100 : ℚ) * (M / 100) = (M : ℤ) by ring, pyInt_intCast]

theorem pyInt_thousandths (M : ℤ) : pyInt (1000 * ((M : ℚ) / 100)) = 10 * M := by
  rw [show (1000 : ℚ) * (M / 100) = ((10 * M : ℤ) : ℚ) by push_cast; ring, pyInt_intCast]

theorem pyInt_thousandths' (M : ℤ) : pyInt (((M : ℚ) / 100) * 1000) = 10 * M := by
  rw [mul_comm, pyInt_thousandths]

theorem arange_length (lo hi step : ℤ) : (arange lo hi step).length = (-((lo - hi) / step)).toNat := by
  simp [arange]

theorem arange_getD (lo hi step : ℤ) (k : ℕ) (h : k < (arange lo hi step).length) :
    (arange lo hi step).getD k 0 = lo + step * k := by
  rw [arange_length] at h
  simp [arange, h]

theorem neg_div_pred (n d : ℤ) (hd : 0 < d) : -((-n - 1) / d) = n / d + 1 := by
  have h1 := Int.mul_ediv_add_emod n d
  have h2 := Int.emod_nonneg n hd.ne'
  have h3 := Int.emod_lt_of_pos n hd
  have : (-n - 1) / d = -(n / d) - 1 := by
    rw [Int.ediv_eq_iff_of_pos hd]
    constructor <;> nlinarith
  omega

/-- Number of points of the local grid along one axis. -/
theorem localAxis_length (c : ℚ) (M r : ℤ) (hr : 0 < r) :
    ((localAxis c none none (M / 100) (r / 100)).length : ℤ) = max (steps M r + 1) 0 := by
  simp only [localAxis, given, Option.filter_none, arange_length, pyInt_thousandths,
    pyInt_thousandths']
  rw [show pyInt (1000 * c) - 10 * M - (pyInt (1000 * c) + 10 * M + 1) = -(10 * (2 * M)) - 1 by ring,
    neg_div_pred _ _ (by omega), Int.mul_ediv_mul_of_pos _ _ (by norm_num), Int.toNat_eq_max, steps]

theorem localAxis_getD (c : ℚ) (M r : ℤ) (k : ℕ)
    (hk : k < (localAxis c none none ((M : ℚ) / 100) ((r : ℚ) / 100)).length) :
    (localAxis c none none ((M : ℚ) / 100) ((r : ℚ) / 100)).getD k 0 =
      pyInt (1000 * c) - 10 * M + 10 * r * k := by
  simp only [localAxis, given, Option.filter_none, pyInt_thousandths, pyInt_thousandths'] at hk ⊢
  rw [arange_getD _ _ _ _ hk]

/-- The window (bounded domain). -/
theorem window_bounded (c lo hi : ℚ) (M r : ℤ) (hM : 0 ≤ M) (hr : 0 < r) (h : lo ≤ c) :
    window .bounded c lo hi (M / 100) (r / 100) =
      (firstIndex c lo r, (pyInt (100 * c) - pyInt (100 * lo) + 2 * M) / r + 1) := by
  have hm : pyInt (100 * lo) ≤ pyInt (100 * c) := pyInt_mono (by linarith)
  simp only [window, if_true, pyInt_hundredths, firstIndex]
  rw [show pyInt (100 * c) - (pyInt (100 * lo) - M) - M = pyInt (100 * c) - pyInt (100 * lo) by ring,
    show pyInt (100 * c) - (pyInt (100 * lo) - M) + M = pyInt (100 * c) - pyInt (100 * lo) + 2 * M by ring,
    pyInt_div _ _ (by omega) hr, pyInt_div _ _ (by omega) hr]

/-- The window lies inside the regional axis. -/
theorem window_inside (c lo hi : ℚ) (M r : ℤ) (hM : 0 ≤ M) (hr : 0 < r) (h : lo ≤ c) (h' : c ≤ hi) :
    0 ≤ firstIndex c lo r ∧
    firstIndex c lo r ≤ (pyInt (100 * c) - pyInt (100 * lo) + 2 * M) / r ∧
    (pyInt (100 * c) - pyInt (100 * lo) + 2 * M) / r + 1 ≤
      ((regionAxis lo hi (M / 100) (r / 100)).length : ℤ) := by
  have h1 : pyInt (100 * lo) ≤ pyInt (100 * c) := pyInt_mono (by linarith)
  have h2 : pyInt (100 * c) ≤ pyInt (100 * hi) := pyInt_mono (by linarith)
  refine ⟨Int.ediv_nonneg (by omega) hr.le, Int.ediv_le_ediv hr (by omega), ?_⟩
  simp only [regionAxis, arange_length, pyInt_hundredths]
  have h3 : (pyInt (100 * c) - pyInt (100 * lo) + 2 * M) / r + 1 =
      (pyInt (100 * c) - pyInt (100 * lo) + 2 * M + r) / r := by
    rw [Int.add_ediv_of_dvd_right (dvd_refl r), Int.ediv_self hr.ne']
  have h4 : (pyInt (100 * c) - pyInt (100 * lo) + 2 * M + r) / r ≤
      (-(pyInt (100 * lo) - M - (pyInt (100 * hi) + M + r))) / r := Int.ediv_le_ediv hr (by omega)
  have h5 : (-(pyInt (100 * lo) - M - (pyInt (100 * hi) + M + r))) / r ≤
      -((pyInt (100 * lo) - M - (pyInt (100 * hi) + M + r)) / r) := by
    generalize pyInt (100 * lo) - M - (pyInt (100 * hi) + M + r) = n
    have a1 := Int.mul_ediv_add_emod n r
    have a2 := Int.emod_nonneg n hr.ne'
    have b1 := Int.mul_ediv_add_emod (-n) r
    have b2 := Int.emod_nonneg (-n) hr.ne'
    have : r * ((-n) / r + n / r) ≤ 0 := by rw [mul_add]; omega
    have : (-n) / r + n / r ≤ 0 := by
      by_contra hc
      push Not at hc
      nlinarith
    omega
  omega

theorem bound_nonneg (n : ℕ) (a : ℤ) (h : 0 ≤ a) (h' : a ≤ n) : (bound n a : ℤ) = a := by
  simp only [bound, if_neg (not_lt.2 h)]
  omega

/-! ### Running extremes of a cell -/

theorem speed_nonneg (w : ℝ × ℝ × ℝ) : 0 ≤ speed w := Real.sqrt_nonneg _

theorem extreme_nil (dir : ℝ → ℝ → ℝ) (p0 : ℝ) : Extreme dir p0 [] ⟨0, 0, 0, 0, p0⟩ :=
  ⟨by simp, Or.inl ⟨rfl, rfl, rfl, rfl⟩, by simp, Or.inl rfl⟩

theorem extreme_snoc (dir : ℝ → ℝ → ℝ) (p0 : ℝ) (ws : List (ℝ × ℝ × ℝ)) (c : Cell) (w : ℝ × ℝ × ℝ)
    (h : Extreme dir p0 ws c) : Extreme dir p0 (ws ++ [w]) (updateCell dir w c) := by
  have hg0 : 0 ≤ c.gust := by
    rcases h.attained with ⟨h0, -⟩ | ⟨_, v, _, -, -, -, h0, -⟩
    · rw [h0]
    · rw [h0]; exact speed_nonneg v
  have hp : (updateCell dir w c).pressure = if w.2.2 < c.pressure then w.2.2 else c.pressure := by
    simp only [updateCell]; split_ifs <;> rfl
  have hlow : (updateCell dir w c).pressure ≤ c.pressure ∧ (updateCell dir w c).pressure ≤ w.2.2 := by
    rw [hp]; split_ifs with h1
    · exact ⟨h1.le, le_refl _⟩
    · exact ⟨le_refl _, not_lt.1 h1⟩
  refine ⟨?_, ?_, ?_, ?_⟩
  · intro v hv
    have hup : c.gust ≤ (updateCell dir w c).gust ∧ speed w ≤ (updateCell dir w c).gust := by
      have hgust : (updateCell dir w c).gust = if speed w > c.gust then speed w else c.gust := by
        by_cases h1 : speed w > c.gust
        · rw [show updateCell dir w c = _ from if_pos h1, if_pos h1]; rfl
        · rw [show updateCell dir w c = _ from if_neg h1, if_neg h1]
      rw [hgust]
      split_ifs with hgt
      · exact ⟨hgt.le, le_refl _⟩
      · exact ⟨le_refl _, not_lt.1 hgt⟩
    rcases List.mem_append.1 hv with hv | hv
    · exact (h.upper v hv).trans hup.1
    · rw [List.mem_singleton.1 hv]; exact hup.2
  · by_cases hgt : Real.sqrt (w.1 ^ 2 + w.2.1 ^ 2) > c.gust
    · right
      refine ⟨ws, w, [], rfl, fun v hv => lt_of_le_of_lt (h.upper v hv) hgt, lt_of_le_of_lt hg0 hgt, ?_⟩
      rw [show updateCell dir w c = _ from if_pos hgt]
      exact ⟨rfl, rfl, rfl, rfl⟩
    · simp only [updateCell, if_neg hgt]
      rcases h.attained with h0 | ⟨pre, v, post, rfl, h1, h2⟩
      · exact Or.inl h0
      · exact Or.inr ⟨pre, v, post ++ [w], by simp, h1, h2⟩
  · refine ⟨hlow.1.trans h.lower.1, fun v hv => ?_⟩
    rcases List.mem_append.1 hv with hv | hv
    · exact hlow.1.trans (h.lower.2 v hv)
    · rw [List.mem_singleton.1 hv]; exact hlow.2
  · rw [hp]
    split_ifs with h1
    · exact Or.inr ⟨w, by simp, rfl⟩
    · rcases h.attained_p with h0 | ⟨v, hv, h0⟩
      · exact Or.inl h0
      · exact Or.inr ⟨v, by simp [hv], h0⟩

/-- One time step inside the region, in a bounded domain whose double margin is a multiple of
the grid step: it succeeds and updates exactly the cells it contributes to. -/
theorem pasteStep_bounded (P : Params) (gl : Limits) (M r : ℤ) (hM : 0 ≤ M) (hr : 0 < r) {t : TimeStep}
    (hdy : (pyInt (100 * t.lat) - pyInt (100 * gl.yMin) + 2 * M) / r = (pyInt (100 * t.lat) - pyInt (100 * gl.yMin)) / r + steps M r)
    (hdx : (pyInt (100 * t.lon) - pyInt (100 * gl.xMin) + 2 * M) / r = (pyInt (100 * t.lon) - pyInt (100 * gl.xMin)) / r + steps M r)
    (hPm : P.margin = M / 100) (hPr : P.resolution = r / 100) (hPd : P.domain = .bounded)
    (ht : inRegion gl t = true) (f : ℕ → ℕ → Cell) :
    ∃ f', pasteStep P gl (regionAxis gl.yMin gl.yMax P.margin P.resolution)
        (regionAxis gl.xMin gl.xMax P.margin P.resolution) t f = .ok f' ∧
      ∀ j i, f' j i = match contribution gl M r j i t with
        | some w => updateCell P.dir w (f j i)
        | none => f j i := by
  have ht' := ht
  simp only [inRegion, decide_eq_true_eq] at ht'
  obtain ⟨x1, x2, y1, y2⟩ := ht'
  obtain ⟨ya, yb, yc⟩ := window_inside t.lat gl.yMin gl.yMax M r hM hr y1 y2
  obtain ⟨xa, xb, xc⟩ := window_inside t.lon gl.xMin gl.xMax M r hM hr x1 x2
  rw [hdy] at yb yc
  rw [hdx] at xb xc
  have hs : 0 ≤ steps M r := Int.ediv_nonneg (by omega) hr.le
  have ly := localAxis_length t.lat M r hr
  have lx := localAxis_length t.lon M r hr
  rw [max_eq_left (by omega)] at ly lx
  simp only [pasteStep, hPm, hPr, hPd, reduceCtorEq, if_false]
  rw [window_bounded _ _ _ M r hM hr y1, window_bounded _ _ _ M r hM hr x1, hdy, hdx]
  simp only [show (pyInt (100 * t.lat) - pyInt (100 * gl.yMin)) / r = firstIndex t.lat gl.yMin r from rfl,
    show (pyInt (100 * t.lon) - pyInt (100 * gl.xMin)) / r = firstIndex t.lon gl.xMin r from rfl]
    at yb yc xb xc ⊢
  have ey0 := bound_nonneg (regionAxis gl.yMin gl.yMax (M / 100) (r / 100)).length
    (firstIndex t.lat gl.yMin r) ya (by omega)
  have ey1 := bound_nonneg (regionAxis gl.yMin gl.yMax (M / 100) (r / 100)).length
    (firstIndex t.lat gl.yMin r + steps M r + 1) (by omega) (by omega)
  have ex0 := bound_nonneg (regionAxis gl.xMin gl.xMax (M / 100) (r / 100)).length
    (firstIndex t.lon gl.xMin r) xa (by omega)
  have ex1 := bound_nonneg (regionAxis gl.xMin gl.xMax (M / 100) (r / 100)).length
    (firstIndex t.lon gl.xMin r + steps M r + 1) (by omega) (by omega)
  rw [if_pos ⟨Or.inl (by omega), Or.inl (by omega)⟩]
  refine ⟨_, rfl, fun j i => ?_⟩
  generalize bound (regionAxis gl.yMin gl.yMax (M / 100) (r / 100)).length
    (firstIndex t.lat gl.yMin r) = Y0 at ey0 ⊢
  generalize bound (regionAxis gl.yMin gl.yMax (M / 100) (r / 100)).length
    (firstIndex t.lat gl.yMin r + steps M r + 1) = Y1 at ey1 ⊢
  generalize bound (regionAxis gl.xMin gl.xMax (M / 100) (r / 100)).length
    (firstIndex t.lon gl.xMin r) = X0 at ex0 ⊢
  generalize bound (regionAxis gl.xMin gl.xMax (M / 100) (r / 100)).length
    (firstIndex t.lon gl.xMin r + steps M r + 1) = X1 at ex1 ⊢
  by_cases hc : 0 ≤ (j : ℤ) - firstIndex t.lat gl.yMin r ∧ (j : ℤ) - firstIndex t.lat gl.yMin r ≤ steps M r ∧
      0 ≤ (i : ℤ) - firstIndex t.lon gl.xMin r ∧ (i : ℤ) - firstIndex t.lon gl.xMin r ≤ steps M r
  · rw [show contribution gl M r j i t = _ from if_pos ⟨ht, hc⟩,
      if_pos (show Y0 ≤ j ∧ j < Y1 ∧ X0 ≤ i ∧ i < X1 by omega)]
    obtain ⟨c1, c2, c3, c4⟩ := hc
    have key : ∀ (c : ℚ) (k : ℕ) (z : ℤ), (k : ℤ) = z → z ≤ steps M r →
        ((localAxis c none none ((M : ℚ) / 100) ((r : ℚ) / 100)).length : ℤ) = steps M r + 1 →
        (localAxis c none none ((M : ℚ) / 100) ((r : ℚ) / 100)).getD
          (if (localAxis c none none ((M : ℚ) / 100) ((r : ℚ) / 100)).length = 1 then 0 else k) 0 =
        pyInt (1000 * c) - 10 * M + 10 * r * z := by
      intro c k z hk hz hl
      rw [localAxis_getD _ _ _ _ (by split_ifs <;> omega)]
      split_ifs with h1
      · have : z = 0 := by omega
        rw [this]; simp
      · rw [hk]
    rw [key t.lat _ ((j : ℤ) - firstIndex t.lat gl.yMin r) (by omega) c2 ly,
      key t.lon _ ((i : ℤ) - firstIndex t.lon gl.xMin r) (by omega) c4 lx]
  · rw [show contribution gl M r j i t = _ from if_neg (by rintro ⟨-, h⟩; exact hc h),
      if_neg (show ¬ (Y0 ≤ j ∧ j < Y1 ∧ X0 ≤ i ∧ i < X1) by omega)]

/-- The local field fits the window along an axis. -/
theorem match_iff (a M r : ℤ) (hr : 0 < r) : (a + 2 * M) / r = a / r + steps M r ↔ a % r + 2 * M % r < r := by
  simp only [steps]
  generalize 2 * M = b
  have a1 := Int.mul_ediv_add_emod a r
  have a2 := Int.emod_nonneg a hr.ne'
  have a3 := Int.emod_lt_of_pos a hr
  have b1 := Int.mul_ediv_add_emod b r
  have b2 := Int.emod_nonneg b hr.ne'
  have b3 := Int.emod_lt_of_pos b hr
  constructor
  · intro he
    by_contra hc
    have : (a + b) / r = a / r + b / r + 1 := by
      rw [Int.ediv_eq_iff_of_pos hr]
      constructor <;> nlinarith
    omega
  · intro hlt
    rw [Int.ediv_eq_iff_of_pos hr]
    constructor <;> nlinarith

theorem pasteAll_bounded (P : Params) (gl : Limits) (M r : ℤ) (hM : 0 ≤ M) (hr : 0 < r)
    (hPm : P.margin = M / 100) (hPr : P.resolution = r / 100) (hPd : P.domain = .bounded) (p0 : ℝ)
    (ts : List TimeStep) (hts : ∀ t ∈ ts, inRegion gl t = true)
    (hd : ∀ t ∈ ts, (pyInt (100 * t.lat) - pyInt (100 * gl.yMin) + 2 * M) / r = (pyInt (100 * t.lat) - pyInt (100 * gl.yMin)) / r + steps M r ∧
      (pyInt (100 * t.lon) - pyInt (100 * gl.xMin) + 2 * M) / r = (pyInt (100 * t.lon) - pyInt (100 * gl.xMin)) / r + steps M r)
    (pre : List TimeStep) (f : ℕ → ℕ → Cell)
    (hf : ∀ j i, Extreme P.dir p0 (pre.filterMap (contribution gl M r j i)) (f j i)) :
    ∃ f', pasteAll P gl (regionAxis gl.yMin gl.yMax P.margin P.resolution)
        (regionAxis gl.xMin gl.xMax P.margin P.resolution) ts f = .ok f' ∧
      ∀ j i, Extreme P.dir p0 ((pre ++ ts).filterMap (contribution gl M r j i)) (f' j i) := by
  induction ts generalizing pre f with
  | nil => exact ⟨f, rfl, by simpa using hf⟩
  | cons t ts ih =>
    obtain ⟨f1, e1, h1⟩ := pasteStep_bounded P gl M r hM hr (hd t (by simp)).1 (hd t (by simp)).2 hPm hPr hPd (hts t (by simp)) f
    have h2 : ∀ j i, Extreme P.dir p0 ((pre ++ [t]).filterMap (contribution gl M r j i)) (f1 j i) := by
      intro j i
      rw [h1 j i, List.filterMap_append]
      cases hc : contribution gl M r j i t with
      | none => simpa [hc] using hf j i
      | some w => simpa [hc] using extreme_snoc _ _ _ _ w (hf j i)
    obtain ⟨f', e2, h3⟩ := ih (fun t' ht' => hts t' (by simp [ht'])) (fun t' ht' => hd t' (by simp [ht'])) (pre ++ [t]) f1 h2
    refine ⟨f', ?_, by simpa using h3⟩
    simp only [pasteAll, e1]
    exact e2

end Tcrm.Windfield
