import Verif.Model.Figures
import Verif.Spec.Figures
import Mathlib.Tactic.Linarith
import Mathlib.Tactic.FieldSimp
import Mathlib.Tactic.Ring
import Mathlib.Tactic.NormNum
import Mathlib.Tactic.Positivity
/-!
C174: figures show everything that is in them.
-/
namespace Tcrm.Figures

theorem ceilSqrt_spec (n : ℕ) : n ≤ ceilSqrt n * ceilSqrt n ∧ (0 < n → (ceilSqrt n - 1) * (ceilSqrt n - 1) < n) := by
  unfold ceilSqrt
  have h1 := Nat.sqrt_le n
  have h2 := Nat.lt_succ_sqrt n
  split
  · next h =>
    refine ⟨h.ge, fun hn => ?_⟩
    have h0 : 0 < Nat.sqrt n := by
      rcases Nat.eq_zero_or_pos (Nat.sqrt n) with h0 | h0
      · rw [h0] at h; omega
      · exact h0
    calc (n.sqrt - 1) * (n.sqrt - 1) < n.sqrt * n.sqrt := Nat.mul_lt_mul'' (by omega) (by omega)
      _ = n := h
  · next h =>
    refine ⟨h2.le, fun hn => ?_⟩
    rw [Nat.add_sub_cancel]
    omega

/-- The sub-figures of a figure are arranged in a grid that is square or has one column less; each has a cell of its own,
and no row is left empty. -/
theorem C174_layout (n : ℕ) (hn : 0 < n) : ∃ r c, layout n = .ok (r, c) ∧ (c = r ∨ c + 1 = r) ∧ n ≤ r * c ∧
    (∀ i < n, (cell c i).1 < r ∧ (cell c i).2 < c) ∧
    (∀ i j : ℕ, cell c i = cell c j → i = j) ∧ ∀ row < r, ∃ i < n, (cell c i).1 = row := by
  obtain ⟨h1, h2⟩ := ceilSqrt_spec n
  have h2 := h2 hn
  generalize hr : ceilSqrt n = r at h1 h2
  have hr0 : 0 < r := by
    rcases Nat.eq_zero_or_pos r with rfl | h
    · omega
    · exact h
  obtain ⟨s, rfl⟩ : ∃ s, r = s + 1 := ⟨r - 1, by omega⟩
  rw [Nat.add_sub_cancel] at h2
  have hq : (0 : ℚ) < ((s + 1 : ℕ) : ℚ) := by exact_mod_cast hr0
  set c := (⌈(n : ℚ) / (s + 1 : ℕ)⌉).toNat with hc
  have hcl : n ≤ (s + 1) * c := by
    have : (n : ℚ) / (s + 1 : ℕ) ≤ (c : ℚ) := (Int.le_ceil _).trans (by
      rw [← Int.cast_natCast (R := ℚ) c, Int.cast_le]; exact Int.self_le_toNat _)
    rw [div_le_iff₀ hq] at this
    have : n ≤ c * (s + 1) := by exact_mod_cast this
    rwa [Nat.mul_comm] at this
  have hcu : ∀ k : ℕ, n ≤ k * (s + 1) → c ≤ k := by
    intro k hk
    rw [hc, Int.toNat_le, Int.ceil_le, div_le_iff₀ hq]
    exact_mod_cast hk
  have hle : c ≤ s + 1 := hcu _ h1
  have hge : s ≤ c := by
    by_contra h
    have : c + 1 ≤ s := by omega
    have : (s + 1) * (c + 1) ≤ (s + 1) * s := Nat.mul_le_mul_left _ this
    nlinarith
  have hc0 : 0 < c := by
    rcases Nat.eq_zero_or_pos c with h | h
    · rw [h] at hcl; omega
    · exact h
  refine ⟨s + 1, c, by simp [layout, hr, hc], by omega, hcl, fun i hi => ?_, fun i j h => ?_, fun row hrow => ?_⟩
  · exact ⟨(Nat.div_lt_iff_lt_mul hc0).2 (by omega), Nat.mod_lt _ hc0⟩
  · simp only [cell, Prod.mk.injEq] at h
    rw [← Nat.div_add_mod i c, ← Nat.div_add_mod j c, h.1, h.2]
  · refine ⟨row * c, ?_, by simp [cell, hc0]⟩
    have h3 : row * c ≤ s * c := Nat.mul_le_mul_right _ (by omega)
    rcases (by omega : c = s ∨ c = s + 1) with h | h
    · rw [h] at h3 ⊢; omega
    · -- `n` exceeds `s * (s + 1)`, for otherwise `s` columns would do
      by_contra hcon
      have := hcu s (by rw [h] at h3 hcon; omega)
      omega

/-- A figure without sub-figures is an error. -/
theorem C174_empty : layout 0 = .error .zeroDivision := by
  have : ceilSqrt 0 = 0 := by decide
  simp [layout, this]

/-! ### Graticule -/

theorem lines_spec {lo hi dl : ℚ} (hdl : 0 < dl) (h : lo ≤ hi) :
    ConsecutiveMultiples dl (lines lo hi dl) ∧ Spans (lines lo hi dl) lo hi dl := by
  have hf1 : (⌊lo / dl⌋ : ℚ) * dl ≤ lo := by
    rw [← le_div_iff₀ hdl]; exact Int.floor_le _
  have hf2 : lo < (⌊lo / dl⌋ : ℚ) * dl + dl := by
    have := Int.lt_floor_add_one (lo / dl)
    rw [div_lt_iff₀ hdl] at this
    linarith
  set s := (⌊lo / dl⌋ : ℚ) * dl with hs
  set n := (⌈(hi + dl - s) / dl⌉).toNat with hn
  have hpos : 0 < (hi + dl - s) / dl := div_pos (by linarith) hdl
  have hcp : 0 < ⌈(hi + dl - s) / dl⌉ := Int.ceil_pos.2 hpos
  have hn1 : 0 < n := by omega
  have hnc : ((n : ℕ) : ℚ) = (⌈(hi + dl - s) / dl⌉ : ℚ) := by
    have : ((n : ℕ) : ℤ) = ⌈(hi + dl - s) / dl⌉ := Int.toNat_of_nonneg hcp.le
    exact_mod_cast this
  have hu : hi + dl - s ≤ n * dl := by
    rw [hnc, ← div_le_iff₀ hdl]; exact Int.le_ceil _
  have hl : n * dl < hi + dl - s + dl := by
    have := Int.ceil_lt_add_one ((hi + dl - s) / dl)
    rw [← hnc] at this
    have := mul_lt_mul_of_pos_right this hdl
    rwa [add_mul, div_mul_cancel₀ _ hdl.ne', one_mul] at this
  have hlines : lines lo hi dl = (List.range n).map fun i : ℕ => s + i * dl := rfl
  rw [hlines]
  constructor
  · refine ⟨⌊lo / dl⌋, fun i x hx => ?_⟩
    rw [List.getElem?_map] at hx
    by_cases hi : i < n
    · rw [List.getElem?_range hi] at hx
      simp only [Option.map_some, Option.some.injEq] at hx
      rw [← hx, hs]; push_cast; ring
    · rw [List.getElem?_eq_none (by simpa using hi)] at hx
      simp at hx
  · refine ⟨s, s + (n - 1 : ℕ) * dl, ?_, ?_, hf1, hf2, ?_, ?_⟩
    · obtain ⟨m, hm⟩ : ∃ m, n = m + 1 := ⟨n - 1, by omega⟩
      rw [hm, List.range_succ_eq_map]; simp
    · obtain ⟨m, hm⟩ : ∃ m, n = m + 1 := ⟨n - 1, by omega⟩
      rw [hm, List.range_succ]; simp
    · rw [Nat.cast_sub hn1]; push_cast; linarith
    · rw [Nat.cast_sub hn1]; push_cast; linarith

theorem spacing_cases (dd : ℚ) :
    (150 ≤ dd → spacing dd = 30) ∧ (50 ≤ dd → dd < 150 → spacing dd = 10) ∧ (25 ≤ dd → dd < 50 → spacing dd = 5) ∧
    (20 ≤ dd → dd < 25 → spacing dd = 4) ∧ (dd < 20 → spacing dd = 2) := by
  have h : ∀ o : ℚ, 0 < o → (decide (5 ≤ dd / o) = decide (5 * o ≤ dd)) := fun o ho => by
    rw [decide_eq_decide, le_div_iff₀ ho]
  simp only [spacing, gridOptions, List.find?_cons, List.find?_nil, h 30 (by norm_num), h 10 (by norm_num), h 5 (by norm_num),
    h 4 (by norm_num), h 2 (by norm_num)]
  refine ⟨fun h1 => ?_, fun h1 h2 => ?_, fun h1 h2 => ?_, fun h1 h2 => ?_, fun h1 => ?_⟩
  · rw [decide_eq_true (by linarith)]; rfl
  · rw [decide_eq_false (by linarith), decide_eq_true (by linarith)]; rfl
  · rw [decide_eq_false (by linarith), decide_eq_false (by linarith), decide_eq_true (by linarith)]; rfl
  · rw [decide_eq_false (by linarith), decide_eq_false (by linarith), decide_eq_false (by linarith), decide_eq_true (by linarith)]
    rfl
  · rw [decide_eq_false (by linarith), decide_eq_false (by linarith), decide_eq_false (by linarith), decide_eq_false (by linarith)]
    cases decide (5 * 2 ≤ dd) <;> rfl

/-- The graticule: meridians and parallels have the same spacing, one of 2, 4, 5, 10 or 30 degrees; they are at
consecutive multiples of it and reach from one edge of the map to the other. The larger span of the map is at least five
spacings if it is ten degrees or more. -/
theorem C174_graticule (xmin xmax ymin ymax : ℚ) (hx : xmin ≤ xmax) (hy : ymin ≤ ymax) :
    ∃ dl ∈ ([2, 4, 5, 10, 30] : List ℚ),
      ConsecutiveMultiples dl (graticule xmin xmax ymin ymax).1 ∧ Spans (graticule xmin xmax ymin ymax).1 xmin xmax dl ∧
      ConsecutiveMultiples dl (graticule xmin xmax ymin ymax).2 ∧ Spans (graticule xmin xmax ymin ymax).2 ymin ymax dl ∧
      (10 ≤ max (xmax - xmin) (ymax - ymin) → 5 * dl ≤ max (xmax - xmin) (ymax - ymin)) ∧
      (max (xmax - xmin) (ymax - ymin) ≤ 360 → max (xmax - xmin) (ymax - ymin) < 15 * dl) := by
  have hd : max |xmin - xmax| |ymin - ymax| = max (xmax - xmin) (ymax - ymin) := by
    rw [abs_of_nonpos (by linarith), abs_of_nonpos (by linarith), neg_sub, neg_sub]
  set dd := max (xmax - xmin) (ymax - ymin) with hdd
  obtain ⟨c1, c2, c3, c4, c5⟩ := spacing_cases dd
  have hg : graticule xmin xmax ymin ymax = (lines xmin xmax (spacing dd), lines ymin ymax (spacing dd)) := by
    simp only [graticule, hd]
  have key : spacing dd ∈ ([2, 4, 5, 10, 30] : List ℚ) ∧ 0 < spacing dd ∧ (10 ≤ dd → 5 * spacing dd ≤ dd) ∧
      (dd ≤ 360 → dd < 15 * spacing dd) := by
    by_cases h1 : 150 ≤ dd
    · rw [c1 h1]; exact ⟨by simp, by norm_num, fun _ => by linarith, fun _ => by linarith⟩
    push Not at h1
    by_cases h2 : 50 ≤ dd
    · rw [c2 h2 h1]; exact ⟨by simp, by norm_num, fun _ => by linarith, fun _ => by linarith⟩
    push Not at h2
    by_cases h3 : 25 ≤ dd
    · rw [c3 h3 h2]; exact ⟨by simp, by norm_num, fun _ => by linarith, fun _ => by linarith⟩
    push Not at h3
    by_cases h4 : 20 ≤ dd
    · rw [c4 h4 h3]; exact ⟨by simp, by norm_num, fun _ => by linarith, fun _ => by linarith⟩
    push Not at h4
    rw [c5 h4]; exact ⟨by simp, by norm_num, fun _ => by linarith, fun _ => by linarith⟩
  obtain ⟨k1, k2, k3, k4⟩ := key
  rw [hg]
  exact ⟨spacing dd, k1, (lines_spec k2 hx).1, (lines_spec k2 hx).2, (lines_spec k2 hy).1, (lines_spec k2 hy).2, k3, k4⟩

/-- A map between two even degrees has no line inside. -/
theorem C174_small_fails (k l : ℤ) (xmin xmax ymin ymax : ℚ) (h1 : 2 * k < xmin) (h2 : xmin ≤ xmax) (h3 : xmax < 2 * k + 2)
    (h4 : 2 * l < ymin) (h5 : ymin ≤ ymax) (h6 : ymax < 2 * l + 2) :
    (∀ x ∈ (graticule xmin xmax ymin ymax).1, ¬ (xmin ≤ x ∧ x ≤ xmax)) ∧
    ∀ y ∈ (graticule xmin xmax ymin ymax).2, ¬ (ymin ≤ y ∧ y ≤ ymax) := by
  have hsp : spacing (max |xmin - xmax| |ymin - ymax|) = 2 := by
    refine (spacing_cases _).2.2.2.2 ?_
    rw [abs_of_nonpos (by linarith), abs_of_nonpos (by linarith)]
    exact max_lt (by linarith) (by linarith)
  have key : ∀ (k : ℤ) (lo hi : ℚ), 2 * k < lo → lo ≤ hi → hi < 2 * k + 2 → ∀ x ∈ lines lo hi 2, ¬ (lo ≤ x ∧ x ≤ hi) := by
    rintro k lo hi h1 h2 h3 x hx ⟨h4, h5⟩
    obtain ⟨⟨q, hq⟩, -⟩ := lines_spec (dl := 2) (by norm_num) h2
    obtain ⟨i, hi⟩ := List.getElem?_of_mem hx
    have := hq i x hi
    have a1 : (k : ℚ) < ((q + i : ℤ) : ℚ) := by linarith
    have a2 : ((q + i : ℤ) : ℚ) < ((k + 1 : ℤ) : ℚ) := by push_cast at *; linarith
    have a1 : k < q + i := by exact_mod_cast a1
    have a2 : q + i < k + 1 := by exact_mod_cast a2
    omega
  simp only [graticule, hsp]
  exact ⟨key k _ _ h1 h2 h3, key l _ _ h4 h5 h6⟩

/-! ### Hazard curves -/

theorem max?_spec {l : List ℚ} {m : ℚ} (h : l.max? = some m) : m ∈ l ∧ ∀ x ∈ l, x ≤ m :=
  (List.max?_eq_some_iff).1 h

theorem min?_spec {l : List ℚ} {m : ℚ} (h : l.min? = some m) : m ∈ l ∧ ∀ x ∈ l, m ≤ x :=
  (List.min?_eq_some_iff).1 h

/-- The axis of wind speeds ends at a multiple of ten, at 100 or above, and the whole curve is below. -/
theorem C174_curve_shown (mean : List ℚ) (hm : mean ≠ []) : ∃ top, upperLimit mean = .ok top ∧
    100 ≤ top ∧ (∃ k : ℤ, top = k * 10) ∧ (∀ v ∈ mean, v ≤ top) ∧
    (top = 100 ∨ ∃ v ∈ mean, top < v + 10) := by
  cases h : mean.max? with
  | none => exact absurd (List.max?_eq_none_iff.1 h) hm
  | some m =>
    obtain ⟨hmem, hle⟩ := max?_spec h
    have h1 : m ≤ (⌈m / 10⌉ : ℚ) * 10 := by
      have := Int.le_ceil (m / 10)
      rw [div_le_iff₀ (by norm_num)] at this
      exact this
    have h2 : (⌈m / 10⌉ : ℚ) * 10 < m + 10 := by
      have := Int.ceil_lt_add_one (m / 10)
      linarith
    refine ⟨_, by simp only [upperLimit, h], le_max_left _ _, ?_, fun v hv => (hle v hv).trans (h1.trans (le_max_right _ _)), ?_⟩
    · rcases le_total (100 : ℚ) (⌈m / 10⌉ * 10) with h' | h'
      · exact ⟨⌈m / 10⌉, by rw [max_eq_right h']⟩
      · exact ⟨10, by rw [max_eq_left h']; norm_num⟩
    · rcases le_total (100 : ℚ) (⌈m / 10⌉ * 10) with h' | h'
      · exact .inr ⟨m, hmem, by rw [max_eq_right h']; exact h2⟩
      · exact .inl (max_eq_left h')

/-- The upper confidence limit is not considered: if it exceeds the curve enough it is outside the axis. -/
theorem C174_upper_fails (mean upper : List ℚ) (hm : ∀ v ∈ mean, v ≤ 100) (hne : mean ≠ []) (hu : ∃ u ∈ upper, 100 < u) :
    ∃ top, upperLimit mean = .ok top ∧ ∃ u ∈ upper, top < u := by
  obtain ⟨top, h, h100, ⟨k, hk⟩, -, hlast⟩ := C174_curve_shown mean hne
  obtain ⟨u, hu, h'⟩ := hu
  refine ⟨top, h, u, hu, ?_⟩
  rcases hlast with h0 | ⟨v, hv, hlt⟩
  · rw [h0]; exact h'
  · have h1 : top < 110 := by linarith [hm v hv]
    rw [hk] at h1 h100 ⊢
    have h2 : (k : ℚ) < (11 : ℤ) := by push_cast; linarith
    have h3 : ((10 : ℤ) : ℚ) ≤ k := by push_cast; linarith
    have h2 : k < 11 := by exact_mod_cast h2
    have h3 : 10 ≤ k := by exact_mod_cast h3
    have : k = 10 := by omega
    rw [this]; push_cast; linarith

/-- The confidence range is drawn exactly if both limits are positive for the first return period. -/
theorem C174_range (l u : ℚ) (lower upper : List ℚ) : drawsRange (l :: lower) (u :: upper) = true ↔ 0 < l ∧ 0 < u := by
  simp [drawsRange]

/-- So a range that is missing for the first return period only is not drawn at all. -/
theorem C174_range_fails (l u : ℚ) (hl : l ≤ 0) (lower upper : List ℚ) :
    drawsRange (l :: lower) (u :: upper) = false := by
  simp [drawsRange, hl]

/-! ### Colours -/

/-- The diverging colours are used exactly for values on both sides of zero whose midpoint is close to zero: less than
half the given part of the range away from it. -/
theorem C174_colours (range : List ℚ) (percent lo hi : ℚ) (hp : percent ≤ 1) (h0 : 0 ≤ percent) (hlo : lo ∈ range)
    (hhi : hi ∈ range) (hb : ∀ v ∈ range, lo ≤ v ∧ v ≤ hi) (hne : lo < hi) :
    ∃ c, selectColormap true range percent = .ok c ∧
      (c = .diverging ↔ lo < 0 ∧ 0 < hi ∧ |(lo + hi) / 2| < percent / 2 * (hi - lo)) := by
  have e1 : range.max? = some hi := List.max?_eq_some_iff.2 ⟨hhi, fun v hv => (hb v hv).2⟩
  have e2 : range.min? = some lo := List.min?_eq_some_iff.2 ⟨hlo, fun v hv => (hb v hv).1⟩
  have hd : 0 < hi - lo := by linarith
  have key : |(|hi| - |lo|) / (hi - lo)| < percent ↔ lo < 0 ∧ 0 < hi ∧ |(lo + hi) / 2| < percent / 2 * (hi - lo) := by
    rw [abs_div, abs_of_pos hd, div_lt_iff₀ hd]
    by_cases h1 : 0 ≤ lo
    · rw [abs_of_nonneg (by linarith : 0 ≤ hi), abs_of_nonneg h1, abs_of_pos hd]
      constructor
      · intro h; nlinarith
      · rintro ⟨h, -⟩; linarith
    · push Not at h1
      by_cases h2 : hi ≤ 0
      · rw [abs_of_nonpos h2, abs_of_neg h1, abs_of_neg (by linarith)]
        constructor
        · intro h; nlinarith
        · rintro ⟨-, h, -⟩; linarith
      · push Not at h2
        rw [abs_of_pos h2, abs_of_neg h1, abs_div, abs_of_pos (by norm_num : (0 : ℚ) < 2), div_lt_iff₀ (by norm_num),
          show hi - -lo = lo + hi by ring, show percent / 2 * (hi - lo) * 2 = percent * (hi - lo) by ring]
        exact ⟨fun h => ⟨h1, h2, h⟩, fun h => h.2.2⟩
  simp only [selectColormap, e1, e2, Bool.true_eq_false, if_false, if_neg hd.ne']
  by_cases h : |(|hi| - |lo|) / (hi - lo)| < percent
  · exact ⟨.diverging, by rw [if_pos h], by simp [← key, h]⟩
  · exact ⟨.sequential, by rw [if_neg h], by simp [← key, h]⟩

/-- Levels that are all equal, and levels of other numeric types of numpy, are errors. -/
theorem C174_colours_error (range : List ℚ) (percent : ℚ) (hne : range ≠ []) :
    selectColormap false range percent = .error .typeError ∧
    ((∀ a ∈ range, ∀ b ∈ range, a = b) → selectColormap true range percent = .error .zeroDivision) := by
  cases h1 : range.max? with
  | none => exact absurd (List.max?_eq_none_iff.1 h1) hne
  | some hi =>
    cases h2 : range.min? with
    | none => exact absurd (List.min?_eq_none_iff.1 h2) hne
    | some lo =>
      refine ⟨by simp [selectColormap, h1, h2], fun h => ?_⟩
      have : hi = lo := h _ (max?_spec h1).1 _ (min?_spec h2).1
      simp [selectColormap, h1, h2, this]

/-! ### Cases -/

example : layout 5 = .ok (3, 2) := by
  have h : ceilSqrt 5 = 3 := by decide +kernel
  have : ⌈((5 : ℕ) : ℚ) / ((3 : ℕ) : ℚ)⌉ = 2 := by decide +kernel
  simp only [layout, h, this]; rfl

example : graticule 110 155 (-45) (-5) =
    ([110, 115, 120, 125, 130, 135, 140, 145, 150, 155], [-45, -40, -35, -30, -25, -20, -15, -10, -5]) := by decide +kernel

example : graticule (301/2) (303/2) (-21) (-41/2) = ([150, 152], [-22, -20]) := by decide +kernel

example : upperLimit [45, 1013/10, 63] = .ok 110 := by decide +kernel

example : selectColormap true [-9, -3, 0, 10] (1/10) = .ok .diverging := by decide +kernel

example : selectColormap true [-7, 10] (1/10) = .ok .sequential := by decide +kernel

end Tcrm.Figures
