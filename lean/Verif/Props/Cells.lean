import Verif.Model.Cells
import Verif.Spec.Cells
import Mathlib.Tactic.NormNum
import Mathlib.Tactic.FieldSimp
import Mathlib.Tactic.Ring
import Mathlib.Data.Rat.Floor
/-!
C09 cell numbers identify grid cells; C10 points outside the domain are rejected.
-/
namespace Tcrm.Cells

/-! ### C10 -/

/-- Exact behaviour for every domain: the point moved to its whole degree (longitude down,
latitude up) is what is compared with the limits. -/
theorem C10_rejected_iff_rounded_point_outside (lon lat : ℚ) (gl : Limit) (gs : Space)
    (hx : gs.x ≠ 0) (hy : gs.y ≠ 0) :
    getCellNum lon lat gl gs = .error .valueError ↔
      ¬ (gl.xMin ≤ (⌊lon⌋ : ℚ) ∧ (⌊lon⌋ : ℚ) < gl.xMax ∧
         gl.yMin < (⌈lat⌉ : ℚ) ∧ (⌈lat⌉ : ℚ) ≤ gl.yMax) := by
  simp only [getCellNum]
  by_cases h : (⌊lon⌋ : ℚ) < gl.xMin ∨ gl.xMax ≤ ⌊lon⌋ ∨ (⌈lat⌉ : ℚ) ≤ gl.yMin ∨ gl.yMax < ⌈lat⌉
  · rw [if_pos h]
    refine iff_of_true rfl ?_
    rintro ⟨a, b, c, d⟩
    rcases h with h | h | h | h <;> linarith
  · rw [if_neg h, if_neg (by tauto)]
    refine iff_of_false (by simp) ?_
    push Not at h
    exact not_not.2 ⟨h.1, h.2.1, h.2.2.1, h.2.2.2⟩

/-- For whole-degree limits: an error if and only if the point is outside the domain, west
and north edges inclusive, east and south edges exclusive. Missing for the full property:
domains whose limits are not whole degrees, where it is false (next theorem). -/
theorem C10_rejected_iff_outside_partial (lon lat : ℚ) (x0 x1 y0 y1 : ℤ) (gs : Space)
    (hx : gs.x ≠ 0) (hy : gs.y ≠ 0) :
    getCellNum lon lat ⟨x0, x1, y0, y1⟩ gs = .error .valueError ↔
      ¬ ((x0 : ℚ) ≤ lon ∧ lon < x1 ∧ (y0 : ℚ) < lat ∧ lat ≤ y1) := by
  rw [C10_rejected_iff_rounded_point_outside _ _ _ _ hx hy]
  simp only [Int.cast_le, Int.cast_lt, Int.le_floor, Int.floor_lt, Int.lt_ceil, Int.ceil_le]

/-- With fractional limits a point well inside the domain is rejected, and a point outside is
accepted. -/
theorem C10_fractional_limits_fail :
    (getCellNum (7/10) 1 ⟨1/2, 3, 0, 2⟩ ⟨1, 1⟩ = .error .valueError ∧
      ((1/2 : ℚ) ≤ 7/10 ∧ (7/10 : ℚ) < 3 ∧ (0 : ℚ) < 1 ∧ (1 : ℚ) ≤ 2)) ∧
    (getCellNum (29/10) 1 ⟨0, 5/2, 0, 2⟩ ⟨1, 1⟩ = .ok 4 ∧ ¬ ((29/10 : ℚ) < 5/2)) := by
  have f1 : ⌊(7/10 : ℚ)⌋ = 0 := by norm_num
  have f2 : ⌊(29/10 : ℚ)⌋ = 2 := by norm_num
  refine ⟨⟨?_, by norm_num⟩, ?_, by norm_num⟩
  · rw [C10_rejected_iff_rounded_point_outside _ _ _ _ (by norm_num) (by norm_num)]
    rw [f1]; norm_num
  · simp only [getCellNum, f2]
    norm_num

/-- A grid without extent of its cells in one of the directions: for a point inside the domain the division by zero is
reported; the other points are rejected as with any other grid. -/
theorem C10_zero_spacing (lon lat : ℚ) (gl : Limit) (gs : Space) :
    getCellNum lon lat gl gs = .error .zeroDivision ↔ (gs.x = 0 ∨ gs.y = 0) ∧
      gl.xMin ≤ (⌊lon⌋ : ℚ) ∧ (⌊lon⌋ : ℚ) < gl.xMax ∧ gl.yMin < (⌈lat⌉ : ℚ) ∧ (⌈lat⌉ : ℚ) ≤ gl.yMax := by
  simp only [getCellNum]
  by_cases h : (⌊lon⌋ : ℚ) < gl.xMin ∨ gl.xMax ≤ ⌊lon⌋ ∨ (⌈lat⌉ : ℚ) ≤ gl.yMin ∨ gl.yMax < ⌈lat⌉
  · rw [if_pos h]
    refine iff_of_false (by simp) ?_
    rintro ⟨-, a, b, c, d⟩
    rcases h with h | h | h | h <;> linarith
  · rw [if_neg h]
    push Not at h
    by_cases h0 : gs.x = 0 ∨ gs.y = 0
    · rw [if_pos h0]
      exact iff_of_true rfl ⟨h0, h.1, h.2.1, h.2.2.1, h.2.2.2⟩
    · rw [if_neg h0]
      exact iff_of_false (by simp) (fun q => h0 q.1)

example : getCellNum 115 (-20) ⟨110, 160, -40, -5⟩ ⟨0, 1⟩ = .error .zeroDivision := by decide +kernel

/-- Non-vacuity: an interior point of an Australian domain is accepted. -/
example : getCellNum (1153/10) (-201/10) ⟨110, 160, -40, -5⟩ ⟨1, 1⟩ = .ok 755 := by
  have f1 : ⌊(1153/10 : ℚ)⌋ = 115 := by norm_num
  have f2 : ⌈(-201/10 : ℚ)⌉ = -20 := by
    rw [Int.ceil_eq_iff]; norm_num
  simp only [getCellNum, f1, f2]
  norm_num

/-! ### C09 -/

/-- A domain axis does not straddle zero. -/
def OneSided (a b : ℤ) : Prop := 0 ≤ a ∨ b ≤ 0

theorem floor_div_nat (d : ℤ) (g : ℕ) : ⌊(d : ℚ) / (g : ℚ)⌋ = d / (g : ℤ) :=
  Rat.floor_intCast_div_natCast d g

theorem arangeSize_up (a : ℤ) (n g : ℕ) (hg : 0 < g) :
    arangeSize a ((a + n * g : ℤ) : ℚ) g = n := by
  have : (((a + n * g : ℤ) : ℚ) - a) / g = ((n : ℤ) : ℚ) := by
    have : (g : ℚ) ≠ 0 := by positivity
    push_cast; field_simp; ring
  rw [arangeSize, this, Int.ceil_intCast]; simp

theorem arangeSize_down (a : ℤ) (n g : ℕ) (hg : 0 < g) :
    arangeSize ((a + n * g : ℤ) : ℚ) a (-(g : ℚ)) = n := by
  have : ((a : ℚ) - ((a + n * g : ℤ) : ℚ)) / (-(g : ℚ)) = ((n : ℤ) : ℚ) := by
    have : (g : ℚ) ≠ 0 := by positivity
    push_cast; field_simp; ring
  rw [arangeSize, this, Int.ceil_intCast]; simp

/-- For a whole-degree domain `[x0, x0+nx·dx) × (y0, y0+ny·dy]` not straddling the Greenwich
meridian or the equator: a point of the domain, in column `k` and row `l`, gets the number
`l·nx + k`, which is a valid number not above the maximum, and the number converts back to the
north-west corner of the point's cell. Missing for the full property: straddling domains, where
it is false (`C09_straddling_meridian_fails`, `C09_straddling_equator_fails`). -/
theorem C09_cell_number_partial (x0 y0 : ℤ) (nx ny dx dy : ℕ) (hdx : 0 < dx) (hdy : 0 < dy)
    (hX : OneSided x0 (x0 + nx * dx)) (hY : OneSided y0 (y0 + ny * dy)) (lon lat : ℚ)
    (h1 : (x0 : ℚ) ≤ lon) (h2 : lon < ((x0 + nx * dx : ℤ) : ℚ)) (h3 : (y0 : ℚ) < lat)
    (h4 : lat ≤ ((y0 + ny * dy : ℤ) : ℚ)) :
    ∃ k l : ℕ, k < nx ∧ l < ny ∧ InColumn x0 dx lon k ∧ InRow ((y0 + ny * dy : ℤ) : ℚ) dy lat l ∧
      getCellNum lon lat ⟨x0, (x0 + nx * dx : ℤ), y0, (y0 + ny * dy : ℤ)⟩ ⟨dx, dy⟩ =
        .ok (l * nx + k : ℕ) ∧
      ((l * nx + k : ℕ) : ℤ) ≤
        maxCellNum ⟨x0, (x0 + nx * dx : ℤ), y0, (y0 + ny * dy : ℤ)⟩ ⟨dx, dy⟩ ∧
      validCellNum (l * nx + k : ℕ) ⟨x0, (x0 + nx * dx : ℤ), y0, (y0 + ny * dy : ℤ)⟩ ⟨dx, dy⟩
        = true ∧
      getCellLonLat (l * nx + k : ℕ) ⟨x0, (x0 + nx * dx : ℤ), y0, (y0 + ny * dy : ℤ)⟩ ⟨dx, dy⟩ =
        .ok (x0 + k * dx, ((y0 + ny * dy : ℤ) : ℚ) - l * dy) := by
  set lo : ℤ := ⌊lon⌋ with hlo
  set la : ℤ := ⌈lat⌉ with hla
  have a1 : x0 ≤ lo := Int.le_floor.2 h1
  have a2 : lo < x0 + nx * dx := Int.floor_lt.2 h2
  have a3 : y0 < la := Int.lt_ceil.2 h3
  have a4 : la ≤ y0 + ny * dy := Int.ceil_le.2 h4
  have hdx' : (0 : ℤ) < dx := by omega
  have hdy' : (0 : ℤ) < dy := by omega
  -- column
  obtain ⟨k, hk⟩ : ∃ k : ℕ, (lo - x0) / (dx : ℤ) = k :=
    ⟨((lo - x0) / (dx : ℤ)).toNat, by
      rw [Int.toNat_of_nonneg (Int.ediv_nonneg (by omega) (by omega))]⟩
  obtain ⟨l, hl⟩ : ∃ l : ℕ, (y0 + ny * dy - la) / (dy : ℤ) = l :=
    ⟨((y0 + ny * dy - la) / (dy : ℤ)).toNat, by
      rw [Int.toNat_of_nonneg (Int.ediv_nonneg (by omega) (by omega))]⟩
  have k1 : (k : ℤ) * dx ≤ lo - x0 := by rw [← hk]; exact Int.ediv_mul_le _ (by omega)
  have k2 : lo - x0 < ((k : ℤ) + 1) * dx := by
    rw [← hk]; exact Int.lt_ediv_add_one_mul_self _ hdx'
  have l1 : (l : ℤ) * dy ≤ y0 + ny * dy - la := by rw [← hl]; exact Int.ediv_mul_le _ (by omega)
  have l2 : y0 + ny * dy - la < ((l : ℤ) + 1) * dy := by
    rw [← hl]; exact Int.lt_ediv_add_one_mul_self _ hdy'
  have hkn : k < nx := by
    have : (k : ℤ) * dx < nx * dx := by omega
    exact_mod_cast lt_of_mul_lt_mul_right this (by omega)
  have hln : l < ny := by
    have : (l : ℤ) * dy < ny * dy := by omega
    exact_mod_cast lt_of_mul_lt_mul_right this (by omega)
  have absx : |(|(lo : ℚ)| - |(x0 : ℚ)|)| = ((lo - x0 : ℤ) : ℚ) := by
    have : |(|lo| - |x0|)| = lo - x0 := by
      rcases hX with h | h
      · rw [abs_of_nonneg (show 0 ≤ lo by omega), abs_of_nonneg h, abs_of_nonneg (by omega)]
      · rw [abs_of_neg (show lo < 0 by omega), abs_of_neg (show x0 < 0 by omega)]
        rw [abs_of_nonpos (by omega)]; omega
    rw [← this]; push_cast; rfl
  have absy : |(|(la : ℚ)| - |((y0 + ny * dy : ℤ) : ℚ)|)| = ((y0 + ny * dy - la : ℤ) : ℚ) := by
    have : |(|la| - |y0 + ny * dy|)| = y0 + ny * dy - la := by
      rcases hY with h | h
      · rw [abs_of_nonneg (show 0 ≤ la by omega), abs_of_nonneg (show 0 ≤ y0 + ny * dy by omega)]
        rw [abs_of_nonpos (by omega)]; omega
      · rw [abs_of_nonpos (show la ≤ 0 by omega), abs_of_nonpos h, abs_of_nonneg (by omega)]; omega
    rw [← this]; push_cast; rfl
  have hcols : |⌊(((x0 + nx * dx : ℤ) : ℚ) - x0) / dx⌋| = (nx : ℤ) := by
    have : (((x0 + nx * dx : ℤ) : ℚ) - x0) / dx = ((nx : ℤ) : ℚ) := by
      have : (dx : ℚ) ≠ 0 := by positivity
      push_cast; field_simp; ring
    rw [this, Int.floor_intCast]; simp
  refine ⟨k, l, hkn, hln, ⟨?_, ?_⟩, ⟨?_, ?_⟩, ?_, ?_, ?_, ?_⟩
  · have : ((x0 + k * dx : ℤ) : ℚ) ≤ lon := Int.le_floor.1 (by omega)
    push_cast at this; exact this
  · have : lon < ((x0 + (k + 1) * dx : ℤ) : ℚ) := Int.floor_lt.1 (by omega)
    push_cast at this; exact this
  · have : ((y0 + ny * dy - (l + 1) * dy : ℤ) : ℚ) < lat := Int.lt_ceil.1 (by omega)
    push_cast at this ⊢; exact this
  · have : lat ≤ ((y0 + ny * dy - l * dy : ℤ) : ℚ) := Int.ceil_le.1 (by omega)
    push_cast at this ⊢; exact this
  · simp only [getCellNum]
    rw [← hlo, ← hla, if_neg, if_neg, absx, absy, hcols]
    · rw [abs_of_nonneg (show (0 : ℚ) ≤ dx by positivity),
        abs_of_nonneg (show (0 : ℚ) ≤ dy by positivity), floor_div_nat, floor_div_nat, hk, hl]
      push_cast; rfl
    · push Not; exact ⟨by positivity, by positivity⟩
    · push Not
      exact ⟨by exact_mod_cast a1, by exact_mod_cast a2, by exact_mod_cast a3, by exact_mod_cast a4⟩
  · simp only [maxCellNum, arangeSize_up _ _ _ hdx, arangeSize_down _ _ _ hdy]
    have h5 : (l : ℤ) + 1 ≤ ny := by omega
    have h6 : (k : ℤ) + 1 ≤ nx := by omega
    push_cast; nlinarith
  · simp only [validCellNum, arangeSize_up _ _ _ hdx, arangeSize_down _ _ _ hdy]
    rw [if_neg (by omega), if_neg]
    have h5 : (l : ℤ) + 1 ≤ ny := by omega
    have h6 : (k : ℤ) + 1 ≤ nx := by omega
    push_cast; nlinarith
  · simp only [getCellLonLat, arangeGet, arangeSize_up _ _ _ hdx, arangeSize_down _ _ _ hdy]
    rw [if_neg (by omega), if_neg, if_neg (by omega)]
    · have e1 : (l * nx + k) / nx = l := by
        rw [Nat.add_comm, Nat.add_mul_div_right _ _ (by omega), Nat.div_eq_of_lt hkn, Nat.zero_add]
      have e2 : (l * nx + k) % nx = k := by
        rw [Nat.add_comm, Nat.add_mul_mod_self_right, Nat.mod_eq_of_lt hkn]
      simp only [Int.toNat_natCast, e1, e2, hkn, hln, if_true]
      push_cast
      congr 2; ring
    · push Not; exact ⟨by positivity, by positivity⟩

/-- C09: in every whole-degree domain of whole cells, also one that straddles the meridian or the equator, every point
gets a number from 0 to the maximum. -/
theorem C09_in_range (x0 y0 : ℤ) (nx ny dx dy : ℕ) (hdx : 0 < dx) (hdy : 0 < dy) (lon lat : ℚ)
    (h1 : (x0 : ℚ) ≤ lon) (h2 : lon < ((x0 + nx * dx : ℤ) : ℚ)) (h3 : (y0 : ℚ) < lat)
    (h4 : lat ≤ ((y0 + ny * dy : ℤ) : ℚ)) :
    ∃ c : ℕ, getCellNum lon lat ⟨x0, (x0 + nx * dx : ℤ), y0, (y0 + ny * dy : ℤ)⟩ ⟨dx, dy⟩ = .ok c ∧
      (c : ℤ) ≤ maxCellNum ⟨x0, (x0 + nx * dx : ℤ), y0, (y0 + ny * dy : ℤ)⟩ ⟨dx, dy⟩ := by
  set lo : ℤ := ⌊lon⌋ with hlo
  set la : ℤ := ⌈lat⌉ with hla
  have a1 : x0 ≤ lo := Int.le_floor.2 h1
  have a2 : lo < x0 + nx * dx := Int.floor_lt.2 h2
  have a3 : y0 < la := Int.lt_ceil.2 h3
  have a4 : la ≤ y0 + ny * dy := Int.ceil_le.2 h4
  have hdx' : (0 : ℤ) < dx := by omega
  have hdy' : (0 : ℤ) < dy := by omega
  obtain ⟨k, hk⟩ : ∃ k : ℕ, |(|lo| - |x0|)| / (dx : ℤ) = k :=
    ⟨(|(|lo| - |x0|)| / (dx : ℤ)).toNat, by
      rw [Int.toNat_of_nonneg (Int.ediv_nonneg (abs_nonneg _) (by omega))]⟩
  obtain ⟨l, hl⟩ : ∃ l : ℕ, |(|la| - |y0 + ny * dy|)| / (dy : ℤ) = l :=
    ⟨(|(|la| - |y0 + ny * dy|)| / (dy : ℤ)).toNat, by
      rw [Int.toNat_of_nonneg (Int.ediv_nonneg (abs_nonneg _) (by omega))]⟩
  have bx : |(|lo| - |x0|)| ≤ lo - x0 := le_of_le_of_eq (abs_abs_sub_abs_le lo x0) (abs_of_nonneg (by omega))
  have bY : |(|la| - |y0 + ny * dy|)| ≤ y0 + ny * dy - la :=
    le_of_le_of_eq (abs_abs_sub_abs_le la (y0 + ny * dy)) (by rw [abs_of_nonpos (by omega)]; omega)
  have hkn : k < nx := by
    have h : (k : ℤ) * dx ≤ |(|lo| - |x0|)| := by rw [← hk]; exact Int.ediv_mul_le _ (by omega)
    have : (k : ℤ) * dx < nx * dx := by omega
    exact_mod_cast lt_of_mul_lt_mul_right this (by omega)
  have hln : l < ny := by
    have h : (l : ℤ) * dy ≤ |(|la| - |y0 + ny * dy|)| := by rw [← hl]; exact Int.ediv_mul_le _ (by omega)
    have : (l : ℤ) * dy < ny * dy := by omega
    exact_mod_cast lt_of_mul_lt_mul_right this (by omega)
  have absx : |(|(lo : ℚ)| - |(x0 : ℚ)|)| = ((|(|lo| - |x0|)| : ℤ) : ℚ) := by push_cast; rfl
  have absy : |(|(la : ℚ)| - |((y0 + ny * dy : ℤ) : ℚ)|)| = ((|(|la| - |y0 + ny * dy|)| : ℤ) : ℚ) := by push_cast; rfl
  have hcols : |⌊(((x0 + nx * dx : ℤ) : ℚ) - x0) / dx⌋| = (nx : ℤ) := by
    have : (((x0 + nx * dx : ℤ) : ℚ) - x0) / dx = ((nx : ℤ) : ℚ) := by
      have : (dx : ℚ) ≠ 0 := by positivity
      push_cast; field_simp; ring
    rw [this, Int.floor_intCast]; simp
  refine ⟨l * nx + k, ?_, ?_⟩
  · simp only [getCellNum]
    rw [← hlo, ← hla, if_neg, if_neg, absx, absy, hcols]
    · rw [abs_of_nonneg (show (0 : ℚ) ≤ dx by positivity),
        abs_of_nonneg (show (0 : ℚ) ≤ dy by positivity), floor_div_nat, floor_div_nat, hk, hl]
      push_cast; rfl
    · push Not; exact ⟨by positivity, by positivity⟩
    · push Not
      exact ⟨by exact_mod_cast a1, by exact_mod_cast a2, by exact_mod_cast a3, by exact_mod_cast a4⟩
  · simp only [maxCellNum, arangeSize_up _ _ _ hdx, arangeSize_down _ _ _ hdy]
    have h5 : (l : ℤ) + 1 ≤ ny := by omega
    have h6 : (k : ℤ) + 1 ≤ nx := by omega
    push_cast; nlinarith

example : getCellNum (-3/2) (1/2) ⟨-4, ((-4 + 4 * 2 : ℤ) : ℚ), -2, ((-2 + 2 * 2 : ℤ) : ℚ)⟩ ⟨2, 2⟩ = .ok 1 := by decide +kernel

/-- Two points of such a domain get the same number only if they are in the same cell
(and conversely). -/
theorem C09_same_number_iff_same_cell_partial (x0 y0 : ℤ) (nx ny dx dy : ℕ) (hdx : 0 < dx)
    (hdy : 0 < dy)
    (hX : OneSided x0 (x0 + nx * dx)) (hY : OneSided y0 (y0 + ny * dy)) (lon lat lon' lat' : ℚ)
    (h1 : (x0 : ℚ) ≤ lon) (h2 : lon < ((x0 + nx * dx : ℤ) : ℚ)) (h3 : (y0 : ℚ) < lat)
    (h4 : lat ≤ ((y0 + ny * dy : ℤ) : ℚ))
    (h1' : (x0 : ℚ) ≤ lon') (h2' : lon' < ((x0 + nx * dx : ℤ) : ℚ)) (h3' : (y0 : ℚ) < lat')
    (h4' : lat' ≤ ((y0 + ny * dy : ℤ) : ℚ)) :
    (getCellNum lon lat ⟨x0, (x0 + nx * dx : ℤ), y0, (y0 + ny * dy : ℤ)⟩ ⟨dx, dy⟩ =
      getCellNum lon' lat' ⟨x0, (x0 + nx * dx : ℤ), y0, (y0 + ny * dy : ℤ)⟩ ⟨dx, dy⟩) ↔
    ((∃ k, InColumn x0 dx lon k ∧ InColumn x0 dx lon' k) ∧
     ∃ l, InRow ((y0 + ny * dy : ℤ) : ℚ) dy lat l ∧ InRow ((y0 + ny * dy : ℤ) : ℚ) dy lat' l) := by
  obtain ⟨k, l, hk, hl, hc, hr, hn, -⟩ :=
    C09_cell_number_partial x0 y0 nx ny dx dy hdx hdy hX hY lon lat h1 h2 h3 h4
  obtain ⟨k', l', hk', hl', hc', hr', hn', -⟩ :=
    C09_cell_number_partial x0 y0 nx ny dx dy hdx hdy hX hY lon' lat' h1' h2' h3' h4'
  have hdxq : (0 : ℚ) < dx := by positivity
  have hdyq : (0 : ℚ) < dy := by positivity
  have colU : ∀ (z : ℚ) (a b : ℕ), InColumn x0 dx z a → InColumn x0 dx z b → a = b := by
    intro z a b ⟨p, q⟩ ⟨r, s⟩
    have e1 : (a : ℚ) * dx < (b + 1) * dx := by linarith
    have e2 : (b : ℚ) * dx < (a + 1) * dx := by linarith
    have e1' := lt_of_mul_lt_mul_right e1 hdxq.le
    have e2' := lt_of_mul_lt_mul_right e2 hdxq.le
    have e1'' : a < b + 1 := by exact_mod_cast e1'
    have e2'' : b < a + 1 := by exact_mod_cast e2'
    omega
  have rowU : ∀ (z : ℚ) (a b : ℕ), InRow ((y0 + ny * dy : ℤ) : ℚ) dy z a →
      InRow ((y0 + ny * dy : ℤ) : ℚ) dy z b → a = b := by
    intro z a b ⟨p, q⟩ ⟨r, s⟩
    have e1 : (a : ℚ) * dy < (b + 1) * dy := by linarith
    have e2 : (b : ℚ) * dy < (a + 1) * dy := by linarith
    have e1' := lt_of_mul_lt_mul_right e1 hdyq.le
    have e2' := lt_of_mul_lt_mul_right e2 hdyq.le
    have e1'' : a < b + 1 := by exact_mod_cast e1'
    have e2'' : b < a + 1 := by exact_mod_cast e2'
    omega
  rw [hn, hn']
  constructor
  · intro h
    have h := Int.ofNat_inj.1 (Except.ok.inj h)
    have hpos : 0 < nx := by omega
    have d1 := congrArg (· / nx) h
    have d2 := congrArg (· % nx) h
    simp only [Nat.add_comm (_ * nx), Nat.add_mul_div_right _ _ hpos, Nat.div_eq_of_lt hk,
      Nat.div_eq_of_lt hk', Nat.add_mul_mod_self_right, Nat.mod_eq_of_lt hk, Nat.mod_eq_of_lt hk',
      Nat.zero_add] at d1 d2
    subst d1 d2
    exact ⟨⟨k, hc, hc'⟩, l, hr, hr'⟩
  · rintro ⟨⟨a, ha, ha'⟩, b, hb, hb'⟩
    rw [colU _ _ _ hc ha, colU _ _ _ hc' ha', rowU _ _ _ hr hb, rowU _ _ _ hr' hb']

/-- `validCellNum` accepts exactly the numbers `0..maxCellNum`, for every domain. -/
theorem C09_valid_iff (n : ℤ) (gl : Limit) (gs : Space) :
    validCellNum n gl gs = true ↔ 0 ≤ n ∧ n ≤ maxCellNum gl gs := by
  simp only [validCellNum, maxCellNum]
  split
  · simp; omega
  · split <;> simp <;> omega

/-- Every domain of one-degree cells that reaches at least one degree west and two degrees east
of the Greenwich meridian gives the cells at 1°W and 1°E of a row the same number. -/
theorem C09_straddling_meridian_fails (x0 x1 y0 y1 : ℤ) (h0 : x0 ≤ -1) (h1 : 2 ≤ x1) (hy : y0 < y1) :
    getCellNum (-1) y1 ⟨x0, x1, y0, y1⟩ ⟨1, 1⟩ = getCellNum 1 y1 ⟨x0, x1, y0, y1⟩ ⟨1, 1⟩ ∧
    (∃ n, getCellNum 1 y1 ⟨x0, x1, y0, y1⟩ ⟨1, 1⟩ = .ok n) ∧
    ¬ ∃ k, InColumn x0 1 (-1) k ∧ InColumn x0 1 1 k := by
  have q0 : (x0 : ℚ) ≤ -1 := by exact_mod_cast h0
  have q1 : (2 : ℚ) ≤ x1 := by exact_mod_cast h1
  have q2 : (y0 : ℚ) < y1 := by exact_mod_cast hy
  have f1 : ⌊(-1 : ℚ)⌋ = -1 := by norm_num
  have f2 : ⌊(1 : ℚ)⌋ = 1 := by norm_num
  refine ⟨?_, ?_, ?_⟩
  · simp only [getCellNum, f1, f2, Int.ceil_intCast]
    rw [if_neg, if_neg (by norm_num), if_neg, if_neg (by norm_num)]
    · norm_num
    · push Not; push_cast
      refine ⟨by linarith, by linarith, q2, le_refl _⟩
    · push Not; push_cast
      refine ⟨by linarith, by linarith, q2, le_refl _⟩
  · simp only [getCellNum, f2, Int.ceil_intCast]
    rw [if_neg, if_neg (by norm_num)]
    · exact ⟨_, rfl⟩
    · push Not; push_cast
      refine ⟨by linarith, by linarith, q2, le_refl _⟩
  · rintro ⟨k, ⟨a, b⟩, c, d⟩
    linarith

/-- Every domain of one-degree cells reaching 1°N and beyond 2°S of the equator gives the cells
south of 1°N and south of 1°S of a column the same number. -/
theorem C09_straddling_equator_fails (x0 x1 y0 y1 : ℤ) (h0 : y0 ≤ -2) (h1 : 1 ≤ y1) (hx : x0 < x1) :
    getCellNum x0 1 ⟨x0, x1, y0, y1⟩ ⟨1, 1⟩ = getCellNum x0 (-1) ⟨x0, x1, y0, y1⟩ ⟨1, 1⟩ ∧
    (∃ n, getCellNum x0 1 ⟨x0, x1, y0, y1⟩ ⟨1, 1⟩ = .ok n) ∧
    ¬ ∃ l, InRow y1 1 1 l ∧ InRow y1 1 (-1) l := by
  have q0 : (y0 : ℚ) ≤ -2 := by exact_mod_cast h0
  have q1 : (1 : ℚ) ≤ y1 := by exact_mod_cast h1
  have q2 : (x0 : ℚ) < x1 := by exact_mod_cast hx
  have f1 : ⌈(-1 : ℚ)⌉ = -1 := by rw [Int.ceil_eq_iff]; norm_num
  have f2 : ⌈(1 : ℚ)⌉ = 1 := by norm_num
  refine ⟨?_, ?_, ?_⟩
  · simp only [getCellNum, f1, f2, Int.floor_intCast]
    rw [if_neg, if_neg (by norm_num), if_neg, if_neg (by norm_num)]
    · norm_num
    · push Not; push_cast
      refine ⟨le_refl _, q2, by linarith, by linarith⟩
    · push Not; push_cast
      refine ⟨le_refl _, q2, by linarith, by linarith⟩
  · simp only [getCellNum, f2, Int.floor_intCast]
    rw [if_neg, if_neg (by norm_num)]
    · exact ⟨_, rfl⟩
    · push Not; push_cast
      refine ⟨le_refl _, q2, by linarith, by linarith⟩
  · rintro ⟨k, ⟨a, b⟩, c, d⟩
    linarith

/-- Outside the property's range: if the cell size does not divide the domain, the number and
its inverse use different column counts (here a 5° wide domain with 2° cells: the first point of
the second row gets number 2, which converts back to the third cell of the first row). -/
theorem C09_non_dividing_cell_size_fails :
    getCellNum 100 (-2) ⟨100, 105, -4, 0⟩ ⟨2, 2⟩ = .ok 2 ∧
    getCellLonLat 2 ⟨100, 105, -4, 0⟩ ⟨2, 2⟩ = .ok (104, 0) := by
  have f1 : ⌈(-2 : ℚ)⌉ = -2 := by rw [Int.ceil_eq_iff]; norm_num
  constructor
  · simp only [getCellNum, f1]; norm_num
  · have h1 : arangeSize 100 105 2 = 3 := by
      rw [arangeSize, show ⌈((105:ℚ) - 100) / 2⌉ = 3 by rw [Int.ceil_eq_iff]; norm_num]; rfl
    have h2 : arangeSize 0 (-4) (-2) = 2 := by
      rw [arangeSize, show ⌈((-4:ℚ) - 0) / (-2)⌉ = 2 by rw [Int.ceil_eq_iff]; norm_num]; rfl
    norm_num [getCellLonLat, arangeGet, h1, h2, show Int.toNat 2 = 2 from rfl]

/-- Non-vacuity: the Australian domain 110–160°E, 40–5°S meets the hypotheses. -/
example : OneSided 110 (110 + (50 : ℕ) * (1 : ℕ)) ∧ OneSided (-40) (-40 + (35 : ℕ) * (1 : ℕ)) := by
  constructor
  · left; norm_num
  · right; norm_num

end Tcrm.Cells
