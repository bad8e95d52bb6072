import Verif.Lemmas.Arange64
import Verif.Props.Cells
/-!
C187 regular grids in double precision.
-/
namespace Tcrm.Arange64

open Tcrm.Binary64 Tcrm.Cells

/-- Limits and step with few binary digits (whole degrees, halves, …): the grid is exactly the points from `a` by steps of
`s` that come before `b`. -/
theorem C187_exact_partial (k : ℕ) (a b s : ℚ) (ha : Fine k a) (hb : Fine k b) (hs : Fine k s) (h0 : s ≠ 0) :
    Steps a b s (arange a b s) := by
  refine ⟨fun i h => ?_, fun i => ?_⟩
  · have h' : i < arangeSize a b s := by rwa [arange_length, size_exact ha hb hs h0] at h
    have := arange_get? ha hb hs h0 i
    rw [arangeGet, if_pos h', List.getElem?_eq_getElem h] at this
    exact Option.some.inj this
  · rw [arange_length, size_exact ha hb hs h0, size_lt ha hb hs h0]

example : Fine 1 110.5 ∧ Fine 1 (-40) ∧ Fine 1 0.5 ∧ arange 110.5 112 0.5 = [110.5, 111, 111.5] ∧
    arange (-5) (-8) (-2) = [-5, -7] := by
  refine ⟨⟨221, by decide, by norm_num⟩, ⟨-80, by decide, by norm_num⟩, ⟨1, by decide, by norm_num⟩, ?_, ?_⟩ <;>
    decide +kernel

/-- Then the numbering of cells is the same as with exact numbers, so that C09 and C10 hold in double precision. -/
theorem C187_cells_partial (k : ℕ) (gl : Limit) (gs : Space) (h1 : Fine k gl.xMin) (h2 : Fine k gl.xMax)
    (h3 : Fine k gl.yMin) (h4 : Fine k gl.yMax) (hx : Fine k gs.x) (hy : Fine k gs.y) (px : 0 < gs.x) (py : 0 < gs.y) :
    maxCellNum gl gs = Cells.maxCellNum gl gs ∧
    (∀ n, validCellNum n gl gs = Cells.validCellNum n gl gs) ∧
    (∀ n, getCellLonLat n gl gs = Cells.getCellLonLat n gl gs) ∧
    ∀ lon lat, getCellNum lon lat gl gs = Cells.getCellNum lon lat gl gs := by
  have ny : -gs.y ≠ 0 := by linarith
  have s1 := size_exact h1 h2 hx px.ne'
  have s2 := size_exact h4 h3 (fine_neg hy) ny
  have hm : maxCellNum gl gs = Cells.maxCellNum gl gs := by
    rw [maxCellNum, Cells.maxCellNum, arange_length, arange_length, s1, s2]
  refine ⟨hm, fun n => ?_, fun n => ?_, fun lon lat => ?_⟩
  · simp only [validCellNum, Cells.validCellNum, hm, Cells.maxCellNum]
  · simp only [getCellLonLat, Cells.getCellLonLat, arange_length, s1, arange_get? h1 h2 hx px.ne',
      arange_get? h4 h3 (fine_neg hy) ny]
    rfl
  · simp only [getCellNum, Cells.getCellNum]
    split
    · rfl
    · rename_i hc
      push Not at hc
      split
      · rfl
      · obtain ⟨A, hA, eA⟩ := h1
        obtain ⟨B, hB, eB⟩ := h2
        obtain ⟨C, hC, eC⟩ := h3
        obtain ⟨D, hD, eD⟩ := h4
        obtain ⟨X, hX, eX⟩ := hx
        obtain ⟨Y, hY, eY⟩ := hy
        rw [eA, eB, eC, eD] at hc
        rw [eX] at px
        rw [eY] at py
        have p2 : (0 : ℚ) < 2 ^ k := by positivity
        have X0 : 0 < X := by
          rw [div_pos_iff_of_pos_right p2] at px; exact_mod_cast px
        have Y0 : 0 < Y := by
          rw [div_pos_iff_of_pos_right p2] at py; exact_mod_cast py
        rw [eA, eB, eD, eX, eY]
        generalize hlo : ⌊lon⌋ = lo at hc ⊢
        generalize hla : ⌈lat⌉ = la at hc ⊢
        obtain ⟨c1, c2, c3, c4⟩ := hc
        rw [div_le_iff₀ p2] at c1
        rw [lt_div_iff₀ p2] at c2
        rw [div_lt_iff₀ p2] at c3
        rw [le_div_iff₀ p2] at c4
        have c1' : A ≤ lo * 2 ^ k := by exact_mod_cast c1
        have c2' : lo * 2 ^ k < B := by exact_mod_cast c2
        have c3' : C < la * 2 ^ k := by exact_mod_cast c3
        have c4' : la * 2 ^ k ≤ D := by exact_mod_cast c4
        obtain ⟨L, hL⟩ : ∃ L, L = lo * 2 ^ k := ⟨_, rfl⟩
        obtain ⟨M, hM⟩ : ∃ M, M = la * 2 ^ k := ⟨_, rfl⟩
        rw [← hL] at c1' c2'
        rw [← hM] at c3' c4'
        rw [abs_le] at hA hB hC hD hX hY
        have hLb : |L| ≤ 2 ^ 24 := by rw [abs_le]; omega
        have hMb : |M| ≤ 2 ^ 24 := by rw [abs_le]; omega
        have hAb : |A| ≤ 2 ^ 24 := by rw [abs_le]; omega
        have hDb : |D| ≤ 2 ^ 24 := by rw [abs_le]; omega
        have el : (lo : ℚ) = (L : ℚ) / 2 ^ k := by
          rw [hL]; push_cast; field_simp
        have em : (la : ℚ) = (M : ℚ) / 2 ^ k := by
          rw [hM]; push_cast; field_simp
        have ab (n : ℤ) : |(n : ℚ) / 2 ^ k| = ((|n| : ℤ) : ℚ) / 2 ^ k := by
          rw [abs_div, abs_of_pos p2]; push_cast; rfl
        have d1 : |(lo : ℚ)| - |(A : ℚ) / 2 ^ k| = ((|L| - |A| : ℤ) : ℚ) / 2 ^ k := by
          rw [el, ab, ab]; push_cast; ring
        have d2 : |(la : ℚ)| - |(D : ℚ) / 2 ^ k| = ((|M| - |D| : ℤ) : ℚ) / 2 ^ k := by
          rw [em, ab, ab]; push_cast; ring
        have d3 : (B : ℚ) / 2 ^ k - A / 2 ^ k = ((B - A : ℤ) : ℚ) / 2 ^ k := by push_cast; ring
        have n1 := abs_nonneg L
        have n2 := abs_nonneg M
        have n3 := abs_nonneg A
        have n4 := abs_nonneg D
        have b1 : |(|L| - |A|)| ≤ 2 ^ 24 := by rw [abs_le]; omega
        have b2 : |(|M| - |D|)| ≤ 2 ^ 24 := by rw [abs_le]; omega
        have b3 : |B - A| ≤ 2 ^ 25 := by rw [abs_le]; omega
        rw [d1, d2, d3, fl_dyadic _ _ (by omega), fl_dyadic _ _ (by omega), fl_dyadic _ _ (by omega), ab, ab, ab, ab,
          ratio, ratio, ratio]
        have fd (m n : ℤ) (hn : 0 < n) : ⌊(m : ℚ) / n⌋ = m / n := by
          obtain ⟨n', rfl⟩ : ∃ n' : ℕ, n = n' := ⟨n.toNat, by omega⟩
          exact_mod_cast Rat.floor_intCast_div_natCast m n'
        rw [abs_of_pos X0, abs_of_pos Y0, fd _ _ X0, fd _ _ Y0, fd _ _ X0]
        have q (m n : ℤ) (hm : 0 ≤ m) (hn : 0 < n) : 0 ≤ m / n ∧ m / n ≤ m :=
          ⟨Int.ediv_nonneg hm hn.le, Int.ediv_le_self n hm⟩
        obtain ⟨i0, i1⟩ := q _ Y (abs_nonneg (|M| - |D|)) Y0
        obtain ⟨j0, j1⟩ := q _ X (abs_nonneg (|L| - |A|)) X0
        obtain ⟨r0, r1⟩ := q (B - A) X (by omega) X0
        rw [abs_of_nonneg r0]
        generalize |(|M| - |D|)| / Y = i at *
        generalize |(|L| - |A|)| / X = j at *
        generalize (B - A) / X = r at *
        have hir : 0 ≤ i * r := mul_nonneg i0 r0
        have hir' : i * r ≤ 2 ^ 24 * 2 ^ 25 := mul_le_mul (by omega) (by rw [abs_le] at b3; omega) r0 (by norm_num)
        have e5 : (i : ℚ) * r = ((i * r : ℤ) : ℚ) := by push_cast; rfl
        have e6 : ((i * r : ℤ) : ℚ) + j = ((i * r + j : ℤ) : ℚ) := by push_cast; rfl
        rw [e5, fl_int (by rw [abs_le]; omega), e6, fl_int (by rw [abs_le]; omega)]
        rw [pyInt_nonneg (by exact_mod_cast (by omega : 0 ≤ i * r + j)), Int.floor_intCast]

example : getCellNum 115.25 (-20.5) ⟨110, 160, -40, -5⟩ ⟨2.5, 2.5⟩ = .ok 122 ∧
    getCellLonLat 122 ⟨110, 160, -40, -5⟩ ⟨2.5, 2.5⟩ = .ok (115, -20) ∧
    maxCellNum ⟨110, 160, -40, -5⟩ ⟨2.5, 2.5⟩ = 279 ∧ validCellNum 280 ⟨110, 160, -40, -5⟩ ⟨2.5, 2.5⟩ = false := by
  decide +kernel

/-- Any step, read from a decimal, that divides the extent into `N` parts: there are `N` points or one more, and exactly `N`
if the double nearest to the step is not below it. -/
theorem C187_points (a b σ : ℚ) (N : ℕ) (hσ : 0 < σ) (hN : N ≤ 2 ^ 50) (hd : Double (b - a)) (h : b - a = N * σ) :
    N ≤ (arange a b (fl σ)).length ∧ (arange a b (fl σ)).length ≤ N + 1 ∧
    (σ ≤ fl σ → (arange a b (fl σ)).length = N) ∧
    (arange b a (-fl σ)).length = (arange a b (fl σ)).length := by
  obtain ⟨h1, h2, h3⟩ := size_decimal hσ rfl hN h
  have e1 : (arange a b (fl σ)).length = ⌈fl ((b - a) / fl σ)⌉.toNat := by
    rw [arange_length, size, fl_exact hd]
  have e2 : (arange b a (-fl σ)).length = ⌈fl ((b - a) / fl σ)⌉.toNat := by
    have : Double (a - b) := by rw [← neg_sub]; exact double_neg hd
    rw [arange_length, size, fl_exact this, ← neg_sub b a, neg_div_neg_eq]
  rw [e2, e1]
  refine ⟨by omega, by omega, fun hle => ?_, rfl⟩
  rw [h3 hle]; simp

example : (0.05 : ℚ) ≤ fl 0.05 ∧ (0.2 : ℚ) ≤ fl 0.2 ∧ (arange 100 101 (fl 0.2)).length = 5 := by decide +kernel

/-- A step of 0.7 is rounded down, and 21 degrees are divided into 31 parts: the last point is not before the end. -/
theorem C187_step_down_fails : (arange 0 21 (fl 0.7)).length = 31 ∧ (21 : ℚ) = 30 * 0.7 ∧
    ∃ x ∈ (arange 0 21 (fl 0.7)).getLast?, 21 ≤ x + 1 / 10 ^ 12 := by
  decide +kernel

/-- The genesis density of a region of whole degrees, with the step of a tenth of a degree: ten points in a degree along both
axes, in order, a tenth of a degree apart, all in the region and the first one on its north-western corner. -/
theorem C187_origin_grid_partial (x0 x1 y0 y1 : ℤ) (hx : x0 < x1) (hy : y0 < y1) (bx0 : |x0| ≤ 1000) (bx1 : |x1| ≤ 1000)
    (by0 : |y0| ≤ 1000) (by1 : |y1| ≤ 1000) :
    let g := originGrid ⟨x0, x1, y0, y1⟩ (fl 0.1)
    (g.1.length = 10 * (x1 - x0) ∧ g.2.length = 10 * (y1 - y0)) ∧
    (g.1.head? = some (x0 : ℚ) ∧ g.2.head? = some (y1 : ℚ)) ∧
    (∀ (i : ℕ) (h : i < g.1.length), |g.1[i] - (x0 + i * 0.1)| ≤ 1 / 10 ^ 8) ∧
    (∀ (i : ℕ) (h : i < g.2.length), |g.2[i] - (y1 - i * 0.1)| ≤ 1 / 10 ^ 8) ∧
    (g.1.Pairwise (· < ·) ∧ g.2.Pairwise (· > ·)) ∧
    (∀ x ∈ g.1, (x0 : ℚ) ≤ x ∧ x < x1) ∧ ∀ y ∈ g.2, (y0 : ℚ) < y ∧ y ≤ y1 := by
  intro g
  have tl : (0.1 : ℚ) ≤ fl 0.1 := by
    rw [show (0.1 : ℚ) = 1 / 10 by norm_num]; exact tenth_le
  have len (a b : ℤ) (hab : a < b) (ha : |a| ≤ 1000) (hb : |b| ≤ 1000) :
      (arange a b (fl 0.1)).length = 10 * (b - a) ∧ (arange b a (-fl 0.1)).length = 10 * (b - a) := by
    rw [abs_le] at ha hb
    have hd : Double ((b : ℚ) - a) := ⟨b - a, 0, by rw [abs_le]; omega, by push_cast; simp⟩
    obtain ⟨N, hN⟩ : ∃ N : ℕ, (N : ℤ) = 10 * (b - a) := ⟨(10 * (b - a)).toNat, by omega⟩
    have e : (b : ℚ) - a = N * 0.1 := by
      have : (N : ℚ) = 10 * (b - a) := by exact_mod_cast hN
      rw [this]; ring
    obtain ⟨-, -, h1, h2⟩ := C187_points a b 0.1 N (by norm_num) (by omega) hd e
    rw [h2, h1 tl]; exact ⟨hN, hN⟩
  obtain ⟨lx, -⟩ := len x0 x1 hx bx0 bx1
  obtain ⟨-, ly⟩ := len y0 y1 hy by0 by1
  have er : |fl 0.1 - (0.1 : ℚ)| ≤ 1 / 10 / 2 ^ 53 := by
    have := fl_error 0.1
    rwa [show |(0.1 : ℚ)| = 1 / 10 by rw [abs_of_pos] <;> norm_num] at this
  have nx (i : ℕ) (h : i < (arange (x0 : ℚ) x1 (fl 0.1)).length) :
      |(arange (x0 : ℚ) x1 (fl 0.1))[i] - (x0 + i * 0.1)| ≤ 1 / 10 ^ 8 := by
    rw [abs_le] at bx1
    have : (arange (x0 : ℚ) x1 (fl 0.1))[i] = elem x0 (fl 0.1) i := by simp [arange]
    rw [this]
    exact elem_near bx0 er (by rw [abs_of_pos] <;> norm_num) (by rw [abs_le] at bx0; omega)
  have ny (i : ℕ) (h : i < (arange (y1 : ℚ) y0 (-fl 0.1)).length) :
      |(arange (y1 : ℚ) y0 (-fl 0.1))[i] - (y1 - i * 0.1)| ≤ 1 / 10 ^ 8 := by
    rw [abs_le] at by0
    have : (arange (y1 : ℚ) y0 (-fl 0.1))[i] = elem y1 (-fl 0.1) i := by simp [arange]
    rw [this, show (y1 : ℚ) - i * 0.1 = y1 + i * (-0.1) by ring]
    exact elem_near by1 (by rw [show -fl 0.1 - (-0.1 : ℚ) = -(fl 0.1 - 0.1) by ring, abs_neg]; exact er)
      (by rw [abs_neg, abs_of_pos] <;> norm_num) (by rw [abs_le] at by1; omega)
  have z1 : (arange (x0 : ℚ) x1 (fl 0.1)).head? = some (x0 : ℚ) := by
    have : 0 < size (x0 : ℚ) x1 (fl 0.1) := by rw [← arange_length]; omega
    rw [arange, List.head?_map, List.head?_range, if_neg (by omega)]; simp [elem]
  have z2 : (arange (y1 : ℚ) y0 (-fl 0.1)).head? = some (y1 : ℚ) := by
    have : 0 < size (y1 : ℚ) y0 (-fl 0.1) := by rw [← arange_length]; omega
    rw [arange, List.head?_map, List.head?_range, if_neg (by omega)]; simp [elem]
  refine ⟨⟨lx, ly⟩, ⟨z1, z2⟩, nx, ny, ⟨?_, ?_⟩, ?_, ?_⟩
  · rw [List.pairwise_iff_getElem]
    intro i j hi hj hij
    have a1 := abs_le.1 (nx i hi)
    have a2 := abs_le.1 (nx j hj)
    have : (i : ℚ) + 1 ≤ j := by exact_mod_cast hij
    show (arange (x0 : ℚ) x1 (fl 0.1))[i] < (arange (x0 : ℚ) x1 (fl 0.1))[j]
    linarith
  · rw [List.pairwise_iff_getElem]
    intro i j hi hj hij
    have a1 := abs_le.1 (ny i hi)
    have a2 := abs_le.1 (ny j hj)
    have : (i : ℚ) + 1 ≤ j := by exact_mod_cast hij
    show (arange (y1 : ℚ) y0 (-fl 0.1))[i] > (arange (y1 : ℚ) y0 (-fl 0.1))[j]
    linarith
  · intro x hm
    obtain ⟨i, hi, rfl⟩ := List.mem_iff_getElem.1 hm
    have a1 := abs_le.1 (nx i hi)
    have hi' : (i : ℤ) + 1 ≤ 10 * (x1 - x0) := by
      have : i < (arange (x0 : ℚ) x1 (fl 0.1)).length := hi
      omega
    have hq : (i : ℚ) + 1 ≤ 10 * (x1 - x0) := by exact_mod_cast hi'
    show (x0 : ℚ) ≤ (arange (x0 : ℚ) x1 (fl 0.1))[i] ∧ (arange (x0 : ℚ) x1 (fl 0.1))[i] < x1
    rcases Nat.eq_zero_or_pos i with rfl | h
    · have : (arange (x0 : ℚ) x1 (fl 0.1))[0] = x0 := by simp [arange, elem]
      rw [this]; exact ⟨le_rfl, by exact_mod_cast hx⟩
    · have : (1 : ℚ) ≤ i := by exact_mod_cast h
      constructor <;> linarith
  · intro y hm
    obtain ⟨i, hi, rfl⟩ := List.mem_iff_getElem.1 hm
    have a1 := abs_le.1 (ny i hi)
    have hi' : (i : ℤ) + 1 ≤ 10 * (y1 - y0) := by
      have : i < (arange (y1 : ℚ) y0 (-fl 0.1)).length := hi
      omega
    have hq : (i : ℚ) + 1 ≤ 10 * (y1 - y0) := by exact_mod_cast hi'
    show (y0 : ℚ) < (arange (y1 : ℚ) y0 (-fl 0.1))[i] ∧ (arange (y1 : ℚ) y0 (-fl 0.1))[i] ≤ y1
    rcases Nat.eq_zero_or_pos i with rfl | h
    · have : (arange (y1 : ℚ) y0 (-fl 0.1))[0] = y1 := by simp [arange, elem]
      rw [this]; exact ⟨by exact_mod_cast hy, le_rfl⟩
    · have : (1 : ℚ) ≤ i := by exact_mod_cast h
      constructor <;> linarith

/-- Not so for limits in tenths of a degree: from 100 to 100.2 there are three points where two tenths fit, and the third
is on the eastern limit (nearer than 10⁻¹²). -/
theorem C187_origin_grid_fails : (originGrid ⟨100, fl 100.2, -10, -9⟩ (fl 0.1)).1.length = 3 ∧
    ∃ x ∈ (originGrid ⟨100, fl 100.2, -10, -9⟩ (fl 0.1)).1, fl 100.2 < x + 1 / 10 ^ 12 := by
  decide +kernel

/-- Cells of a tenth of a degree: rows of 99 cells are numbered where there are 100, so the number of the cell of a position is
the number of a cell elsewhere. -/
theorem C187_fine_cells_fail : getCellNum 0 (-1) ⟨0, 10, -10, 0⟩ ⟨fl 0.1, fl 0.1⟩ = .ok 891 ∧
    (arange 0 10 (fl 0.1)).length = 100 ∧
    ∃ x y, getCellLonLat 891 ⟨0, 10, -10, 0⟩ ⟨fl 0.1, fl 0.1⟩ = .ok (x, y) ∧ 9 < x ∧ -0.9 < y := by
  refine ⟨by decide +kernel, by decide +kernel, elem 0 (fl 0.1) 91, elem 0 (-fl 0.1) 8, ?_⟩
  decide +kernel

end Tcrm.Arange64
