import Verif.Props.Kde
import Verif.Props.Cells

/-!
C115: cyclones begin where the calibrated density of origins is positive, and a calibrated model
has a distribution for every place at which they can begin.
-/

namespace Tcrm.Kde

open Tcrm.Cdf (Err)

theorem mem_arangeDown {a b d v : ℚ} (hd : 0 < d) :
    v ∈ arangeDown a b d ↔ ∃ i : ℕ, v = a - i * d ∧ b < v := by
  unfold arangeDown
  simp only [List.mem_map, List.mem_range]
  have key : ∀ i : ℕ, i < ⌈(a - b) / d⌉.toNat ↔ b < a - i * d := by
    intro i
    rw [Int.lt_toNat, Int.lt_ceil, lt_div_iff₀ hd]
    constructor <;> intro h <;> push_cast at * <;> linarith
  constructor
  · rintro ⟨i, hi, rfl⟩
    exact ⟨i, rfl, (key i).mp hi⟩
  · rintro ⟨i, rfl, h⟩
    exact ⟨i, (key i).mpr h, rfl⟩

theorem two_le_arangeDown {a b d : ℚ} (hd : 0 < d) : 2 ≤ (arangeDown a b d).length ↔ d < a - b := by
  have : (arangeDown a b d).length = ⌈(a - b) / d⌉.toNat := by simp [arangeDown]
  rw [this, show (2 ≤ ⌈(a - b) / d⌉.toNat) ↔ 1 < ⌈(a - b) / d⌉.toNat from Iff.rfl, Int.lt_toNat,
    Int.lt_ceil, lt_div_iff₀ hd]
  push_cast
  rw [one_mul]

theorem arangeDown_decreasing (a b : ℚ) {d : ℚ} (hd : 0 < d) :
    (arangeDown a b d).Pairwise (· > ·) := by
  unfold arangeDown
  rw [List.pairwise_map]
  refine List.pairwise_lt_range.imp fun {i j} h => ?_
  have : (i : ℚ) < j := by exact_mod_cast h
  nlinarith

/-- Element of a grid laid out row by row. -/
theorem row_major {α β : Type} (f : α → β → γ) (x : List α) : ∀ (y : List β) (j i : ℕ) (a : α) (b : β),
    y[j]? = some b → x[i]? = some a →
    (y.flatMap fun b => x.map fun a => f a b)[j * x.length + i]? = some (f a b)
  | [], j, i, a, b, hj, _ => by simp at hj
  | b0 :: y, 0, i, a, b, hj, hi => by
    simp only [List.getElem?_cons_zero, Option.some.injEq] at hj
    obtain ⟨hlt, -⟩ := List.getElem?_eq_some_iff.mp hi
    rw [List.flatMap_cons, Nat.zero_mul, Nat.zero_add,
      List.getElem?_append_left (by simpa using hlt), List.getElem?_map, hi, hj]
    rfl
  | b0 :: y, j + 1, i, a, b, hj, hi => by
    rw [List.getElem?_cons_succ] at hj
    rw [List.flatMap_cons, List.getElem?_append_right (by simp; nlinarith)]
    have := row_major f x y j i a b hj hi
    rw [List.length_map, show (j + 1) * x.length + i - x.length = j * x.length + i by
      rw [Nat.succ_mul]; omega]
    exact this

/-- C115: the density stored for latitude `j` and longitude `i` is the density at that latitude and
longitude. -/
theorem C115_orientation (dens : List (ℚ × ℚ) → ℚ × ℚ → ℚ) (gl : Cells.Limit) (step : ℚ)
    (pts : List (ℚ × ℚ)) (j i : ℕ) (lon lat : ℚ) (hi : (originX gl step)[i]? = some lon)
    (hj : (originY gl step)[j]? = some lat) :
    (originPdf dens gl step pts).val j i = dens (originPoints gl pts) (lon, lat) := by
  unfold originPdf
  simp only
  rw [List.getD_eq_getElem?_getD, List.getElem?_map,
    row_major (fun a b => (a, b)) _ _ j i lon lat hj hi]
  rfl

/-- C115: only observed origins inside the domain (its limits included) matter. -/
theorem C115_points (dens : List (ℚ × ℚ) → ℚ × ℚ → ℚ) (gl : Cells.Limit) (step : ℚ)
    (pts pts' : List (ℚ × ℚ))
    (h : (pts.filter fun p => decide (gl.xMin ≤ p.1 ∧ p.1 ≤ gl.xMax ∧ gl.yMin ≤ p.2 ∧ p.2 ≤ gl.yMax)) =
      pts'.filter fun p => decide (gl.xMin ≤ p.1 ∧ p.1 ≤ gl.xMax ∧ gl.yMin ≤ p.2 ∧ p.2 ≤ gl.yMax)) :
    originPdf dens gl step pts = originPdf dens gl step pts' := by
  have e : ∀ l, originPoints gl l = l.filter fun p =>
      decide (gl.xMin ≤ p.1 ∧ p.1 ≤ gl.xMax ∧ gl.yMin ≤ p.2 ∧ p.2 ≤ gl.yMax) := by
    intro l
    unfold originPoints
    apply List.filter_congr
    intro p _
    rw [Bool.eq_iff_iff]
    simp only [Bool.and_eq_true, decide_eq_true_eq, ge_iff_le, and_assoc]
  unfold originPdf
  rw [e pts, e pts', h]

theorem cons_cons_of_two {α : Type} (l : List α) (h : 2 ≤ l.length) :
    ∃ a b r, l = a :: b :: r := by
  match l, h with
  | a :: b :: r, _ => exact ⟨a, b, r, rfl⟩

/-- C115: an origin drawn with variates in (0, 1] is a point of the domain (the eastern and southern
limits excluded) at which the density is positive.  The density is nowhere negative, and positive at
some point of the grid; the domain is wider than a step. -/
theorem C115_origin (dens : List (ℚ × ℚ) → ℚ × ℚ → ℚ) (gl : Cells.Limit) (step : ℚ) (hs : 0 < step)
    (hx : step < gl.xMax - gl.xMin) (hy : step < gl.yMax - gl.yMin) (pts : List (ℚ × ℚ))
    (hd : ∀ data p, 0 ≤ dens data p)
    (hpos : ∃ lon ∈ originX gl step, ∃ lat ∈ originY gl step,
      0 < dens (originPoints gl pts) (lon, lat))
    (q1 q2 : ℚ) (h1 : 0 < q1) (h1' : q1 ≤ 1) (h2 : 0 < q2) (h2' : q2 ≤ 1) :
    ∃ lon lat, drawOrigin dens gl step pts q1 q2 = .ok (lon, lat) ∧
      gl.xMin ≤ lon ∧ lon < gl.xMax ∧ gl.yMin < lat ∧ lat ≤ gl.yMax ∧
      0 < dens (originPoints gl pts) (lon, lat) := by
  have hz : ∀ j i, 0 ≤ (originPdf dens gl step pts).val j i := by
    intro j i
    unfold originPdf
    simp only
    rw [List.getD_eq_getElem?_getD, List.getElem?_map]
    cases ((originY gl step).flatMap fun b => (originX gl step).map fun a => (a, b))[
        j * (originX gl step).length + i]? with
    | none => simp
    | some p => simpa using hd _ p
  have hmass : ∃ j i, j < (originPdf dens gl step pts).rows ∧ i < (originPdf dens gl step pts).cols ∧
      0 < (originPdf dens gl step pts).val j i := by
    obtain ⟨lon, hlon, lat, hlat, hp⟩ := hpos
    obtain ⟨i, hi⟩ := List.mem_iff_getElem?.mp hlon
    obtain ⟨j, hj⟩ := List.mem_iff_getElem?.mp hlat
    refine ⟨j, i, (List.getElem?_eq_some_iff.mp hj).1, (List.getElem?_eq_some_iff.mp hi).1, ?_⟩
    rw [C115_orientation dens gl step pts j i lon lat hi hj]
    exact hp
  obtain ⟨x0, x1, xs, hX⟩ := cons_cons_of_two (originX gl step) ((two_le_arange hs).mpr hx)
  obtain ⟨y0, y1, ys, hY⟩ := cons_cons_of_two (originY gl step) ((two_le_arangeDown hs).mpr hy)
  have hx01 : x0 ≠ x1 := by
    have := arange_increasing gl.xMin gl.xMax hs
    rw [show arange gl.xMin gl.xMax step = x0 :: x1 :: xs from hX] at this
    exact ((List.pairwise_cons.mp this).1 x1 (by simp)).ne
  have hy01 : y0 ≠ y1 := by
    have := arangeDown_decreasing gl.yMax gl.yMin hs
    rw [show arangeDown gl.yMax gl.yMin step = y0 :: y1 :: ys from hY] at this
    exact ((List.pairwise_cons.mp this).1 y1 (by simp)).ne'
  obtain ⟨i, j, lon, lat, hdraw, hi, hj, hval⟩ := Cdf.C07_origin_in_support x0 x1 y0 y1 xs ys hx01 hy01
    (originPdf dens gl step pts) (by rw [← hX]; rfl) (by rw [← hY]; rfl) hz hmass q1 q2 h1 h1' h2 h2'
  rw [← hX] at hi hdraw
  rw [← hY] at hj hdraw
  rw [C115_orientation dens gl step pts j i lon lat hi hj] at hval
  obtain ⟨k, hk, hk'⟩ := (mem_arange hs).mp (List.mem_of_getElem? hi)
  obtain ⟨l, hl, hl'⟩ := (mem_arangeDown hs).mp (List.mem_of_getElem? hj)
  have hk0 : (0 : ℚ) ≤ k * step := by positivity
  have hl0 : (0 : ℚ) ≤ l * step := by positivity
  exact ⟨lon, lat, hdraw, by linarith, hk', hl', by linarith, hval⟩

/-- C115 (part): in a domain of whole degrees made up of whole cells, every origin drawn is given a cell that has been
calibrated: its table is the one made from the observations extracted for that cell. If the domain is all on one side of
the equator and of the meridian of Greenwich, this is the cell in which the origin lies.
Missing: domains on both sides (`C115_other_cell_fails`) and those with other limits (`C115_no_cell_fails`). -/
theorem C115_genesis_partial (dens2 : List (ℚ × ℚ) → ℚ × ℚ → ℚ) (step : ℚ) (hs : 0 < step)
    (x0 y0 : ℤ) (nx ny dx dy : ℕ) (hdx : 0 < dx) (hdy : 0 < dy)
    (hwx : step < nx * dx) (hwy : step < ny * dy) (pts : List (ℚ × ℚ))
    (gl : Cells.Limit) (hgl : gl = ⟨x0, (x0 + nx * dx : ℤ), y0, (y0 + ny * dy : ℤ)⟩)
    (hd : ∀ data p, 0 ≤ dens2 data p)
    (hpos : ∃ lon ∈ originX gl step, ∃ lat ∈ originY gl step,
      0 < dens2 (originPoints gl pts) (lon, lat))
    (extract : ℕ → Except Err (List ℚ)) (kde : List ℚ → Except Err (List (ℚ × ℚ × ℚ)))
    (rows : List (ℕ × ℚ × ℚ))
    (hrows : allDistributions extract kde (List.range (Cells.maxCellNum gl ⟨dx, dy⟩ + 1).toNat) = .ok rows)
    (q1 q2 : ℚ) (h1 : 0 < q1) (h1' : q1 ≤ 1) (h2 : 0 < q2) (h2' : q2 ≤ 1) :
    ∃ lon lat c ps t, drawOrigin dens2 gl step pts q1 q2 = .ok (lon, lat) ∧
      Cells.getCellNum lon lat gl ⟨dx, dy⟩ = .ok (c : ℕ) ∧ extract c = .ok ps ∧ kde ps = .ok t ∧
      tableOf rows c = t.map (fun r => (r.1, r.2.2)) ∧
      (Cells.OneSided x0 (x0 + nx * dx) → Cells.OneSided y0 (y0 + ny * dy) →
        ∃ west north, Cells.getCellLonLat c gl ⟨dx, dy⟩ = .ok (west, north) ∧ west ≤ lon ∧ lon < west + dx ∧
          north - dy < lat ∧ lat ≤ north) := by
  have hgx : step < gl.xMax - gl.xMin := by rw [hgl]; push_cast; linarith
  have hgy : step < gl.yMax - gl.yMin := by rw [hgl]; push_cast; linarith
  obtain ⟨lon, lat, hdraw, a1, a2, a3, a4, -⟩ :=
    C115_origin dens2 gl step hs hgx hgy pts hd hpos q1 q2 h1 h1' h2 h2'
  subst hgl
  obtain ⟨c, hcell, hmax⟩ := Cells.C09_in_range x0 y0 nx ny dx dy hdx hdy lon lat a1 a2 a3 a4
  obtain ⟨hc, -⟩ := C113_cells extract kde _ List.nodup_range rows hrows
  obtain ⟨ps, t, e1, e2, e3⟩ := hc c (List.mem_range.mpr (by omega))
  refine ⟨lon, lat, c, ps, t, hdraw, hcell, e1, e2, e3, fun hX hY => ?_⟩
  obtain ⟨k, l, -, -, ⟨c1, c2⟩, ⟨r1, r2⟩, hcell', -, -, hll⟩ :=
    Cells.C09_cell_number_partial x0 y0 nx ny dx dy hdx hdy hX hY lon lat a1 a2 a3 a4
  have hcc : c = l * nx + k := by
    have := hcell.symm.trans hcell'
    simp only [Except.ok.injEq] at this
    exact_mod_cast this
  subst hcc
  exact ⟨_, _, hll, c1, by linarith, by linarith, r2⟩

/-- A density that is positive at one point only -/
def onlyAt (q : ℚ × ℚ) (_ : List (ℚ × ℚ)) (p : ℚ × ℚ) : ℚ := if p = q then 1 else 0

theorem drawn_onlyAt {gl : Cells.Limit} {step : ℚ} (hs : 0 < step) (hx : step < gl.xMax - gl.xMin)
    (hy : step < gl.yMax - gl.yMin) (pts : List (ℚ × ℚ)) {q : ℚ × ℚ} (h1 : q.1 ∈ originX gl step)
    (h2 : q.2 ∈ originY gl step) {q1 q2 : ℚ} (a1 : 0 < q1) (a1' : q1 ≤ 1) (a2 : 0 < q2) (a2' : q2 ≤ 1) :
    drawOrigin (onlyAt q) gl step pts q1 q2 = .ok q := by
  obtain ⟨lon, lat, e, -, -, -, -, hp⟩ := C115_origin (onlyAt q) gl step hs hx hy pts
    (by intro data p; unfold onlyAt; split <;> norm_num) ⟨q.1, h1, q.2, h2, by simp [onlyAt]⟩ q1 q2 a1 a1' a2 a2'
  unfold onlyAt at hp
  split at hp
  · rename_i he; rw [e, he]
  · norm_num at hp

/-- C115 does not hold in a domain that reaches at least one degree west and two degrees east of Greenwich: an origin
drawn at 1 degree east is given the cell of 1 degree west, with the table made from the observations there. -/
theorem C115_other_cell_fails (x0 x1 y0 y1 : ℤ) (h0 : x0 ≤ -1) (h1 : 2 ≤ x1) (hy : y0 + 1 < y1) (pts : List (ℚ × ℚ))
    (q1 q2 : ℚ) (a1 : 0 < q1) (a1' : q1 ≤ 1) (a2 : 0 < q2) (a2' : q2 ≤ 1) :
    drawOrigin (onlyAt (1, y1)) ⟨x0, x1, y0, y1⟩ 1 pts q1 q2 = .ok (1, (y1 : ℚ)) ∧
    ∃ c : ℕ, Cells.getCellNum 1 y1 ⟨x0, x1, y0, y1⟩ ⟨1, 1⟩ = .ok (c : ℤ) ∧
      Cells.getCellLonLat c ⟨x0, x1, y0, y1⟩ ⟨1, 1⟩ = .ok (-1, (y1 : ℚ)) := by
  have q0 : (x0 : ℚ) ≤ -1 := by exact_mod_cast h0
  have q1' : (2 : ℚ) ≤ x1 := by exact_mod_cast h1
  have qy : (y0 : ℚ) + 1 < y1 := by exact_mod_cast hy
  constructor
  · refine drawn_onlyAt (by norm_num) (by change (1 : ℚ) < x1 - x0; linarith) (by change (1 : ℚ) < y1 - y0; linarith) pts ?_ ?_ a1 a1' a2 a2'
    · refine (mem_arange (by norm_num)).mpr ⟨(1 - x0).toNat, ?_, by change (1 : ℚ) < x1; linarith⟩
      have : (((1 - x0).toNat : ℕ) : ℤ) = 1 - x0 := Int.toNat_of_nonneg (by omega)
      have h : (((1 - x0).toNat : ℕ) : ℚ) = 1 - x0 := by exact_mod_cast congrArg (Int.cast (R := ℚ)) this
      change (1 : ℚ) = (x0 : ℚ) + ((1 - x0).toNat : ℕ) * 1
      rw [h]; ring
    · refine (mem_arangeDown (by norm_num)).mpr ⟨0, ?_, by change (y0 : ℚ) < y1; linarith⟩
      change (y1 : ℚ) = y1 - ((0 : ℕ) : ℚ) * 1
      norm_num
  · refine ⟨(-x0 - 1).toNat, ?_, ?_⟩
    · have f2 : ⌊(1 : ℚ)⌋ = 1 := by norm_num
      simp only [Cells.getCellNum, f2, Int.ceil_intCast]
      rw [if_neg, if_neg (by norm_num)]
      · congr 1
        have e1 : |(|((1 : ℤ) : ℚ)| - |(x0 : ℚ)|)| = ((-x0 - 1 : ℤ) : ℚ) := by
          rw [abs_of_nonpos (show (x0 : ℚ) ≤ 0 by linarith)]
          push_cast
          rw [abs_one, abs_of_nonpos (by linarith)]; ring
        rw [e1]
        have e2 : (((-x0 - 1).toNat : ℕ) : ℤ) = -x0 - 1 := Int.toNat_of_nonneg (by omega)
        rw [e2]
        simp
        rw [← Int.cast_neg, Int.floor_intCast]
      · push Not; push_cast
        exact ⟨by linarith, by linarith, by linarith, le_refl _⟩
    · have hn : Cells.arangeSize (x0 : ℚ) x1 1 = (x1 - x0).toNat := by
        unfold Cells.arangeSize
        rw [div_one]
        have : (x1 : ℚ) - x0 = ((x1 - x0 : ℤ) : ℚ) := by push_cast; ring
        rw [this, Int.ceil_intCast]
      have hm : Cells.arangeSize (y1 : ℚ) y0 (-1) = (y1 - y0).toNat := by
        unfold Cells.arangeSize
        have : ((y0 : ℚ) - y1) / (-1) = ((y1 - y0 : ℤ) : ℚ) := by push_cast; ring
        rw [this, Int.ceil_intCast]
      unfold Cells.getCellLonLat
      rw [if_neg (by omega), if_neg (by norm_num)]
      simp only [hn]
      rw [if_neg (by omega)]
      simp only [Int.toNat_natCast]
      rw [Nat.div_eq_of_lt (by omega), Nat.mod_eq_of_lt (by omega)]
      unfold Cells.arangeGet
      rw [hn, hm, if_pos (by omega), if_pos (by omega)]
      simp only [Except.ok.injEq, Prod.mk.injEq]
      have e2 : (((-x0 - 1).toNat : ℕ) : ℤ) = -x0 - 1 := Int.toNat_of_nonneg (by omega)
      have e3 : (((-x0 - 1).toNat : ℕ) : ℚ) = -x0 - 1 := by exact_mod_cast congrArg (Int.cast (R := ℚ)) e2
      rw [e3]
      constructor
      · ring
      · norm_num

/-- C115 does not hold in a domain whose western limit is not a whole degree: the origin drawn there has no cell, and
asking for it is an error. -/
theorem C115_no_cell_fails (gl : Cells.Limit) (gs : Cells.Space) (hgx : gs.x ≠ 0) (hgy : gs.y ≠ 0) {step : ℚ} (hs : 0 < step)
    (hx : step < gl.xMax - gl.xMin) (hy : step < gl.yMax - gl.yMin) (hw : ∀ n : ℤ, gl.xMin ≠ n) (pts : List (ℚ × ℚ))
    (q1 q2 : ℚ) (a1 : 0 < q1) (a1' : q1 ≤ 1) (a2 : 0 < q2) (a2' : q2 ≤ 1) :
    drawOrigin (onlyAt (gl.xMin, gl.yMax)) gl step pts q1 q2 = .ok (gl.xMin, gl.yMax) ∧
    Cells.getCellNum gl.xMin gl.yMax gl gs = .error .valueError := by
  constructor
  · refine drawn_onlyAt hs hx hy pts ?_ ?_ a1 a1' a2 a2'
    · exact (mem_arange hs).mpr ⟨0, by simp, by change gl.xMin < gl.xMax; linarith⟩
    · exact (mem_arangeDown hs).mpr ⟨0, by simp, by change gl.yMin < gl.yMax; linarith⟩
  · rw [Cells.C10_rejected_iff_rounded_point_outside _ _ _ _ hgx hgy]
    rintro ⟨h, -⟩
    exact hw ⌊gl.xMin⌋ (le_antisymm h (Int.floor_le _))

/-! ### Examples -/

/-- A density about one point of origin. -/
def near (_ : List (ℚ × ℚ)) (p : ℚ × ℚ) : ℚ := max 0 (3 - |p.1 - 101| - |p.2 - (-12)|)

/-- A small domain. -/
def small : Cells.Limit := ⟨100, 104, -14, -10⟩

example : drawOrigin near small 1 [(101, -12)] (1/2) (1/2) = .ok (101, -12) := by decide +kernel

example : Cells.getCellNum 101 (-12) small ⟨2, 2⟩ = .ok 2 := by decide +kernel

end Tcrm.Kde
