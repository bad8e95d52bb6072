import Verif.Model.Mesh
import Verif.Lemmas.Windfield
/-!
C194: the coordinates returned for the grid around a storm are those of the points of the grid.
-/
namespace Tcrm.Windfield

/-- Length of the two axes, of `a` thousandths of a degree in steps of `g`. -/
theorem steps_floor {a g : ℤ} (hg : 0 < g) : -((-(a + 1)) / g) = a / g + 1 := by
  have h := Int.mul_ediv_add_emod a g
  have h1 := Int.emod_nonneg a hg.ne'
  have h2 := Int.emod_lt_of_pos a hg
  have e : -(a + 1) = (g - a % g - 1) + g * (-(a / g + 1)) := by linarith
  rw [e, Int.add_mul_ediv_left _ _ hg.ne', Int.ediv_eq_zero_of_lt (by omega) (by omega)]
  ring

theorem steps_ceil {a g : ℤ} (hg : 0 < g) : -((-(a + g)) / g) = if g ∣ a then a / g + 1 else a / g + 2 := by
  have h := Int.mul_ediv_add_emod a g
  have h1 := Int.emod_nonneg a hg.ne'
  have h2 := Int.emod_lt_of_pos a hg
  split_ifs with hd
  · have h0 := Int.emod_eq_zero_of_dvd hd
    have e : -(a + g) = 0 + g * (-(a / g + 1)) := by linarith
    rw [e, Int.add_mul_ediv_left _ _ hg.ne', Int.zero_ediv]
    ring
  · have h0 : a % g ≠ 0 := fun e => hd (Int.dvd_of_emod_eq_zero e)
    have e : -(a + g) = (g - a % g) + g * (-(a / g + 2)) := by linarith
    rw [e, Int.add_mul_ediv_left _ _ hg.ne', Int.ediv_eq_zero_of_lt (by omega) (by omega)]
    ring

theorem pyInt_add_int {x : ℚ} {M : ℤ} (h : (0 ≤ x ∧ 0 ≤ x + M) ∨ (x ≤ 0 ∧ x + M ≤ 0) ∨ ∃ k : ℤ, x = k) :
    pyInt (x + M) = pyInt x + M := by
  rcases h with ⟨h1, h2⟩ | ⟨h1, h2⟩ | ⟨k, rfl⟩
  · unfold pyInt
    rw [if_pos h1, if_pos h2, Int.floor_add_intCast]
  · have e : ∀ y : ℚ, y ≤ 0 → pyInt y = ⌈y⌉ := by
      intro y hy
      unfold pyInt
      split_ifs with h0
      · have : y = 0 := le_antisymm hy h0
        rw [this]
        simp
      · rfl
    rw [e _ h1, e _ h2, Int.ceil_add_intCast]
  · rw [← Int.cast_add, pyInt_intCast, pyInt_intCast]

theorem local_axis {c : ℚ} {M g : ℤ} (hg : 0 < g) :
    localAxis c none none (M / 1000) (g / 1000) =
      (List.range (2 * M / g + 1).toNat).map fun k : ℕ => pyInt (1000 * c) - M + g * (k : ℤ) := by
  have e1 : pyInt ((g : ℚ) / 1000 * 1000) = g := by rw [div_mul_cancel₀ _ (by norm_num), pyInt_intCast]
  have e2 : pyInt (1000 * ((M : ℚ) / 1000)) = M := by rw [mul_div_cancel₀ _ (by norm_num), pyInt_intCast]
  unfold localAxis arange
  simp only [given, Option.filter, e1, e2]
  rw [show pyInt (1000 * c) - M - (pyInt (1000 * c) + M + 1) = -(2 * M + 1) by ring, steps_floor hg]

theorem mesh_axis {c : ℚ} {M g : ℤ} (hg : 0 < g) (hM : 0 ≤ M) (hc : (∃ k : ℤ, 1000 * c = k) ∨ (M : ℚ) ≤ |1000 * c|) :
    meshAxis c (M / 1000) (g / 1000) =
      (List.range (if g ∣ 2 * M then 2 * M / g + 1 else 2 * M / g + 2).toNat).map
        fun k : ℕ => pyInt (1000 * c) - M + g * (k : ℤ) := by
  have hM' : (0 : ℚ) ≤ M := by exact_mod_cast hM
  have e1 : pyInt (1000 * ((g : ℚ) / 1000)) = g := by rw [mul_div_cancel₀ _ (by norm_num), pyInt_intCast]
  have e2 : pyInt (1000 * (c - (M : ℚ) / 1000)) = pyInt (1000 * c) - M := by
    have : 1000 * (c - (M : ℚ) / 1000) = 1000 * c + ((-M : ℤ) : ℚ) := by push_cast; ring
    rw [this, pyInt_add_int, sub_eq_add_neg]
    rcases hc with h | h
    · exact Or.inr (Or.inr h)
    · rcases le_abs.1 h with h | h
      · left; push_cast; constructor <;> linarith
      · right; left; push_cast; constructor <;> linarith
  have e3 : pyInt (1000 * (c + (M : ℚ) / 1000)) = pyInt (1000 * c) + M := by
    have : 1000 * (c + (M : ℚ) / 1000) = 1000 * c + (M : ℚ) := by ring
    rw [this, pyInt_add_int]
    rcases hc with h | h
    · exact Or.inr (Or.inr h)
    · rcases le_abs.1 h with h | h
      · left; constructor <;> linarith
      · right; left; constructor <;> linarith
  unfold meshAxis arange
  simp only [e1, e2, e3]
  rw [show pyInt (1000 * c) - M - (pyInt (1000 * c) + M + g) = -(2 * M + g) by ring, steps_ceil hg]

/-- The centre is given to a thousandth of a degree, or is further from the equator or the meridian of Greenwich than the
margin of `M` thousandths of a degree. -/
def Tame (M : ℤ) (c : ℚ) : Prop := (∃ k : ℤ, 1000 * c = k) ∨ (M : ℚ) ≤ |1000 * c|

/-- C194, partial: if the resolution divides the width of the grid, and the centre is given to a thousandth of a degree or
away from the equator and Greenwich, the coordinates are those of the points whose distances and bearings are computed.
Missing: other widths and centres, where it fails. -/
theorem C194_points_partial {cLon cLat : ℚ} {M g : ℤ} (hg : 0 < g) (hM : 0 ≤ M) (hd : g ∣ 2 * M) (hx : Tame M cLon)
    (hy : Tame M cLat) (j i : ℕ) :
    mesh cLon cLat (M / 1000) (g / 1000) j i = gridPoint cLon cLat (M / 1000) (g / 1000) j i := by
  unfold mesh gridPoint
  rw [mesh_axis hg hM hx, mesh_axis hg hM hy, if_pos hd, local_axis hg, local_axis hg]

/-- C194: the points are those from the margin west and south of the centre, truncated to thousandths of a degree, in
steps of the resolution. -/
theorem C194_grid {cLon cLat : ℚ} {M g : ℤ} (hg : 0 < g) (hM : 0 ≤ M) (j i : ℕ) (p : ℚ × ℚ) :
    gridPoint cLon cLat (M / 1000) (g / 1000) j i = some p ↔ g * i ≤ 2 * M ∧ g * j ≤ 2 * M ∧
      p = (((pyInt (1000 * cLon) - M + g * i : ℤ) : ℚ) / 1000, ((pyInt (1000 * cLat) - M + g * j : ℤ) : ℚ) / 1000) := by
  have key : ∀ (c : ℚ) (k : ℕ), (localAxis c none none (M / 1000) (g / 1000))[k]? =
      if g * k ≤ 2 * M then some (pyInt (1000 * c) - M + g * (k : ℤ)) else none := by
    intro c k
    rw [local_axis hg, List.getElem?_map]
    have hq : 0 ≤ 2 * M / g := Int.ediv_nonneg (by omega) hg.le
    have hk : g * k ≤ 2 * M ↔ k < (2 * M / g + 1).toNat := by
      rw [Int.lt_toNat, Int.lt_add_one_iff, Int.le_ediv_iff_mul_le hg, mul_comm]
    by_cases h : g * k ≤ 2 * M
    · rw [List.getElem?_range (hk.1 h), if_pos h]
      rfl
    · rw [if_neg h, List.getElem?_eq_none (by simpa using fun e => h (hk.2 e))]
      rfl
  unfold gridPoint
  rw [key, key]
  by_cases h1 : g * (i : ℤ) ≤ 2 * M
  · by_cases h2 : g * (j : ℤ) ≤ 2 * M
    · rw [if_pos h1, if_pos h2]
      simp only [Option.some.injEq]
      exact ⟨fun h => ⟨h1, h2, h.symm⟩, fun h => h.2.2.symm⟩
    · rw [if_pos h1, if_neg h2]
      simp [h2]
  · rw [if_neg h1]
    simp [h1]

/-- C194 fails: if the resolution does not divide the width of the grid there are coordinates of a row and a column more
than there are points. -/
theorem C194_extra_fails {cLon cLat : ℚ} {M g : ℤ} (hg : 0 < g) (hM : 0 ≤ M) (hd : ¬ g ∣ 2 * M) (hx : Tame M cLon)
    (hy : Tame M cLat) :
    ∃ (n : ℕ) (p : ℚ × ℚ), mesh cLon cLat (M / 1000) (g / 1000) n n = some p ∧
      gridPoint cLon cLat (M / 1000) (g / 1000) n n = none ∧
      ∀ k < n, mesh cLon cLat (M / 1000) (g / 1000) k k = gridPoint cLon cLat (M / 1000) (g / 1000) k k := by
  have hq : 0 ≤ 2 * M / g := Int.ediv_nonneg (by omega) hg.le
  unfold mesh gridPoint
  simp only [mesh_axis hg hM hx, mesh_axis hg hM hy, if_neg hd, local_axis hg, List.getElem?_map]
  refine ⟨(2 * M / g + 1).toNat, (((pyInt (1000 * cLon) - M + g * ((2 * M / g + 1).toNat : ℤ) : ℤ) : ℚ) / 1000,
    ((pyInt (1000 * cLat) - M + g * ((2 * M / g + 1).toNat : ℤ) : ℤ) : ℚ) / 1000), ?_, ?_, ?_⟩
  · rw [List.getElem?_range (by omega)]
    rfl
  · rw [List.getElem?_eq_none (by simp)]
    rfl
  · intro k hk
    rw [List.getElem?_range (by omega), List.getElem?_range hk]

/-- C194 fails: within the margin of Greenwich (or of the equator), and not given to a thousandth of a degree, the
coordinates are a thousandth of a degree off the points. -/
theorem C194_shift_fails {c : ℚ} {M g : ℤ} (hg : 2 ≤ g) (hd : g ∣ 2 * M) (h0 : 0 < c) (hc : 1000 * c < M)
    (hk : ∀ k : ℤ, 1000 * c ≠ k) :
    meshAxis c (M / 1000) (g / 1000) = (localAxis c none none (M / 1000) (g / 1000)).map (· + 1) := by
  have hg0 : 0 < g := by omega
  have e1 : pyInt (1000 * ((g : ℚ) / 1000)) = g := by rw [mul_div_cancel₀ _ (by norm_num), pyInt_intCast]
  have e0 : pyInt (1000 * c) = ⌊1000 * c⌋ := if_pos (by linarith)
  have e2 : pyInt (1000 * (c - (M : ℚ) / 1000)) = ⌊1000 * c⌋ + 1 - M := by
    have : 1000 * (c - (M : ℚ) / 1000) = 1000 * c - (M : ℚ) := by ring
    rw [this]
    unfold pyInt
    rw [if_neg (by linarith), Int.ceil_sub_intCast]
    congr 1
    rw [Int.ceil_eq_iff]
    have h1 := Int.floor_le (1000 * c)
    have h2 := Int.lt_floor_add_one (1000 * c)
    have h3 := hk ⌊1000 * c⌋
    push_cast
    constructor
    · have : (⌊1000 * c⌋ : ℚ) < 1000 * c := lt_of_le_of_ne h1 (Ne.symm h3)
      linarith
    · exact h2.le
  have e3 : pyInt (1000 * (c + (M : ℚ) / 1000)) = ⌊1000 * c⌋ + M := by
    have : 1000 * (c + (M : ℚ) / 1000) = 1000 * c + (M : ℚ) := by ring
    rw [this]
    unfold pyInt
    rw [if_pos (by linarith), Int.floor_add_intCast]
  rw [local_axis hg0, e0]
  unfold meshAxis arange
  simp only [e1, e2, e3, List.map_map]
  have hlen : -((⌊1000 * c⌋ + 1 - M - (⌊1000 * c⌋ + M + g)) / g) = 2 * M / g + 1 := by
    rw [show ⌊1000 * c⌋ + 1 - M - (⌊1000 * c⌋ + M + g) = -((2 * M + g - 2) + 1) by ring, steps_floor hg0]
    congr 1
    obtain ⟨q, hq⟩ := hd
    rw [hq, Int.mul_ediv_cancel_left _ hg0.ne', show g * q + g - 2 = (g - 2) + g * q by ring,
      Int.add_mul_ediv_left _ _ hg0.ne', Int.ediv_eq_zero_of_lt (by omega) (by omega), zero_add]
  rw [hlen]
  apply List.map_congr_left
  intro k _
  simp only [Function.comp]
  ring

/-- The default margin and resolution at 120.3456 E, 15.1 S: row 0 and column 0 -/
example : mesh 120.3456 (-15.1) 2 0.01 0 0 = gridPoint 120.3456 (-15.1) 2 0.01 0 0 ∧
    gridPoint 120.3456 (-15.1) 2 0.01 0 0 = some (118.345, -17.1) := by
  constructor
  · have := C194_points_partial (cLon := 120.3456) (cLat := -15.1) (M := 2000) (g := 10) (by norm_num) (by norm_num)
      (by norm_num) (Or.inr (by norm_num)) (Or.inl ⟨-15100, by norm_num⟩) 0 0
    norm_num at this ⊢
    exact this
  · have := (C194_grid (cLon := 120.3456) (cLat := -15.1) (M := 2000) (g := 10) (by norm_num) (by norm_num) 0 0
      (118.345, -17.1)).2 ⟨by norm_num, by norm_num, by
        have e1 : pyInt (1000 * 120.3456) = 120345 := by norm_num [pyInt]
        have e2 : pyInt (1000 * -15.1) = -15100 := by
          rw [show (1000 * -15.1 : ℚ) = ((-15100 : ℤ) : ℚ) by norm_num, pyInt_intCast]
        rw [e1, e2]
        norm_num⟩
    norm_num at this ⊢
    exact this

/-- A margin of 2 degrees in steps of 0.03 degrees; and a storm at 0.0005 E. -/
example : ¬ (30 : ℤ) ∣ 2 * 2000 ∧ Tame 2000 120.5 ∧ meshAxis 0.0005 2 0.01 ≠ localAxis 0.0005 none none 2 0.01 := by
  refine ⟨by decide, Or.inr (by norm_num), ?_⟩
  have := C194_shift_fails (c := 0.0005) (M := 2000) (g := 10) (by norm_num) (by norm_num) (by norm_num) (by norm_num)
    (by
      intro k h
      have : ((2 * k : ℤ) : ℚ) = ((1 : ℤ) : ℚ) := by push_cast; linarith
      have := Int.cast_injective this
      omega)
  have hl := local_axis (c := 0.0005) (M := 2000) (g := 10) (by norm_num)
  norm_num at this hl ⊢
  rw [this]
  intro e
  have := congrArg (fun l => l[0]?) e
  rw [hl] at this
  simp at this

end Tcrm.Windfield
