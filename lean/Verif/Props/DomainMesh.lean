import Verif.Model.DomainMesh
import Verif.Props.Mesh
/-!
C211: the grid over a domain covers it, and its coordinates are those of its points.
-/
namespace Tcrm.Windfield

theorem pyInt_sub_margin {c : ℚ} {M : ℤ} (hM : 0 ≤ M) (hc : Tame M c) :
    pyInt (1000 * (c - (M : ℚ) / 1000)) = pyInt (1000 * c) - M := by
  have hM' : (0 : ℚ) ≤ M := by exact_mod_cast hM
  have : 1000 * (c - (M : ℚ) / 1000) = 1000 * c + ((-M : ℤ) : ℚ) := by push_cast; ring
  rw [this, pyInt_add_int, sub_eq_add_neg]
  rcases hc with h | h
  · exact Or.inr (Or.inr h)
  · rcases le_abs.1 h with h | h
    · left; push_cast; constructor <;> linarith
    · right; left; push_cast; constructor <;> linarith

theorem pyInt_add_margin {c : ℚ} {M : ℤ} (hM : 0 ≤ M) (hc : Tame M c) :
    pyInt (1000 * (c + (M : ℚ) / 1000)) = pyInt (1000 * c) + M := by
  have hM' : (0 : ℚ) ≤ M := by exact_mod_cast hM
  have : 1000 * (c + (M : ℚ) / 1000) = 1000 * c + (M : ℚ) := by ring
  rw [this, pyInt_add_int]
  rcases hc with h | h
  · exact Or.inr (Or.inr h)
  · rcases le_abs.1 h with h | h
    · left; constructor <;> linarith
    · right; left; constructor <;> linarith

/-- Width in thousandths of a degree of the domain with its margins, edges truncated to thousandths of a degree -/
def width (M : ℤ) (lo hi : ℚ) : ℤ := pyInt (1000 * hi) - pyInt (1000 * lo) + 2 * M

theorem domain_axis {lo hi : ℚ} {M g : ℤ} (hg : 0 < g) :
    domainAxis lo hi (M / 1000) (g / 1000) =
      (List.range (width M lo hi / g + 1).toNat).map fun k : ℕ => pyInt (1000 * lo) - M + g * (k : ℤ) := by
  have e1 : pyInt ((g : ℚ) / 1000 * 1000) = g := by rw [div_mul_cancel₀ _ (by norm_num), pyInt_intCast]
  have e2 : pyInt (1000 * ((M : ℚ) / 1000)) = M := by rw [mul_div_cancel₀ _ (by norm_num), pyInt_intCast]
  unfold domainAxis arange width
  simp only [e1, e2]
  rw [show pyInt (1000 * lo) - M - (pyInt (1000 * hi) + M + 1) = -((pyInt (1000 * hi) - pyInt (1000 * lo) + 2 * M) + 1) by
    ring, steps_floor hg]

theorem domain_mesh_axis {lo hi : ℚ} {M g : ℤ} (hg : 0 < g) (hM : 0 ≤ M) (hl : Tame M lo) (hh : Tame M hi) :
    domainMeshAxis lo hi (M / 1000) (g / 1000) =
      (List.range (if g ∣ width M lo hi then width M lo hi / g + 1 else width M lo hi / g + 2).toNat).map
        fun k : ℕ => pyInt (1000 * lo) - M + g * (k : ℤ) := by
  have e1 : pyInt (1000 * ((g : ℚ) / 1000)) = g := by rw [mul_div_cancel₀ _ (by norm_num), pyInt_intCast]
  unfold domainMeshAxis arange width
  simp only [e1, pyInt_sub_margin hM hl, pyInt_add_margin hM hh]
  rw [show pyInt (1000 * lo) - M - (pyInt (1000 * hi) + M + g) = -((pyInt (1000 * hi) - pyInt (1000 * lo) + 2 * M) + g) by
    ring, steps_ceil hg]

/-- The edges of the domain are given to a thousandth of a degree, or are further from the equator or the meridian of
Greenwich than the margin of `M` thousandths of a degree. -/
def Region.Tame (M : ℤ) (d : Region) : Prop :=
  Windfield.Tame M d.minLon ∧ Windfield.Tame M d.maxLon ∧ Windfield.Tame M d.minLat ∧ Windfield.Tame M d.maxLat

/-- C211, partial: if the resolution divides the width and the height of the domain with its margins, and its edges are
given to a thousandth of a degree or away from the equator and Greenwich, the coordinates are those of the points whose
distances and bearings are computed. Missing: other sizes, where it fails. -/
theorem C211_points_partial {d : Region} {M g : ℤ} (hg : 0 < g) (hM : 0 ≤ M) (ht : d.Tame M)
    (hx : g ∣ width M d.minLon d.maxLon) (hy : g ∣ width M d.minLat d.maxLat) (j i : ℕ) :
    domainMesh d (M / 1000) (g / 1000) j i = domainPoint d (M / 1000) (g / 1000) j i := by
  obtain ⟨h1, h2, h3, h4⟩ := ht
  unfold domainMesh domainPoint
  rw [domain_mesh_axis hg hM h1 h2, domain_mesh_axis hg hM h3 h4, if_pos hx, if_pos hy, domain_axis hg, domain_axis hg]

theorem axis_get {lo hi : ℚ} {M g : ℤ} (hg : 0 < g) (k : ℕ) (v : ℤ) :
    (domainAxis lo hi (M / 1000) (g / 1000))[k]? = some v ↔
      g * k ≤ width M lo hi ∧ v = pyInt (1000 * lo) - M + g * (k : ℤ) := by
  have hk : g * k ≤ width M lo hi ↔ k < (width M lo hi / g + 1).toNat := by
    rw [Int.lt_toNat, Int.lt_add_one_iff, Int.le_ediv_iff_mul_le hg, mul_comm]
  rw [domain_axis hg, List.getElem?_map]
  by_cases h : g * k ≤ width M lo hi
  · rw [List.getElem?_range (hk.1 h)]
    simp only [Option.map_some, Option.some.injEq]
    exact ⟨fun e => ⟨h, e.symm⟩, fun e => e.2.symm⟩
  · rw [List.getElem?_eq_none (by simpa using fun e => h (hk.2 e))]
    simp [h]

/-- C211: the points are those from the margin west and south of the domain, its edges truncated to thousandths of a
degree, in steps of the resolution, as far as the margin east and north of it. -/
theorem C211_grid {d : Region} {M g : ℤ} (hg : 0 < g) (j i : ℕ) (p : ℚ × ℚ) :
    domainPoint d (M / 1000) (g / 1000) j i = some p ↔
      pyInt (1000 * d.minLon) - M + g * i ≤ pyInt (1000 * d.maxLon) + M ∧
      pyInt (1000 * d.minLat) - M + g * j ≤ pyInt (1000 * d.maxLat) + M ∧
      p = (((pyInt (1000 * d.minLon) - M + g * i : ℤ) : ℚ) / 1000, ((pyInt (1000 * d.minLat) - M + g * j : ℤ) : ℚ) / 1000) := by
  have hw : ∀ (lo hi : ℚ) (k : ℕ), g * k ≤ width M lo hi ↔ pyInt (1000 * lo) - M + g * k ≤ pyInt (1000 * hi) + M := by
    intro lo hi k
    unfold width
    constructor <;> intro h <;> linarith
  rw [← hw, ← hw]
  unfold domainPoint
  rcases hx : (domainAxis d.minLon d.maxLon (M / 1000) (g / 1000))[i]? with _ | x
  · have : ¬ g * (i : ℤ) ≤ width M d.minLon d.maxLon := fun h => by
      rw [(axis_get hg i _).2 ⟨h, rfl⟩] at hx
      cases hx
    simp [this]
  · obtain ⟨x1, rfl⟩ := (axis_get hg i x).1 hx
    rcases hy : (domainAxis d.minLat d.maxLat (M / 1000) (g / 1000))[j]? with _ | y
    · have : ¬ g * (j : ℤ) ≤ width M d.minLat d.maxLat := fun h => by
        rw [(axis_get hg j _).2 ⟨h, rfl⟩] at hy
        cases hy
      simp [this]
    · obtain ⟨y1, rfl⟩ := (axis_get hg j y).1 hy
      simp only [Option.some.injEq]
      exact ⟨fun h => ⟨x1, y1, h.symm⟩, fun h => h.2.2.symm⟩

/-- C211: for limits, margin and resolution in thousandths of a degree, every place of the domain with its margins has a
point of the grid south-west of it, less than the resolution away in longitude and in latitude. -/
theorem C211_covers {a b c e M g : ℤ} (hg : 0 < g) {x y : ℚ} (h1 : ((a - M : ℤ) : ℚ) / 1000 ≤ x)
    (h2 : x ≤ ((b + M : ℤ) : ℚ) / 1000) (h3 : ((c - M : ℤ) : ℚ) / 1000 ≤ y) (h4 : y ≤ ((e + M : ℤ) : ℚ) / 1000) :
    ∃ j i p, domainPoint ⟨a / 1000, b / 1000, c / 1000, e / 1000⟩ (M / 1000) (g / 1000) j i = some p ∧
      p.1 ≤ x ∧ x < p.1 + g / 1000 ∧ p.2 ≤ y ∧ y < p.2 + g / 1000 := by
  have hi : ∀ z : ℤ, pyInt (1000 * ((z : ℚ) / 1000)) = z := by
    intro z
    rw [mul_div_cancel₀ _ (by norm_num), pyInt_intCast]
  have hg' : (0 : ℚ) < g := by exact_mod_cast hg
  have key : ∀ (u v : ℤ) (z : ℚ), ((u - M : ℤ) : ℚ) / 1000 ≤ z → z ≤ ((v + M : ℤ) : ℚ) / 1000 →
      ∃ k : ℕ, u - M + g * k ≤ v + M ∧ ((u - M + g * k : ℤ) : ℚ) / 1000 ≤ z ∧
        z < ((u - M + g * k : ℤ) : ℚ) / 1000 + g / 1000 := by
    intro u v z hu hv
    have h0 : 0 ≤ (1000 * z - ((u - M : ℤ) : ℚ)) / g := div_nonneg (by linarith) hg'.le
    have f1 := Nat.floor_le h0
    have f2 := Nat.lt_floor_add_one ((1000 * z - ((u - M : ℤ) : ℚ)) / g)
    rw [le_div_iff₀ hg'] at f1
    rw [div_lt_iff₀ hg'] at f2
    refine ⟨⌊(1000 * z - ((u - M : ℤ) : ℚ)) / g⌋₊, ?_, ?_, ?_⟩
    · have : (((u - M + g * (⌊(1000 * z - ((u - M : ℤ) : ℚ)) / g⌋₊ : ℕ) : ℤ)) : ℚ) ≤ ((v + M : ℤ) : ℚ) := by
        push_cast at *
        linarith
      exact_mod_cast this
    · push_cast at *
      linarith
    · push_cast at *
      linarith
  obtain ⟨i, i1, i2, i3⟩ := key a b x h1 h2
  obtain ⟨j, j1, j2, j3⟩ := key c e y h3 h4
  refine ⟨j, i, (((a - M + g * i : ℤ) : ℚ) / 1000, ((c - M + g * j : ℤ) : ℚ) / 1000), ?_, i2, i3, j2, j3⟩
  rw [C211_grid hg]
  simp only [hi]
  exact ⟨i1, j1, trivial⟩

/-- C211 fails: if the resolution does not divide the width of the domain with its margins there are coordinates of one
column more than there are points. -/
theorem C211_extra_fails {d : Region} {M g : ℤ} (hg : 0 < g) (hM : 0 ≤ M) (ht : d.Tame M)
    (h0 : 0 ≤ width M d.minLon d.maxLon) (h0' : 0 ≤ width M d.minLat d.maxLat)
    (hx : ¬ g ∣ width M d.minLon d.maxLon) :
    ∃ (n : ℕ) (p : ℚ × ℚ), domainMesh d (M / 1000) (g / 1000) 0 n = some p ∧
      domainPoint d (M / 1000) (g / 1000) 0 n = none ∧
      ∀ k < n, domainMesh d (M / 1000) (g / 1000) 0 k = domainPoint d (M / 1000) (g / 1000) 0 k := by
  obtain ⟨t1, t2, t3, t4⟩ := ht
  have hq : 0 ≤ width M d.minLon d.maxLon / g := Int.ediv_nonneg h0 hg.le
  have hq' : 0 ≤ width M d.minLat d.maxLat / g := Int.ediv_nonneg h0' hg.le
  have hy0 : (domainMeshAxis d.minLat d.maxLat (M / 1000) (g / 1000))[0]? = some (pyInt (1000 * d.minLat) - M) := by
    rw [domain_mesh_axis hg hM t3 t4, List.getElem?_map, List.getElem?_range (by split_ifs <;> omega)]
    simp
  have hy1 : (domainAxis d.minLat d.maxLat (M / 1000) (g / 1000))[0]? = some (pyInt (1000 * d.minLat) - M) := by
    rw [domain_axis hg, List.getElem?_map, List.getElem?_range (by omega)]
    simp
  unfold domainMesh domainPoint
  simp only [hy0, hy1]
  simp only [domain_mesh_axis hg hM t1 t2, if_neg hx, domain_axis hg, List.getElem?_map]
  refine ⟨(width M d.minLon d.maxLon / g + 1).toNat,
    (((pyInt (1000 * d.minLon) - M + g * ((width M d.minLon d.maxLon / g + 1).toNat : ℤ) : ℤ) : ℚ) / 1000,
      ((pyInt (1000 * d.minLat) - M : ℤ) : ℚ) / 1000), ?_, ?_, ?_⟩
  · rw [List.getElem?_range (by omega)]
    rfl
  · rw [List.getElem?_eq_none (by simp)]
    rfl
  · intro k hk
    rw [List.getElem?_range (by omega), List.getElem?_range hk]

/-- The domain 110 to 155 E, 5 to 25 S with the default margin and resolution; and with a resolution of 0.03 degrees. -/
example : (Region.mk 110 155 (-25) (-5)).Tame 2000 ∧ (10 : ℤ) ∣ width 2000 110 155 ∧ (10 : ℤ) ∣ width 2000 (-25) (-5) ∧
    ¬ (30 : ℤ) ∣ width 2000 110 155 ∧ 0 ≤ width 2000 110 155 ∧ 0 ≤ width 2000 (-25) (-5) := by
  have e1 : width 2000 110 155 = 49000 := by decide +kernel
  have e2 : width 2000 (-25) (-5) = 24000 := by decide +kernel
  rw [e1, e2]
  refine ⟨⟨Or.inl ⟨110000, by norm_num⟩, Or.inl ⟨155000, by norm_num⟩, Or.inl ⟨-25000, by norm_num⟩,
    Or.inl ⟨-5000, by norm_num⟩⟩, by decide, by decide, by decide, by decide, by decide⟩

/-- One row and four columns: the domain 0 to 1 E at the equator without margin, every 0.3 degrees, has four points and
five coordinates. -/
example : (List.range 6).map (domainPoint ⟨0, 1, 0, 0⟩ 0 0.3 0) =
      [some (0, 0), some (0.3, 0), some (0.6, 0), some (0.9, 0), none, none] ∧
    (List.range 6).map (domainMesh ⟨0, 1, 0, 0⟩ 0 0.3 0) =
      [some (0, 0), some (0.3, 0), some (0.6, 0), some (0.9, 0), some (1.2, 0), none] := by
  decide +kernel

/-- A place inside the domain, for `C211_covers` -/
example : ((110000 - 2000 : ℤ) : ℚ) / 1000 ≤ 130.1234 ∧ (130.1234 : ℚ) ≤ ((155000 + 2000 : ℤ) : ℚ) / 1000 := by norm_num

end Tcrm.Windfield
