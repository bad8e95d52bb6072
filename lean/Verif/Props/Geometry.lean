import Verif.Spec.Geometry
import Mathlib.Tactic.FieldSimp
import Mathlib.Tactic.Ring
import Mathlib.Tactic.Linarith
import Mathlib.Tactic.LinearCombination
/-!
C29 (segments), C30 (circle and segment), C31 (point in polygon), C64 (polygons).
-/
set_option linter.unusedSectionVars false

namespace Tcrm.Geometry

section field
variable {K : Type} [Field K] [LinearOrder K] [IsStrictOrderedRing K]

/-! ### C29 -/

/-- C29: the reported point lies on both segments. -/
theorem C29_point_on_both {a1 a2 b1 b2 p : Point K} (h : p ∈ (lineLine a1 a2 b1 b2).points) :
    (lineLine a1 a2 b1 b2).status = .intersection ∧ OnSegment a1 a2 p ∧ OnSegment b1 b2 p := by
  unfold lineLine at h ⊢
  simp only at h ⊢
  split at h
  · next hub =>
    rw [if_pos hub]
    split at h
    · next hu =>
      rw [if_pos hu]
      simp only [List.mem_singleton] at h
      obtain ⟨h1, h2, h3, h4⟩ := hu
      refine ⟨rfl, ⟨_, h1, h2, ?_⟩, ⟨_, h3, h4, ?_⟩⟩
      · rw [h]; simp only [along]; ext <;> simp <;> ring
      · rw [h]; simp only [along]; ext <;> simp <;> field_simp <;> ring
    · simp at h
  · split at h <;> simp at h

/-- A common point solves the two equations. -/
theorem common {a1 a2 b1 b2 p : Point K} (ha : OnSegment a1 a2 p) (hb : OnSegment b1 b2 p) :
    ∃ s t : K, 0 ≤ s ∧ s ≤ 1 ∧ 0 ≤ t ∧ t ≤ 1 ∧ p = along a1 a2 s ∧
      s * ((b2.y - b1.y) * (a2.x - a1.x) - (b2.x - b1.x) * (a2.y - a1.y)) =
        (b2.x - b1.x) * (a1.y - b1.y) - (b2.y - b1.y) * (a1.x - b1.x) ∧
      t * ((b2.y - b1.y) * (a2.x - a1.x) - (b2.x - b1.x) * (a2.y - a1.y)) =
        (a2.x - a1.x) * (a1.y - b1.y) - (a2.y - a1.y) * (a1.x - b1.x) := by
  obtain ⟨s, s0, s1, rfl⟩ := ha
  obtain ⟨t, t0, t1, h⟩ := hb
  refine ⟨s, t, s0, s1, t0, t1, rfl, ?_, ?_⟩
  all_goals
    simp only [along, Point.mk.injEq] at h
    obtain ⟨hx, hy⟩ := h
  · linear_combination (b2.y - b1.y) * hx - (b2.x - b1.x) * hy
  · linear_combination (a2.y - a1.y) * hx - (a2.x - a1.x) * hy

/-- C29: if no intersection, or parallel lines, are reported, the segments have no common point. -/
theorem C29_no_common_point {a1 a2 b1 b2 p : Point K}
    (h : (lineLine a1 a2 b1 b2).status = .noIntersection ∨ (lineLine a1 a2 b1 b2).status = .parallel)
    (ha : OnSegment a1 a2 p) (hb : OnSegment b1 b2 p) : False := by
  obtain ⟨s, t, s0, s1, t0, t1, _, e1, e2⟩ := common ha hb
  unfold lineLine at h
  simp only at h
  split at h
  · next hub =>
    split at h
    · simp at h
    · next hu =>
      apply hu
      rw [← e1, ← e2, mul_div_cancel_right₀ _ hub, mul_div_cancel_right₀ _ hub]
      exact ⟨s0, s1, t0, t1⟩
  · next hub =>
    have hub' := not_not.1 hub
    rw [hub', mul_zero] at e1
    rw [if_pos (Or.inl e1.symm)] at h
    simp at h

/-- C29: if the lines are not parallel, an intersection is reported if and only if the segments have a
common point, and this is the only one. -/
theorem C29_intersection_iff {a1 a2 b1 b2 : Point K}
    (hnp : (b2.y - b1.y) * (a2.x - a1.x) - (b2.x - b1.x) * (a2.y - a1.y) ≠ 0) (p : Point K) :
    (lineLine a1 a2 b1 b2).points = [p] ↔ OnSegment a1 a2 p ∧ OnSegment b1 b2 p := by
  constructor
  · intro h
    exact (C29_point_on_both (by rw [h]; simp)).2
  · rintro ⟨ha, hb⟩
    obtain ⟨s, t, s0, s1, t0, t1, hp, e1, e2⟩ := common ha hb
    unfold lineLine
    simp only
    rw [if_pos hnp, ← e1, ← e2, mul_div_cancel_right₀ _ hnp, mul_div_cancel_right₀ _ hnp,
      if_pos ⟨s0, s1, t0, t1⟩]
    simp only [List.cons.injEq, and_true]
    rw [hp]
    simp only [along]
    ext <;> simp <;> ring

/-- C29: for two proper segments, coincident is reported if and only if they lie on the same line. -/
theorem C29_coincident_iff {a1 a2 b1 b2 : Point K} (ha : a1 ≠ a2) (hb : b1 ≠ b2) :
    (lineLine a1 a2 b1 b2).status = .coincident ↔ OnLine b1 b2 a1 ∧ OnLine b1 b2 a2 := by
  have hb' : b2.x - b1.x ≠ 0 ∨ b2.y - b1.y ≠ 0 := by
    by_contra hc
    push Not at hc
    exact hb (by ext <;> [linear_combination -hc.1; linear_combination -hc.2])
  have ha' : a2.x - a1.x ≠ 0 ∨ a2.y - a1.y ≠ 0 := by
    by_contra hc
    push Not at hc
    exact ha (by ext <;> [linear_combination -hc.1; linear_combination -hc.2])
  have online : ∀ q : Point K, (b2.x - b1.x) * (q.y - b1.y) - (b2.y - b1.y) * (q.x - b1.x) = 0 →
      OnLine b1 b2 q := by
    intro q hq
    rcases hb' with h | h
    · refine ⟨(q.x - b1.x) / (b2.x - b1.x), ?_⟩
      simp only [along]
      ext
      · simp; field_simp; ring
      · simp; field_simp; linear_combination hq
    · refine ⟨(q.y - b1.y) / (b2.y - b1.y), ?_⟩
      simp only [along]
      ext
      · simp; field_simp; linear_combination -hq
      · simp; field_simp; ring
  unfold lineLine
  simp only
  constructor
  · intro h
    split at h
    · split at h <;> simp at h
    · next hub =>
      have hub' := not_not.1 hub
      split at h
      · next hc =>
        have h1 : (b2.x - b1.x) * (a1.y - b1.y) - (b2.y - b1.y) * (a1.x - b1.x) = 0 := by
          rcases hc with hc | hc
          · exact hc
          · -- both cross products with parallel vectors vanish together
            rcases ha' with h | h
            · apply mul_left_cancel₀ h
              rw [mul_zero]
              linear_combination (b2.x - b1.x) * hc - (a1.x - b1.x) * hub'
            · apply mul_left_cancel₀ h
              rw [mul_zero]
              linear_combination (b2.y - b1.y) * hc - (a1.y - b1.y) * hub'
        refine ⟨online a1 h1, online a2 ?_⟩
        linear_combination h1 - hub'
      · simp at h
  · rintro ⟨⟨s, rfl⟩, ⟨t, rfl⟩⟩
    have e1 : (b2.y - b1.y) * ((along b1 b2 t).x - (along b1 b2 s).x) -
        (b2.x - b1.x) * ((along b1 b2 t).y - (along b1 b2 s).y) = 0 := by simp only [along]; ring
    have e2 : (b2.x - b1.x) * ((along b1 b2 s).y - b1.y) -
        (b2.y - b1.y) * ((along b1 b2 s).x - b1.x) = 0 := by simp only [along]; ring
    rw [if_neg (not_not.2 e1), if_pos (Or.inl e2)]

example : (lineLine (⟨0, 0⟩ : Point ℚ) ⟨2, 2⟩ ⟨0, 2⟩ ⟨2, 0⟩) = ⟨.intersection, [⟨1, 1⟩]⟩ := by decide +kernel
example : (lineLine (⟨0, 0⟩ : Point ℚ) ⟨1, 1⟩ ⟨2, 2⟩ ⟨3, 3⟩).status = .coincident := by decide +kernel
/-- C29: for two proper segments, parallel is reported if and only if they have the same or the opposite direction and do
not lie on the same line. -/
theorem C29_parallel_iff {a1 a2 b1 b2 : Point K} (ha : a1 ≠ a2) (hb : b1 ≠ b2) :
    (lineLine a1 a2 b1 b2).status = .parallel ↔
      (∃ c : K, a2.x - a1.x = c * (b2.x - b1.x) ∧ a2.y - a1.y = c * (b2.y - b1.y)) ∧
        ¬ (OnLine b1 b2 a1 ∧ OnLine b1 b2 a2) := by
  rw [← C29_coincident_iff ha hb]
  have hdir : (∃ c : K, a2.x - a1.x = c * (b2.x - b1.x) ∧ a2.y - a1.y = c * (b2.y - b1.y)) ↔
      (b2.y - b1.y) * (a2.x - a1.x) - (b2.x - b1.x) * (a2.y - a1.y) = 0 := by
    constructor
    · rintro ⟨c, h1, h2⟩
      rw [h1, h2]; ring
    · intro h
      by_cases hx : b2.x - b1.x = 0
      · have hy : b2.y - b1.y ≠ 0 := fun hy => hb (by ext <;> [linear_combination -hx; linear_combination -hy])
        rw [hx, zero_mul, sub_zero] at h
        refine ⟨(a2.y - a1.y) / (b2.y - b1.y), ?_, by field_simp⟩
        rw [hx, mul_zero]
        exact (mul_eq_zero.1 h).resolve_left hy
      · refine ⟨(a2.x - a1.x) / (b2.x - b1.x), by field_simp, ?_⟩
        field_simp
        linear_combination -h
  rw [hdir]
  unfold lineLine
  simp only
  split_ifs <;> simp_all

example : (lineLine (⟨0, 0⟩ : Point ℚ) ⟨1, 1⟩ ⟨0, 1⟩ ⟨1, 2⟩).status = .parallel := by decide +kernel
example : (lineLine (⟨0, 0⟩ : Point ℚ) ⟨1, 1⟩ ⟨5, 0⟩ ⟨6, 9⟩).status = .noIntersection := by decide +kernel

/-- Note: a degenerate segment is reported as coincident with everything. -/
theorem C29_degenerate_coincident (a1 a2 b : Point K) : (lineLine a1 a2 b b).status = .coincident := by
  unfold lineLine
  simp

/-! ### C31 -/

/-- The crossing test is a left-of test. -/
theorem cnCounts_iff (P : Point K) (e : Point K × Point K) : cnCounts P e = true ↔
    (e.1.y ≤ P.y ∧ e.2.y > P.y ∧ isLeft e.1 e.2 P > 0) ∨ (e.1.y > P.y ∧ e.2.y ≤ P.y ∧ isLeft e.1 e.2 P < 0) := by
  unfold cnCounts isLeft
  by_cases h1 : e.1.y ≤ P.y ∧ e.2.y > P.y
  · rw [if_pos (Or.inl h1)]
    have hd : 0 < e.2.y - e.1.y := by linarith [h1.1, h1.2]
    simp only [decide_eq_true_eq]
    have hn : ¬ e.1.y > P.y := not_lt.2 h1.1
    simp only [h1.1, h1.2, hn, true_and, false_and, or_false]
    have e1 : e.1.x + (P.y - e.1.y) / (e.2.y - e.1.y) * (e.2.x - e.1.x) - P.x =
        ((e.2.x - e.1.x) * (P.y - e.1.y) - (P.x - e.1.x) * (e.2.y - e.1.y)) / (e.2.y - e.1.y) := by
      field_simp; ring
    rw [← sub_pos, e1, gt_iff_lt]
    exact ⟨fun h => by simpa using (div_pos_iff_of_pos_right hd).1 h, fun h => div_pos h hd⟩
  · by_cases h2 : e.1.y > P.y ∧ e.2.y ≤ P.y
    · rw [if_pos (Or.inr h2)]
      have hd : e.2.y - e.1.y < 0 := by linarith [h2.1, h2.2]
      simp only [decide_eq_true_eq]
      have hn : ¬ e.1.y ≤ P.y := not_le.2 h2.1
      simp only [h2.1, h2.2, hn, true_and, false_and, false_or]
      have hd' := hd.ne
      have e1 : e.1.x + (P.y - e.1.y) / (e.2.y - e.1.y) * (e.2.x - e.1.x) - P.x =
          ((e.2.x - e.1.x) * (P.y - e.1.y) - (P.x - e.1.x) * (e.2.y - e.1.y)) / (e.2.y - e.1.y) := by
        field_simp; ring
      rw [← sub_pos, e1]
      constructor
      · intro h
        by_contra hc
        exact absurd h (not_lt.2 (div_nonpos_of_nonneg_of_nonpos (not_lt.1 hc) hd.le))
      · exact fun h => div_pos_of_neg_of_neg h hd
    · rw [if_neg (by rintro (h | h); exacts [h1 h, h2 h])]
      constructor
      · intro h; cases h
      · rintro (⟨a, b, _⟩ | ⟨a, b, _⟩)
        · exact absurd ⟨a, b⟩ h1
        · exact absurd ⟨a, b⟩ h2

theorem cnCounts_iff_crosses (P : Point K) (e : Point K × Point K) :
    cnCounts P e = true ↔ CrossesRay P e := by
  unfold cnCounts CrossesRay
  have hcond : ((e.1.y ≤ P.y ∧ e.2.y > P.y) ∨ (e.1.y > P.y ∧ e.2.y ≤ P.y)) ↔
      ((e.1.y ≤ P.y ∧ P.y < e.2.y) ∨ (e.2.y ≤ P.y ∧ P.y < e.1.y)) := by
    constructor
    · rintro (h | h)
      · exact Or.inl h
      · exact Or.inr ⟨h.2, h.1⟩
    · rintro (h | h)
      · exact Or.inl h
      · exact Or.inr ⟨h.2, h.1⟩
  by_cases hc : (e.1.y ≤ P.y ∧ e.2.y > P.y) ∨ (e.1.y > P.y ∧ e.2.y ≤ P.y)
  · rw [if_pos hc]
    simp only [decide_eq_true_eq, hcond.1 hc, true_and]
    have hd : e.2.y - e.1.y ≠ 0 := by
      rcases hc with h | h
      · exact (sub_pos.2 (lt_of_le_of_lt h.1 h.2)).ne'
      · exact (sub_neg.2 (lt_of_le_of_lt h.2 h.1)).ne
    constructor
    · intro h
      refine ⟨along e.1 e.2 ((P.y - e.1.y) / (e.2.y - e.1.y)), ⟨_, ?_, ?_, rfl⟩, ?_, ?_⟩
      · rcases hc with h | h
        · exact div_nonneg (by linarith [h.1]) (by linarith [h.1, h.2])
        · exact div_nonneg_of_nonpos (by linarith [h.1]) (by linarith [h.1, h.2])
      · rcases hc with h | h
        · rw [div_le_one (by linarith [h.1, h.2])]; linarith [h.2]
        · rw [div_le_one_of_neg (by linarith [h.1, h.2])]; linarith [h.2]
      · simp only [along]; field_simp; ring
      · have : (along e.1 e.2 ((P.y - e.1.y) / (e.2.y - e.1.y))).x =
            e.1.x + (P.y - e.1.y) / (e.2.y - e.1.y) * (e.2.x - e.1.x) := by simp only [along]; ring
        rw [this]; exact h
    · rintro ⟨q, ⟨t, _, _, rfl⟩, hy, hx⟩
      simp only [along] at hy hx
      have ht : t = (P.y - e.1.y) / (e.2.y - e.1.y) := by
        rw [eq_div_iff hd]; linear_combination hy
      rw [← ht]
      have : (1 - t) * e.1.x + t * e.2.x = e.1.x + t * (e.2.x - e.1.x) := by ring
      linarith
  · rw [if_neg hc]
    constructor
    · intro h; cases h
    · rintro ⟨h, _⟩; exact absurd (hcond.2 h) hc

/-- C31: the crossing-number test says inside if and only if the ray to the right crosses an odd number
of edges. -/
theorem C31_crossing_number (P : Point K) (V : List (Point K)) [DecidablePred (CrossesRay P)] :
    cnPnPoly P V = true ↔ Odd ((edges V).countP fun e => decide (CrossesRay P e)) := by
  unfold cnPnPoly
  rw [decide_eq_true_eq, Nat.odd_iff]
  have : (edges V).countP (cnCounts P) = (edges V).countP fun e => decide (CrossesRay P e) := by
    apply List.countP_congr
    intro e _
    rw [cnCounts_iff_crosses, decide_eq_true_eq]
  rw [this]

/-- C31 in one direction: a point is never reported on land unless it is inside by the crossing
number. -/
theorem C31_no_false_land_partial {P : Point K} {V : List (Point K)} [DecidablePred (CrossesRay P)]
    (h : inLand P V = true) : Odd ((edges V).countP fun e => decide (CrossesRay P e)) := by
  unfold inLand at h
  rw [Bool.and_eq_true] at h
  exact (C31_crossing_number P V).1 h.1

/-- C31: if the polygon goes counter-clockwise around the point, i.e. the point is to the left of every
edge, the two tests agree. -/
theorem C31_tests_agree_partial {P : Point K} {V : List (Point K)}
    (h : ∀ e ∈ edges V, isLeft e.1 e.2 P > 0) : inLand P V = cnPnPoly P V := by
  unfold inLand
  cases hc : cnPnPoly P V with
  | false => rfl
  | true =>
    rw [Bool.true_and]
    unfold wnPnPoly
    rw [decide_eq_true_eq]
    have hpos : 0 < (edges V).countP (cnCounts P) := by
      unfold cnPnPoly at hc
      rw [decide_eq_true_eq] at hc
      omega
    obtain ⟨e, he, hce⟩ := List.countP_pos_iff.1 hpos
    have hnn : ∀ x ∈ (edges V).map (wnAdd P), 0 ≤ x := by
      intro x hx
      obtain ⟨e', he', rfl⟩ := List.mem_map.1 hx
      have := h e' he'
      unfold wnAdd
      split
      · split
        · norm_num
        · split
          · rw [if_neg (not_lt.2 this.le)]
          · exact le_refl _
      · exact le_refl _
    have h1 : wnAdd P e = 1 := by
      have hl := h e he
      rcases (cnCounts_iff P e).1 hce with ⟨a, b, c⟩ | ⟨a, b, c⟩
      · unfold wnAdd; rw [if_pos a, if_pos b, if_pos c]
      · exact absurd hl (not_lt.2 c.le)
    have : 1 ≤ ((edges V).map (wnAdd P)).sum := by
      rw [← h1]
      exact List.single_le_sum hnn _ (List.mem_map_of_mem he)
    omega

/-- The number of edges that change sides of a horizontal line is even or odd as the ends are on the same
side or not. -/
theorem straddle_parity (y : K) : ∀ (a : Point K) (V : List (Point K)),
    ((edges (a :: V)).countP fun e => decide ((e.1.y ≤ y ∧ y < e.2.y) ∨ (e.2.y ≤ y ∧ y < e.1.y))) % 2 =
      if (a.y ≤ y ↔ ((a :: V).getLast (by simp)).y ≤ y) then 0 else 1
  | a, [] => by simp [edges]
  | a, b :: V => by
    have ih := straddle_parity y b V
    have e : edges (a :: b :: V) = (a, b) :: edges (b :: V) := by simp [edges]
    rw [e, List.countP_cons, List.getLast_cons (by simp)]
    simp only [decide_eq_true_eq, ← not_le] at ih ⊢
    by_cases h1 : a.y ≤ y <;> by_cases h2 : b.y ≤ y <;>
      by_cases h3 : ((b :: V).getLast (by simp)).y ≤ y <;>
      simp only [h1, h2, h3] at ih ⊢ <;> simp at ih ⊢ <;> omega

/-- C31: a point outside the bounding box of a closed polygon is never reported on land. -/
theorem C31_outside_box {P a : Point K} {V : List (Point K)}
    (hclosed : (a :: V).getLast (by simp) = a)
    (hout : (∀ v ∈ a :: V, v.y ≤ P.y) ∨ (∀ v ∈ a :: V, P.y < v.y) ∨ (∀ v ∈ a :: V, v.x ≤ P.x) ∨
      (∀ v ∈ a :: V, P.x < v.x)) : inLand P (a :: V) = false := by
  have hmem : ∀ e ∈ edges (a :: V), e.1 ∈ a :: V ∧ e.2 ∈ a :: V := by
    intro e he
    have := List.of_mem_zip (show (e.1, e.2) ∈ (a :: V).zip (a :: V).tail from he)
    exact ⟨this.1, List.mem_of_mem_tail this.2⟩
  have zero : (∀ e ∈ edges (a :: V), ¬ CrossesRay P e) → cnPnPoly P (a :: V) = false := by
    intro h
    unfold cnPnPoly
    rw [List.countP_eq_zero.2 (fun e he hc => h e he ((cnCounts_iff_crosses P e).1 hc))]
    rfl
  have key : cnPnPoly P (a :: V) = false := by
    rcases hout with h | h | h | h
    · apply zero
      rintro e he ⟨hs, _⟩
      have h1 := h _ (hmem e he).1
      have h2 := h _ (hmem e he).2
      rcases hs with hs | hs
      · exact absurd hs.2 (not_lt.2 h2)
      · exact absurd hs.2 (not_lt.2 h1)
    · apply zero
      rintro e he ⟨hs, _⟩
      have h1 := h _ (hmem e he).1
      have h2 := h _ (hmem e he).2
      rcases hs with hs | hs
      · exact absurd hs.1 (not_le.2 h1)
      · exact absurd hs.1 (not_le.2 h2)
    · apply zero
      rintro e he ⟨_, q, ⟨t, t0, t1, rfl⟩, _, hx⟩
      have h1 := h _ (hmem e he).1
      have h2 := h _ (hmem e he).2
      simp only [along] at hx
      have p1 : 0 ≤ (1 - t) * (P.x - e.1.x) := mul_nonneg (by linarith) (by linarith)
      have p2 : 0 ≤ t * (P.x - e.2.x) := mul_nonneg t0 (by linarith)
      have : (1 - t) * e.1.x + t * e.2.x + (1 - t) * (P.x - e.1.x) + t * (P.x - e.2.x) = P.x := by ring
      linarith
    · have hcount : (edges (a :: V)).countP (cnCounts P) = (edges (a :: V)).countP fun e =>
          decide ((e.1.y ≤ P.y ∧ P.y < e.2.y) ∨ (e.2.y ≤ P.y ∧ P.y < e.1.y)) := by
        apply List.countP_congr
        intro e he
        have h1 := h _ (hmem e he).1
        have h2 := h _ (hmem e he).2
        rw [cnCounts_iff, decide_eq_true_eq]
        have l : isLeft e.1 e.2 P = (P.y - e.1.y) * (e.2.x - P.x) + (e.2.y - P.y) * (e.1.x - P.x) := by
          unfold isLeft; ring
        constructor
        · rintro (⟨u, v, _⟩ | ⟨u, v, _⟩)
          · exact Or.inl ⟨u, v⟩
          · exact Or.inr ⟨v, u⟩
        · rintro (⟨u, v⟩ | ⟨u, v⟩)
          · refine Or.inl ⟨u, v, ?_⟩
            rw [l]
            have p1 : 0 ≤ (P.y - e.1.y) * (e.2.x - P.x) := mul_nonneg (by linarith) (by linarith)
            have p2 : 0 < (e.2.y - P.y) * (e.1.x - P.x) := mul_pos (by linarith) (by linarith)
            linarith
          · refine Or.inr ⟨v, u, ?_⟩
            rw [l]
            have p1 : (P.y - e.1.y) * (e.2.x - P.x) < 0 := mul_neg_of_neg_of_pos (by linarith) (by linarith)
            have p2 : (e.2.y - P.y) * (e.1.x - P.x) ≤ 0 :=
              mul_nonpos_of_nonpos_of_nonneg (by linarith) (by linarith)
            linarith
      unfold cnPnPoly
      rw [hcount, straddle_parity, hclosed]
      simp
  unfold inLand
  rw [key, Bool.false_and]

example : inLand (⟨-5, 1⟩ : Point ℚ) [⟨0, 0⟩, ⟨2, 0⟩, ⟨1, 1⟩, ⟨2, 2⟩, ⟨0, 2⟩, ⟨0, 0⟩] = false :=
  C31_outside_box (by decide +kernel) (by right; right; right; decide +kernel)

/-- Three cross products. -/
theorem tri_identity (A B C P : Point K) :
    isLeft A B P * (C.y - P.y) + isLeft B C P * (A.y - P.y) + isLeft C A P * (B.y - P.y) = 0 := by
  unfold isLeft; ring

theorem tri_sum (A B C P : Point K) : isLeft A B P + isLeft B C P + isLeft C A P = isLeft A B C := by
  unfold isLeft; ring

/-- C31 for counter-clockwise triangles, inside: reported on land. -/
theorem C31_triangle_inside_partial {A B C P : Point K} (h1 : isLeft A B P > 0) (h2 : isLeft B C P > 0)
    (h3 : isLeft C A P > 0) : inLand P [A, B, C, A] = true := by
  rw [C31_tests_agree_partial]
  · unfold cnPnPoly
    rw [decide_eq_true_eq]
    have hid := tri_identity A B C P
    -- an edge is counted if it goes up
    have up : ∀ e : Point K × Point K, isLeft e.1 e.2 P > 0 →
        cnCounts P e = decide (e.1.y ≤ P.y ∧ ¬ e.2.y ≤ P.y) := by
      intro e he
      rw [Bool.eq_iff_iff, cnCounts_iff, decide_eq_true_eq]
      constructor
      · rintro (⟨a, b, _⟩ | ⟨_, _, c⟩)
        · exact ⟨a, not_le.2 b⟩
        · exact absurd he (not_lt.2 c.le)
      · rintro ⟨a, b⟩; exact Or.inl ⟨a, not_le.1 b, he⟩
    have e1 := up (A, B) h1
    have e2 := up (B, C) h2
    have e3 := up (C, A) h3
    simp only [edges, List.tail_cons, List.zip_cons_cons, List.zip_nil_right, List.countP_cons,
      List.countP_nil, e1, e2, e3]
    by_cases a : A.y ≤ P.y <;> by_cases b : B.y ≤ P.y <;> by_cases c : C.y ≤ P.y
    · exfalso
      -- all vertices on or below the line: then all on it
      have p1 : isLeft A B P * (C.y - P.y) ≤ 0 := mul_nonpos_of_nonneg_of_nonpos h1.le (by linarith)
      have p2 : isLeft B C P * (A.y - P.y) ≤ 0 := mul_nonpos_of_nonneg_of_nonpos h2.le (by linarith)
      have p3 : isLeft C A P * (B.y - P.y) ≤ 0 := mul_nonpos_of_nonneg_of_nonpos h3.le (by linarith)
      have q2 : isLeft B C P * (A.y - P.y) = 0 := by linarith
      have q3 : isLeft C A P * (B.y - P.y) = 0 := by linarith
      have r2 : A.y - P.y = 0 := (mul_eq_zero.1 q2).resolve_left h2.ne'
      have r3 : B.y - P.y = 0 := (mul_eq_zero.1 q3).resolve_left h3.ne'
      have : isLeft A B P = 0 := by
        unfold isLeft
        rw [show B.y - A.y = 0 by linarith, show P.y - A.y = 0 by linarith]; ring
      linarith
    · simp only [a, b, c]; decide
    · simp only [a, b, c]; decide
    · simp only [a, b, c]; decide
    · simp only [a, b, c]; decide
    · simp only [a, b, c]; decide
    · simp only [a, b, c]; decide
    · exfalso
      have p1 : 0 < isLeft A B P * (C.y - P.y) := mul_pos h1 (by linarith [not_le.1 c])
      have p2 : 0 < isLeft B C P * (A.y - P.y) := mul_pos h2 (by linarith [not_le.1 a])
      have p3 : 0 < isLeft C A P * (B.y - P.y) := mul_pos h3 (by linarith [not_le.1 b])
      linarith
  · intro e he
    simp only [edges, List.tail_cons, List.zip_cons_cons, List.zip_nil_right, List.mem_cons,
      List.not_mem_nil, or_false] at he
    rcases he with rfl | rfl | rfl
    · exact h1
    · exact h2
    · exact h3

/-- One edge up, one edge down, in a counter-clockwise triangle: an odd count means inside. -/
theorem tri_up {A B C P : Point K} (ho : isLeft A B C > 0) (ha : A.y ≤ P.y) (hb : P.y < B.y)
    (hc : C.y ≤ P.y) (hout : isLeft A B P < 0 ∨ isLeft B C P < 0 ∨ isLeft C A P < 0) :
    (0 < isLeft A B P ↔ isLeft B C P < 0) := by
  have hid := tri_identity A B C P
  have hs := tri_sum A B C P
  constructor
  · intro h1
    by_contra h2
    have h2' := not_lt.1 h2
    have : 0 ≤ isLeft C A P * (B.y - P.y) := by
      have p1 : isLeft A B P * (C.y - P.y) ≤ 0 := mul_nonpos_of_nonneg_of_nonpos h1.le (by linarith)
      have p2 : isLeft B C P * (A.y - P.y) ≤ 0 := mul_nonpos_of_nonneg_of_nonpos h2' (by linarith)
      linarith
    have h3 : 0 ≤ isLeft C A P := nonneg_of_mul_nonneg_left this (by linarith)
    rcases hout with h | h | h <;> linarith
  · intro h2
    by_contra h1
    have h1' := not_lt.1 h1
    have : isLeft C A P * (B.y - P.y) ≤ 0 := by
      have p1 : 0 ≤ isLeft A B P * (C.y - P.y) := mul_nonneg_of_nonpos_of_nonpos h1' (by linarith)
      have p2 : 0 ≤ isLeft B C P * (A.y - P.y) := mul_nonneg_of_nonpos_of_nonpos h2.le (by linarith)
      linarith
    have h3 : isLeft C A P ≤ 0 := by
      by_contra hc'
      exact absurd this (not_le.2 (mul_pos (not_le.1 hc') (by linarith)))
    linarith

theorem tri_down {A B C P : Point K} (ho : isLeft A B C > 0) (ha : P.y < A.y) (hb : B.y ≤ P.y)
    (hc : P.y < C.y) (hout : isLeft A B P < 0 ∨ isLeft B C P < 0 ∨ isLeft C A P < 0) :
    (isLeft A B P < 0 ↔ 0 < isLeft B C P) := by
  have hid := tri_identity A B C P
  have hs := tri_sum A B C P
  constructor
  · intro h1
    by_contra h2
    have h2' := not_lt.1 h2
    have : 0 < isLeft C A P * (P.y - B.y) ∨ isLeft C A P * (P.y - B.y) < 0 := by
      right
      have p1 : isLeft A B P * (C.y - P.y) < 0 := mul_neg_of_neg_of_pos h1 (by linarith)
      have p2 : isLeft B C P * (A.y - P.y) ≤ 0 := mul_nonpos_of_nonpos_of_nonneg h2' (by linarith)
      have : isLeft C A P * (P.y - B.y) = -(isLeft C A P * (B.y - P.y)) := by ring
      linarith
    have h3 : isLeft C A P ≤ 0 := by
      by_contra hc'
      have := mul_nonneg (not_le.1 hc').le (show 0 ≤ P.y - B.y by linarith)
      rcases ‹_ ∨ _› with h | h
      · have p1 : isLeft A B P * (C.y - P.y) < 0 := mul_neg_of_neg_of_pos h1 (by linarith)
        have p2 : isLeft B C P * (A.y - P.y) ≤ 0 := mul_nonpos_of_nonpos_of_nonneg h2' (by linarith)
        have : isLeft C A P * (P.y - B.y) = -(isLeft C A P * (B.y - P.y)) := by ring
        linarith
      · linarith
    linarith
  · intro h2
    by_contra h1
    have h1' := not_lt.1 h1
    have hpos : 0 < isLeft C A P * (P.y - B.y) := by
      have p1 : 0 ≤ isLeft A B P * (C.y - P.y) := mul_nonneg h1' (by linarith)
      have p2 : 0 < isLeft B C P * (A.y - P.y) := mul_pos h2 (by linarith)
      have : isLeft C A P * (P.y - B.y) = -(isLeft C A P * (B.y - P.y)) := by ring
      linarith
    have h3 : 0 ≤ isLeft C A P := by
      by_contra hc'
      have := mul_nonpos_of_nonpos_of_nonneg (not_le.1 hc').le (show 0 ≤ P.y - B.y by linarith)
      linarith
    rcases hout with h | h | h <;> linarith

/-- A triangle that does not contain the point has an even crossing number. -/
theorem tri_cn_outside {A B C P : Point K} (ho : isLeft A B C > 0)
    (hout : isLeft A B P < 0 ∨ isLeft B C P < 0 ∨ isLeft C A P < 0) : cnPnPoly P [A, B, C, A] = false := by
  have key : cnPnPoly P [A, B, C, A] = false := by
    unfold cnPnPoly
    rw [decide_eq_false_iff_not]
    simp only [edges, List.tail_cons, List.zip_cons_cons, List.zip_nil_right, List.countP_cons,
      List.countP_nil, cnCounts_iff]
    have ho2 : isLeft B C A > 0 := by
      have : isLeft B C A = isLeft A B C := by unfold isLeft; ring
      rw [this]; exact ho
    have ho3 : isLeft C A B > 0 := by
      have : isLeft C A B = isLeft A B C := by unfold isLeft; ring
      rw [this]; exact ho
    have hout2 : isLeft B C P < 0 ∨ isLeft C A P < 0 ∨ isLeft A B P < 0 := by tauto
    have hout3 : isLeft C A P < 0 ∨ isLeft A B P < 0 ∨ isLeft B C P < 0 := by tauto
    by_cases a : A.y ≤ P.y <;> by_cases b : B.y ≤ P.y <;> by_cases c : C.y ≤ P.y
    · simp [a, b, c, not_lt.2 a, not_lt.2 b, not_lt.2 c]
    · -- B C up, C A down
      have := tri_up ho2 b (not_le.1 c) a hout2
      simp only [a, b, c, gt_iff_lt, not_le.1 c, not_lt.2 a, not_lt.2 b, true_and, false_and, and_false,
        or_false, false_or]
      by_cases h : 0 < isLeft B C P
      · simp [h, this.1 h]
      · simp [h, mt this.2 h]
    · have := tri_up ho a (not_le.1 b) c hout
      simp only [a, b, c, gt_iff_lt, not_le.1 b, not_lt.2 a, not_lt.2 c, true_and, false_and, and_false,
        or_false, false_or]
      by_cases h : 0 < isLeft A B P
      · simp [h, this.1 h]
      · simp [h, mt this.2 h]
    · -- A B up, C A down: A is the only lower vertex
      have := tri_down ho3 (not_le.1 c) a (not_le.1 b) hout3
      simp only [a, b, c, gt_iff_lt, not_le.1 b, not_le.1 c, not_lt.2 a, true_and, false_and, and_false,
        or_false, false_or]
      by_cases h : isLeft C A P < 0
      · simp [h, this.1 h]
      · simp [h, mt this.2 h]
    · have := tri_up ho3 c (not_le.1 a) b hout3
      simp only [a, b, c, gt_iff_lt, not_le.1 a, not_lt.2 b, not_lt.2 c, true_and, false_and, and_false,
        or_false, false_or]
      by_cases h : 0 < isLeft C A P
      · simp [h, this.1 h]
      · simp [h, mt this.2 h]
    · have := tri_down ho (not_le.1 a) b (not_le.1 c) hout
      simp only [a, b, c, gt_iff_lt, not_le.1 a, not_le.1 c, not_lt.2 b, true_and, false_and, and_false,
        or_false, false_or]
      by_cases h : isLeft A B P < 0
      · simp [h, this.1 h]
      · simp [h, mt this.2 h]
    · have := tri_down ho2 (not_le.1 b) c (not_le.1 a) hout2
      simp only [a, b, c, gt_iff_lt, not_le.1 a, not_le.1 b, not_lt.2 c, true_and, false_and, and_false,
        or_false, false_or]
      by_cases h : isLeft B C P < 0
      · simp [h, this.1 h]
      · simp [h, mt this.2 h]
    · simp [a, b, c]
  exact key

/-- C31 for counter-clockwise triangles, outside (to the right of some edge): not reported on land. -/
theorem C31_triangle_outside_partial {A B C P : Point K} (ho : isLeft A B C > 0)
    (hout : isLeft A B P < 0 ∨ isLeft B C P < 0 ∨ isLeft C A P < 0) : inLand P [A, B, C, A] = false := by
  unfold inLand
  rw [tri_cn_outside ho hout, Bool.false_and]

/-- C31 fails for every clockwise triangle with one vertex below the point and two above it: a point
inside is not reported on land, although the crossing test finds it. -/
theorem C31_clockwise_fails {A B C P : Point K} (h1 : isLeft A B P < 0) (h2 : isLeft B C P < 0)
    (h3 : isLeft C A P < 0) (hA : A.y ≤ P.y) (hB : P.y < B.y) (hC : P.y < C.y) :
    cnPnPoly P [A, B, C, A] = true ∧ inLand P [A, B, C, A] = false := by
  constructor
  · unfold cnPnPoly
    rw [decide_eq_true_eq]
    simp only [edges, List.tail_cons, List.zip_cons_cons, List.zip_nil_right, List.countP_cons,
      List.countP_nil, cnCounts_iff]
    simp [hA, hB, hC, not_lt.2 hA, not_le.2 hB, not_le.2 hC, h1, h2, h3, not_lt.2 h1.le]
  · have : wnPnPoly P [A, B, C, A] = false := by
      unfold wnPnPoly
      rw [decide_eq_false_iff_not, not_not]
      simp [edges, wnAdd, hA, hB, not_le.2 hB, not_le.2 hC, not_lt.2 h1.le]
    unfold inLand
    rw [this, Bool.and_false]

example : inLand (⟨0, 1⟩ : Point ℚ) [⟨0, 0⟩, ⟨-1, 2⟩, ⟨1, 2⟩, ⟨0, 0⟩] = false ∧
    inLand (⟨0, 1⟩ : Point ℚ) [⟨0, 0⟩, ⟨1, 2⟩, ⟨-1, 2⟩, ⟨0, 0⟩] = true := by decide +kernel

/-- C31 fails also for counter-clockwise polygons that are not convex: here an edge wholly below the
point is counted as a downward crossing, and the point inside is not reported on land. -/
theorem C31_counterexample :
    cnPnPoly (⟨2, 2⟩ : Point ℚ) [⟨0, 0⟩, ⟨3, 0⟩, ⟨1, 1 / 2⟩, ⟨4, 1⟩, ⟨4, 4⟩, ⟨0, 4⟩, ⟨0, 0⟩] = true ∧
    inLand (⟨2, 2⟩ : Point ℚ) [⟨0, 0⟩, ⟨3, 0⟩, ⟨1, 1 / 2⟩, ⟨4, 1⟩, ⟨4, 4⟩, ⟨0, 4⟩, ⟨0, 0⟩] = false := by
  decide +kernel

example : inLand (⟨1, 1 / 2⟩ : Point ℚ) [⟨0, 0⟩, ⟨2, 0⟩, ⟨1, 1⟩, ⟨0, 0⟩] = true :=
  C31_triangle_inside_partial (by decide +kernel) (by decide +kernel) (by decide +kernel)
example : inLand (⟨3, 1 / 2⟩ : Point ℚ) [⟨0, 0⟩, ⟨2, 0⟩, ⟨1, 1⟩, ⟨0, 0⟩] = false :=
  C31_triangle_outside_partial (by decide +kernel) (by decide +kernel)

/-! ### C64 -/

/-- C64 fails: the line-polygon test reports an intersection for every line as soon as there is an edge
anywhere. -/
theorem C64_line_always_intersects (a1 a2 : Point K) {polys : List (List (Point K))} {p : List (Point K)}
    (hp : p ∈ polys) (h2 : 2 ≤ p.length) : (linePolygon a1 a2 polys).status = .intersection := by
  unfold linePolygon
  simp only
  rw [if_pos]
  rw [gt_iff_lt, List.length_pos_iff_exists_mem]
  have : ∃ e, e ∈ edges p := by
    match p, h2 with
    | x :: y :: l, _ => exact ⟨(x, y), by simp [edges]⟩
  obtain ⟨e, he⟩ := this
  exact ⟨_, List.mem_flatMap.2 ⟨p, hp, List.mem_map.2 ⟨e, he, rfl⟩⟩⟩

/-- C64: the points it lists are nevertheless those on the edges. -/
theorem C64_line_points_partial (a1 a2 : Point K) (polys : List (List (Point K))) (q : Point K) :
    (∃ l ∈ (linePolygon a1 a2 polys).points, q ∈ l) ↔
      ∃ p ∈ polys, ∃ e ∈ edges p, q ∈ (lineLine a1 a2 e.1 e.2).points := by
  unfold linePolygon
  simp only [List.mem_flatMap, List.mem_map]
  constructor
  · rintro ⟨l, ⟨p, hp, e, he, rfl⟩, hq⟩
    exact ⟨p, hp, e, he, hq⟩
  · rintro ⟨p, hp, e, he, hq⟩
    exact ⟨_, ⟨p, hp, e, he, rfl⟩, hq⟩

end field

/-! ### C30 -/

/-- Along the segment the squared distance from the centre is a quadratic function. -/
theorem dist2_lerp (c a1 a2 : Point ℝ) (r u : ℝ) : dist2 (lerp a1 a2 u) c - r ^ 2 =
    ((a2.x - a1.x) * (a2.x - a1.x) + (a2.y - a1.y) * (a2.y - a1.y)) * u ^ 2 +
    (2 * ((a2.x - a1.x) * (a1.x - c.x) + (a2.y - a1.y) * (a1.y - c.y))) * u +
    (c.x * c.x + c.y * c.y + a1.x * a1.x + a1.y * a1.y - 2 * (c.x * a1.x + c.y * a1.y) - r * r) := by
  unfold dist2 lerp; ring

theorem onSegment_iff_lerp {a1 a2 p : Point ℝ} :
    OnSegment a1 a2 p ↔ ∃ u : ℝ, 0 ≤ u ∧ u ≤ 1 ∧ p = lerp a1 a2 u := by
  have : ∀ u : ℝ, along a1 a2 u = lerp a1 a2 u := by
    intro u; unfold along lerp; ext <;> simp <;> ring
  unfold OnSegment
  simp only [this]

/-- The quadratic function, factored. -/
theorem factor {A B C e u : ℝ} (hA : A ≠ 0) (he : e ^ 2 = B * B - 4 * A * C) :
    A * u ^ 2 + B * u + C = A * (u - (-B + e) / (2 * A)) * (u - (-B - e) / (2 * A)) := by
  field_simp
  linear_combination (1 / 1 : ℝ) * he

/-- What the routine does in terms of the quadratic function `A u² + B u + C`. -/
theorem circleLine_cases (c : Point ℝ) (r : ℝ) (a1 a2 : Point ℝ) : ∃ A B C : ℝ, 0 ≤ A ∧
    (A = 0 ↔ a1 = a2) ∧ (A = 0 → B = 0) ∧
    (∀ u, dist2 (lerp a1 a2 u) c - r ^ 2 = A * u ^ 2 + B * u + C) ∧
    ((B * B - 4 * A * C < 0 ∧ circleLine c r a1 a2 = ⟨.outside, []⟩) ∨
     (B * B - 4 * A * C = 0 ∧ circleLine c r a1 a2 = ⟨.tangent, []⟩) ∨
     (0 < A ∧ 0 < B * B - 4 * A * C ∧ ∃ u1 u2 : ℝ, u2 < u1 ∧
       (∀ u, A * u ^ 2 + B * u + C = A * (u - u1) * (u - u2)) ∧
       circleLine c r a1 a2 = if (u1 < 0 ∨ u1 > 1) ∧ (u2 < 0 ∨ u2 > 1) then
          if (u1 < 0 ∧ u2 < 0) ∨ (u1 > 1 ∧ u2 > 1) then ⟨.outside, []⟩ else ⟨.inside, []⟩
        else ⟨.intersection, (if 0 ≤ u1 ∧ u1 ≤ 1 then [lerp a1 a2 u1] else []) ++
          (if 0 ≤ u2 ∧ u2 ≤ 1 then [lerp a1 a2 u2] else [])⟩)) := by
  refine ⟨_, _, _, ?_, ?_, ?_, dist2_lerp c a1 a2 r, ?_⟩
  · exact add_nonneg (mul_self_nonneg _) (mul_self_nonneg _)
  · constructor
    · intro h
      have h1 : a2.x - a1.x = 0 := by nlinarith [sq_nonneg (a2.x - a1.x), sq_nonneg (a2.y - a1.y)]
      have h2 : a2.y - a1.y = 0 := by nlinarith [sq_nonneg (a2.x - a1.x), sq_nonneg (a2.y - a1.y)]
      ext <;> linarith
    · rintro rfl; ring
  · intro h
    have h1 : a2.x - a1.x = 0 := by nlinarith [sq_nonneg (a2.x - a1.x), sq_nonneg (a2.y - a1.y)]
    have h2 : a2.y - a1.y = 0 := by nlinarith [sq_nonneg (a2.x - a1.x), sq_nonneg (a2.y - a1.y)]
    rw [h1, h2]; ring
  · unfold circleLine
    simp only
    generalize hA : (a2.x - a1.x) * (a2.x - a1.x) + (a2.y - a1.y) * (a2.y - a1.y) = A
    have hB0 : A = 0 → 2 * ((a2.x - a1.x) * (a1.x - c.x) + (a2.y - a1.y) * (a1.y - c.y)) = 0 := by
      intro h
      rw [← hA] at h
      have h1 : a2.x - a1.x = 0 := by nlinarith [sq_nonneg (a2.x - a1.x), sq_nonneg (a2.y - a1.y)]
      have h2 : a2.y - a1.y = 0 := by nlinarith [sq_nonneg (a2.x - a1.x), sq_nonneg (a2.y - a1.y)]
      rw [h1, h2]; ring
    have hA0 : 0 ≤ A := by rw [← hA]; exact add_nonneg (mul_self_nonneg _) (mul_self_nonneg _)
    generalize 2 * ((a2.x - a1.x) * (a1.x - c.x) + (a2.y - a1.y) * (a1.y - c.y)) = B at hB0 ⊢
    generalize c.x * c.x + c.y * c.y + a1.x * a1.x + a1.y * a1.y - 2 * (c.x * a1.x + c.y * a1.y) - r * r = C
    by_cases h1 : B * B - 4 * A * C < 0
    · exact Or.inl ⟨h1, by rw [if_pos h1]⟩
    · by_cases h2 : B * B - 4 * A * C = 0
      · exact Or.inr (Or.inl ⟨h2, by rw [if_neg h1, if_pos h2]⟩)
      · right; right
        have hpos : 0 < B * B - 4 * A * C := lt_of_le_of_ne (not_lt.1 h1) (Ne.symm h2)
        have hA1 : 0 < A := by
          rcases hA0.lt_or_eq with h | h
          · exact h
          · rw [← h, hB0 h.symm] at hpos; simp at hpos
        have hs := Real.sq_sqrt hpos.le
        have hsp := Real.sqrt_pos.2 hpos
        refine ⟨hA1, hpos, (-B + Real.sqrt (B * B - 4 * A * C)) / (2 * A),
          (-B - Real.sqrt (B * B - 4 * A * C)) / (2 * A), ?_, fun u => factor hA1.ne' hs, ?_⟩
        · exact div_lt_div_of_pos_right (by linarith) (by linarith)
        · rw [if_neg h1, if_neg h2]

/-- C30: every reported point lies on the circle and on the segment; at most two are reported, and only
with status Intersection. -/
theorem C30_points {c a1 a2 : Point ℝ} {r : ℝ} :
    (circleLine c r a1 a2).points.length ≤ 2 ∧ ∀ p ∈ (circleLine c r a1 a2).points,
      (circleLine c r a1 a2).status = .intersection ∧ dist2 p c = r ^ 2 ∧ OnSegment a1 a2 p := by
  obtain ⟨A, B, C, _, _, _, hd, h | h | ⟨_, _, u1, u2, _, hf, h⟩⟩ := circleLine_cases c r a1 a2
  · rw [h.2]; simp
  · rw [h.2]; simp
  · rw [h]
    split
    · split <;> simp
    · constructor
      · simp only [List.length_append]
        split <;> split <;> simp
      · intro p hp
        refine ⟨rfl, ?_⟩
        simp only [List.mem_append] at hp
        rcases hp with hp | hp
        · split at hp
          · next hu =>
            simp only [List.mem_singleton] at hp
            subst hp
            refine ⟨?_, onSegment_iff_lerp.2 ⟨u1, hu.1, hu.2, rfl⟩⟩
            have := hd u1
            rw [hf] at this
            nlinarith
          · simp at hp
        · split at hp
          · next hu =>
            simp only [List.mem_singleton] at hp
            subst hp
            refine ⟨?_, onSegment_iff_lerp.2 ⟨u2, hu.1, hu.2, rfl⟩⟩
            have := hd u2
            rw [hf] at this
            nlinarith
          · simp at hp

/-- C30: unless the line is a tangent (or the segment is a point), all common points are reported. -/
theorem C30_all_points {c a1 a2 p : Point ℝ} {r : ℝ} (ht : (circleLine c r a1 a2).status ≠ .tangent)
    (hs : OnSegment a1 a2 p) (hc : dist2 p c = r ^ 2) : p ∈ (circleLine c r a1 a2).points := by
  obtain ⟨u, hu0, hu1, rfl⟩ := onSegment_iff_lerp.1 hs
  obtain ⟨A, B, C, _, _, _, hd, h | h | ⟨hA, _, u1, u2, hlt, hf, h⟩⟩ := circleLine_cases c r a1 a2
  · have := hd u
    rw [hc] at this
    nlinarith [sq_nonneg (2 * A * u + B)]
  · rw [h.2] at ht; exact absurd rfl ht
  · have hz := hd u
    rw [hc, sub_self, hf] at hz
    have hz' : u = u1 ∨ u = u2 := by
      rcases mul_eq_zero.1 hz.symm with h' | h'
      · rcases mul_eq_zero.1 h' with h'' | h''
        · exact absurd h'' hA.ne'
        · exact Or.inl (by linarith)
      · exact Or.inr (by linarith)
    rw [h, if_neg]
    · simp only [List.mem_append]
      rcases hz' with rfl | rfl
      · left; rw [if_pos ⟨hu0, hu1⟩]; simp
      · right; rw [if_pos ⟨hu0, hu1⟩]; simp
    · rintro ⟨h1, h2⟩
      rcases hz' with rfl | rfl
      · rcases h1 with h1 | h1 <;> linarith
      · rcases h2 with h2 | h2 <;> linarith

/-- C30: Outside and Inside mean that all points of the segment are outside or inside the circle. -/
theorem C30_outside {c a1 a2 p : Point ℝ} {r : ℝ} (h : (circleLine c r a1 a2).status = .outside)
    (hs : OnSegment a1 a2 p) : r ^ 2 < dist2 p c := by
  obtain ⟨u, hu0, hu1, rfl⟩ := onSegment_iff_lerp.1 hs
  obtain ⟨A, B, C, hA0, _, hAB, hd, hh | hh | ⟨hA, _, u1, u2, hlt, hf, hh⟩⟩ := circleLine_cases c r a1 a2
  · have := hd u
    have hA : 0 < A := by
      rcases hA0.lt_or_eq with h' | h'
      · exact h'
      · have hz := hh.1
        rw [← h', hAB h'.symm] at hz; simp at hz
    nlinarith [sq_nonneg (2 * A * u + B)]
  · rw [hh.2] at h; cases h
  · rw [hh] at h
    have := hd u
    rw [hf] at this
    split at h
    · split at h
      · next ho =>
        rcases ho with ⟨h1, h2⟩ | ⟨h1, h2⟩
        · have : 0 < A * (u - u1) * (u - u2) := mul_pos (mul_pos hA (by linarith)) (by linarith)
          linarith
        · have : 0 < A * (u - u1) * (u - u2) :=
            mul_pos_of_neg_of_neg (mul_neg_of_pos_of_neg hA (by linarith)) (by linarith)
          linarith
      · cases h
    · cases h

theorem C30_inside {c a1 a2 p : Point ℝ} {r : ℝ} (h : (circleLine c r a1 a2).status = .inside)
    (hs : OnSegment a1 a2 p) : dist2 p c < r ^ 2 := by
  obtain ⟨u, hu0, hu1, rfl⟩ := onSegment_iff_lerp.1 hs
  obtain ⟨A, B, C, hA0, _, hAB, hd, hh | hh | ⟨hA, _, u1, u2, hlt, hf, hh⟩⟩ := circleLine_cases c r a1 a2
  · rw [hh.2] at h; cases h
  · rw [hh.2] at h; cases h
  · rw [hh] at h
    have := hd u
    rw [hf] at this
    split at h
    · next hout =>
      split at h
      · cases h
      · next hn =>
        push Not at hn
        have h1 : u1 > 1 := by
          rcases hout.1 with h1 | h1
          · exact absurd (show u2 < 0 by linarith) (not_lt.2 (hn.1 h1))
          · exact h1
        have h2 : u2 < 0 := by
          rcases hout.2 with h2 | h2
          · exact h2
          · exact absurd h2 (not_lt.2 (hn.2 h1))
        have : A * (u - u1) * (u - u2) < 0 :=
          mul_neg_of_neg_of_pos (mul_neg_of_pos_of_neg hA (by linarith)) (by linarith)
        linarith
    · cases h

/-- C30 fails at tangency: the status is Tangent, but no point is reported, wherever the line touches
the circle. -/
theorem C30_tangent_fails {c a1 a2 : Point ℝ} {r : ℝ} (h : (circleLine c r a1 a2).status = .tangent) :
    (circleLine c r a1 a2).points = [] := by
  obtain ⟨A, B, C, _, _, _, hd, hh | hh | ⟨hA, _, u1, u2, hlt, hf, hh⟩⟩ := circleLine_cases c r a1 a2
  · rw [hh.2]
  · rw [hh.2]
  · rw [hh] at h
    split at h
    · split at h <;> cases h
    · cases h

/-- The segment from (-1, 1) to (1, 1) touches the unit circle in (0, 1), which is not reported. -/
theorem C30_tangent_counterexample : (circleLine ⟨0, 0⟩ 1 ⟨-1, 1⟩ ⟨1, 1⟩) = ⟨.tangent, []⟩ ∧
    OnSegment (⟨-1, 1⟩ : Point ℝ) ⟨1, 1⟩ ⟨0, 1⟩ ∧ dist2 ⟨0, 1⟩ ⟨0, 0⟩ = 1 ^ 2 := by
  refine ⟨?_, ⟨1 / 2, by norm_num, by norm_num, ?_⟩, by norm_num [dist2]⟩
  · unfold circleLine
    simp only
    rw [if_neg (by norm_num), if_pos (by norm_num)]
  · unfold along; ext <;> norm_num

/-- A segment that meets the circle, one inside it and one outside it. -/
example : (circleLine ⟨0, 0⟩ 1 ⟨0, 0⟩ ⟨2, 0⟩) = ⟨.intersection, [⟨1, 0⟩]⟩ := by
  have hs : Real.sqrt 16 = 4 := by rw [show (16 : ℝ) = 4 ^ 2 by norm_num]; exact Real.sqrt_sq (by norm_num)
  unfold circleLine
  norm_num [hs, lerp]

/-- C64 fails for circles and a list of polygons: the last edge is never examined. For the closed
triangle (0,0), (4,0), (0,4) and a small circle around (0,2), which lies on its last edge, no
intersection is reported. -/
theorem C64_last_edge_missed : backEdges [⟨0, 0⟩, ⟨4, 0⟩, ⟨0, 4⟩, ⟨0, 0⟩] =
    [((⟨0, 0⟩ : Point ℝ), ⟨0, 0⟩), (⟨4, 0⟩, ⟨0, 0⟩), (⟨0, 4⟩, ⟨4, 0⟩)] := rfl

theorem C64_circle_counterexample :
    (circlePolygon ⟨0, 2⟩ 1 [[⟨0, 0⟩, ⟨4, 0⟩, ⟨0, 4⟩, ⟨0, 0⟩]]).status = .noIntersection ∧
    (circleLine ⟨0, 2⟩ 1 ⟨0, 4⟩ ⟨0, 0⟩).status = .intersection := by
  constructor
  · unfold circlePolygon
    simp only [List.flatMap_cons, List.flatMap_nil, List.append_nil, C64_last_edge_missed]
    have h1 : (circleLine ⟨0, 2⟩ 1 ⟨0, 0⟩ ⟨0, 0⟩).status = .tangent := by
      unfold circleLine; norm_num
    have h2 : (circleLine ⟨0, 2⟩ 1 ⟨4, 0⟩ ⟨0, 0⟩).status = .outside := by
      unfold circleLine; norm_num
    have h3 : (circleLine ⟨0, 2⟩ 1 ⟨0, 4⟩ ⟨4, 0⟩).status = .outside := by
      unfold circleLine; norm_num
    simp [h1, h2, h3]
  · have hs : Real.sqrt 64 = 8 := by
      rw [show (64 : ℝ) = 8 ^ 2 by norm_num]; exact Real.sqrt_sq (by norm_num)
    unfold circleLine
    norm_num [hs]

/-- C64 for a single polygon given as an array: an intersection is reported if and only if some edge is
reported to meet the circle. -/
theorem C64_circle_partial (c : Point ℝ) (r : ℝ) (p : List (Point ℝ)) :
    (circlePolygon1 c r p).status = .intersection ↔
      ∃ e ∈ edges p, (circleLine c r e.1 e.2).status = .intersection := by
  unfold circlePolygon1
  simp only
  constructor
  · intro h
    split at h
    · next hl =>
      obtain ⟨x, hx⟩ := List.length_pos_iff_exists_mem.1 hl
      rw [List.mem_filterMap] at hx
      obtain ⟨e, he, hx⟩ := hx
      split at hx
      · next hs => exact ⟨e, he, hs⟩
      · cases hx
    · cases h
  · rintro ⟨e, he, hs⟩
    rw [if_pos]
    apply List.length_pos_of_mem (a := (circleLine c r e.1 e.2).points)
    rw [List.mem_filterMap]
    exact ⟨e, he, by rw [if_pos hs]⟩

/-- C64 for a list of polygons: an intersection is reported if and only if one of the edges examined is reported to meet
the circle, whichever polygon it is of. (The edge missing is that of `C64_last_edge_missed`.) -/
theorem C64_circle_list_partial (c : Point ℝ) (r : ℝ) (polys : List (List (Point ℝ))) :
    (circlePolygon c r polys).status = .intersection ↔
      ∃ p ∈ polys, ∃ e ∈ backEdges p, (circleLine c r e.1 e.2).status = .intersection := by
  unfold circlePolygon
  simp only
  constructor
  · intro h
    split at h
    · next hl =>
      obtain ⟨x, hx⟩ := List.length_pos_iff_exists_mem.1 hl
      obtain ⟨p, hp, hx⟩ := List.mem_flatMap.1 hx
      rw [List.mem_filterMap] at hx
      obtain ⟨e, he, hx⟩ := hx
      split at hx
      · next hs => exact ⟨p, hp, e, he, hs⟩
      · cases hx
    · cases h
  · rintro ⟨p, hp, e, he, hs⟩
    rw [if_pos]
    apply List.length_pos_of_mem (a := (circleLine c r e.1 e.2).points)
    refine List.mem_flatMap.2 ⟨p, hp, ?_⟩
    rw [List.mem_filterMap]
    exact ⟨e, he, by rw [if_pos hs]⟩

/-- C64, the same in terms of the polygon: if no edge is tangent (or of length zero), an intersection is
reported if and only if some point of an edge is on the circle. -/
theorem C64_circle_meets_partial (c : Point ℝ) (r : ℝ) (p : List (Point ℝ))
    (ht : ∀ e ∈ edges p, (circleLine c r e.1 e.2).status ≠ .tangent) :
    (circlePolygon1 c r p).status = .intersection ↔
      ∃ e ∈ edges p, ∃ q, OnSegment e.1 e.2 q ∧ dist2 q c = r ^ 2 := by
  rw [C64_circle_partial]
  constructor
  · rintro ⟨e, he, hs⟩
    have : ∃ q, q ∈ (circleLine c r e.1 e.2).points := by
      obtain ⟨A, B, C, _, _, _, hd, hh | hh | ⟨hA, _, u1, u2, hlt, hf, hh⟩⟩ := circleLine_cases c r e.1 e.2
      · rw [hh.2] at hs; cases hs
      · rw [hh.2] at hs; cases hs
      · rw [hh] at hs ⊢
        split at hs
        · split at hs <;> cases hs
        · next hn =>
          rw [if_neg hn]
          rw [not_and_or] at hn
          rcases hn with hn | hn
          · push Not at hn
            exact ⟨lerp e.1 e.2 u1, by simp only [List.mem_append]; left; rw [if_pos hn]; simp⟩
          · push Not at hn
            exact ⟨lerp e.1 e.2 u2, by simp only [List.mem_append]; right; rw [if_pos hn]; simp⟩
    obtain ⟨q, hq⟩ := this
    obtain ⟨_, h1, h2⟩ := C30_points.2 q hq
    exact ⟨e, he, q, h2, h1⟩
  · rintro ⟨e, he, q, h1, h2⟩
    have := C30_all_points (ht e he) h1 h2
    exact ⟨e, he, (C30_points.2 q this).1⟩

/-- C64: the points returned with an intersection, for one polygon or a list of polygons, lie on the circle and on an
edge (for a list, on one of the edges examined, see `C64_last_edge_missed`). -/
theorem C64_circle_points (c : Point ℝ) (r : ℝ) (p : List (Point ℝ)) (polys : List (List (Point ℝ))) :
    (∀ l ∈ (circlePolygon1 c r p).points, ∀ q ∈ l, dist2 q c = r ^ 2 ∧ ∃ e ∈ edges p, OnSegment e.1 e.2 q) ∧
    (∀ l ∈ (circlePolygon c r polys).points, ∀ q ∈ l, dist2 q c = r ^ 2 ∧
      ∃ p ∈ polys, ∃ e ∈ backEdges p, OnSegment e.1 e.2 q) := by
  have key : ∀ (es : List (Point ℝ × Point ℝ)), ∀ l ∈ es.filterMap (fun e =>
      if (circleLine c r e.1 e.2).status = .intersection then some (circleLine c r e.1 e.2).points else none),
      ∀ q ∈ l, dist2 q c = r ^ 2 ∧ ∃ e ∈ es, OnSegment e.1 e.2 q := by
    intro es l hl q hq
    rw [List.mem_filterMap] at hl
    obtain ⟨e, he, hx⟩ := hl
    split at hx
    · cases hx
      obtain ⟨_, h1, h2⟩ := C30_points.2 q hq
      exact ⟨h1, e, he, h2⟩
    · cases hx
  constructor
  · intro l hl q hq
    exact key _ l hl q hq
  · intro l hl q hq
    obtain ⟨p, hp, hl⟩ := List.mem_flatMap.1 hl
    obtain ⟨h1, e, he, h2⟩ := key _ l hl q hq
    exact ⟨h1, p, hp, e, he, h2⟩

/-- C64, the edges examined for a list of polygons, in terms of the vertices: for every vertex but the last, the edge from
it to the one before it, and for the first vertex the one to the last vertex. -/
theorem C64_examined (p : List (Point ℝ)) (a b : Point ℝ) : (a, b) ∈ backEdges p ↔
    ∃ i : ℕ, i + 1 < p.length ∧ p[i]? = some a ∧
      ((i = 0 ∧ p.getLast? = some b) ∨ ∃ j, i = j + 1 ∧ p[j]? = some b) := by
  unfold backEdges
  rw [List.mem_map]
  constructor
  · rintro ⟨i, hi, he⟩
    rw [List.mem_range] at hi
    rw [Prod.mk.injEq] at he
    have hl : i < p.length := by omega
    refine ⟨i, by omega, by rw [← he.1, List.getD_eq_getElem?_getD, List.getElem?_eq_getElem hl]; rfl, ?_⟩
    cases i with
    | zero =>
      left
      have he2 := he.2
      rw [if_pos rfl, List.getD_eq_getElem?_getD, List.getElem?_eq_getElem (by omega)] at he2
      refine ⟨rfl, ?_⟩
      rw [List.getLast?_eq_getElem?, List.getElem?_eq_getElem (by omega), ← he2]
      rfl
    | succ j =>
      right
      have he2 := he.2
      rw [if_neg (by omega), Nat.add_sub_cancel, List.getD_eq_getElem?_getD, List.getElem?_eq_getElem (by omega)] at he2
      refine ⟨j, rfl, ?_⟩
      rw [List.getElem?_eq_getElem (by omega), ← he2]
      rfl
  · rintro ⟨i, hi, ha, h⟩
    refine ⟨i, List.mem_range.2 (by omega), ?_⟩
    rw [List.getD_eq_getElem?_getD, ha]
    rcases h with ⟨rfl, hb⟩ | ⟨j, rfl, hb⟩
    · rw [if_pos rfl, List.getD_eq_getElem?_getD, ← List.getLast?_eq_getElem?, hb]
      rfl
    · rw [if_neg (by omega), Nat.add_sub_cancel, List.getD_eq_getElem?_getD, hb]
      rfl

/-- C64: for a closed polygon (the last vertex repeats the first) these are its edges but the last one, and the first vertex
as an edge of length zero. -/
theorem C64_examined_closed {p : List (Point ℝ)} {v : Point ℝ} (h0 : p[0]? = some v) (hl : p.getLast? = some v)
    (h2 : 2 ≤ p.length) (a b : Point ℝ) : (a, b) ∈ backEdges p ↔
    (a = v ∧ b = v) ∨ ∃ j : ℕ, j + 2 < p.length ∧ p[j]? = some b ∧ p[j + 1]? = some a := by
  rw [C64_examined]
  constructor
  · rintro ⟨i, hi, ha, ⟨rfl, hb⟩ | ⟨j, rfl, hb⟩⟩
    · left
      rw [h0, Option.some_inj] at ha
      rw [hl, Option.some_inj] at hb
      exact ⟨ha.symm, hb.symm⟩
    · exact .inr ⟨j, hi, hb, ha⟩
  · rintro (⟨rfl, rfl⟩ | ⟨j, hj, hb, ha⟩)
    · exact ⟨0, by omega, h0, .inl ⟨rfl, hl⟩⟩
    · exact ⟨j + 1, hj, ha, .inr ⟨j, rfl, hb⟩⟩

end Tcrm.Geometry
