import Verif.Props.Geometry
import Mathlib.Tactic.LinearCombination
/-!
C31 for convex polygons.
-/
set_option linter.unusedSectionVars false

namespace Tcrm.Geometry

section field
variable {K : Type} [Field K] [LinearOrder K] [IsStrictOrderedRing K]

theorem turn_eq (a b c : Point K) : turn a b c = isLeft a b c := by unfold turn isLeft; ring

theorem isLeft_swap (a b P : Point K) : isLeft b a P = -isLeft a b P := by unfold isLeft; ring

theorem isLeft_cycle (a b c : Point K) : isLeft b c a = isLeft a b c := by unfold isLeft; ring

theorem cnCounts_swap (P a b : Point K) : cnCounts P (b, a) = cnCounts P (a, b) := by
  rw [Bool.eq_iff_iff, cnCounts_iff, cnCounts_iff]
  simp only [isLeft_swap a b P, gt_iff_lt, neg_pos, neg_neg_iff_pos]
  tauto

theorem edges_snoc (a b : Point K) : ∀ l : List (Point K), edges (l ++ [a, b]) = edges (l ++ [a]) ++ [(a, b)]
  | [] => by simp [edges]
  | [x] => by simp [edges]
  | x :: y :: l => by
    have ih := edges_snoc a b (y :: l)
    simp only [edges, List.cons_append, List.tail_cons, List.zip_cons_cons, List.cons.injEq, true_and] at ih ⊢
    exact ih

theorem parity_xor (m n : ℕ) : decide ((m + n) % 2 = 1) = xor (decide (m % 2 = 1)) (decide (n % 2 = 1)) := by
  rw [Bool.eq_iff_iff]
  simp
  omega

/-- Cutting off the last vertex: the crossing numbers of the remaining polygon and of the triangle add. -/
theorem cn_ear (P v y x : Point K) (L : List (Point K)) :
    cnPnPoly P (v :: L ++ [y, x, v]) = xor (cnPnPoly P (v :: L ++ [y, v])) (cnPnPoly P [v, y, x, v]) := by
  unfold cnPnPoly
  rw [← parity_xor]
  have e1 : edges (v :: L ++ [y, x, v]) = edges (v :: L ++ [y]) ++ [(y, x), (x, v)] := by
    have h1 := edges_snoc x v (v :: L ++ [y])
    have h2 := edges_snoc y x (v :: L)
    simp only [List.append_assoc, List.cons_append, List.nil_append] at h1 h2 ⊢
    rw [h1, h2]; simp
  have e2 := edges_snoc y v (v :: L)
  rw [e1, e2]
  have e3 : edges [v, y, x, v] = [(v, y), (y, x), (x, v)] := rfl
  rw [e3]
  simp only [List.countP_append, List.countP_cons, List.countP_nil, cnCounts_swap P v y]
  rw [Bool.eq_iff_iff]
  simp only [decide_eq_true_eq]
  split <;> split <;> split <;> omega

theorem bary (a b A B C P : Point K) : isLeft a b P * isLeft A B C =
    isLeft B C P * isLeft a b A + isLeft C A P * isLeft a b B + isLeft A B P * isLeft a b C := by
  unfold isLeft; ring

theorem ConvexCCW.sublist {V W : List (Point K)} (h : ConvexCCW V) (hw : W.Sublist V) : ConvexCCW W :=
  fun a b c hs => h a b c (hs.trans hw)

/-- A line that has the polygon on its left and the point strictly on its right -/
theorem cn_outside {P a b v : Point K} (hP : isLeft a b P < 0) : ∀ (n : ℕ) (L : List (Point K)), L.length = n →
    ConvexCCW (v :: L) → (∀ w ∈ v :: L, 0 ≤ isLeft a b w) → cnPnPoly P (v :: L ++ [v]) = false := by
  intro n
  induction n using Nat.strong_induction_on with
  | _ n ih =>
    intro L hn hc hw
    rcases List.eq_nil_or_concat L with rfl | ⟨L₁, x, rfl⟩
    · simp [cnPnPoly, edges, cnCounts]
    · rcases List.eq_nil_or_concat L₁ with rfl | ⟨L₂, y, rfl⟩
      · have := cnCounts_swap P v x
        simp only [cnPnPoly, edges, List.concat_eq_append, List.nil_append, List.cons_append, List.tail_cons, List.zip_cons_cons,
          List.zip_nil_right, List.countP_cons, List.countP_nil, this]
        split <;> decide
      · simp only [List.concat_eq_append, List.append_assoc, List.cons_append, List.nil_append] at hc hw hn ⊢
        have h1 := cn_ear P v y x L₂
        simp only [List.cons_append] at h1
        rw [h1]
        have h2 := ih (L₂.length + 1) (by rw [← hn]; simp) (L₂ ++ [y]) (by simp) (hc.sublist (by simp)) (by
          intro w hw'
          apply hw w
          simp only [List.mem_cons, List.mem_append, List.not_mem_nil, or_false] at hw' ⊢
          tauto)
        simp only [List.append_assoc, List.cons_append, List.nil_append] at h2
        have ho : 0 < isLeft v y x := by rw [← turn_eq]; exact hc v y x (by simp)
        rw [h2, tri_cn_outside ho]
        · rfl
        · by_contra hcon
          push Not at hcon
          have hb := bary a b v y x P
          have w1 := hw v (by simp)
          have w2 := hw y (by simp)
          have w3 := hw x (by simp)
          have : 0 ≤ isLeft a b P * isLeft v y x := by
            rw [hb]
            have := mul_nonneg hcon.2.1 w1
            have := mul_nonneg hcon.2.2 w2
            have := mul_nonneg hcon.1 w3
            linarith
          exact absurd this (not_le.2 (mul_neg_of_neg_of_pos hP ho))

/-- A point on a diagonal of a quadrilateral -/
theorem quad_inside {A B C D P : Point K} (h1 : 0 < isLeft A B P) (h2 : 0 < isLeft B C P) (h3 : 0 < isLeft C D P)
    (h4 : 0 < isLeft D A P) (h0 : isLeft A C P = 0) : cnPnPoly P [A, B, C, D, A] = true := by
  have i1 := tri_identity A B C P
  have i2 := tri_identity C D A P
  rw [isLeft_swap A C P, h0] at i1
  rw [h0] at i2
  have up : ∀ e : Point K × Point K, isLeft e.1 e.2 P > 0 →
      cnCounts P e = decide (e.1.y ≤ P.y ∧ ¬ e.2.y ≤ P.y) := by
    intro e he
    rw [Bool.eq_iff_iff, cnCounts_iff, decide_eq_true_eq]
    constructor
    · rintro (⟨a, b, _⟩ | ⟨_, _, c⟩)
      · exact ⟨a, not_le.2 b⟩
      · exact absurd he (not_lt.2 c.le)
    · rintro ⟨a, b⟩; exact Or.inl ⟨a, not_le.1 b, he⟩
  have e1 := up (A, B) h1
  have e2 := up (B, C) h2
  have e3 := up (C, D) h3
  have e4 := up (D, A) h4
  have ac : ¬ (P.y < A.y ∧ P.y < C.y) := by
    rintro ⟨a, c⟩
    have := mul_pos h1 (show 0 < C.y - P.y by linarith)
    have := mul_pos h2 (show 0 < A.y - P.y by linarith)
    linarith
  have ac' : A.y ≤ P.y → C.y ≤ P.y → A.y = P.y ∧ C.y = P.y := by
    intro a c
    have p1 := mul_nonpos_of_nonneg_of_nonpos h1.le (show C.y - P.y ≤ 0 by linarith)
    have p2 := mul_nonpos_of_nonneg_of_nonpos h2.le (show A.y - P.y ≤ 0 by linarith)
    have q1 : isLeft A B P * (C.y - P.y) = 0 := by linarith
    have q2 : isLeft B C P * (A.y - P.y) = 0 := by linarith
    exact ⟨by linarith [(mul_eq_zero.1 q2).resolve_left h2.ne'], by linarith [(mul_eq_zero.1 q1).resolve_left h1.ne']⟩
  -- with A and C on the horizontal line, B and D are on different sides of it
  have bd : A.y = P.y → C.y = P.y → (B.y ≤ P.y ↔ ¬ D.y ≤ P.y) := by
    intro a c
    unfold isLeft at h1 h2 h3 h4
    rw [a] at h1 h4
    rw [c] at h2 h3
    have g1 : 0 < (P.x - A.x) * (P.y - B.y) := by linarith
    have g2 : 0 < (P.x - A.x) * (D.y - P.y) := by nlinarith
    constructor
    · intro b d
      have : 0 ≤ P.x - A.x := by
        by_contra hx
        have := mul_nonpos_of_nonpos_of_nonneg (not_le.1 hx).le (show 0 ≤ P.y - B.y by linarith)
        linarith
      have := mul_nonpos_of_nonneg_of_nonpos this (show D.y - P.y ≤ 0 by linarith)
      linarith
    · intro d
      by_contra b
      have : 0 ≤ P.x - A.x := by
        by_contra hx
        have := mul_nonpos_of_nonpos_of_nonneg (not_le.1 hx).le (show 0 ≤ D.y - P.y by linarith [not_le.1 d])
        linarith
      have := mul_nonpos_of_nonneg_of_nonpos this (show P.y - B.y ≤ 0 by linarith [not_le.1 b])
      linarith
  unfold cnPnPoly
  rw [decide_eq_true_eq]
  simp only [edges, List.tail_cons, List.zip_cons_cons, List.zip_nil_right, List.countP_cons, List.countP_nil, e1, e2, e3, e4]
  by_cases a : A.y ≤ P.y <;> by_cases c : C.y ≤ P.y
  · have bd' := bd (ac' a c).1 (ac' a c).2
    by_cases b : B.y ≤ P.y
    · have d := bd'.1 b
      simp only [a, b, c, d]; decide
    · have d : D.y ≤ P.y := by
        by_contra d; exact b (bd'.2 d)
      simp only [a, b, c, d]; decide
  · by_cases b : B.y ≤ P.y <;> by_cases d : D.y ≤ P.y <;> (simp only [a, b, c, d]; decide)
  · by_cases b : B.y ≤ P.y <;> by_cases d : D.y ≤ P.y <;> (simp only [a, b, c, d]; decide)
  · exact absurd ⟨not_le.1 a, not_le.1 c⟩ ac

theorem mem_edges_ear {v y x : Point K} {L : List (Point K)} {e : Point K × Point K} :
    e ∈ edges (v :: L ++ [y, x, v]) ↔ e ∈ edges (v :: L ++ [y]) ∨ e = (y, x) ∨ e = (x, v) := by
  have h1 := edges_snoc x v (v :: L ++ [y])
  have h2 := edges_snoc y x (v :: L)
  simp only [List.append_assoc, List.cons_append, List.nil_append] at h1 h2 ⊢
  rw [h1, h2]; simp [or_assoc]

theorem cn_inside {P v : Point K} : ∀ (n : ℕ) (L : List (Point K)), L.length = n → 2 ≤ n →
    ConvexCCW (v :: L) → (∀ e ∈ edges (v :: L ++ [v]), 0 < isLeft e.1 e.2 P) → cnPnPoly P (v :: L ++ [v]) = true := by
  intro n
  induction n using Nat.strong_induction_on with
  | _ n ih =>
    intro L hn h2 hc he
    obtain ⟨L₂, y, x, rfl⟩ : ∃ L₂ y x, L = L₂ ++ [y, x] := by
      rcases List.eq_nil_or_concat L with rfl | ⟨L₁, x, rfl⟩
      · simp at hn; omega
      · rcases List.eq_nil_or_concat L₁ with rfl | ⟨L₂, y, rfl⟩
        · simp at hn; omega
        · exact ⟨L₂, y, x, by simp⟩
    have happ : v :: (L₂ ++ [y, x]) ++ [v] = v :: L₂ ++ [y, x, v] := by simp
    rw [happ] at he ⊢
    have hyx : 0 < isLeft y x P := he (y, x) (mem_edges_ear.2 (Or.inr (Or.inl rfl)))
    have hxv : 0 < isLeft x v P := he (x, v) (mem_edges_ear.2 (Or.inr (Or.inr rfl)))
    have ho : 0 < isLeft v y x := by rw [← turn_eq]; exact hc v y x (by simp)
    -- all vertices of the remaining polygon are on the left of the diagonal
    have diag : ∀ (M : List (Point K)) (z : Point K), ConvexCCW (v :: (M ++ [z])) → ∀ w ∈ v :: (M ++ [z]), 0 ≤ isLeft z v w := by
      intro M z hM w hw
      simp only [List.mem_cons, List.mem_append, List.not_mem_nil, or_false] at hw
      rcases hw with rfl | hw | rfl
      · unfold isLeft; apply le_of_eq; ring
      · have h : 0 < isLeft v w z := by
          rw [← turn_eq]
          exact hM v w z (List.Sublist.cons_cons _ (by
            have : [w].Sublist M := List.singleton_sublist.2 hw
            simpa using this.append (List.Sublist.refl [z])))
        rw [← isLeft_cycle v w z, ← isLeft_cycle w z v] at h
        exact h.le
      · unfold isLeft; apply le_of_eq; ring
    rw [cn_ear]
    rcases lt_trichotomy (isLeft v y P) 0 with hs | hs | hs
    · -- in the remaining polygon
      have hL : 1 ≤ L₂.length := by
        rcases L₂ with _ | ⟨z, L₂⟩
        · exfalso
          have := he (v, y) (mem_edges_ear.2 (Or.inl (by simp [edges])))
          linarith
        · simp
      have h1 := ih (L₂ ++ [y]).length (by rw [← hn]; simp) (L₂ ++ [y]) rfl (by simp; omega) (hc.sublist (by simp)) (by
        intro e hm
        have e2 := edges_snoc y v (v :: L₂)
        simp only [List.append_assoc, List.cons_append, List.nil_append] at e2 hm
        rw [e2] at hm
        rcases List.mem_append.1 hm with hm | hm
        · exact he e (mem_edges_ear.2 (Or.inl hm))
        · rw [List.mem_singleton] at hm
          rw [hm]
          simp only
          rw [isLeft_swap v y P]; linarith)
      simp only [List.append_assoc, List.cons_append, List.nil_append] at h1 ⊢
      rw [h1, tri_cn_outside ho (Or.inl hs)]; rfl
    · -- on the diagonal
      rcases List.eq_nil_or_concat L₂ with rfl | ⟨M, z, rfl⟩
      · exfalso
        have := he (v, y) (mem_edges_ear.2 (Or.inl (by simp [edges])))
        simp only at this
        linarith
      · simp only [List.concat_eq_append, List.append_assoc, List.cons_append, List.nil_append] at hc he hn ⊢
        have c1 := cn_ear P v z y M
        simp only [List.cons_append] at c1
        rw [c1]
        have hzy : 0 < isLeft z y P := by
          have h1 := edges_snoc x v (v :: M ++ [z, y])
          have h2 := edges_snoc y x (v :: M ++ [z])
          have h3 := edges_snoc z y (v :: M)
          simp only [List.append_assoc, List.cons_append, List.nil_append] at h1 h2 h3
          apply he (z, y)
          rw [h1, h2, h3]; simp
        have hvzy : 0 < isLeft v z y := by
          rw [← turn_eq]
          exact hc v z y (by
          apply List.Sublist.cons_cons
          exact (List.sublist_append_of_sublist_right (by simp)))
        have hvz : 0 < isLeft v z P := by
          have pl : isLeft v z P * isLeft v y x = isLeft v z y * isLeft x v P + isLeft v y P * isLeft v z x := by
            unfold isLeft; ring
          rw [hs, zero_mul, add_zero] at pl
          have := mul_pos hvzy hxv
          rw [← pl] at this
          exact pos_of_mul_pos_left this ho.le
        have tiny := cn_outside (P := P) (a := z) (b := v) (v := v) (by rw [isLeft_swap v z P]; linarith) _ (M ++ [z]) rfl
          (hc.sublist (by simp)) (diag M z (hc.sublist (by simp)))
        simp only [List.append_assoc, List.cons_append, List.nil_append] at tiny
        rw [tiny]
        have q := quad_inside hvz hzy hyx hxv hs
        have c2 := cn_ear P v y x [z]
        simp only [List.cons_append, List.nil_append] at c2
        rw [c2] at q
        simpa using q
    · -- in the triangle
      have h1 := cn_outside (P := P) (a := y) (b := v) (v := v) (by rw [isLeft_swap v y P]; linarith) _ (L₂ ++ [y]) rfl
        (hc.sublist (by simp)) (diag L₂ y (hc.sublist (by simp)))
      simp only [List.append_assoc, List.cons_append, List.nil_append] at h1 ⊢
      rw [h1]
      have t := C31_triangle_inside_partial hs hyx hxv
      unfold inLand at t
      rw [Bool.and_eq_true] at t
      rw [t.1]; rfl

theorem consecutive_iff (a b : Point K) : ∀ V : List (Point K), (a, b) ∈ edges V ↔ Consecutive V a b
  | [] => by simp [edges, Consecutive]
  | [x] => by
    simp only [edges, List.tail_cons, List.zip_nil_right, List.not_mem_nil, false_iff, Consecutive]
    rintro ⟨l, r, h⟩
    have := congrArg List.length h
    simp at this
    omega
  | x :: y :: V => by
    have e : edges (x :: y :: V) = (x, y) :: edges (y :: V) := by simp [edges]
    rw [e, List.mem_cons, consecutive_iff a b (y :: V)]
    constructor
    · rintro (h | ⟨l, r, h⟩)
      · rw [Prod.mk.injEq] at h
        exact ⟨[], V, by rw [h.1, h.2]; rfl⟩
      · exact ⟨x :: l, r, by rw [h]; rfl⟩
    · rintro ⟨l, r, h⟩
      rcases l with _ | ⟨z, l⟩
      · simp only [List.nil_append, List.cons.injEq] at h
        left; rw [h.1, h.2.1]
      · right
        simp only [List.cons_append, List.cons.injEq] at h
        exact ⟨l, r, h.2⟩

/-- Every vertex of a convex polygon is on the left of every edge or at its ends. -/
theorem convex_left {v a b : Point K} {L : List (Point K)} (hc : ConvexCCW (v :: L)) (h : Consecutive (v :: L ++ [v]) a b)
    (w : Point K) (hw : w ∈ v :: L) : 0 ≤ turn a b w := by
  obtain ⟨l, r, h⟩ := h
  have z1 : ∀ a b : Point K, turn a b a = 0 := fun a b => by unfold turn; ring
  have z2 : ∀ a b : Point K, turn a b b = 0 := fun a b => by unfold turn; ring
  have cyc : ∀ a b c : Point K, turn b c a = turn a b c := fun a b c => by unfold turn; ring
  rcases List.eq_nil_or_concat r with rfl | ⟨r', x, rfl⟩
  · -- the closing edge
    have h' : (v :: L) ++ [v] = (l ++ [a]) ++ [b] := by simpa using h
    obtain ⟨h1, h2⟩ := List.append_inj' h' rfl
    have h2 : v = b := by simpa using h2
    subst h2
    rcases l with _ | ⟨u, l⟩
    · simp only [List.nil_append, List.cons.injEq] at h1
      rw [h1.1, h1.2, List.mem_singleton] at hw
      rw [hw, h1.1]; exact (z1 _ _).ge
    · simp only [List.cons_append, List.cons.injEq] at h1
      obtain ⟨rfl, rfl⟩ := h1
      simp only [List.mem_cons, List.mem_append, List.not_mem_nil, or_false] at hw
      rcases hw with rfl | hw | rfl
      · exact (z2 _ _).ge
      · rw [cyc w a v, cyc v w a]
        refine (hc v w a (List.Sublist.cons_cons _ ?_)).le
        have : [w].Sublist l := List.singleton_sublist.2 hw
        exact this.append (List.Sublist.refl [a])
      · exact (z1 _ _).ge
  · have h' : (v :: L) ++ [v] = (l ++ a :: b :: r') ++ [x] := by simpa using h
    obtain ⟨h1, -⟩ := List.append_inj' h' rfl
    rw [h1] at hw hc
    simp only [List.mem_cons, List.mem_append] at hw
    rcases hw with hw | rfl | rfl | hw
    · rw [cyc w a b]
      refine (hc w a b ?_).le
      have : [w].Sublist l := List.singleton_sublist.2 hw
      exact this.append (by simp : [a, b].Sublist (a :: b :: r'))
    · exact (z1 _ _).ge
    · exact (z2 _ _).ge
    · refine (hc a b w ?_).le
      refine List.sublist_append_of_sublist_right ?_
      simpa using hw

/-- C31 for strictly convex polygons traversed counter-clockwise: a point strictly inside, i.e. on the left of every edge, is reported
on land, and a point strictly outside, i.e. on the right of some edge, is not. -/
theorem C31_convex_partial {P v : Point K} {L : List (Point K)} (h2 : 2 ≤ L.length) (hc : ConvexCCW (v :: L)) :
    ((∀ a b, Consecutive (v :: L ++ [v]) a b → 0 < turn a b P) → inLand P (v :: L ++ [v]) = true) ∧
    ((∃ a b, Consecutive (v :: L ++ [v]) a b ∧ turn a b P < 0) → inLand P (v :: L ++ [v]) = false) := by
  constructor
  · intro h
    have h' : ∀ e ∈ edges (v :: L ++ [v]), 0 < isLeft e.1 e.2 P := by
      rintro ⟨a, b⟩ he
      rw [← turn_eq]
      exact h a b ((consecutive_iff a b _).1 he)
    rw [C31_tests_agree_partial h']
    exact cn_inside _ L rfl h2 hc h'
  · rintro ⟨a, b, he, hP⟩
    rw [turn_eq] at hP
    have := cn_outside hP _ L rfl hc (fun w hw => by rw [← turn_eq]; exact convex_left hc he w hw)
    unfold inLand
    rw [this, Bool.false_and]

/-! A pentagon -/

example : ConvexCCW ([⟨0, 0⟩, ⟨2, -1⟩, ⟨4, 0⟩, ⟨3, 3⟩, ⟨1, 3⟩] : List (Point ℚ)) := by
  intro a b c h
  have key : ([⟨0, 0⟩, ⟨2, -1⟩, ⟨4, 0⟩, ⟨3, 3⟩, ⟨1, 3⟩] : List (Point ℚ)).sublists.all (fun l =>
      match l with
      | [a, b, c] => decide (0 < turn a b c)
      | _ => true) = true := by decide +kernel
  simpa using List.all_eq_true.1 key [a, b, c] (List.mem_sublists.2 h)

example : inLand (⟨2, 1⟩ : Point ℚ) [⟨0, 0⟩, ⟨2, -1⟩, ⟨4, 0⟩, ⟨3, 3⟩, ⟨1, 3⟩, ⟨0, 0⟩] = true ∧
    inLand (⟨0, -1⟩ : Point ℚ) [⟨0, 0⟩, ⟨2, -1⟩, ⟨4, 0⟩, ⟨3, 3⟩, ⟨1, 3⟩, ⟨0, 0⟩] = false := by decide +kernel

end field
end Tcrm.Geometry
