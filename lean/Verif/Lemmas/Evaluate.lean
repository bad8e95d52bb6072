import Mathlib.Tactic.Linarith
import Mathlib.Tactic.Ring
import Mathlib.Tactic.FieldSimp
import Mathlib.Tactic.ByContra
import Mathlib.Tactic.Push
import Mathlib.Algebra.BigOperators.Group.List.Basic
import Mathlib.Algebra.Order.BigOperators.Group.List
import Mathlib.Data.List.GetD
import Verif.Spec.Evaluate
/-!
Histograms.
-/
namespace Tcrm.Evaluate

theorem inBin_iff {edges : List ℚ} {i : Nat} {v : ℚ} : inBin edges i v = true ↔ InCell edges i v := by
  unfold inBin InCell
  constructor
  · intro h
    split at h
    · rename_i a b ha hb
      refine ⟨a, b, ha, hb, ?_⟩
      simpa only [Bool.and_eq_true, decide_eq_true_eq, Bool.or_eq_true] using h
    · simp at h
  · rintro ⟨a, b, ha, hb, h⟩
    rw [ha, hb]
    simpa only [Bool.and_eq_true, decide_eq_true_eq, Bool.or_eq_true] using h

theorem inBin_cons (a b : ℚ) (r : List ℚ) (i : Nat) (v : ℚ) :
    inBin (a :: b :: r) (i + 1) v = inBin (b :: r) i v := by
  unfold inBin
  simp only [List.getElem?_cons_succ, List.length_cons]
  have : (i + 1 + 2 = r.length + 1 + 1) ↔ (i + 2 = r.length + 1) := by omega
  simp only [this]

/-- The number of cells that contain a value: one, if it is between the first and the last edge -/
theorem cells_count {edges : List ℚ} (hinc : edges.Pairwise (· < ·)) (h2 : 2 ≤ edges.length) (v : ℚ) :
    (List.range (edges.length - 1)).countP (fun i => inBin edges i v) = if Within edges v then 1 else 0 := by
  induction edges with
  | nil => simp at h2
  | cons a r ih =>
    cases r with
    | nil => simp at h2
    | cons b r =>
      have hab : a < b := (List.pairwise_cons.mp hinc).1 b (by simp)
      simp only [List.length_cons, Nat.add_sub_cancel]
      rw [List.range_succ_eq_map, List.countP_cons, List.countP_map]
      have e : ((fun i => inBin (a :: b :: r) i v) ∘ Nat.succ) = fun i => inBin (b :: r) i v := by
        funext i; exact inBin_cons a b r i v
      rw [e]
      cases r with
      | nil =>
        have h0 : inBin [a, b] 0 v = decide (a ≤ v ∧ v ≤ b) := by
          rw [Bool.eq_iff_iff, inBin_iff, decide_eq_true_eq]
          unfold InCell
          simp only [List.getElem?_cons_zero, List.getElem?_cons_succ, Option.some.injEq, exists_eq_left', List.length_cons,
            List.length_nil, zero_add, true_and, ← le_iff_lt_or_eq]
          simp
        have hw : Within [a, b] v ↔ a ≤ v ∧ v ≤ b := by
          unfold Within
          simp
        simp only [List.length_nil, List.range_zero, List.countP_nil, zero_add, h0, decide_eq_true_eq, hw]
      | cons c r =>
        have h0 : inBin (a :: b :: c :: r) 0 v = decide (a ≤ v ∧ v < b) := by
          rw [Bool.eq_iff_iff, inBin_iff, decide_eq_true_eq]
          unfold InCell
          simp only [List.getElem?_cons_zero, List.getElem?_cons_succ, Option.some.injEq, exists_eq_left', List.length_cons]
          have : ¬ 0 + 2 = r.length + 1 + 1 + 1 := by omega
          simp [this]
        have ih' := ih (List.pairwise_cons.mp hinc).2 (by simp)
        simp only [List.length_cons, Nat.add_sub_cancel] at ih'
        simp only [List.length_cons]
        rw [ih', h0]
        have hlast : ∃ l, (b :: c :: r).getLast? = some l ∧ b < l := by
          refine ⟨(c :: r).getLast (by simp), by simp [List.getLast?_eq_some_getLast], ?_⟩
          exact (List.pairwise_cons.mp (List.pairwise_cons.mp hinc).2).1 _ (List.getLast_mem _)
        obtain ⟨l, hl, hbl⟩ := hlast
        have hw1 : Within (b :: c :: r) v ↔ b ≤ v ∧ v ≤ l := by
          unfold Within
          rw [hl]; simp
        have hw2 : Within (a :: b :: c :: r) v ↔ a ≤ v ∧ v ≤ l := by
          unfold Within
          rw [List.getLast?_cons_cons, hl]; simp
        simp only [hw1, hw2, decide_eq_true_eq]
        by_cases hb : b ≤ v
        · have h1 : ¬ (a ≤ v ∧ v < b) := fun h => absurd hb (not_le.mpr h.2)
          have h2 : a ≤ v := hab.le.trans hb
          simp [h1, hb, h2]
        · have hvb := not_le.mp hb
          have h3 : v ≤ l := hvb.le.trans hbl.le
          simp [hb, hvb, h3]

theorem sum_ite {α : Type} (p : α → Prop) [DecidablePred p] (vs : List α) :
    (vs.map fun v => if p v then 1 else 0).sum = vs.countP fun v => decide (p v) := by
  induction vs with
  | nil => simp
  | cons v vs ih =>
    simp only [List.map_cons, List.sum_cons, ih, List.countP_cons, decide_eq_true_eq]
    rw [add_comm]

theorem sum_countP_swap {α : Type} (p : Nat → α → Bool) (is : List Nat) (vs : List α) :
    (is.map fun i => vs.countP (p i)).sum = (vs.map fun v => is.countP fun i => p i v).sum := by
  induction is with
  | nil => simp
  | cons i is ih =>
    simp only [List.countP_cons, List.map_cons, List.sum_cons, ih, List.sum_map_add]
    rw [add_comm, sum_ite (fun v => p i v = true) vs]
    simp

theorem histogram_sum {edges : List ℚ} (hinc : edges.Pairwise (· < ·)) (h2 : 2 ≤ edges.length) (vs : List ℚ) :
    (histogram vs edges).sum = vs.countP fun v => decide (Within edges v) := by
  unfold histogram
  rw [sum_countP_swap, ← sum_ite (Within edges) vs]
  congr 1
  apply List.map_congr_left
  intro v _
  exact cells_count hinc h2 v

theorem sum_grid {α : Type} (A B : Nat → α → Bool) (is js : List Nat) (ps : List α) :
    (is.map fun i => (js.map fun j => ps.countP fun p => A i p && B j p).sum).sum =
      (ps.map fun p => is.countP (fun i => A i p) * js.countP (fun j => B j p)).sum := by
  induction is with
  | nil => simp
  | cons i is ih =>
    have h1 : (js.map fun j => ps.countP fun p => A i p && B j p).sum =
        (ps.map fun p => (if A i p = true then 1 else 0) * js.countP (fun j => B j p)).sum := by
      rw [sum_countP_swap (fun j p => A i p && B j p) js ps]
      congr 1
      apply List.map_congr_left
      intro p _
      cases h : A i p <;> simp
    rw [List.map_cons, List.sum_cons, ih, h1, ← List.sum_map_add]
    congr 1
    apply List.map_congr_left
    intro p _
    rw [List.countP_cons]
    ring

theorem histogram2d_sum {xe ye : List ℚ} (hx : xe.Pairwise (· < ·)) (hx2 : 2 ≤ xe.length) (hy : ye.Pairwise (· < ·))
    (hy2 : 2 ≤ ye.length) (ps : List (ℚ × ℚ)) :
    ((histogram2d ps xe ye).map List.sum).sum = ps.countP fun p => decide (Within xe p.1 ∧ Within ye p.2) := by
  unfold histogram2d
  rw [List.map_map]
  have := sum_grid (fun i (p : ℚ × ℚ) => inBin xe i p.1) (fun j p => inBin ye j p.2) (List.range (xe.length - 1))
    (List.range (ye.length - 1)) ps
  refine this.trans ?_
  rw [← sum_ite (fun p : ℚ × ℚ => Within xe p.1 ∧ Within ye p.2) ps]
  congr 1
  apply List.map_congr_left
  intro p _
  rw [cells_count hx hx2, cells_count hy hy2]
  by_cases h1 : Within xe p.1 <;> by_cases h2 : Within ye p.2 <;> simp [h1, h2]

/-! ### Sorting, means, extremes -/

theorem foldl_min_le (vs : List ℚ) (a : ℚ) : vs.foldl min a ≤ a ∧ ∀ v ∈ vs, vs.foldl min a ≤ v := by
  induction vs generalizing a with
  | nil => simp
  | cons v vs ih =>
    simp only [List.foldl_cons]
    obtain ⟨h1, h2⟩ := ih (min a v)
    refine ⟨h1.trans (min_le_left _ _), ?_⟩
    intro w hw
    rcases List.mem_cons.mp hw with rfl | hw
    · exact h1.trans (min_le_right _ _)
    · exact h2 w hw

theorem foldl_min_mem (vs : List ℚ) (a : ℚ) : vs.foldl min a = a ∨ vs.foldl min a ∈ vs := by
  induction vs generalizing a with
  | nil => simp
  | cons v vs ih =>
    simp only [List.foldl_cons]
    rcases ih (min a v) with h | h
    · rcases min_choice a v with h' | h'
      · left; rw [h, h']
      · right; rw [h, h']; simp
    · right; exact List.mem_cons_of_mem _ h

theorem le_foldl_max (vs : List ℚ) (a : ℚ) : a ≤ vs.foldl max a ∧ ∀ v ∈ vs, v ≤ vs.foldl max a := by
  induction vs generalizing a with
  | nil => simp
  | cons v vs ih =>
    simp only [List.foldl_cons]
    obtain ⟨h1, h2⟩ := ih (max a v)
    refine ⟨(le_max_left _ _).trans h1, ?_⟩
    intro w hw
    rcases List.mem_cons.mp hw with rfl | hw
    · exact (le_max_right _ _).trans h1
    · exact h2 w hw

theorem foldl_max_mem (vs : List ℚ) (a : ℚ) : vs.foldl max a = a ∨ vs.foldl max a ∈ vs := by
  induction vs generalizing a with
  | nil => simp
  | cons v vs ih =>
    simp only [List.foldl_cons]
    rcases ih (max a v) with h | h
    · rcases max_choice a v with h' | h'
      · left; rw [h, h']
      · right; rw [h, h']; simp
    · right; exact List.mem_cons_of_mem _ h

theorem minimum_spec {vs : List ℚ} {m : ℚ} : minimum vs = some m ↔ m ∈ vs ∧ ∀ v ∈ vs, m ≤ v := by
  cases vs with
  | nil => simp [minimum]
  | cons a vs =>
    simp only [minimum, Option.some.injEq]
    obtain ⟨h1, h2⟩ := foldl_min_le vs a
    have h3 := foldl_min_mem vs a
    constructor
    · rintro rfl
      refine ⟨?_, ?_⟩
      · rcases h3 with h | h
        · rw [h]; simp
        · exact List.mem_cons_of_mem _ h
      · intro v hv
        rcases List.mem_cons.mp hv with rfl | hv
        · exact h1
        · exact h2 v hv
    · rintro ⟨hm, hle⟩
      apply le_antisymm
      · rcases List.mem_cons.mp hm with rfl | hm
        · exact h1
        · exact h2 m hm
      · rcases h3 with h | h
        · rw [h]; exact hle a (by simp)
        · exact hle _ (List.mem_cons_of_mem _ h)

theorem maximum_spec {vs : List ℚ} {m : ℚ} : maximum vs = some m ↔ m ∈ vs ∧ ∀ v ∈ vs, v ≤ m := by
  cases vs with
  | nil => simp [maximum]
  | cons a vs =>
    simp only [maximum, Option.some.injEq]
    obtain ⟨h1, h2⟩ := le_foldl_max vs a
    have h3 := foldl_max_mem vs a
    constructor
    · rintro rfl
      refine ⟨?_, ?_⟩
      · rcases h3 with h | h
        · rw [h]; simp
        · exact List.mem_cons_of_mem _ h
      · intro v hv
        rcases List.mem_cons.mp hv with rfl | hv
        · exact h1
        · exact h2 v hv
    · rintro ⟨hm, hle⟩
      apply le_antisymm
      · rcases h3 with h | h
        · rw [h]; exact hle a (by simp)
        · exact hle _ (List.mem_cons_of_mem _ h)
      · rcases List.mem_cons.mp hm with rfl | hm
        · exact h1
        · exact h2 m hm

theorem sum_bounds {vs : List ℚ} {a b : ℚ} (h : ∀ v ∈ vs, a ≤ v ∧ v ≤ b) :
    a * vs.length ≤ vs.sum ∧ vs.sum ≤ b * vs.length := by
  induction vs with
  | nil => simp
  | cons v vs ih =>
    obtain ⟨h1, h2⟩ := ih (fun w hw => h w (by simp [hw]))
    obtain ⟨h3, h4⟩ := h v (by simp)
    simp only [List.sum_cons, List.length_cons, Nat.cast_add, Nat.cast_one]
    constructor <;> linarith

theorem mean_bounds {vs : List ℚ} {a b m : ℚ} (h : ∀ v ∈ vs, a ≤ v ∧ v ≤ b) (hm : mean vs = some m) : a ≤ m ∧ m ≤ b := by
  unfold mean at hm
  split at hm
  · cases hm
  · rename_i hne
    simp only [Option.some.injEq] at hm
    have hpos : (0 : ℚ) < vs.length := by
      exact_mod_cast List.length_pos_of_ne_nil hne
    obtain ⟨h1, h2⟩ := sum_bounds h
    rw [← hm, le_div_iff₀ hpos, div_le_iff₀ hpos]
    exact ⟨h1, h2⟩

theorem sort_perm (vs : List ℚ) : (sort vs).Perm vs := List.perm_insertionSort _ _

theorem sort_sorted (vs : List ℚ) : (sort vs).Pairwise (· ≤ ·) := List.pairwise_insertionSort (· ≤ ·) vs

theorem sort_length (vs : List ℚ) : (sort vs).length = vs.length := (sort_perm vs).length_eq

theorem sort_congr {vs ws : List ℚ} (h : vs.Perm ws) : sort vs = sort ws :=
  ((sort_perm vs).trans (h.trans (sort_perm ws).symm)).eq_of_pairwise (fun _ _ _ _ h1 h2 => le_antisymm h1 h2)
    (sort_sorted vs) (sort_sorted ws)

theorem sort_le (vs : List ℚ) {i j : Nat} (hij : i ≤ j) (hj : j < vs.length) :
    (sort vs).getD i 0 ≤ (sort vs).getD j 0 := by
  have hj' : j < (sort vs).length := by rw [sort_length]; exact hj
  have hi' : i < (sort vs).length := by omega
  rw [List.getD_eq_getElem _ _ hi', List.getD_eq_getElem _ _ hj']
  rcases hij.eq_or_lt with rfl | hlt
  · rfl
  · exact List.pairwise_iff_getElem.mp (sort_sorted vs) i j hi' hj' hlt

theorem sort_mem (vs : List ℚ) {i : Nat} (hi : i < vs.length) : (sort vs).getD i 0 ∈ vs := by
  have hi' : i < (sort vs).length := by rw [sort_length]; exact hi
  rw [List.getD_eq_getElem _ _ hi']
  exact (sort_perm vs).mem_iff.mp (List.getElem_mem _)

end Tcrm.Evaluate
