import Verif.Spec.Tiles
import Mathlib.Tactic.Linarith
import Mathlib.Tactic.FieldSimp
import Mathlib.Tactic.Ring
import Mathlib.Tactic.Positivity

namespace Tcrm.Tiles

theorem ceilDiv_lt_iff {dim step : Int} (hs : 0 < step) (i : Nat) :
    i < ceilDiv dim step ↔ (i : Int) * step < dim := by
  have hs' : (0 : ℚ) < step := by exact_mod_cast hs
  unfold ceilDiv
  rw [Int.lt_toNat, Int.lt_ceil, lt_div_iff₀ hs']
  exact_mod_cast Iff.rfl

theorem span_mem_iff {lo dim step : Int} (hs : 0 < step) (i : Nat) (x : Int) :
    ((span lo dim step i).1 ≤ x ∧ x ≤ (span lo dim step i).2) ↔
      (x < lo + dim ∧ (x - lo) / step = i) := by
  unfold span
  simp only
  rw [Int.le_sub_one_iff, lt_min_iff, Int.ediv_eq_iff_of_pos hs]
  constructor
  · rintro ⟨h1, h2, h3⟩
    refine ⟨by linarith, by linarith, by linarith⟩
  · rintro ⟨h1, h2, h3⟩
    refine ⟨by linarith, by linarith, by linarith⟩

/-- Exactly one column index covers an index of the domain. -/
theorem span_cover {lo dim step : Int} (hs : 0 < step) (x : Int) :
    (lo ≤ x ∧ x < lo + dim) ↔
      ∃ i : Nat, i < ceilDiv dim step ∧ (span lo dim step i).1 ≤ x ∧ x ≤ (span lo dim step i).2 := by
  constructor
  · rintro ⟨h1, h2⟩
    have h0 : 0 ≤ (x - lo) / step := Int.ediv_nonneg (by linarith) hs.le
    refine ⟨((x - lo) / step).toNat, ?_, ?_⟩
    · rw [ceilDiv_lt_iff hs, Int.toNat_of_nonneg h0]
      have := Int.ediv_mul_le (x - lo) hs.ne'
      linarith
    · rw [span_mem_iff hs]
      exact ⟨by linarith, (Int.toNat_of_nonneg h0).symm⟩
  · rintro ⟨i, hi, h⟩
    rw [span_mem_iff hs] at h
    obtain ⟨h1, h2⟩ := h
    refine ⟨?_, by linarith⟩
    have : 0 ≤ (x - lo) / step := by omega
    rw [Int.ediv_nonneg_iff_of_pos hs] at this
    linarith

theorem length_tileGrid (imin jmin xdim ydim xstep ystep : Int) :
    (tileGrid imin jmin xdim ydim xstep ystep).length = ceilDiv xdim xstep * ceilDiv ydim ystep := by
  simp [tileGrid]

/-- Index form of a flattened nested loop. -/
theorem getElem?_nested {α : Type} (f : Nat → Nat → α) (m n k : Nat) :
    ((List.range m).flatMap fun i => (List.range n).map fun j => f i j)[k]? =
      if k < m * n then some (f (k / n) (k % n)) else none := by
  induction m generalizing k with
  | zero => simp
  | succ m ih =>
    rw [List.range_succ, List.flatMap_append, List.getElem?_append]
    have hl : ((List.range m).flatMap fun i => (List.range n).map fun j => f i j).length = m * n := by
      simp
    rw [hl, ih]
    by_cases h : k < m * n
    · have h' : k < (m + 1) * n := by nlinarith
      rw [if_pos h, if_pos h', if_pos h]
    · simp only [if_neg h, List.flatMap_cons, List.flatMap_nil, List.append_nil, List.getElem?_map]
      have hk : m * n ≤ k := by omega
      by_cases h2 : k < (m + 1) * n
      · have h3 : k - m * n < n := by
          have : (m + 1) * n = m * n + n := by ring
          omega
        rw [List.getElem?_range h3, if_pos h2]
        have hn : 0 < n := by omega
        have hk2 : k = (k - m * n) + m * n := by omega
        have e1 : k / n = m := by
          rw [hk2, Nat.add_mul_div_right _ _ hn, Nat.div_eq_of_lt h3]; omega
        have e2 : k % n = k - m * n := by
          conv_lhs => rw [hk2]
          rw [Nat.add_mul_mod_self_right, Nat.mod_eq_of_lt h3]
        simp [e1, e2]
      · rw [if_neg h2]
        have h3 : n ≤ k - m * n := by
          have : (m + 1) * n = m * n + n := by ring
          omega
        simp [h3]

theorem mem_within {axis : List Int} {lo hi : Int} {i : Nat} :
    i ∈ within axis lo hi ↔ ∃ v, axis[i]? = some v ∧ lo ≤ v ∧ v ≤ hi := by
  unfold within
  simp only [List.mem_map, List.mem_filter, Bool.and_eq_true, decide_eq_true_eq, Prod.exists,
    List.mem_zipIdx_iff_getElem?]
  constructor
  · rintro ⟨v, j, ⟨h1, h2⟩, rfl⟩; exact ⟨v, h1, h2⟩
  · rintro ⟨v, h1, h2⟩; exact ⟨v, i, ⟨h1, h2⟩, rfl⟩

theorem within_pairwise (axis : List Int) (lo hi : Int) :
    (within axis lo hi).Pairwise (· < ·) := by
  unfold within
  have h : (axis.zipIdx.map (·.2)).Pairwise (· < ·) := by
    rw [show axis.zipIdx.map (·.2) = List.range axis.length by simp [List.range_eq_range']]
    exact List.pairwise_lt_range
  rw [List.pairwise_map] at h ⊢
  exact h.filter _

theorem le_of_head? {l : List Nat} (h : l.Pairwise (· < ·)) {a : Nat} (ha : l.head? = some a) :
    a ∈ l ∧ ∀ b ∈ l, a ≤ b := by
  cases l with
  | nil => simp at ha
  | cons c t =>
    simp at ha; subst ha
    refine ⟨by simp, fun b hb => ?_⟩
    rcases List.mem_cons.1 hb with rfl | hb
    · exact le_rfl
    · exact (List.rel_of_pairwise_cons h hb).le

theorem ge_of_getLast? {l : List Nat} (h : l.Pairwise (· < ·)) {a : Nat}
    (ha : l.getLast? = some a) : a ∈ l ∧ ∀ b ∈ l, b ≤ a := by
  rw [List.getLast?_eq_some_iff] at ha
  obtain ⟨t, rfl⟩ := ha
  refine ⟨by simp, fun b hb => ?_⟩
  rw [List.mem_append] at hb
  rcases hb with hb | hb
  · exact ((List.pairwise_append.1 h).2.2 b hb a (by simp)).le
  · simp at hb; exact hb.le

/-- On an axis that runs one way the first and last index within the limits bound
exactly the indices within the limits. -/
theorem within_interval {axis : List Int} (hs : IsAxis axis) {lo hi : Int} {a b : Nat}
    (ha : (within axis lo hi).head? = some a) (hb : (within axis lo hi).getLast? = some b) (i : Nat) :
    i ∈ within axis lo hi ↔ a ≤ i ∧ i ≤ b := by
  obtain ⟨ha1, ha2⟩ := le_of_head? (within_pairwise axis lo hi) ha
  obtain ⟨hb1, hb2⟩ := ge_of_getLast? (within_pairwise axis lo hi) hb
  refine ⟨fun h => ⟨ha2 i h, hb2 i h⟩, fun ⟨h1, h2⟩ => ?_⟩
  obtain ⟨va, hva, hla, hha⟩ := mem_within.1 ha1
  obtain ⟨vb, hvb, hlb, hhb⟩ := mem_within.1 hb1
  obtain ⟨hblen, rfl⟩ := List.getElem?_eq_some_iff.1 hvb
  obtain ⟨halen, rfl⟩ := List.getElem?_eq_some_iff.1 hva
  have hilen : i < axis.length := by omega
  rw [mem_within]
  refine ⟨axis[i], List.getElem?_eq_getElem hilen, ?_⟩
  rcases Nat.eq_or_lt_of_le h1 with rfl | h
  · exact ⟨hla, hha⟩
  rcases Nat.eq_or_lt_of_le h2 with rfl | h'
  · exact ⟨hlb, hhb⟩
  rcases hs with hs | hs
  · exact ⟨hla.trans (List.pairwise_iff_getElem.1 hs _ _ _ _ h),
      (List.pairwise_iff_getElem.1 hs _ _ _ _ h').trans hhb⟩
  · exact ⟨hlb.trans (List.pairwise_iff_getElem.1 hs _ _ _ _ h'),
      (List.pairwise_iff_getElem.1 hs _ _ _ _ h).trans hha⟩

end Tcrm.Tiles
