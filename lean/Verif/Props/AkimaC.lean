import Verif.Model.AkimaC
import Verif.Spec.AkimaC
import Verif.Props.AkimaSmooth
import Mathlib.Tactic.Linarith
import Mathlib.Tactic.Ring
import Mathlib.Tactic.FieldSimp
/-!
C176 (compiled interpolation of positions).
-/
namespace Tcrm.AkimaC
open Tcrm.Akima (Increasing Covered padded slope piece bin valueB)

variable {K : Type} [Field K] [LinearOrder K] [IsStrictOrderedRing K]

/-- The memory at an array. -/
def mem (l : List K) (after : ℕ → K) (i : ℕ) : K := (l[i]?).getD (after (i - l.length))

theorem mem_lt {l : List K} {after : ℕ → K} {i : ℕ} (h : i < l.length) : mem l after i = l.getD i 0 := by
  rw [mem, List.getElem?_eq_getElem h, List.getD_eq_getElem _ _ h]; rfl

theorem slopes_spec (x y : ℕ → K) : ∀ (i j : ℕ) (l : List K), slopes x y i j = some l ↔
    (∀ r < i, 1 / 1000000000000 ≤ x (j + r + 1) - x (j + r)) ∧
    l = (List.range i).map fun r => (y (j + r + 1) - y (j + r)) / (x (j + r + 1) - x (j + r))
  | 0, j, l => by
    constructor
    · intro h; injection h with h; subst h; exact ⟨fun r hr => absurd hr (by omega), rfl⟩
    · rintro ⟨-, rfl⟩; rfl
  | i + 1, j, l => by
    have ih := slopes_spec x y i (j + 1)
    have hr : (List.range (i + 1)).map (fun r => (y (j + r + 1) - y (j + r)) / (x (j + r + 1) - x (j + r))) =
        (y (j + 1) - y j) / (x (j + 1) - x j) ::
          (List.range i).map fun r => (y (j + 1 + r + 1) - y (j + 1 + r)) / (x (j + 1 + r + 1) - x (j + 1 + r)) := by
      rw [List.range_succ_eq_map, List.map_cons, List.map_map]
      congr 1
      refine List.map_congr_left fun r _ => ?_
      simp only [Function.comp_apply, Nat.succ_eq_add_one]
      rw [show j + (r + 1) = j + 1 + r by omega]
    rw [hr]
    simp only [slopes]
    split
    · rename_i hlt
      refine ⟨fun h => (nomatch h), fun h => ?_⟩
      have := h.1 0 (by omega)
      simp only [Nat.add_zero] at this
      exact absurd hlt (not_lt.2 this)
    · rename_i hge
      have key : (∀ r < i + 1, 1 / 1000000000000 ≤ x (j + r + 1) - x (j + r)) ↔
          ∀ r < i, 1 / 1000000000000 ≤ x (j + 1 + r + 1) - x (j + 1 + r) := by
        constructor
        · intro h r hr
          have := h (r + 1) (by omega)
          rwa [show j + (r + 1) = j + 1 + r by omega] at this
        · intro h r hr
          cases r with
          | zero => simpa using not_lt.1 hge
          | succ r =>
            have := h r (by omega)
            rwa [show j + (r + 1) = j + 1 + r by omega]
      rw [key]
      split
      · rename_i hn
        refine ⟨fun h => (nomatch h), fun h => ?_⟩
        have := (ih _).2 ⟨h.1, rfl⟩
        rw [hn] at this
        exact absurd this (by simp)
      · rename_i l' hl'
        obtain ⟨h1, rfl⟩ := (ih l').1 hl'
        constructor
        · intro h; injection h with h; exact ⟨h1, h.symm⟩
        · rintro ⟨-, rfl⟩; rfl

/-- The derivative at node `i` for the slopes `m1` with two more on either side. -/
def derivC (m1 : ℕ → K) (i : ℕ) : K := node (m1 i) (m1 (i + 1)) (m1 (i + 2)) (m1 (i + 3))

theorem nodes_spec : ∀ (l : List K) (t1 t2 t3 : K), (nodes t1 t2 t3 l).length = l.length ∧
    ∀ i < l.length, (nodes t1 t2 t3 l).getD i 0 = derivC (fun j => (t1 :: t2 :: t3 :: l).getD j 0) i
  | [], _, _, _ => ⟨rfl, fun i hi => absurd hi (by simp)⟩
  | a :: l, t1, t2, t3 => by
    obtain ⟨h1, h2⟩ := nodes_spec l t2 t3 a
    refine ⟨by simp [nodes, h1], ?_⟩
    intro i hi
    cases i with
    | zero => rfl
    | succ i =>
      simp only [nodes, List.getD_cons_succ]
      rw [h2 i (by simpa using hi)]
      rfl

theorem coefs_spec (x y : ℕ → K) : ∀ (i j : ℕ) (p3 : List K), (coefs x y i j p3).length = i ∧
    ∀ r < i, (coefs x y i j p3).getD r (0, 0, 0) =
      (y (j + r), (3 * ((y (j + r + 1) - y (j + r)) / (x (j + r + 1) - x (j + r))) - 2 * p3.getD r 0 - p3.getD (r + 1) 0) /
        (x (j + r + 1) - x (j + r)),
       (p3.getD r 0 + p3.getD (r + 1) 0 - 2 * ((y (j + r + 1) - y (j + r)) / (x (j + r + 1) - x (j + r)))) /
        ((x (j + r + 1) - x (j + r)) * (x (j + r + 1) - x (j + r))))
  | 0, _, _ => ⟨rfl, fun r hr => absurd hr (by omega)⟩
  | i + 1, j, p3 => by
    obtain ⟨h1, h2⟩ := coefs_spec x y i (j + 1) p3.tail
    refine ⟨by simp [coefs, h1], ?_⟩
    intro r hr
    cases r with
    | zero => rfl
    | succ r =>
      have ht : ∀ q, p3.tail.getD q 0 = p3.getD (q + 1) 0 := by
        intro q
        cases p3 <;> simp
      simp only [coefs, List.getD_cons_succ]
      rw [h2 r (by omega), ht, ht, show j + (r + 1) = j + 1 + r by omega]

/-- What is added on the left. -/
theorem left_spec {x y : ℕ → K} {p3 : List K} (h1 : x 0 < x 1) (h2 : x 1 < x 2) :
    left x y p3 = (2 * (2 * p3.getD 0 0 - p3.getD 1 0) - p3.getD 0 0, 2 * p3.getD 0 0 - p3.getD 1 0) := by
  have a : x 0 - (x 0 + x 1 - x 2) ≠ 0 := by intro h; linarith
  have b : (x 0 + x 1 - x 2) - (x 0 + x 1 - x 2 + x 0 - x 1) ≠ 0 := by intro h; linarith
  have e : (y 0 - ((x 0 - (x 0 + x 1 - x 2)) * (p3.getD 1 0 - 2 * p3.getD 0 0) + y 0)) / (x 0 - (x 0 + x 1 - x 2)) =
      2 * p3.getD 0 0 - p3.getD 1 0 := by
    rw [div_eq_iff a]; ring
  unfold left
  simp only [e]
  refine Prod.ext ?_ rfl
  simp only
  rw [div_eq_iff b]
  ring

/-- What is added on the right. -/
theorem right_spec {si : ℕ} {x y : ℕ → K} {p3 : List K} (h1 : x (si - 3) < x (si - 2)) (h2 : x (si - 2) < x (si - 1)) :
    right si x y p3 = p3 ++ [2 * p3.getD (si - 2) 0 - p3.getD (si - 3) 0,
      2 * (2 * p3.getD (si - 2) 0 - p3.getD (si - 3) 0) - p3.getD (si - 2) 0] := by
  have a : (x (si - 1) + x (si - 2) - x (si - 3)) - x (si - 1) ≠ 0 := by intro h; linarith
  have b : (x (si - 1) + x (si - 2) - x (si - 3) + x (si - 1) - x (si - 2)) -
      (x (si - 1) + x (si - 2) - x (si - 3)) ≠ 0 := by intro h; linarith
  unfold right
  simp only
  generalize hq : ((2 * p3.getD (si - 2) 0 - p3.getD (si - 3) 0) *
    (x (si - 1) + x (si - 2) - x (si - 3) - x (si - 1)) + y (si - 1)) = y2
  have e : (y2 - y (si - 1)) / (x (si - 1) + x (si - 2) - x (si - 3) - x (si - 1)) =
      2 * p3.getD (si - 2) 0 - p3.getD (si - 3) 0 := by
    rw [div_eq_iff a, ← hq]; ring
  rw [e]
  congr 2
  rw [List.cons_eq_cons]
  refine ⟨?_, rfl⟩
  rw [div_eq_iff b]
  ring

theorem advance_spec (x : ℕ → K) (t : K) : ∀ (r k : ℕ), k ≤ advance x t r k ∧ advance x t r k ≤ k + r ∧
    (advance x t r k = k + r ∨ t ≤ x (advance x t r k)) ∧ ∀ i, k ≤ i → i < advance x t r k → x i < t
  | 0, k => ⟨le_refl _, le_refl _, .inl rfl, fun i h1 h2 => absurd h2 (by simp only [advance]; omega)⟩
  | r + 1, k => by
    simp only [advance]
    split
    · rename_i hlt
      obtain ⟨h1, h2, h3, h4⟩ := advance_spec x t r (k + 1)
      refine ⟨by omega, by omega, ?_, ?_⟩
      · rcases h3 with h3 | h3
        · left; omega
        · exact .inr h3
      · intro i hi hi'
        rcases Nat.lt_or_eq_of_le hi with h | h
        · exact h4 i h hi'
        · subst h; exact hlt
    · rename_i hge
      exact ⟨le_refl _, by omega, .inr (not_lt.1 hge), fun i h1 h2 => absurd h2 (by omega)⟩

/-- How many nodes are at or below `t`. -/
theorem count_eq {x : List K} (h : Increasing x) {t : K} {j : ℕ} (hj : j ≤ x.length) (h1 : ∀ i < j, x.getD i 0 ≤ t)
    (h2 : ∀ i, j ≤ i → i < x.length → t < x.getD i 0) : (x.countP fun a => decide (a ≤ t)) = j := by
  have e : (x.countP fun a => decide (a ≤ t)) = (x.take j).countP (fun a => decide (a ≤ t)) +
      (x.drop j).countP fun a => decide (a ≤ t) := by
    rw [← List.countP_append, List.take_append_drop]
  rw [e]
  have a : (x.take j).countP (fun a => decide (a ≤ t)) = (x.take j).length := by
    rw [List.countP_eq_length]
    intro a ha
    obtain ⟨i, hi, rfl⟩ := List.getElem_of_mem ha
    rw [List.length_take] at hi
    rw [List.getElem_take]
    have := h1 i (by omega)
    rw [List.getD_eq_getElem _ _ (by omega)] at this
    simpa using this
  have b : (x.drop j).countP (fun a => decide (a ≤ t)) = 0 := by
    rw [List.countP_eq_zero]
    intro a ha
    obtain ⟨i, hi, rfl⟩ := List.getElem_of_mem ha
    rw [List.length_drop] at hi
    rw [List.getElem_drop]
    have := h2 (j + i) (by omega) (by omega)
    rw [List.getD_eq_getElem _ _ (by omega)] at this
    simpa using this
  rw [a, b, List.length_take]
  omega

/-- The piece that the search ends at. -/
theorem piece_found {x : List K} (y : List K) (b : ℕ → K) (h : Increasing x) {t : K} {k : ℕ} (hk : 1 ≤ k)
    (hk' : k + 1 ≤ x.length) (hn : 3 ≤ x.length) (h1 : k + 1 = x.length ∨ t ≤ x.getD k 0)
    (h2 : ∀ i, 1 ≤ i → i < k → x.getD i 0 < t) : piece x y b (k - 1) t = valueB x y b t := by
  have up : ∀ i, k < i → i < x.length → x.getD k 0 < x.getD i 0 := fun i hi hi' => Akima.getD_lt h hi hi'
  have zero : 2 ≤ k → x.getD 0 0 < t := fun hk2 => (Akima.getD_lt h (by omega : 0 < 1) (by omega)).trans (h2 1 le_rfl (by omega))
  have low : 2 ≤ k → ∀ i < k, x.getD i 0 < t := by
    intro hk2 i hi
    cases i with
    | zero => exact zero hk2
    | succ i => exact h2 (i + 1) (by omega) hi
  by_cases hlast : k + 1 = x.length
  · -- the last piece
    have : bin x t = k - 1 := by
      unfold bin
      by_cases hle : x.getD k 0 ≤ t
      · rw [count_eq h (j := k + 1) (by omega) (fun i hi => ?_) (fun i hi hi' => by omega)]
        · omega
        · rcases Nat.lt_or_eq_of_le (Nat.lt_succ_iff.1 hi) with h' | h'
          · exact (low (by omega) i h').le
          · subst h'; exact hle
      · rw [count_eq h (j := k) (by omega) (fun i hi => (low (by omega) i hi).le) (fun i hi hi' => ?_)]
        · omega
        · have : i = k := by omega
          subst this; exact not_le.1 hle
    rw [valueB, this]
  · have hle := h1.resolve_left hlast
    rcases hle.lt_or_eq with hlt | heq
    · have above : ∀ i, k ≤ i → i < x.length → t < x.getD i 0 := by
        intro i hi hi'
        rcases Nat.lt_or_eq_of_le hi with h' | h'
        · exact hlt.trans (up i h' hi')
        · subst h'; exact hlt
      have : bin x t = k - 1 := by
        unfold bin
        by_cases hk2 : 2 ≤ k
        · rw [count_eq h (j := k) (by omega) (fun i hi => (low hk2 i hi).le) above]
          omega
        · have hk1 : k = 1 := by omega
          subst hk1
          by_cases h0 : x.getD 0 0 ≤ t
          · rw [count_eq h (j := 1) (by omega) (fun i hi => by rw [show i = 0 by omega]; exact h0) above]
            omega
          · rw [count_eq h (j := 0) (by omega) (fun i hi => by omega) (fun i hi hi' => ?_)]
            · omega
            · cases i with
              | zero => exact not_le.1 h0
              | succ i => exact above (i + 1) (by omega) hi'
      rw [valueB, this]
    · have : bin x t = k := by
        rw [heq, bin, Akima.count_le h (by omega)]
        omega
      rw [valueB, this, heq, Akima.piece_left]
      have hlt : x.getD (k - 1) 0 < x.getD (k - 1 + 1) 0 := Akima.getD_lt h (by omega) (by omega)
      have := Akima.piece_right x y b hlt
      rwa [show k - 1 + 1 = k by omega] at this

theorem scan_spec {x y : List K} (b : ℕ → K) (h : Increasing x) (hn : 3 ≤ x.length) {X : ℕ → K}
    (hX : ∀ i < x.length, X i = x.getD i 0) {p : List (K × K × K)} {p3 : List K}
    (hp : ∀ (i : ℕ) (t : K), i + 1 < x.length → (p.getD i (0, 0, 0)).1 + p3.getD i 0 * (t - X i) +
      (p.getD i (0, 0, 0)).2.1 * (t - X i) * (t - X i) + (p.getD i (0, 0, 0)).2.2 * (t - X i) * (t - X i) * (t - X i) =
      piece x y b i t) :
    ∀ (xo : List K) (k : ℕ), xo.Pairwise (· ≤ ·) → k + 1 ≤ x.length → (∀ t ∈ xo, ∀ i, 1 ≤ i → i < k → x.getD i 0 < t) →
      scan x.length X p p3 k xo = xo.map (valueB x y b)
  | [], _, _, _, _ => rfl
  | t :: rest, k, hs, hk, hinv => by
    obtain ⟨hs1, hs2⟩ := List.pairwise_cons.1 hs
    obtain ⟨a1, a2, a3, a4⟩ := advance_spec X t (x.length - 1 - k) k
    set j := advance X t (x.length - 1 - k) k with hj
    have hinv' : ∀ i, 1 ≤ i → i < max j 1 → x.getD i 0 < t := by
      intro i h1 h2
      rcases Nat.lt_or_ge i k with h' | h'
      · exact hinv t (by simp) i h1 h'
      · rw [← hX i (by omega)]
        exact a4 i h' (by omega)
    have ih := scan_spec b h hn hX hp rest (max j 1) hs2 (by omega)
      (fun t' ht' i h1 h2 => (hinv' i h1 h2).trans_le (hs1 t' ht'))
    simp only [scan, List.map_cons, ← hj]
    rw [ih, hp (max j 1 - 1) t (by omega)]
    congr 1
    refine piece_found y b h (k := max j 1) (by omega) (by omega) hn ?_ hinv'
    rcases Nat.eq_zero_or_pos j with h0 | h0
    · right
      rw [h0]
      rcases a3 with a3 | a3
      · omega
      · rw [h0, hX 0 (by omega)] at a3
        exact a3.trans (Akima.getD_lt h (by omega) (by omega)).le
    · rw [max_eq_left (by omega)]
      rcases a3 with a3 | a3
      · left; omega
      · right; rw [hX j (by omega)] at a3; exact a3

theorem interpolate_some {x y : List K} {X Y : ℕ → K} (hX : ∀ i < x.length, X i = x.getD i 0)
    (hY : ∀ i < x.length, Y i = y.getD i 0) (hn : 3 ≤ x.length)
    (hgap : ∀ i, i + 1 < x.length → 1 / 1000000000000 ≤ x.getD (i + 1) 0 - x.getD i 0) (xo : List K) :
    ∃ (p : List (K × K × K)) (p3 : List K), interpolate x.length X Y xo = some (scan x.length X p p3 0 xo) ∧
      (∀ i < x.length, p3.getD i 0 = derivC (padded x.length (slope x y)) i) ∧
      ∀ i, i + 1 < x.length → p.getD i (0, 0, 0) =
        (y.getD i 0, (3 * slope x y i - 2 * p3.getD i 0 - p3.getD (i + 1) 0) / (x.getD (i + 1) 0 - x.getD i 0),
          (p3.getD i 0 + p3.getD (i + 1) 0 - 2 * slope x y i) /
            ((x.getD (i + 1) 0 - x.getD i 0) * (x.getD (i + 1) 0 - x.getD i 0))) := by
  set n := x.length with hnx
  have lt : ∀ i, i + 1 < n → X i < X (i + 1) := by
    intro i hi
    rw [hX i (by omega), hX (i + 1) hi]
    have := hgap i hi
    have : (0 : K) < 1 / 1000000000000 := by norm_num
    linarith [hgap i hi]
  have hs := (slopes_spec X Y (n - 1) 0 _).2 ⟨fun r hr => by
    simp only [Nat.zero_add]
    rw [hX r (by omega), hX (r + 1) (by omega)]
    exact hgap r (by omega), rfl⟩
  set m : List K := (List.range (n - 1)).map fun r => (Y (0 + r + 1) - Y (0 + r)) / (X (0 + r + 1) - X (0 + r)) with hm
  have hml : m.length = n - 1 := by rw [hm]; simp
  have hmi : ∀ i, i + 1 < n → m.getD i 0 = slope x y i := by
    intro i hi
    rw [List.getD_eq_getElem _ _ (by omega)]
    simp only [hm, List.getElem_map, List.getElem_range, Nat.zero_add]
    rw [hX i (by omega), hX (i + 1) hi, hY i (by omega), hY (i + 1) hi]
    rfl
  have hl := left_spec (y := Y) (p3 := m) (lt 0 (by omega)) (lt 1 (by omega))
  have l1 := lt (n - 3) (by omega)
  have l2 := lt (n - 2) (by omega)
  rw [show n - 3 + 1 = n - 2 by omega] at l1
  rw [show n - 2 + 1 = n - 1 by omega] at l2
  have hr := right_spec (y := Y) (p3 := m) (si := n) l1 l2
  unfold interpolate
  rw [hs]
  simp only
  rw [hl, hr, hmi 0 (by omega), hmi 1 (by omega), hmi (n - 2) (by omega), hmi (n - 3) (by omega)]
  set q := m ++ [2 * slope x y (n - 2) - slope x y (n - 3),
    2 * (2 * slope x y (n - 2) - slope x y (n - 3)) - slope x y (n - 2)] with hq
  have hql : q.length = n + 1 := by rw [hq]; simp [hml]; omega
  have hqi : ∀ i, i ≤ n → q.getD i 0 = padded n (slope x y) (i + 2) := by
    intro i hi
    unfold padded
    rw [if_neg (by omega), if_neg (by omega)]
    split_ifs with h1 h2
    · rw [hq, List.getD_append _ _ _ _ (by omega), hmi i (by omega)]
      rfl
    · rw [hq, List.getD_append_right _ _ _ _ (by omega), hml, show i - (n - 1) = 0 by omega]
      rfl
    · rw [hq, List.getD_append_right _ _ _ _ (by omega), hml, show i - (n - 1) = 1 by omega]
      rfl
  obtain ⟨q0, qs, hqc⟩ : ∃ q0 qs, q = q0 :: qs := by
    cases hqq : q with
    | nil => rw [hqq] at hql; simp at hql
    | cons a l => exact ⟨a, l, rfl⟩
  have hqs : qs.length = n := by rw [hqc] at hql; simpa using hql
  obtain ⟨b1, b2⟩ := nodes_spec q.tail (2 * (2 * slope x y 0 - slope x y 1) - slope x y 0)
    (2 * slope x y 0 - slope x y 1) (q.getD 0 0)
  have htail : q.tail.length = n := by rw [hqc]; exact hqs
  rw [htail] at b1 b2
  have hseq : ∀ j, j ≤ n + 2 → ((2 * (2 * slope x y 0 - slope x y 1) - slope x y 0) ::
      (2 * slope x y 0 - slope x y 1) :: q.getD 0 0 :: q.tail).getD j 0 = padded n (slope x y) j := by
    intro j hj
    match j with
    | 0 => simp [padded]
    | 1 => simp [padded]
    | j + 2 =>
      rw [← hqi j (by omega), hqc]
      simp
  set b := nodes (2 * (2 * slope x y 0 - slope x y 1) - slope x y 0) (2 * slope x y 0 - slope x y 1) (q.getD 0 0) q.tail
  have hb : ∀ i < n, (b ++ [q.getD n 0]).getD i 0 = derivC (padded n (slope x y)) i := by
    intro i hi
    rw [List.getD_append _ _ _ _ (by omega), b2 i hi]
    unfold derivC
    beta_reduce
    rw [hseq i (by omega), hseq (i + 1) (by omega), hseq (i + 2) (by omega), hseq (i + 3) (by omega)]
  obtain ⟨-, c2⟩ := coefs_spec X Y n 0 (b ++ [q.getD n 0])
  refine ⟨_, _, rfl, hb, ?_⟩
  intro i hi
  rw [c2 i (by omega)]
  simp only [Nat.zero_add]
  rw [hX i (by omega), hX (i + 1) hi, hY i (by omega), hY (i + 1) hi]
  rfl

theorem interpolate_none {n : ℕ} {X Y : ℕ → K} {xo : List K}
    (h : ¬ ∀ i, i + 1 < n → 1 / 1000000000000 ≤ X (i + 1) - X i) : interpolate n X Y xo = none := by
  unfold interpolate
  cases hs : slopes X Y (n - 1) 0 with
  | none => rfl
  | some l =>
    refine absurd (fun i hi => ?_) h
    have := ((slopes_spec X Y (n - 1) 0 l).1 hs).1 i (by omega)
    simpa using this

theorem apart_iff (x : List K) : Apart x ↔ ∀ i, i + 1 < x.length → 1 / 1000000000000 ≤ x.getD (i + 1) 0 - x.getD i 0 := by
  have e : (1 : K) / 10 ^ 12 = 1 / 1000000000000 := by norm_num
  unfold Apart
  rw [e]
  constructor
  · intro h i hi
    rw [List.getD_eq_getElem _ _ hi, List.getD_eq_getElem _ _ (by omega)]
    exact h i _ _ (List.getElem?_eq_getElem (by omega)) (List.getElem?_eq_getElem hi)
  · intro h i a b ha hb
    obtain ⟨h1, rfl⟩ := List.getElem?_eq_some_iff.1 ha
    obtain ⟨h2, rfl⟩ := List.getElem?_eq_some_iff.1 hb
    have := h i h2
    rwa [List.getD_eq_getElem _ _ h2, List.getD_eq_getElem _ _ h1] at this

theorem apart_increasing {x : List K} (h : Apart x) : Increasing x := by
  rw [apart_iff] at h
  unfold Increasing
  rw [← List.isChain_iff_pairwise, List.isChain_iff_getElem]
  intro i hi
  have := h i hi
  rw [List.getD_eq_getElem _ _ hi, List.getD_eq_getElem _ _ (by omega)] at this
  have : (0 : K) < 1 / 1000000000000 := by norm_num
  linarith

theorem pyInterpolate_eq {aX aY : ℕ → K} {x y : List K} (h3 : 3 ≤ x.length) (hl : x.length = y.length) (xi : List K) :
    pyInterpolate aX aY x y xi = (match interpolate x.length (mem x aX) (mem y aY) xi with
      | none => .error .valueError
      | some z => .ok z) := by
  unfold pyInterpolate
  rw [if_neg (by omega), if_neg (by simpa using hl.symm)]
  conv_rhs => rw [hl]
  rfl

/-- C176: the compiled interpolation succeeds exactly for three or more observations that are far enough apart in time,
whatever the new times are. -/
theorem C176_succeeds (aX aY : ℕ → K) (x y xi : List K) : (∃ zs, pyInterpolate aX aY x y xi = .ok zs) ↔
    3 ≤ x.length ∧ x.length = y.length ∧ Apart x := by
  constructor
  · rintro ⟨zs, h⟩
    have h1 : ¬ y.length < 3 := by
      intro h1; unfold pyInterpolate at h; rw [if_pos h1] at h; exact nomatch h
    have h2 : y.length = x.length := by
      by_contra h2; unfold pyInterpolate at h; rw [if_neg h1, if_pos h2] at h; exact nomatch h
    refine ⟨by omega, h2.symm, ?_⟩
    rw [pyInterpolate_eq (by omega) h2.symm] at h
    by_contra hap
    rw [apart_iff] at hap
    rw [interpolate_none (fun h' => hap fun i hi => ?_)] at h
    · exact nomatch h
    · have := h' i hi
      rwa [mem_lt hi, mem_lt (by omega)] at this
  · rintro ⟨h1, h2, h3⟩
    obtain ⟨p, p3, he, -⟩ := interpolate_some (x := x) (y := y) (X := mem x aX) (Y := mem y aY) (fun i hi => mem_lt hi)
      (fun i hi => mem_lt (h2 ▸ hi)) h1 ((apart_iff x).1 h3) xi
    rw [pyInterpolate_eq h1 h2, he]
    exact ⟨_, rfl⟩

theorem advance_congr {X X' : ℕ → K} {n : ℕ} (h : ∀ i < n, X i = X' i) (t : K) :
    ∀ (r k : ℕ), k + r ≤ n → advance X t r k = advance X' t r k
  | 0, _, _ => rfl
  | r + 1, k, hk => by
    simp only [advance]
    rw [h k (by omega), advance_congr h t r (k + 1) (by omega)]

theorem scan_congr {n : ℕ} (hn : 2 ≤ n) {X X' : ℕ → K} (h : ∀ i < n, X i = X' i) {p p' : List (K × K × K)} {p3 p3' : List K}
    (hp : ∀ i, i + 1 < n → p.getD i (0, 0, 0) = p'.getD i (0, 0, 0)) (hp3 : ∀ i < n, p3.getD i 0 = p3'.getD i 0) :
    ∀ (xo : List K) (k : ℕ), k + 1 ≤ n → scan n X p p3 k xo = scan n X' p' p3' k xo
  | [], _, _ => rfl
  | t :: rest, k, hk => by
    simp only [scan]
    obtain ⟨-, a2, -⟩ := advance_spec X t (n - 1 - k) k
    have ea := advance_congr h t (n - 1 - k) k (by omega)
    rw [← ea]
    set j := max (advance X t (n - 1 - k) k) 1
    rw [scan_congr hn h hp hp3 rest j (by omega), hp (j - 1) (by omega), hp3 (j - 1) (by omega), h (j - 1) (by omega)]

/-- C176: the compiled code reads beyond the ends of the arrays of observations, but what is there does not matter. -/
theorem C176_memory (aX aY aX' aY' : ℕ → K) (x y xi : List K) :
    pyInterpolate aX aY x y xi = pyInterpolate aX' aY' x y xi := by
  by_cases h : 3 ≤ x.length ∧ x.length = y.length ∧ Apart x
  · obtain ⟨h1, h2, h3⟩ := h
    have f := fun bX bY => interpolate_some (x := x) (y := y) (X := mem x bX) (Y := mem y bY) (fun i hi => mem_lt hi)
      (fun i hi => mem_lt (h2 ▸ hi)) h1 ((apart_iff x).1 h3) xi
    obtain ⟨p, p3, he, hb, hc⟩ := f aX aY
    obtain ⟨p', p3', he', hb', hc'⟩ := f aX' aY'
    rw [pyInterpolate_eq h1 h2, pyInterpolate_eq h1 h2, he, he']
    simp only
    congr 1
    refine scan_congr (by omega) (fun i hi => by rw [mem_lt hi, mem_lt hi]) (fun i hi => ?_) (fun i hi => ?_) xi 0 (by omega)
    · rw [hc i hi, hc' i hi, hb i (by omega), hb' i (by omega), hb (i + 1) hi, hb' (i + 1) hi]
    · rw [hb i hi, hb' i hi]
  · have : ∀ (r : Except Err (List K)), (¬ ∃ zs, r = .ok zs) → r = .error .valueError := by
      intro r hr
      cases r with
      | error e => cases e; rfl
      | ok z => exact absurd ⟨z, rfl⟩ hr
    rw [this _ (fun hz => h ((C176_succeeds _ _ _ _ _).1 hz)), this _ (fun hz => h ((C176_succeeds _ _ _ _ _).1 hz))]

/-- For new times in order, the positions are those of the cubics. -/
theorem ordered {aX aY : ℕ → K} {x y xi : List K} (h1 : 3 ≤ x.length) (h2 : x.length = y.length) (h3 : Apart x)
    (hs : xi.Pairwise (· ≤ ·)) :
    pyInterpolate aX aY x y xi = .ok (xi.map (valueB x y (derivC (padded x.length (slope x y))))) := by
  obtain ⟨p, p3, he, hb, hc⟩ := interpolate_some (x := x) (y := y) (X := mem x aX) (Y := mem y aY) (fun i hi => mem_lt hi)
      (fun i hi => mem_lt (h2 ▸ hi)) h1 ((apart_iff x).1 h3) xi
  rw [pyInterpolate_eq h1 h2, he]
  simp only
  congr 1
  refine scan_spec _ (apart_increasing h3) h1 (fun i hi => mem_lt hi) ?_ xi 0 hs (by omega) (fun t _ i _ hi => absurd hi (by omega))
  intro i t hi
  rw [hc i hi, hb i (by omega), hb (i + 1) hi, mem_lt (by omega)]
  unfold piece
  simp only
  ring

/-- C176: at the time of an observation the position is the observed one, for new times in order. -/
theorem C176_observed {aX aY : ℕ → K} {x y xi zs : List K} (h : pyInterpolate aX aY x y xi = .ok zs)
    (hs : xi.Pairwise (· ≤ ·)) : zs.length = xi.length ∧
    ∀ (i k : ℕ) (t p : K), xi[i]? = some t → x[k]? = some t → y[k]? = some p → zs[i]? = some p := by
  obtain ⟨h1, h2, h3⟩ := (C176_succeeds _ _ _ _ _).1 ⟨zs, h⟩
  rw [ordered h1 h2 h3 hs] at h
  injection h with h
  subst h
  refine ⟨by simp, ?_⟩
  intro i k t p hi hk hp
  have hinc := apart_increasing h3
  have hkl := (List.getElem?_eq_some_iff.1 hk).1
  have e1 : x.getD k 0 = t := by rw [List.getD_eq_getElem?_getD, hk]; rfl
  have e2 : y.getD k 0 = p := by rw [List.getD_eq_getElem?_getD, hp]; rfl
  rw [List.getElem?_map, hi, Option.map_some, ← e1, ← e2]
  congr 1
  unfold valueB
  have hb : bin x (x.getD k 0) = min (k + 1) (x.length - 1) - 1 := by rw [bin, Akima.count_le hinc hkl]
  rw [hb]
  by_cases hl : k + 1 ≤ x.length - 1
  · rw [min_eq_left hl, Nat.add_sub_cancel, Akima.piece_left]
  · have e : k = (min (k + 1) (x.length - 1) - 1) + 1 := by omega
    have := Akima.piece_right x y (derivC (padded x.length (slope x y))) (i := min (k + 1) (x.length - 1) - 1)
      (Akima.getD_lt hinc (by omega) (by omega))
    rwa [← e] at this

theorem padded_eq {x y : List K} (hn : 3 ≤ x.length) {m : ℤ → K} (hm : MeanVelocities x y m) :
    ∀ j : ℕ, j ≤ x.length + 2 → padded x.length (slope x y) j = m ((j : ℤ) - 2) := by
  obtain ⟨hin, ⟨e1, e2⟩, e3, e4⟩ := hm
  set n := x.length with hnx
  intro j hj
  have s0 : slope x y 0 = m 0 := by have := hin 0 (by omega); simpa [slope] using this.symm
  have s1 : slope x y 1 = m 1 := by have := hin 1 (by omega); simpa [slope] using this.symm
  have s2 : slope x y (n - 2) = m ((n : ℤ) - 2) := by
    have := hin (n - 2) (by omega)
    rw [show ((n - 2 : ℕ) : ℤ) = (n : ℤ) - 2 by omega] at this
    exact this.symm
  have s3 : slope x y (n - 3) = m ((n : ℤ) - 3) := by
    have := hin (n - 3) (by omega)
    rw [show ((n - 3 : ℕ) : ℤ) = (n : ℤ) - 3 by omega] at this
    exact this.symm
  unfold padded
  split_ifs with h1 h2 h3 h4
  · subst h1; rw [s0, s1]; norm_num; linarith
  · subst h2; rw [s0, s1]; norm_num; linarith
  · have := hin (j - 2) (by omega)
    rw [show ((j - 2 : ℕ) : ℤ) = (j : ℤ) - 2 by omega] at this
    exact this.symm
  · subst h4; rw [s2, s3]
    rw [show ((n + 1 : ℕ) : ℤ) - 2 = n - 1 by push_cast; ring]; linarith
  · have : j = n + 2 := by omega
    subst this
    rw [s2, s3, show ((n + 2 : ℕ) : ℤ) - 2 = n by push_cast; ring]; linarith

theorem node_abs (t0 t1 t2 t3 : K) : node t0 t1 t2 t3 = if |t3 - t2| + |t1 - t0| < 1 / 1000000000 then 1 / 2 * (t1 + t2)
    else (|t3 - t2| * t1 + |t1 - t0| * t2) / (|t3 - t2| + |t1 - t0|) := by
  have e : ∀ a : K, (if a < 0 then a * -1 else a) = |a| := by
    intro a
    split_ifs with h
    · rw [abs_of_neg h]; ring
    · rw [abs_of_nonneg (not_lt.1 h)]
  unfold node
  simp only [e]

/-- The derivatives of the compiled code in terms of the mean velocities. -/
theorem derivC_eq {x y : List K} (hn : 3 ≤ x.length) {m : ℤ → K} (hm : MeanVelocities x y m) {i : ℕ} (hi : i < x.length) :
    derivC (padded x.length (slope x y)) i = if change m i < 1 / 1000000000 then 1 / 2 * (m (i - 1) + m i)
      else (|m (i + 1) - m i| * m (i - 1) + |m (i - 1) - m (i - 2)| * m i) / change m i := by
  have h := padded_eq hn hm
  unfold derivC
  rw [node_abs, h i (by omega), h (i + 1) (by omega), h (i + 2) (by omega), h (i + 3) (by omega)]
  have a1 : ((i + 1 : ℕ) : ℤ) - 2 = i - 1 := by push_cast; ring
  have a2 : ((i + 2 : ℕ) : ℤ) - 2 = i := by push_cast; ring
  have a3 : ((i + 3 : ℕ) : ℤ) - 2 = i + 1 := by push_cast; ring
  rw [a1, a2, a3]
  rfl

/-- The derivatives of the Python code in terms of the mean velocities. -/
theorem deriv_eq {x y : List K} (hn : 3 ≤ x.length) {m : ℤ → K} (hm : MeanVelocities x y m) {i : ℕ} (hi : i < x.length) :
    ((∀ k : ℕ, k < x.length → 1 / 1000000000 * change m k < change m i) →
      Akima.deriv x.length (padded x.length (slope x y)) i =
        (|m (i + 1) - m i| * m (i - 1) + |m (i - 1) - m (i - 2)| * m i) / change m i) ∧
    ((∃ k : ℕ, k < x.length ∧ change m i ≤ 1 / 1000000000 * change m k) →
      Akima.deriv x.length (padded x.length (slope x y)) i = m (i - 1)) := by
  have h := padded_eq hn hm
  have hw : ∀ k < x.length, Akima.weight (padded x.length (slope x y)) k = change m k := by
    intro k hk
    unfold Akima.weight Akima.jump change
    rw [h k (by omega), h (k + 1) (by omega), h (k + 2) (by omega), h (k + 2 + 1) (by omega)]
    congr 3 <;> push_cast <;> ring_nf
  have hmax : ∀ (l : List ℕ) (u : K) (f : ℕ → K),
      (l.foldl (fun a i => max a (f i)) u = u ∨ ∃ k ∈ l, l.foldl (fun a i => max a (f i)) u = f k) ∧
      u ≤ l.foldl (fun a i => max a (f i)) u ∧ ∀ k ∈ l, f k ≤ l.foldl (fun a i => max a (f i)) u := by
    intro l
    induction l with
    | nil => intro u f; simp
    | cons i l ih =>
      intro u f
      obtain ⟨h1, h2, h3⟩ := ih (max u (f i)) f
      simp only [List.foldl_cons]
      refine ⟨?_, (le_max_left _ _).trans h2, ?_⟩
      · rcases h1 with h1 | ⟨k, hk, h1⟩
        · rcases max_choice u (f i) with h | h
          · left; rw [h1, h]
          · right; exact ⟨i, by simp, by rw [h1, h]⟩
        · right; exact ⟨k, List.mem_cons_of_mem _ hk, h1⟩
      · intro k hk
        rcases List.mem_cons.1 hk with rfl | hk
        · exact (le_max_right _ _).trans h2
        · exact h3 k hk
  obtain ⟨g1, -, g3⟩ := hmax (List.range x.length) (Akima.weight (padded x.length (slope x y)) 0)
    (Akima.weight (padded x.length (slope x y)))
  have hlarge : (∃ k < x.length, Akima.largest x.length (Akima.weight (padded x.length (slope x y))) = change m k) ∧
      ∀ k < x.length, change m k ≤ Akima.largest x.length (Akima.weight (padded x.length (slope x y))) := by
    refine ⟨?_, fun k hk => by rw [← hw k hk]; exact g3 k (List.mem_range.2 hk)⟩
    rcases g1 with g | ⟨k, hk, g⟩
    · exact ⟨0, by omega, by rw [← hw 0 (by omega)]; exact g⟩
    · exact ⟨k, List.mem_range.1 hk, by rw [← hw k (List.mem_range.1 hk)]; exact g⟩
  have hj1 : Akima.jump (padded x.length (slope x y)) (i + 2) = |m (i + 1) - m i| := by
    unfold Akima.jump
    rw [h (i + 2) (by omega), h (i + 2 + 1) (by omega)]
    congr 3 <;> push_cast <;> ring
  have hj2 : Akima.jump (padded x.length (slope x y)) i = |m (i - 1) - m (i - 2)| := by
    unfold Akima.jump
    rw [h i (by omega), h (i + 1) (by omega)]
    congr 3 <;> push_cast <;> ring
  have p1 : padded x.length (slope x y) (i + 1) = m (i - 1) := by
    rw [h (i + 1) (by omega)]; congr 1; push_cast; ring
  have p2 : padded x.length (slope x y) (i + 2) = m i := by
    rw [h (i + 2) (by omega)]; congr 1; push_cast; ring
  unfold Akima.deriv
  rw [hw i hi, hj1, hj2, p1, p2]
  obtain ⟨⟨k0, hk0, e0⟩, hle⟩ := hlarge
  rw [e0] at hle ⊢
  constructor
  · intro hall
    rw [if_pos (hall k0 hk0)]
  · rintro ⟨k, hk, hki⟩
    rw [if_neg (not_lt.2 (hki.trans (mul_le_mul_of_nonneg_left (hle k hk) (by norm_num))))]

theorem piece_congr {x y : List K} {b b' : ℕ → K} {i : ℕ} (h1 : b i = b' i) (h2 : b (i + 1) = b' (i + 1)) (t : K) :
    piece x y b i t = piece x y b' i t := by
  unfold piece
  rw [h1, h2]

/-- C176: the compiled and the Python code give the same positions for new times in order, if at every observation the
change of velocity is not too small or the velocities before and after are the same. -/
theorem C176_agrees {aX aY : ℕ → K} {x y xi zs : List K} (h : Akima.interpolate x y xi = .ok zs) (ha : Apart x)
    (hs : xi.Pairwise (· ≤ ·)) {m : ℤ → K} (hm : MeanVelocities x y m)
    (hc : ∀ i : ℕ, i < x.length → (1 / 10 ^ 9 ≤ change m i ∧ ∀ k : ℕ, k < x.length → 1 / 10 ^ 9 * change m k < change m i) ∨
      m (i - 1) = m i) : pyInterpolate aX aY x y xi = .ok zs := by
  obtain ⟨h1, h2, h3, -⟩ := (Akima.C91_succeeds x y xi).1 ⟨zs, h⟩
  rw [ordered h1 h2 ha hs, Akima.interpolate_ok h]
  congr 1
  refine List.map_congr_left fun t _ => ?_
  have hd : ∀ i < x.length, derivC (padded x.length (slope x y)) i =
      Akima.deriv x.length (padded x.length (slope x y)) i := by
    intro i hi
    obtain ⟨d1, d2⟩ := deriv_eq h1 hm hi
    rw [derivC_eq h1 hm hi]
    have e : (1 : K) / 10 ^ 9 = 1 / 1000000000 := by norm_num
    rcases hc i hi with ⟨c1, c2⟩ | c
    · rw [e] at c1 c2
      rw [if_neg (not_lt.2 c1), d1 c2]
    · have mean : change m i ≠ 0 →
          (|m (i + 1) - m i| * m (i - 1) + |m (i - 1) - m (i - 2)| * m i) / change m i = m i := by
        intro h0
        rw [c, ← add_mul, div_eq_iff h0, mul_comm, change, c]
      have lhs : (if change m i < 1 / 1000000000 then 1 / 2 * (m (i - 1) + m i)
          else (|m (i + 1) - m i| * m (i - 1) + |m (i - 1) - m (i - 2)| * m i) / change m i) = m i := by
        split_ifs with hlt
        · rw [c]; ring
        · refine mean fun h0 => hlt ?_
          rw [h0]; norm_num
      rw [lhs]
      by_cases hex : ∃ k : ℕ, k < x.length ∧ change m i ≤ 1 / 1000000000 * change m k
      · rw [d2 hex, c]
      · push Not at hex
        rw [d1 hex, mean fun h0 => ?_]
        have := hex i hi
        rw [h0] at this
        simp at this
  have hb := Akima.bin_lt (x := x) (by omega) t
  exact piece_congr (hd _ (by omega)) (hd _ hb) t

/-- The hypotheses of `C176_agrees` are met: a track that changes its velocity at every step. -/
example : ∃ m : ℤ → ℚ, MeanVelocities [0, 1, 2, 3] [0, 1, 4, 9] m ∧
    (∀ i : ℕ, i < 4 → (1 / 10 ^ 9 ≤ change m i ∧ ∀ k : ℕ, k < 4 → 1 / 10 ^ 9 * change m k < change m i) ∨ m (i - 1) = m i) ∧
    (Akima.interpolate [0, 1, 2, 3] [0, 1, 4, 9] [(0 : ℚ), 1 / 2, 1, 5 / 2]).toOption = some [0, 1 / 4, 1, 25 / 4] ∧
    (pyInterpolate (fun _ => 7) (fun _ => 7) [0, 1, 2, 3] [0, 1, 4, 9] [(0 : ℚ), 1 / 2, 1, 5 / 2]).toOption =
      some [0, 1 / 4, 1, 25 / 4] := by
  refine ⟨fun k => 2 * k + 1, ⟨?_, by constructor <;> norm_num, by constructor <;> norm_num⟩, ?_, by decide +kernel, by decide +kernel⟩
  · intro k hk
    have : k = 0 ∨ k = 1 ∨ k = 2 := by simp at hk; omega
    rcases this with rfl | rfl | rfl <;> norm_num
  · intro i _
    have hc : ∀ k : ℤ, change (fun k : ℤ => 2 * (k : ℚ) + 1) k = 4 := by
      intro k
      unfold change
      push_cast
      ring_nf
      norm_num
    refine .inl ⟨by rw [hc]; norm_num, fun k _ => by rw [hc, hc]; norm_num⟩

/-- C176: what the compiled code calculates for new times in order.  The position follows a cubic between observations
and passes through them; its velocity at observation `i` is the mean of the velocities before and after it, weighted
with the changes of velocity on the other side, or the plain mean where these changes are too small. -/
theorem C176_akima {x y : List ℝ} (hn : 3 ≤ x.length) (hl : x.length = y.length) (ha : Apart x) {m : ℤ → ℝ}
    (hm : MeanVelocities x y m) :
    ∃ g v : ℝ → ℝ, (∀ aX aY xi, xi.Pairwise (· ≤ ·) → pyInterpolate aX aY x y xi = .ok (xi.map g)) ∧
      (∀ (k : ℕ) (t q : ℝ), x[k]? = some t → y[k]? = some q → g t = q) ∧
      (∀ i : ℕ, i + 1 < x.length → ∃ a b c d : ℝ, ∀ t, x.getD i 0 ≤ t → t ≤ x.getD (i + 1) 0 →
        g t = a + b * t + c * t ^ 2 + d * t ^ 3) ∧
      (∀ t, HasDerivAt g (v t) t) ∧ Continuous v ∧
      ∀ (i : ℕ) (t : ℝ), x[i]? = some t →
        (1 / 10 ^ 9 ≤ change m i →
          v t = (|m (i + 1) - m i| * m (i - 1) + |m (i - 1) - m (i - 2)| * m i) / change m i) ∧
        (change m i < 1 / 10 ^ 9 → v t = (m (i - 1) + m i) / 2) := by
  set b := derivC (padded x.length (slope x y)) with hb
  have hinc := apart_increasing ha
  have hobs : ∀ (k : ℕ) (t q : ℝ), x[k]? = some t → y[k]? = some q → valueB x y b t = q := by
    intro k t q hk hq
    have ho := ordered (aX := fun _ => 0) (aY := fun _ => 0) hn hl ha (List.pairwise_singleton (· ≤ ·) t)
    have := (C176_observed ho (List.pairwise_singleton _ t)).2 0 k t q (by simp) hk hq
    simpa using this
  refine ⟨valueB x y b, Akima.speedB x y b, fun aX aY xi hs => ordered hn hl ha hs, hobs, ?_,
    Akima.valueB_hasDerivAt y b hinc (by omega), Akima.speedB_continuous y b hinc (by omega), ?_⟩
  · intro i hi
    set dx := x.getD (i + 1) 0 - x.getD i 0 with hdx
    set c := (3 * slope x y i - 2 * b i - b (i + 1)) / dx
    set d := (b i + b (i + 1) - 2 * slope x y i) / dx ^ 2
    set x0 := x.getD i 0 with hx0
    refine ⟨y.getD i 0 - b i * x0 + c * x0 ^ 2 - d * x0 ^ 3, b i - 2 * c * x0 + 3 * d * x0 ^ 2, c - 3 * d * x0, d, ?_⟩
    intro t t1 t2
    have hp : piece x y b i t = valueB x y b t := by
      rcases t1.lt_or_eq with h' | h'
      · refine piece_found y b hinc (k := i + 1) (by omega) (by omega) hn (.inr t2) (fun j hj1 hj2 => ?_)
        rcases Nat.lt_or_eq_of_le (Nat.lt_succ_iff.1 hj2) with h'' | h''
        · exact (Akima.getD_lt hinc h'' (by omega)).trans h'
        · rw [h'']; exact h'
      · rw [← h', Akima.piece_left]
        exact (hobs i _ _ (by rw [hx0, List.getD_eq_getElem _ _ (by omega)]; exact List.getElem?_eq_getElem (by omega))
          (by rw [List.getD_eq_getElem _ _ (by omega)]; exact List.getElem?_eq_getElem (by omega))).symm
    rw [← hp]
    unfold piece
    simp only
    ring
  · intro i t hi
    have hil := (List.getElem?_eq_some_iff.1 hi).1
    have e1 : x.getD i 0 = t := by rw [List.getD_eq_getElem?_getD, hi]; rfl
    rw [← e1, Akima.speedB_node y b hinc (by omega) hil, hb, derivC_eq hn hm hil]
    have e : (1 : ℝ) / 10 ^ 9 = 1 / 1000000000 := by norm_num
    rw [e]
    constructor
    · intro h; rw [if_neg (not_lt.2 h)]
    · intro h; rw [if_pos h]; ring

/-- C176 fails where a storm that has moved steadily turns and goes on steadily: the compiled code smooths the corner,
the Python code does not. -/
theorem C176_turn_fails : ∃ (x y xi zs zs' : List ℚ), Apart x ∧ xi.Pairwise (· ≤ ·) ∧
    (∀ aX aY, pyInterpolate aX aY x y xi = .ok zs) ∧ Akima.interpolate x y xi = .ok zs' ∧ zs ≠ zs' := by
  refine ⟨[0, 1, 2, 3, 4], [0, 0, 0, 1, 2], [5 / 2], [7 / 16], [3 / 8], ?_, by simp, ?_, by decide +kernel, by decide +kernel⟩
  · rw [apart_iff]
    have : ∀ i < 4, (1 : ℚ) / 1000000000000 ≤ [(0 : ℚ), 1, 2, 3, 4].getD (i + 1) 0 - [(0 : ℚ), 1, 2, 3, 4].getD i 0 := by
      decide +kernel
    exact fun i hi => this i (by simp at hi; omega)
  · intro aX aY
    rw [C176_memory aX aY (fun _ => 0) (fun _ => 0)]
    decide +kernel

/-- C176 fails for new times that are not in order: the compiled code continues the cubic of the interval reached
before, and even at the time of an observation the position is wrong. -/
theorem C176_order_fails : ∃ (x y xi zs : List ℚ) (i k : ℕ) (t p q : ℚ), Apart x ∧
    (∀ aX aY, pyInterpolate aX aY x y xi = .ok zs) ∧ xi[i]? = some t ∧ x[k]? = some t ∧ y[k]? = some p ∧
    zs[i]? = some q ∧ q ≠ p := by
  refine ⟨[0, 1, 2, 3], [0, 1, 0, 1], [3, 0], [1, 4], 1, 0, 0, 0, 4, ?_, ?_, rfl, rfl, rfl, rfl, by decide +kernel⟩
  · rw [apart_iff]
    have : ∀ i < 3, (1 : ℚ) / 1000000000000 ≤ [(0 : ℚ), 1, 2, 3].getD (i + 1) 0 - [(0 : ℚ), 1, 2, 3].getD i 0 := by
      decide +kernel
    exact fun i hi => this i (by simp at hi; omega)
  · intro aX aY
    rw [C176_memory aX aY (fun _ => 0) (fun _ => 0)]
    decide +kernel

/-- C176 fails for a new time outside the observations: the Python code refuses it, the compiled code extrapolates. -/
theorem C176_outside_fails {aX aY : ℕ → K} {x y xi : List K} (h1 : 3 ≤ x.length) (h2 : x.length = y.length) (h3 : Apart x)
    {t : K} (ht : t ∈ xi) (hout : ¬ Covered x t) :
    (∃ zs, pyInterpolate aX aY x y xi = .ok zs) ∧ ∃ e, Akima.interpolate x y xi = .error e := by
  refine ⟨(C176_succeeds _ _ _ _ _).2 ⟨h1, h2, h3⟩, ?_⟩
  cases h : Akima.interpolate x y xi with
  | error e => exact ⟨e, rfl⟩
  | ok zs => exact absurd (((Akima.C91_succeeds x y xi).1 ⟨zs, h⟩).2.2.2 t ht) hout

end Tcrm.AkimaC
