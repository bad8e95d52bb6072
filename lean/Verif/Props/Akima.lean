import Verif.Model.Akima
import Verif.Spec.Akima
import Mathlib.Tactic.Linarith
import Mathlib.Tactic.FieldSimp
import Mathlib.Tactic.Ring
import Mathlib.Algebra.Order.Field.Rat
import Mathlib.Data.List.GetD
/-!
C91 (smooth interpolation of positions).
-/
namespace Tcrm.Akima

variable {K : Type} [Field K] [LinearOrder K] [IsStrictOrderedRing K]

theorem increasing_iff (x : List K) : increasing x = true ↔ Increasing x := by
  unfold Increasing
  induction x with
  | nil => simp [increasing]
  | cons a rest ih =>
    cases rest with
    | nil => simp [increasing]
    | cons b rest =>
      simp only [increasing, Bool.and_eq_true, decide_eq_true_eq, sub_pos, ih]
      constructor
      · rintro ⟨h1, h2⟩
        refine List.pairwise_cons.2 ⟨?_, h2⟩
        intro c hc
        rcases List.mem_cons.1 hc with rfl | hc
        · exact h1
        · exact h1.trans ((List.pairwise_cons.1 h2).1 c hc)
      · intro h
        exact ⟨(List.pairwise_cons.1 h).1 b (by simp), (List.pairwise_cons.1 h).2⟩

theorem getD_lt {x : List K} (h : Increasing x) {i j : ℕ} (hij : i < j) (hj : j < x.length) :
    x.getD i 0 < x.getD j 0 := by
  rw [List.getD_eq_getElem _ _ hj, List.getD_eq_getElem _ _ (hij.trans hj)]
  exact List.pairwise_iff_getElem.1 h i j (hij.trans hj) hj hij

/-- The number of nodes at or below the `k`-th is `k + 1`; strictly below it, `k`. -/
theorem count_le {x : List K} (h : Increasing x) {k : ℕ} (hk : k < x.length) :
    (x.countP fun a => decide (a ≤ x.getD k 0)) = k + 1 := by
  unfold Increasing at h
  induction x generalizing k with
  | nil => simp at hk
  | cons a rest ih =>
    obtain ⟨ha, hr⟩ := List.pairwise_cons.1 h
    cases k with
    | zero =>
      simp only [List.getD_cons_zero, List.countP_cons, le_refl, decide_true, if_true]
      have : (rest.countP fun b => decide (b ≤ a)) = 0 := by
        rw [List.countP_eq_zero]
        intro b hb
        simpa using ha b hb
      omega
    | succ k =>
      simp only [List.length_cons] at hk
      have hk' : k < rest.length := by omega
      have e := ih hr hk'
      have hlt : a ≤ rest.getD k 0 := by
        rw [List.getD_eq_getElem _ _ hk']
        exact (ha _ (List.getElem_mem hk')).le
      simp only [List.getD_cons_succ, List.countP_cons, hlt, decide_true, if_true, e]

theorem piece_left (x y : List K) (b : ℕ → K) (i : ℕ) : piece x y b i (x.getD i 0) = y.getD i 0 := by
  simp [piece]

theorem piece_right (x y : List K) (b : ℕ → K) {i : ℕ} (h : x.getD i 0 < x.getD (i + 1) 0) :
    piece x y b i (x.getD (i + 1) 0) = y.getD (i + 1) 0 := by
  have h' : x.getD (i + 1) 0 - x.getD i 0 ≠ 0 := sub_ne_zero.2 h.ne'
  unfold piece slope
  simp only
  generalize x.getD (i + 1) 0 - x.getD i 0 = dx at h'
  field_simp
  ring

theorem value_node {x : List K} (y : List K) (h : Increasing x) (hn : 2 ≤ x.length) {k : ℕ} (hk : k < x.length) :
    value x y (x.getD k 0) = y.getD k 0 := by
  unfold value
  have hb : bin x (x.getD k 0) = min (k + 1) (x.length - 1) - 1 := by rw [bin, count_le h hk]
  rw [hb]
  by_cases hl : k + 1 ≤ x.length - 1
  · rw [min_eq_left hl, Nat.add_sub_cancel, piece_left]
  · have e : k = (min (k + 1) (x.length - 1) - 1) + 1 := by omega
    rw [e]
    have := piece_right x y (deriv x.length (padded x.length (slope x y))) (i := min (k + 1) (x.length - 1) - 1)
      (getD_lt h (by omega) (by omega))
    rwa [← e] at this ⊢

theorem covered_iff {x : List K} (h : Increasing x) (hn : 0 < x.length) (t : K) :
    Covered x t ↔ x.getD 0 0 ≤ t ∧ t ≤ x.getD (x.length - 1) 0 := by
  have hmem : ∀ i, i < x.length → x.getD i 0 ∈ x := fun i hi => by
    rw [List.getD_eq_getElem _ _ hi]; exact List.getElem_mem hi
  have hle : ∀ i j, i ≤ j → j < x.length → x.getD i 0 ≤ x.getD j 0 := fun i j hij hj => by
    rcases hij.eq_or_lt with rfl | hij
    · exact le_refl _
    · exact (getD_lt h hij hj).le
  constructor
  · rintro ⟨⟨a, ha, hat⟩, b, hb, htb⟩
    obtain ⟨i, hi, rfl⟩ := List.getElem_of_mem ha
    obtain ⟨j, hj, rfl⟩ := List.getElem_of_mem hb
    have h1 := hle 0 i (by omega) hi
    have h2 := hle j (x.length - 1) (by omega) (by omega)
    rw [List.getD_eq_getElem _ _ hi] at h1
    rw [List.getD_eq_getElem _ _ hj] at h2
    exact ⟨h1.trans hat, htb.trans h2⟩
  · rintro ⟨h1, h2⟩
    exact ⟨⟨_, hmem 0 hn, h1⟩, _, hmem (x.length - 1) (by omega), h2⟩

/-- C91: the interpolation succeeds exactly for three or more observations with increasing times, and new times
that they cover. -/
theorem C91_succeeds (x y xi : List K) : (∃ zs, interpolate x y xi = .ok zs) ↔
    3 ≤ x.length ∧ x.length = y.length ∧ Increasing x ∧ ∀ t ∈ xi, Covered x t := by
  unfold interpolate
  by_cases h1 : x.length < 3
  · simp only [if_pos h1]
    exact ⟨fun ⟨_, h⟩ => (nomatch h), fun h => by omega⟩
  rw [if_neg h1]
  by_cases h2 : x.length ≠ y.length
  · simp only [if_pos h2]
    exact ⟨fun ⟨_, h⟩ => (nomatch h), fun h => absurd h.2.1 h2⟩
  rw [if_neg h2]
  by_cases h3 : increasing x = false
  · simp only [if_pos h3]
    refine ⟨fun ⟨_, h⟩ => (nomatch h), fun h => ?_⟩
    rw [(increasing_iff x).2 h.2.2.1] at h3
    exact absurd h3 (by simp)
  rw [if_neg h3]
  have hi : Increasing x := (increasing_iff x).1 (by simpa using h3)
  push Not at h1 h2
  have hc : (∀ t ∈ xi, Covered x t) ↔
      ¬ ((xi.any fun t => decide (t < x.getD 0 0)) = true ∨ (xi.any fun t => decide (x.getD (x.length - 1) 0 < t)) = true) := by
    simp only [List.any_eq_true, decide_eq_true_eq]
    push Not
    constructor
    · intro h
      exact ⟨fun t ht => ((covered_iff hi (by omega) t).1 (h t ht)).1,
        fun t ht => ((covered_iff hi (by omega) t).1 (h t ht)).2⟩
    · rintro ⟨ha, hb⟩ t ht
      exact (covered_iff hi (by omega) t).2 ⟨ha t ht, hb t ht⟩
  split_ifs with h4
  · refine ⟨fun ⟨_, h⟩ => (nomatch h), fun h => ?_⟩
    exact absurd h4 (hc.1 h.2.2.2)
  · exact ⟨fun _ => ⟨h1, h2, hi, hc.2 h4⟩, fun _ => ⟨_, rfl⟩⟩

theorem interpolate_ok {x y xi zs : List K} (h : interpolate x y xi = .ok zs) : zs = xi.map (value x y) := by
  unfold interpolate at h
  split_ifs at h
  injection h with h
  exact h.symm

/-- C91: one new position per new time, and at the time of an observation it is the observed position. -/
theorem C91_observed {x y xi zs : List K} (h : interpolate x y xi = .ok zs) :
    zs.length = xi.length ∧ ∀ (i k : ℕ) (t p : K), xi[i]? = some t → x[k]? = some t → y[k]? = some p → zs[i]? = some p := by
  have hc := (C91_succeeds x y xi).1 ⟨zs, h⟩
  obtain rfl := interpolate_ok h
  refine ⟨by simp, ?_⟩
  intro i k t p hi hk hp
  have hkl := (List.getElem?_eq_some_iff.1 hk).1
  have e1 : x.getD k 0 = t := by rw [List.getD_eq_getElem?_getD, hk]; rfl
  have e2 : y.getD k 0 = p := by rw [List.getD_eq_getElem?_getD, hp]; rfl
  rw [List.getElem?_map, hi, Option.map_some, ← e1, value_node y hc.2.2.1 (by omega) hkl, e2]

theorem bin_lt {x : List K} (hn : 2 ≤ x.length) (t : K) : bin x t + 1 < x.length := by
  unfold bin
  omega

theorem padded_const {n : ℕ} (hn : 3 ≤ n) {m : ℕ → K} {a : K} (hm : ∀ i, i + 1 < n → m i = a) {j : ℕ} :
    padded n m j = a := by
  unfold padded
  split_ifs
  · rw [hm 0 (by omega), hm 1 (by omega)]; ring
  · rw [hm 0 (by omega), hm 1 (by omega)]; ring
  · rw [hm (j - 2) (by omega)]
  · rw [hm (n - 2) (by omega), hm (n - 3) (by omega)]; ring
  · rw [hm (n - 2) (by omega), hm (n - 3) (by omega)]; ring

theorem deriv_const {n : ℕ} {m1 : ℕ → K} {a : K} (hm : ∀ j, m1 j = a) (i : ℕ) : deriv n m1 i = a := by
  have hw : ∀ i, weight m1 i = 0 := fun i => by simp [weight, jump, hm]
  have hl : largest n (weight m1) = 0 := by
    have e : weight m1 = fun _ => 0 := funext hw
    rw [e]
    unfold largest
    induction List.range n with
    | nil => rfl
    | cons b l ih => simpa using ih
  unfold deriv
  rw [hw, hl, mul_zero, if_neg (lt_irrefl _), hm]

/-- C91: positions observed in steady motion along a straight line are interpolated on that line. -/
theorem C91_line {x y xi zs : List K} {a c : K} (h : interpolate x y xi = .ok zs)
    (hy : y = x.map fun t => a * t + c) : zs = xi.map fun t => a * t + c := by
  have hc := (C91_succeeds x y xi).1 ⟨zs, h⟩
  obtain rfl := interpolate_ok h
  refine List.map_congr_left ?_
  intro t ht
  have hg : ∀ i, i < x.length → y.getD i 0 = a * x.getD i 0 + c := by
    intro i hi
    rw [hy, List.getD_eq_getElem _ _ (by simpa using hi), List.getD_eq_getElem _ _ hi, List.getElem_map]
  have hs : ∀ i, i + 1 < x.length → slope x y i = a := by
    intro i hi
    have := sub_ne_zero.2 (getD_lt hc.2.2.1 (Nat.lt_succ_self i) hi).ne'
    unfold slope
    rw [hg i (by omega), hg (i + 1) hi, div_eq_iff this]
    ring
  have hb : ∀ i, deriv x.length (padded x.length (slope x y)) i = a := fun i =>
    deriv_const (fun j => padded_const hc.1 hs) i
  have hl := bin_lt (x := x) (by omega) t
  simp only [value, piece, hb, hs _ hl, hg _ (by omega : bin x t < x.length)]
  have e1 : 3 * a - 2 * a - a = 0 := by ring
  have e2 : a + a - 2 * a = 0 := by ring
  rw [e1, e2, zero_div, zero_div]
  ring

theorem largest_scale (n : ℕ) (f : ℕ → K) (a : K) (ha : 0 ≤ a) : largest n (fun i => a * f i) = a * largest n f := by
  unfold largest
  have : ∀ (l : List ℕ) (u : K), l.foldl (fun w i => max w (a * f i)) (a * u) = a * l.foldl (fun w i => max w (f i)) u := by
    intro l
    induction l with
    | nil => intro u; rfl
    | cons i l ih =>
      intro u
      simp only [List.foldl_cons]
      rw [← mul_max_of_nonneg _ _ ha, ih]
  exact this _ _

theorem deriv_scale (n : ℕ) (m1 : ℕ → K) (a : K) (i : ℕ) : deriv n (fun j => a * m1 j) i = a * deriv n m1 i := by
  by_cases ha : a = 0
  · subst ha
    rw [deriv_const (a := 0) (fun j => zero_mul _)]
    ring
  have hj : ∀ j, jump (fun j => a * m1 j) j = |a| * jump m1 j := fun j => by
    unfold jump
    rw [← abs_mul]
    congr 1
    ring
  have hw : ∀ i, weight (fun j => a * m1 j) i = |a| * weight m1 i := fun i => by
    unfold weight
    rw [hj, hj]
    ring
  have hl : largest n (weight fun j => a * m1 j) = |a| * largest n (weight m1) := by
    rw [show (weight fun j => a * m1 j) = fun i => |a| * weight m1 i from funext hw]
    exact largest_scale _ _ _ (abs_nonneg a)
  have hp : 0 < |a| := abs_pos.2 ha
  unfold deriv
  rw [hw, hl, hj, hj]
  have hcond : |a| * weight m1 i > 1 / 1000000000 * (|a| * largest n (weight m1)) ↔
      weight m1 i > 1 / 1000000000 * largest n (weight m1) := by
    rw [show 1 / 1000000000 * (|a| * largest n (weight m1)) = |a| * (1 / 1000000000 * largest n (weight m1)) by ring]
    exact mul_lt_mul_iff_right₀ hp
  by_cases h : weight m1 i > 1 / 1000000000 * largest n (weight m1)
  · rw [if_pos h, if_pos (hcond.2 h)]
    by_cases hz : weight m1 i = 0
    · rw [hz]; simp
    · field_simp
  · rw [if_neg h, if_neg (fun h' => h (hcond.1 h'))]

/-- C91: a change of the unit or of the origin of the positions changes the interpolated positions in the same
way. -/
theorem C91_units {x y xi zs : List K} (a c : K) (h : interpolate x y xi = .ok zs) :
    interpolate x (y.map fun p => a * p + c) xi = .ok (zs.map fun p => a * p + c) := by
  have hc := (C91_succeeds x y xi).1 ⟨zs, h⟩
  obtain ⟨zs', h'⟩ := (C91_succeeds x (y.map fun p => a * p + c) xi).2
    ⟨hc.1, by simpa using hc.2.1, hc.2.2.1, hc.2.2.2⟩
  rw [h', interpolate_ok h', interpolate_ok h, List.map_map]
  congr 1
  refine List.map_congr_left ?_
  intro t _
  have hg : ∀ i, i < x.length → (y.map fun p => a * p + c).getD i 0 = a * y.getD i 0 + c := by
    intro i hi
    rw [List.getD_eq_getElem _ _ (by rw [List.length_map]; omega), List.getD_eq_getElem _ _ (by omega), List.getElem_map]
  have hs : ∀ i, i + 1 < x.length → slope x (y.map fun p => a * p + c) i = a * slope x y i := by
    intro i hi
    unfold slope
    rw [hg i (by omega), hg (i + 1) hi, ← mul_div_assoc]
    congr 1
    ring
  have hp : padded x.length (slope x (y.map fun p => a * p + c)) = fun j => a * padded x.length (slope x y) j := by
    have h3 := hc.1
    funext j
    unfold padded
    split_ifs
    · rw [hs 0 (by omega), hs 1 (by omega)]; ring
    · rw [hs 0 (by omega), hs 1 (by omega)]; ring
    · rw [hs (j - 2) (by omega)]
    · rw [hs (x.length - 2) (by omega), hs (x.length - 3) (by omega)]; ring
    · rw [hs (x.length - 2) (by omega), hs (x.length - 3) (by omega)]; ring
  have hl := bin_lt (x := x) (by omega) t
  simp only [Function.comp_apply, value, piece, hp, deriv_scale, hs _ hl, hg _ (by omega : bin x t < x.length)]
  ring

/-- C91 fails: an interpolated position can lie outside the range of all the observed positions. -/
theorem C91_range_fails : ∃ (x y zs : List ℚ) (t : ℚ), interpolate x y [t] = .ok zs ∧
    ∃ z ∈ zs, ∀ p ∈ y, z < p :=
  ⟨[0, 1, 2], [0, 0, 1], [-1/8], 1/2, by decide +kernel, -1/8, by simp, by decide +kernel⟩

/-- The hypotheses of the theorems above are met. -/
example : interpolate ([0, 6, 12, 24] : List ℚ) [150, 151, 152, 154] [0, 3, 12, 20] = .ok [150, 301/2, 152, 460/3] := by
  decide +kernel

/-- The example of the documentation of the function (Utilities/akima.py L110-111). -/
example : interpolate ([0, 1, 2] : List ℚ) [0, 0, 1] [1/2, 3/2] = .ok [-1/8, 3/8] := by decide +kernel

example : interpolate ([0, 1, 2, 3] : List ℚ) [0, 1, 0, 0] [1, 3/2, 3] = .ok [1, 1/2, 0] := by
  decide +kernel

end Tcrm.Akima
