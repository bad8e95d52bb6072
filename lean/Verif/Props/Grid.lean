import Verif.Model.Grid
import Mathlib.Tactic.Linarith
import Mathlib.Tactic.Ring
/-!
C33 (nearest grid index), C68 (sampling a gridded file).
-/
namespace Tcrm.Grid

/-- Index `i` of the axis is one of the indices nearest to `v`. -/
def Nearest (a : List ℚ) (v : ℚ) (i : ℕ) : Prop :=
  ∃ x, a[i]? = some x ∧ ∀ y ∈ a, |x - v| ≤ |y - v|

/-! ### C33 -/

theorem foldl_max_spec : ∀ (l : List ℚ) (x : ℚ), l.foldl max x ∈ x :: l ∧ ∀ y ∈ x :: l, y ≤ l.foldl max x
  | [], x => by simp
  | b :: l, x => by
    obtain ⟨h1, h2⟩ := foldl_max_spec l (max x b)
    simp only [List.foldl_cons]
    constructor
    · rcases List.mem_cons.1 h1 with h | h
      · rw [h]; rcases max_choice x b with h' | h' <;> rw [h'] <;> simp
      · exact List.mem_cons_of_mem _ (List.mem_cons_of_mem _ h)
    · intro y hy
      rcases List.mem_cons.1 hy with rfl | hy
      · exact le_trans (le_max_left _ b) (h2 _ List.mem_cons_self)
      · rcases List.mem_cons.1 hy with rfl | hy
        · exact le_trans (le_max_right x _) (h2 _ List.mem_cons_self)
        · exact h2 y (List.mem_cons_of_mem _ hy)

theorem foldl_min_spec : ∀ (l : List ℚ) (x : ℚ), l.foldl min x ∈ x :: l ∧ ∀ y ∈ x :: l, l.foldl min x ≤ y
  | [], x => by simp
  | b :: l, x => by
    obtain ⟨h1, h2⟩ := foldl_min_spec l (min x b)
    simp only [List.foldl_cons]
    constructor
    · rcases List.mem_cons.1 h1 with h | h
      · rw [h]; rcases min_choice x b with h' | h' <;> rw [h'] <;> simp
      · exact List.mem_cons_of_mem _ (List.mem_cons_of_mem _ h)
    · intro y hy
      rcases List.mem_cons.1 hy with rfl | hy
      · exact le_trans (h2 _ List.mem_cons_self) (min_le_left _ b)
      · rcases List.mem_cons.1 hy with rfl | hy
        · exact le_trans (h2 _ List.mem_cons_self) (min_le_right x _)
        · exact h2 y (List.mem_cons_of_mem _ hy)

/-- `argmin`: nearest, and the first such index. -/
theorem argminFrom_spec (v : ℚ) : ∀ (l pre : List ℚ) (best : ℕ × ℚ) (z : ℚ),
    pre[best.1]? = some z → best.2 = |z - v| → (∀ y ∈ pre, best.2 ≤ |y - v|) →
    (∀ (j : ℕ) (y : ℚ), j < best.1 → pre[j]? = some y → best.2 < |y - v|) →
    Nearest (pre ++ l) v (argminFrom v l pre.length best) ∧
      ∀ (j : ℕ) (y w : ℚ), j < argminFrom v l pre.length best → (pre ++ l)[j]? = some y →
        (pre ++ l)[argminFrom v l pre.length best]? = some w → |w - v| < |y - v|
  | [], pre, best, z, h1, h2, h3, h4 => by
    simp only [argminFrom, List.append_nil]
    refine ⟨⟨z, h1, fun y hy => by rw [← h2]; exact h3 y hy⟩, ?_⟩
    intro j y w hj hy hw
    rw [h1] at hw
    cases hw
    rw [← h2]
    exact h4 j y hj hy
  | x :: l, pre, best, z, h1, h2, h3, h4 => by
    simp only [argminFrom]
    have hlt : best.1 < pre.length := (List.getElem?_eq_some_iff.1 h1).1
    have e1 : pre ++ x :: l = (pre ++ [x]) ++ l := by simp
    have e2 : pre.length + 1 = (pre ++ [x]).length := by simp
    rw [e1, e2]
    by_cases hc : |x - v| < best.2
    · rw [if_pos hc]
      refine argminFrom_spec v l (pre ++ [x]) _ x ?_ rfl ?_ ?_
      · simp
      · intro y hy
        rcases List.mem_append.1 hy with hy | hy
        · exact le_trans hc.le (h3 y hy)
        · simp only [List.mem_singleton] at hy; rw [hy]
      · intro j y hj hy
        simp only at hj
        rw [List.getElem?_append_left hj] at hy
        exact lt_of_lt_of_le hc (h3 y (List.mem_of_getElem? hy))
    · rw [if_neg hc]
      refine argminFrom_spec v l (pre ++ [x]) best z ?_ h2 ?_ ?_
      · rw [List.getElem?_append_left hlt, h1]
      · intro y hy
        rcases List.mem_append.1 hy with hy | hy
        · exact h3 y hy
        · simp only [List.mem_singleton] at hy; rw [hy]; exact not_lt.1 hc
      · intro j y hj hy
        rw [List.getElem?_append_left (lt_trans hj hlt)] at hy
        exact h4 j y hj hy

/-- C33 for a value within the range of the axis, whatever the order of the axis: the index is nearest;
of several nearest the first is taken. -/
theorem C33_within_range {a : List ℚ} {v lo hi : ℚ} (hlo : lo ∈ a) (hhi : hi ∈ a) (h1 : lo ≤ v) (h2 : v ≤ hi) :
    ∃ i, findIndex a v = .ok i ∧ Nearest a v i ∧
      ∀ (j : ℕ) (y w : ℚ), j < i → a[j]? = some y → a[i]? = some w → |w - v| < |y - v| := by
  match a, hlo, hhi with
  | x :: l, hlo, hhi =>
    unfold findIndex
    have hmax := (foldl_max_spec l x).2 hi hhi
    have hmin := (foldl_min_spec l x).2 lo hlo
    simp only
    rw [if_neg (by linarith), if_neg (by linarith)]
    refine ⟨_, rfl, ?_⟩
    have := argminFrom_spec v l [x] (0, |x - v|) x rfl rfl (by simp) (by intro j y hj; simp at hj)
    simpa using this

/-- C33 for an axis in ascending order: the nearest index for every value. -/
theorem C33_ascending {a : List ℚ} (hne : a ≠ []) (hs : a.Pairwise (· ≤ ·)) (v : ℚ) :
    ∃ i, findIndex a v = .ok i ∧ Nearest a v i := by
  match a, hne with
  | x :: l, _ =>
    obtain ⟨m1, m2⟩ := foldl_max_spec l x
    obtain ⟨n1, n2⟩ := foldl_min_spec l x
    by_cases hgt : v > l.foldl max x
    · refine ⟨_, by unfold findIndex; simp only; rw [if_pos hgt], ?_⟩
      have hlast : (x :: l)[(x :: l).length - 1]? = some ((x :: l).getLast (by simp)) := by
        rw [← List.getLast?_eq_getElem?, List.getLast?_eq_some_getLast (by simp)]
      refine ⟨_, hlast, ?_⟩
      intro y hy
      have hle : y ≤ (x :: l).getLast (by simp) := by
        obtain ⟨i, hi, rfl⟩ := List.getElem_of_mem hy
        rw [List.getLast_eq_getElem]
        rcases Nat.lt_or_ge i ((x :: l).length - 1) with h | h
        · exact List.pairwise_iff_getElem.1 hs i _ hi (by simp) h
        · have : i = (x :: l).length - 1 := by omega
          simp only [this]; exact le_refl _
      have := m2 y hy
      have := m2 _ (List.getLast_mem (l := x :: l) (by simp))
      rw [abs_of_nonpos (by linarith), abs_of_nonpos (by linarith)]
      linarith
    · by_cases hlt : v < l.foldl min x
      · refine ⟨0, by unfold findIndex; simp only; rw [if_neg hgt, if_pos hlt], ?_⟩
        refine ⟨x, rfl, ?_⟩
        intro y hy
        have hxy : x ≤ y := by
          rcases List.mem_cons.1 hy with rfl | hy
          · exact le_refl _
          · exact List.rel_of_pairwise_cons hs hy
        have := n2 y hy
        have := n2 x (by simp)
        rw [abs_of_nonneg (by linarith), abs_of_nonneg (by linarith)]
        linarith
      · obtain ⟨i, h, hn, _⟩ := C33_within_range n1 m1 (not_lt.1 hlt) (not_lt.1 hgt)
        exact ⟨i, h, hn⟩

/-- C33 fails for every strictly descending axis of at least two values: outside the range of the axis
the index at the far end is returned. -/
theorem C33_descending_fails {a : List ℚ} (h2 : 2 ≤ a.length) (hs : a.Pairwise (· > ·)) {v : ℚ}
    (hv : (∀ y ∈ a, y < v) ∨ (∀ y ∈ a, v < y)) : ∃ i x, findIndex a v = .ok i ∧ a[i]? = some x ∧
      (∀ y ∈ a, |y - v| ≤ |x - v|) ∧ ¬ Nearest a v i := by
  match a, h2 with
  | x :: x2 :: l, _ =>
    obtain ⟨m1, m2⟩ := foldl_max_spec (x2 :: l) x
    obtain ⟨n1, n2⟩ := foldl_min_spec (x2 :: l) x
    have hfirst : ∀ y ∈ x :: x2 :: l, y ≤ x := by
      intro y hy
      rcases List.mem_cons.1 hy with rfl | hy
      · exact le_refl _
      · exact (List.rel_of_pairwise_cons hs hy).le
    have hlastle : ∀ y ∈ x :: x2 :: l, (x :: x2 :: l).getLast (by simp) ≤ y := by
      intro y hy
      obtain ⟨i, hi, rfl⟩ := List.getElem_of_mem hy
      rw [List.getLast_eq_getElem]
      rcases Nat.lt_or_ge i ((x :: x2 :: l).length - 1) with h | h
      · exact (List.pairwise_iff_getElem.1 hs i _ hi (by simp) h).le
      · have : i = (x :: x2 :: l).length - 1 := by omega
        simp only [this]; exact le_refl _
    have hxl : (x :: x2 :: l).getLast (by simp) < x := by
      have h1 := hlastle x2 (by simp)
      have h3 : x2 < x := List.rel_of_pairwise_cons hs (by simp)
      linarith
    rcases hv with hv | hv
    · have hgt : v > (x2 :: l).foldl max x := hv _ m1
      have hlast : (x :: x2 :: l)[(x :: x2 :: l).length - 1]? = some ((x :: x2 :: l).getLast (by simp)) := by
        rw [← List.getLast?_eq_getElem?, List.getLast?_eq_some_getLast (by simp)]
      refine ⟨_, _, by unfold findIndex; simp only; rw [if_pos hgt], hlast, ?_, ?_⟩
      · intro y hy
        have a1 := hv y hy
        have a2 := hv _ (List.getLast_mem (l := x :: x2 :: l) (by simp))
        have a3 := hlastle y hy
        rw [abs_of_nonpos (by linarith), abs_of_nonpos (by linarith)]
        linarith
      · rintro ⟨w, hw, hn⟩
        rw [hlast] at hw
        cases hw
        have := hn x (by simp)
        have a1 := hv x (by simp)
        have a2 := hv _ (List.getLast_mem (l := x :: x2 :: l) (by simp))
        rw [abs_of_nonpos (by linarith), abs_of_nonpos (by linarith)] at this
        linarith
    · have hlt : v < (x2 :: l).foldl min x := hv _ n1
      have hgt : ¬ v > (x2 :: l).foldl max x := by
        have := m2 x (by simp)
        have := hv x (by simp)
        intro h
        linarith
      refine ⟨0, x, by unfold findIndex; simp only; rw [if_neg hgt, if_pos hlt], rfl, ?_, ?_⟩
      · intro y hy
        have a1 := hv y hy
        have a2 := hv x (by simp)
        have a3 := hfirst y hy
        rw [abs_of_nonneg (by linarith), abs_of_nonneg (by linarith)]
        linarith
      · rintro ⟨w, hw, hn⟩
        simp only [List.getElem?_cons_zero, Option.some.injEq] at hw
        subst hw
        have := hn _ (List.getLast_mem (l := x :: x2 :: l) (by simp))
        have a1 := hv x (by simp)
        have a2 := hv _ (List.getLast_mem (l := x :: x2 :: l) (by simp))
        rw [abs_of_nonneg (by linarith), abs_of_nonneg (by linarith)] at this
        linarith

/-- C33: `find_nearest` gives the value at the index. -/
theorem C33_find_nearest {a : List ℚ} {v : ℚ} {i : ℕ} (h : findIndex a v = .ok i) (hn : Nearest a v i) :
    ∃ x ∈ a, findNearest a v = .ok x ∧ ∀ y ∈ a, |x - v| ≤ |y - v| := by
  obtain ⟨x, hx, hm⟩ := hn
  refine ⟨x, List.mem_of_getElem? hx, ?_, hm⟩
  unfold findNearest
  rw [h]
  simp only [hx]

example : findIndex [1, 3, 5] 4 = .ok 1 ∧ findIndex [1, 3, 5] 9 = .ok 2 ∧ findIndex [5, 3, 1] 9 = .ok 2 := by
  decide +kernel

/-! ### Binary search -/

/-- On an axis where the values below `v` come first the search finds their number. -/
theorem bisect_sorted {below : ℕ → Bool} {k : ℕ} (hb : ∀ i, below i = true ↔ i < k) :
    ∀ (fuel lo hi : ℕ), lo ≤ k → k ≤ hi → hi ≤ lo + fuel → bisect below fuel lo hi = k
  | 0, lo, hi, h1, h2, h3 => by simp only [bisect]; omega
  | fuel + 1, lo, hi, h1, h2, h3 => by
    simp only [bisect]
    by_cases h : lo < hi
    · rw [if_pos h]
      by_cases hm : below ((lo + hi) / 2) = true
      · rw [if_pos hm]
        have := (hb _).1 hm
        exact bisect_sorted hb fuel _ _ (by omega) h2 (by omega)
      · rw [if_neg hm]
        have := mt (hb _).2 hm
        exact bisect_sorted hb fuel _ _ h1 (by omega) (by omega)
    · rw [if_neg h]; omega

/-- On an axis where the values below `v` come last the search ends at one of the two ends. -/
theorem bisect_reversed {below : ℕ → Bool} {k : ℕ} (n : ℕ) (hb : ∀ i, i < n → (below i = true ↔ k ≤ i)) :
    ∀ (fuel lo hi : ℕ), (lo = 0 ∨ k < lo) → (hi = n ∨ hi < k + 1) → lo ≤ hi → hi ≤ n → hi ≤ lo + fuel →
      (lo = 0 ∨ hi = n) → bisect below fuel lo hi = 0 ∨ bisect below fuel lo hi = n
  | 0, lo, hi, h1, h2, h3, h4, h5, h6 => by simp only [bisect]; omega
  | fuel + 1, lo, hi, h1, h2, h3, h4, h5, h6 => by
    simp only [bisect]
    by_cases h : lo < hi
    · rw [if_pos h]
      by_cases hm : below ((lo + hi) / 2) = true
      · rw [if_pos hm]
        have := (hb _ (by omega)).1 hm
        exact bisect_reversed n hb fuel _ _ (by omega) (by omega) (by omega) h4 (by omega) (by omega)
      · rw [if_neg hm]
        have := mt (hb _ (by omega)).2 hm
        exact bisect_reversed n hb fuel _ _ h1 (by omega) (by omega) (by omega) (by omega) (by omega)
    · rw [if_neg h]; omega

/-- Ascending axis: the search gives the first index whose value is not below `v`. -/
theorem searchsorted_ascending {a : List ℚ} {v : ℚ} {k : ℕ} (hk : k ≤ a.length)
    (h1 : ∀ (i : ℕ) (y : ℚ), i < k → a[i]? = some y → y < v)
    (h2 : ∀ (i : ℕ) (y : ℚ), k ≤ i → a[i]? = some y → v ≤ y) : searchsorted a v = k := by
  unfold searchsorted
  have key : ∀ (fuel lo hi : ℕ), lo ≤ k → k ≤ hi → hi ≤ a.length → hi ≤ lo + fuel →
      bisect (fun i => decide (a.getD i 0 < v)) fuel lo hi = k := by
    intro fuel
    induction fuel with
    | zero => intro lo hi _ _ _ _; simp only [bisect]; omega
    | succ fuel ih =>
      intro lo hi p1 p2 p3 p4
      simp only [bisect]
      by_cases h : lo < hi
      · rw [if_pos h]
        have hm : (lo + hi) / 2 < a.length := by omega
        have hget : a[(lo + hi) / 2]? = some a[(lo + hi) / 2] := List.getElem?_eq_getElem hm
        have hD : a.getD ((lo + hi) / 2) 0 = a[(lo + hi) / 2] := by
          simp only [List.getD_eq_getElem?_getD, hget, Option.getD_some]
        by_cases hb : a.getD ((lo + hi) / 2) 0 < v
        · rw [if_pos (by simpa using hb)]
          apply ih _ _ _ p2 p3 (by omega)
          by_contra hc
          have := h2 _ _ (show k ≤ (lo + hi) / 2 by omega) hget
          rw [hD] at hb
          linarith
        · rw [if_neg (by simpa using hb)]
          refine ih _ _ p1 ?_ (by omega) (by omega)
          by_contra hc
          have := h1 _ _ (show (lo + hi) / 2 < k by omega) hget
          rw [hD] at hb
          exact hb this
      · rw [if_neg h]; omega
  exact key _ _ _ (by omega) hk (le_refl _) (by omega)

/-- Descending axis: 0 or the length. -/
theorem searchsorted_descending {a : List ℚ} (hs : a.Pairwise (· > ·)) (v : ℚ) :
    searchsorted a v = 0 ∨ searchsorted a v = a.length := by
  unfold searchsorted
  -- the first index with a value below `v`, or the length
  have hex : ∃ k, ∀ i, i < a.length → (decide (a.getD i 0 < v) = true ↔ k ≤ i) := by
    by_cases hall : ∃ i, i < a.length ∧ a.getD i 0 < v
    · obtain ⟨hk1, hk2⟩ := Nat.find_spec hall
      refine ⟨Nat.find hall, fun i hi => ?_⟩
      rw [decide_eq_true_eq]
      constructor
      · intro h; exact Nat.find_min' hall ⟨hi, h⟩
      · intro h
        rcases Nat.lt_or_ge (Nat.find hall) i with h' | h'
        · have hp := List.pairwise_iff_getElem.1 hs _ _ hk1 hi h'
          have e1 : a.getD i 0 = a[i] := by
            rw [List.getD_eq_getElem?_getD, List.getElem?_eq_getElem hi, Option.getD_some]
          have e2 : a.getD (Nat.find hall) 0 = a[Nat.find hall] := by
            rw [List.getD_eq_getElem?_getD, List.getElem?_eq_getElem hk1, Option.getD_some]
          rw [e1]
          rw [e2] at hk2
          exact lt_trans hp hk2
        · have : i = Nat.find hall := by omega
          rw [this]; exact hk2
    · push Not at hall
      refine ⟨a.length, fun i hi => ?_⟩
      rw [decide_eq_true_eq]
      constructor
      · intro h; exact absurd h (not_lt.2 (hall i hi))
      · intro h; omega
  obtain ⟨k, hk⟩ := hex
  exact bisect_reversed (k := k) a.length hk a.length 0 a.length (Or.inl rfl) (Or.inl rfl) (by omega) (le_refl _)
    (by omega) (Or.inl rfl)

/-! ### C68 -/

/-- Longitudes from 0 up to 360 are taken as they are. -/
theorem mod360_id {x : ℚ} (h0 : 0 ≤ x) (h1 : x < 360) : mod360 x = x := by
  unfold mod360
  have : ⌊x / 360⌋ = 0 := by
    rw [Int.floor_eq_iff]
    constructor
    · simpa using div_nonneg h0 (by norm_num)
    · rw [div_lt_iff₀ (by norm_num)]; simpa using h1
  rw [this]; simp

/-- C68 in part, for a file with ascending coordinates whose rows are stored from north to south: the
value is that of the first grid point that is not west of the point, in the first row not south of it. -/
theorem C68_first_not_below_partial {g : Grd} (hlon : g.lon.Pairwise (· < ·)) (hlat : g.lat.Pairwise (· < ·))
    {lon lat : ℚ} (h0 : 0 ≤ lon) (h1 : lon < 360) {i j : ℕ} {x y : ℚ} {row : List (Option ℚ)} {val : Option ℚ}
    (hx : g.lon[i]? = some x) (hy : g.lat[j]? = some y) (hlx : lon ≤ x) (hly : lat ≤ y)
    (hpx : ∀ (k : ℕ) (z : ℚ), k < i → g.lon[k]? = some z → z < lon)
    (hpy : ∀ (k : ℕ) (z : ℚ), k < j → g.lat[k]? = some z → z < lat)
    (hrow : g.data.reverse[j]? = some row) (hval : row[i]? = some val) : sampleGrid g lon lat = .ok val := by
  have up : ∀ {a : List ℚ}, a.Pairwise (· < ·) → ∀ {i : ℕ} {x v : ℚ}, a[i]? = some x → v ≤ x →
      ∀ (k : ℕ) (z : ℚ), i ≤ k → a[k]? = some z → v ≤ z := by
    intro a hp i x v hi hv k z hk hz
    obtain ⟨hi1, hi2⟩ := List.getElem?_eq_some_iff.1 hi
    obtain ⟨hk1, hk2⟩ := List.getElem?_eq_some_iff.1 hz
    rcases Nat.lt_or_ge i k with h | h
    · have := List.pairwise_iff_getElem.1 hp i k hi1 hk1 h
      rw [hi2, hk2] at this
      linarith
    · have : i = k := by omega
      subst this
      rw [hi] at hz
      cases hz
      exact hv
  have e1 : searchsorted g.lon lon = i :=
    searchsorted_ascending (List.getElem?_eq_some_iff.1 hx).1.le hpx (up hlon hx hlx)
  have e2 : searchsorted g.lat lat = j :=
    searchsorted_ascending (List.getElem?_eq_some_iff.1 hy).1.le hpy (up hlat hy hly)
  unfold sampleGrid
  simp only [mod360_id h0 h1, e1, e2, hrow, hval]

/-- In particular, at a grid point the value of that grid point. -/
theorem C68_at_grid_point_partial {g : Grd} (hlon : g.lon.Pairwise (· < ·)) (hlat : g.lat.Pairwise (· < ·))
    {lon lat : ℚ} (h0 : 0 ≤ lon) (h1 : lon < 360) {i j : ℕ} {row : List (Option ℚ)} {val : Option ℚ}
    (hx : g.lon[i]? = some lon) (hy : g.lat[j]? = some lat)
    (hrow : g.data.reverse[j]? = some row) (hval : row[i]? = some val) : sampleGrid g lon lat = .ok val := by
  have down : ∀ {a : List ℚ}, a.Pairwise (· < ·) → ∀ {i : ℕ} {x : ℚ}, a[i]? = some x →
      ∀ (k : ℕ) (z : ℚ), k < i → a[k]? = some z → z < x := by
    intro a hp i x hi k z hk hz
    obtain ⟨hi1, hi2⟩ := List.getElem?_eq_some_iff.1 hi
    obtain ⟨hk1, hk2⟩ := List.getElem?_eq_some_iff.1 hz
    have := List.pairwise_iff_getElem.1 hp k i hk1 hi1 hk
    rwa [hi2, hk2] at this
  exact C68_first_not_below_partial hlon hlat h0 h1 hx hy (le_refl _) (le_refl _) (down hlon hx) (down hlat hy)
    hrow hval

/-- C68 fails: the grid point is not the nearest one. At longitude 11, between 10 and 20, the value of
longitude 20 is returned. -/
theorem C68_not_nearest : sampleGrid ⟨[10, 20], [-5], [[some 1, some 2]]⟩ 11 (-5) = .ok (some 2) := by
  decide +kernel

/-- C68 fails if the rows of the file are in the order of its latitudes: the value comes from the row at
the other end, counted from there. -/
theorem C68_mirrored {g : Grd} (hlon : g.lon.Pairwise (· < ·)) (hlat : g.lat.Pairwise (· < ·))
    (hsize : g.data.length = g.lat.length) {lon lat : ℚ} (h0 : 0 ≤ lon) (h1 : lon < 360) {i j : ℕ}
    {row : List (Option ℚ)} {val : Option ℚ} (hx : g.lon[i]? = some lon) (hy : g.lat[j]? = some lat)
    (hrow : g.data[g.lat.length - 1 - j]? = some row) (hval : row[i]? = some val) :
    sampleGrid g lon lat = .ok val := by
  refine C68_at_grid_point_partial hlon hlat h0 h1 hx hy ?_ hval
  have hj := (List.getElem?_eq_some_iff.1 hy).1
  rw [List.getElem?_reverse (by omega), hsize]
  exact hrow

/-- C68 fails for every ascii grid: whatever the latitude, the value is from the southernmost row, or the
point is reported to be out of bounds. -/
theorem C68_ascii_fails {h : Header} (hc : 0 < h.cellsize) {lines : List (List ℚ)} (hn : lines.length = h.nrows)
    (lon lat : ℚ) : sampleGrid (grdRead h lines) lon lat = .error .indexError ∨
      ∃ row, (grdRead h lines).data.getLast? = some row ∧
        ∃ x ∈ row, sampleGrid (grdRead h lines) lon lat = .ok x := by
  have hd : (grdRead h lines).lat.Pairwise (· > ·) := by
    unfold grdRead
    simp only
    rw [List.pairwise_reverse, List.pairwise_map]
    refine List.pairwise_lt_range.imp ?_
    intro a b hab
    have : (a : ℚ) < b := by exact_mod_cast hab
    have := mul_lt_mul_of_pos_right this hc
    linarith
  have hlen : (grdRead h lines).lat.length = (grdRead h lines).data.reverse.length := by
    unfold grdRead; simp [hn]
  unfold sampleGrid
  simp only
  rcases searchsorted_descending hd lat with h0 | h0
  · rw [h0]
    cases hr : (grdRead h lines).data.reverse[0]? with
    | none => left; rfl
    | some row =>
      cases hx : row[searchsorted (grdRead h lines).lon (mod360 lon)]? with
      | none => left; simp only [hx]
      | some x =>
        right
        refine ⟨row, ?_, x, List.mem_of_getElem? hx, by simp only [hx]⟩
        rw [← List.head?_reverse, ← hr, List.head?_eq_getElem?]
  · left
    rw [h0, hlen, List.getElem?_eq_none (le_refl _)]

/-- C68 fails west of Greenwich for a grid from -180 to 180 degrees: such points are always out of
bounds. -/
theorem C68_west_fails {g : Grd} (hmax : ∀ x ∈ g.lon, x < 180)
    (hrows : ∀ row ∈ g.data, row.length = g.lon.length) {lon lat : ℚ} (h0 : -180 ≤ lon) (h1 : lon < 0) :
    sampleGrid g lon lat = .error .indexError := by
  have hm : mod360 lon = lon + 360 := by
    unfold mod360
    have : ⌊lon / 360⌋ = -1 := by
      rw [Int.floor_eq_iff]
      constructor
      · rw [le_div_iff₀ (by norm_num)]; push_cast; linarith
      · rw [div_lt_iff₀ (by norm_num)]; push_cast; linarith
    rw [this]; push_cast; ring
  have hs : searchsorted g.lon (lon + 360) = g.lon.length := by
    apply searchsorted_ascending (le_refl _)
    · intro i y _ hy
      have := hmax y (List.mem_of_getElem? hy)
      linarith
    · intro i y hi hy
      have := (List.getElem?_eq_some_iff.1 hy).1
      omega
  unfold sampleGrid
  simp only [hm, hs]
  cases hr : g.data.reverse[searchsorted g.lat lat]? with
  | none => rfl
  | some row =>
    have : row ∈ g.data := List.mem_reverse.1 (List.mem_of_getElem? hr)
    simp only [List.getElem?_eq_none (hrows row this).le]

example : sampleGrid ⟨[10, 20], [-5, 0, 5], [[some 1, some 2], [some 3, some 4], [some 5, some 6]]⟩ 20 (-5) =
    .ok (some 6) := by decide +kernel

end Tcrm.Grid
