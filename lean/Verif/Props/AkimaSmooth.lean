import Verif.Props.Akima
import Mathlib.Analysis.Calculus.Deriv.Pow
import Mathlib.Analysis.Calculus.Deriv.Mul
import Mathlib.Analysis.Calculus.Deriv.Add
import Mathlib.Topology.Order.LeftRight
/-!
C91 (smooth interpolation of positions): the interpolated positions move without jumps in place or velocity.
-/
namespace Tcrm.Akima
open Filter Topology

/-- The derivative of `piece`. -/
noncomputable def pieceSpeed (x y : List ℝ) (b : ℕ → ℝ) (i : ℕ) (t : ℝ) : ℝ :=
  let dx := x.getD (i + 1) 0 - x.getD i 0
  let c := (3 * slope x y i - 2 * b i - b (i + 1)) / dx
  let d := (b i + b (i + 1) - 2 * slope x y i) / dx ^ 2
  let w := t - x.getD i 0
  3 * d * w ^ 2 + 2 * c * w + b i

theorem piece_hasDerivAt (x y : List ℝ) (b : ℕ → ℝ) (i : ℕ) (t : ℝ) :
    HasDerivAt (piece x y b i) (pieceSpeed x y b i t) t := by
  unfold piece pieceSpeed
  simp only
  generalize (3 * slope x y i - 2 * b i - b (i + 1)) / (x.getD (i + 1) 0 - x.getD i 0) = c
  generalize (b i + b (i + 1) - 2 * slope x y i) / (x.getD (i + 1) 0 - x.getD i 0) ^ 2 = d
  have hw : HasDerivAt (fun s : ℝ => s - x.getD i 0) 1 t := (hasDerivAt_id t).sub_const _
  have := ((((hw.mul_const d).add_const c).mul hw).add_const (b i)).mul hw |>.add_const (y.getD i 0)
  refine this.congr_deriv ?_
  simp only [Pi.mul_apply]
  ring

theorem pieceSpeed_continuous (x y : List ℝ) (b : ℕ → ℝ) (i : ℕ) : Continuous (pieceSpeed x y b i) := by
  unfold pieceSpeed
  fun_prop

theorem pieceSpeed_left (x y : List ℝ) (b : ℕ → ℝ) (i : ℕ) : pieceSpeed x y b i (x.getD i 0) = b i := by
  simp [pieceSpeed]

theorem pieceSpeed_right (x y : List ℝ) (b : ℕ → ℝ) {i : ℕ} (h : x.getD i 0 < x.getD (i + 1) 0) :
    pieceSpeed x y b i (x.getD (i + 1) 0) = b (i + 1) := by
  have h' : x.getD (i + 1) 0 - x.getD i 0 ≠ 0 := sub_ne_zero.2 h.ne'
  unfold pieceSpeed
  simp only
  generalize x.getD (i + 1) 0 - x.getD i 0 = dx at h'
  field_simp
  ring

/-- Just after `t` the same nodes are at or below the time as at `t`. -/
theorem bin_right (x : List ℝ) (t : ℝ) : ∀ᶠ s in 𝓝[≥] t, bin x s = bin x t := by
  have h : ∀ l : List ℝ, ∀ᶠ s in 𝓝[≥] t, ∀ a ∈ l, (a ≤ s ↔ a ≤ t) := by
    intro l
    induction l with
    | nil => simp
    | cons a l ih =>
      have ha : ∀ᶠ s in 𝓝[≥] t, (a ≤ s ↔ a ≤ t) := by
        rcases le_or_gt a t with hat | hat
        · filter_upwards [self_mem_nhdsWithin] with s hs
          exact ⟨fun _ => hat, fun _ => hat.trans hs⟩
        · filter_upwards [mem_nhdsWithin_of_mem_nhds (Iio_mem_nhds hat)] with s hs
          exact ⟨fun h => absurd h (not_le.2 hs), fun h => absurd h (not_le.2 hat)⟩
      filter_upwards [ha, ih] with s h1 h2
      intro c hc
      rcases List.mem_cons.1 hc with rfl | hc
      · exact h1
      · exact h2 c hc
  filter_upwards [h x] with s hs
  unfold bin
  rw [List.countP_congr (q := fun a => decide (a ≤ t))]
  intro a ha
  simpa using hs a ha

/-- Just before `t` the nodes strictly below `t` are those at or below the time. -/
theorem bin_left (x : List ℝ) (t : ℝ) :
    ∀ᶠ s in 𝓝[<] t, bin x s = min (x.countP fun a => decide (a < t)) (x.length - 1) - 1 := by
  have h : ∀ l : List ℝ, ∀ᶠ s in 𝓝[<] t, ∀ a ∈ l, (a ≤ s ↔ a < t) := by
    intro l
    induction l with
    | nil => simp
    | cons a l ih =>
      have ha : ∀ᶠ s in 𝓝[<] t, (a ≤ s ↔ a < t) := by
        rcases lt_or_ge a t with hat | hat
        · filter_upwards [mem_nhdsWithin_of_mem_nhds (Ioi_mem_nhds hat)] with s hs
          exact ⟨fun _ => hat, fun _ => le_of_lt hs⟩
        · filter_upwards [self_mem_nhdsWithin] with s hs
          exact ⟨fun h => absurd h (not_le.2 (lt_of_lt_of_le hs hat)), fun h => absurd h (not_lt.2 hat)⟩
      filter_upwards [ha, ih] with s h1 h2
      intro c hc
      rcases List.mem_cons.1 hc with rfl | hc
      · exact h1
      · exact h2 c hc
  filter_upwards [h x] with s hs
  unfold bin
  rw [List.countP_congr (q := fun a => decide (a < t))]
  intro a ha
  simpa using hs a ha

theorem count_lt_of_mem {x : List ℝ} (h : Increasing x) {k : ℕ} (hk : k < x.length) :
    (x.countP fun a => decide (a < x.getD k 0)) = k := by
  unfold Increasing at h
  induction x generalizing k with
  | nil => simp at hk
  | cons a rest ih =>
    obtain ⟨ha, hr⟩ := List.pairwise_cons.1 h
    cases k with
    | zero =>
      rw [List.countP_eq_zero]
      intro b hb
      rcases List.mem_cons.1 hb with rfl | hb
      · simp
      · simpa using (ha b hb).le
    | succ k =>
      simp only [List.length_cons] at hk
      have hk' : k < rest.length := by omega
      have hlt : a < rest.getD k 0 := by
        rw [List.getD_eq_getElem _ _ hk']
        exact ha _ (List.getElem_mem hk')
      simp only [List.getD_cons_succ, List.countP_cons, hlt, decide_true, if_true, ih hr hk']

/-- The velocity of the interpolated position. -/
noncomputable def speed (x y : List ℝ) (t : ℝ) : ℝ :=
  pieceSpeed x y (deriv x.length (padded x.length (slope x y))) (bin x t) t

/-- The cubics with the derivatives `b` at the nodes. -/
def valueB {K : Type} [Field K] [LinearOrder K] (x y : List K) (b : ℕ → K) (t : K) : K := piece x y b (bin x t) t

/-- Their derivative. -/
noncomputable def speedB (x y : List ℝ) (b : ℕ → ℝ) (t : ℝ) : ℝ := pieceSpeed x y b (bin x t) t

/-- Either side of `t` the position follows one cubic; the two agree at `t` in place and velocity. -/
theorem sides {x : List ℝ} (y : List ℝ) (b : ℕ → ℝ) (h : Increasing x) (hn : 2 ≤ x.length) (t : ℝ) : ∃ i,
    (∀ᶠ s in 𝓝[<] t, bin x s = i) ∧
    piece x y b i t = valueB x y b t ∧ pieceSpeed x y b i t = speedB x y b t := by
  refine ⟨_, bin_left x t, ?_⟩
  by_cases hm : ∃ k, k < x.length ∧ x.getD k 0 = t
  · obtain ⟨k, hk, rfl⟩ := hm
    rw [count_lt_of_mem h hk]
    unfold valueB speedB
    have hb : bin x (x.getD k 0) = min (k + 1) (x.length - 1) - 1 := by rw [bin, count_le h hk]
    rw [hb]
    by_cases h0 : k = 0
    · subst h0
      have e : min 0 (x.length - 1) - 1 = min (0 + 1) (x.length - 1) - 1 := by omega
      rw [e]
      exact ⟨rfl, rfl⟩
    by_cases hl : k = x.length - 1
    · have e : min k (x.length - 1) - 1 = min (k + 1) (x.length - 1) - 1 := by omega
      rw [e]
      exact ⟨rfl, rfl⟩
    · have e : min (k + 1) (x.length - 1) - 1 = k := by omega
      have e' : min k (x.length - 1) - 1 = k - 1 := by omega
      rw [e, e', piece_left, pieceSpeed_left]
      have hlt : x.getD (k - 1) 0 < x.getD (k - 1 + 1) 0 := getD_lt h (by omega) (by omega)
      have ek : k - 1 + 1 = k := by omega
      have r1 := piece_right x y b hlt
      have r2 := pieceSpeed_right x y b hlt
      rw [ek] at r1 r2
      exact ⟨r1, r2⟩
  · have e : (x.countP fun a => decide (a < t)) = x.countP fun a => decide (a ≤ t) := by
      refine List.countP_congr ?_
      intro a ha
      obtain ⟨k, hk, rfl⟩ := List.getElem_of_mem ha
      have : x[k] ≠ t := fun e => hm ⟨k, hk, by rw [List.getD_eq_getElem _ _ hk, e]⟩
      simpa using ⟨le_of_lt, fun h => lt_of_le_of_ne h this⟩
    rw [e]
    exact ⟨rfl, rfl⟩

theorem valueB_hasDerivAt {x : List ℝ} (y : List ℝ) (b : ℕ → ℝ) (h : Increasing x) (hn : 2 ≤ x.length) (t : ℝ) :
    HasDerivAt (valueB x y b) (speedB x y b t) t := by
  obtain ⟨i, hl, hv, hs⟩ := sides y b h hn t
  have right : HasDerivWithinAt (valueB x y b) (speedB x y b t) (Set.Ici t) t := by
    refine ((piece_hasDerivAt x y _ (bin x t) t).hasDerivWithinAt (s := Set.Ici t)).congr_of_eventuallyEq ?_ rfl
    filter_upwards [bin_right x t] with s hs
    unfold valueB
    rw [hs]
  have left : HasDerivWithinAt (valueB x y b) (speedB x y b t) (Set.Iio t) t := by
    rw [← hs]
    refine ((piece_hasDerivAt x y _ i t).hasDerivWithinAt (s := Set.Iio t)).congr_of_eventuallyEq ?_ hv.symm
    filter_upwards [hl] with s hs
    unfold valueB
    rw [hs]
  have := left.union right
  rwa [Set.Iio_union_Ici, hasDerivWithinAt_univ] at this

theorem speedB_continuous {x : List ℝ} (y : List ℝ) (b : ℕ → ℝ) (h : Increasing x) (hn : 2 ≤ x.length) : Continuous (speedB x y b) := by
  rw [continuous_iff_continuousAt]
  intro t
  obtain ⟨i, hl, -, hs⟩ := sides y b h hn t
  rw [continuousAt_iff_continuous_left'_right']
  constructor
  · have hc := ((pieceSpeed_continuous x y b i).continuousWithinAt
      (s := Set.Iio t) (x := t))
    refine hc.congr_of_eventuallyEq ?_ hs.symm
    filter_upwards [hl] with s hs
    unfold speedB
    rw [hs]
  · have hc := ((pieceSpeed_continuous x y b (bin x t)).continuousWithinAt
      (s := Set.Ici t) (x := t))
    have hc' : ContinuousWithinAt (speedB x y b) (Set.Ici t) t := by
      refine hc.congr_of_eventuallyEq ?_ rfl
      filter_upwards [bin_right x t] with s hs
      unfold speedB
      rw [hs]
    exact hc'.mono Set.Ioi_subset_Ici_self

theorem speedB_node {x : List ℝ} (y : List ℝ) (b : ℕ → ℝ) (h : Increasing x) (hn : 2 ≤ x.length) {k : ℕ} (hk : k < x.length) :
    speedB x y b (x.getD k 0) = b k := by
  unfold speedB
  have hb : bin x (x.getD k 0) = min (k + 1) (x.length - 1) - 1 := by rw [bin, count_le h hk]
  rw [hb]
  by_cases hl : k + 1 ≤ x.length - 1
  · rw [min_eq_left hl, Nat.add_sub_cancel, pieceSpeed_left]
  · have e : k = (min (k + 1) (x.length - 1) - 1) + 1 := by omega
    have := pieceSpeed_right x y b (i := min (k + 1) (x.length - 1) - 1)
      (getD_lt h (by omega) (by omega))
    rwa [← e] at this

theorem value_hasDerivAt {x : List ℝ} (y : List ℝ) (h : Increasing x) (hn : 2 ≤ x.length) (t : ℝ) :
    HasDerivAt (value x y) (speed x y t) t := valueB_hasDerivAt y _ h hn t

theorem speed_continuous {x : List ℝ} (y : List ℝ) (h : Increasing x) (hn : 2 ≤ x.length) : Continuous (speed x y) :=
  speedB_continuous y _ h hn

theorem speed_node {x : List ℝ} (y : List ℝ) (h : Increasing x) (hn : 2 ≤ x.length) {k : ℕ} (hk : k < x.length) :
    speed x y (x.getD k 0) = deriv x.length (padded x.length (slope x y)) k := speedB_node y _ h hn hk

/-- After two equal slopes the derivative is that slope. -/
theorem deriv_straight {n : ℕ} {m : ℕ → ℝ} {k : ℕ} (hk : k + 2 < n) (h : m k = m (k + 1)) :
    deriv n (padded n m) (k + 2) = m (k + 1) := by
  have e1 : padded n m (k + 2) = m k := by
    unfold padded
    rw [if_neg (by omega), if_neg (by omega), if_pos (by omega)]
    rfl
  have e2 : padded n m (k + 2 + 1) = m (k + 1) := by
    unfold padded
    rw [if_neg (by omega), if_neg (by omega), if_pos (by omega)]
    rfl
  have e3 : jump (padded n m) (k + 2) = 0 := by rw [jump, e1, e2, h]; simp
  unfold deriv
  split_ifs with hw
  · have hpos : weight (padded n m) (k + 2) ≠ 0 := by
      intro h0
      have hl : 0 ≤ largest n (weight (padded n m)) := by
        have hnn : ∀ i, 0 ≤ weight (padded n m) i := fun i => add_nonneg (abs_nonneg _) (abs_nonneg _)
        unfold largest
        have : ∀ (l : List ℕ) (u : ℝ), 0 ≤ u → 0 ≤ l.foldl (fun a i => max a (weight (padded n m) i)) u := by
          intro l
          induction l with
          | nil => intro u hu; exact hu
          | cons i l ih => intro u hu; exact ih _ (le_max_of_le_left hu)
        exact this _ _ (hnn 0)
      rw [h0] at hw
      linarith [mul_nonneg (by norm_num : (0 : ℝ) ≤ 1 / 1000000000) hl]
    have e4 : weight (padded n m) (k + 2) = jump (padded n m) (k + 2 + 2) := by rw [weight, e3, add_zero]
    rw [e2, e3, zero_mul, add_zero, div_eq_iff hpos, e4, mul_comm]
  · exact e2

/-- C91: the interpolated positions are those of one motion, the same for all lists of new times, that passes through
the observations and has a continuous velocity; at the last of three observations on a line it is that of the line. -/
theorem C91_smooth {x y : List ℝ} (hn : 3 ≤ x.length) (hxy : x.length = y.length) (hx : Increasing x) :
    ∃ p v : ℝ → ℝ, (∀ t, HasDerivAt p (v t) t) ∧ Continuous v ∧
      (∀ (k : ℕ) (t q : ℝ), x[k]? = some t → y[k]? = some q → p t = q) ∧
      (∀ (k : ℕ) (t₀ t₁ t₂ q₀ q₁ q₂ w : ℝ), x[k]? = some t₀ → x[k + 1]? = some t₁ → x[k + 2]? = some t₂ →
        y[k]? = some q₀ → y[k + 1]? = some q₁ → y[k + 2]? = some q₂ → q₁ - q₀ = w * (t₁ - t₀) → q₂ - q₁ = w * (t₂ - t₁) →
        v t₂ = w) ∧
      ∀ xi, (∀ t ∈ xi, Covered x t) → interpolate x y xi = .ok (xi.map p) := by
  refine ⟨value x y, speed x y, value_hasDerivAt y hx (by omega), speed_continuous y hx (by omega), ?_, ?_, ?_⟩
  · intro k t q hk hq
    have hkl := (List.getElem?_eq_some_iff.1 hk).1
    have e1 : x.getD k 0 = t := by rw [List.getD_eq_getElem?_getD, hk]; rfl
    have e2 : y.getD k 0 = q := by rw [List.getD_eq_getElem?_getD, hq]; rfl
    rw [← e1, value_node y hx (by omega) hkl, e2]
  · intro k t₀ t₁ t₂ q₀ q₁ q₂ w h0 h1 h2 g0 g1 g2 e0 e1
    have hkl := (List.getElem?_eq_some_iff.1 h2).1
    have get : ∀ {l : List ℝ} {i : ℕ} {u : ℝ}, l[i]? = some u → l.getD i 0 = u := by
      intro l i u h
      rw [List.getD_eq_getElem?_getD, h]
      rfl
    have s0 : slope x y k = w := by
      have := sub_ne_zero.2 (getD_lt hx (show k < k + 1 by omega) (by omega)).ne'
      unfold slope
      rw [get h0, get h1] at this ⊢
      rw [get g0, get g1, div_eq_iff this, e0]
    have s1 : slope x y (k + 1) = w := by
      have := sub_ne_zero.2 (getD_lt hx (show k + 1 < k + 1 + 1 by omega) (by omega)).ne'
      unfold slope
      rw [get h1, show k + 1 + 1 = k + 2 from rfl, get h2] at this ⊢
      rw [get g1, get g2, div_eq_iff this, e1]
    rw [← get h2, speed_node y hx (by omega) hkl, deriv_straight hkl (s0.trans s1.symm), s1]
  · intro xi hxi
    obtain ⟨zs, hz⟩ := (C91_succeeds x y xi).2 ⟨hn, hxy, hx, hxi⟩
    rw [hz, interpolate_ok hz]

/-- The hypotheses of `C91_smooth` are met. -/
example : Increasing ([0, 6, 12, 24] : List ℝ) ∧ Covered ([0, 6, 12, 24] : List ℝ) 7 := by
  constructor
  · unfold Increasing
    norm_num
  · exact ⟨⟨0, by simp, by norm_num⟩, 24, by simp, by norm_num⟩

theorem largest_spec {n : ℕ} (hn : 0 < n) (f : ℕ → ℝ) :
    (∃ k < n, largest n f = f k) ∧ ∀ k < n, f k ≤ largest n f := by
  have : ∀ (l : List ℕ) (u : ℝ), (l.foldl (fun a i => max a (f i)) u = u ∨ ∃ k ∈ l, l.foldl (fun a i => max a (f i)) u = f k) ∧
      u ≤ l.foldl (fun a i => max a (f i)) u ∧ ∀ k ∈ l, f k ≤ l.foldl (fun a i => max a (f i)) u := by
    intro l
    induction l with
    | nil => intro u; simp
    | cons i l ih =>
      intro u
      obtain ⟨h1, h2, h3⟩ := ih (max u (f i))
      simp only [List.foldl_cons]
      refine ⟨?_, (le_max_left _ _).trans h2, ?_⟩
      · rcases h1 with h1 | ⟨k, hk, h1⟩
        · rcases max_choice u (f i) with h | h
          · left; rw [h1, h]
          · right; exact ⟨i, by simp, by rw [h1, h]⟩
        · right; exact ⟨k, List.mem_cons_of_mem _ hk, h1⟩
      · intro k hk
        rcases List.mem_cons.1 hk with rfl | hk
        · exact (le_max_right _ _).trans h2
        · exact h3 k hk
  obtain ⟨h1, -, h3⟩ := this (List.range n) (f 0)
  refine ⟨?_, fun k hk => h3 k (List.mem_range.2 hk)⟩
  rcases h1 with h | ⟨k, hk, h⟩
  · exact ⟨0, hn, h⟩
  · exact ⟨k, List.mem_range.1 hk, h⟩

/-- C91, in full: the interpolated position is Akima's.  With the mean velocities `m k` between the observations
(continued by two on either side, so that they change by the same amount as next to the end), the position follows a
cubic between observations, and its velocity at observation `i` is the mean of the velocities before and after it,
weighted with the changes of velocity on the other side; where these changes are small compared with the greatest ones
it is the velocity before. -/
theorem C91_akima {x y : List ℝ} (hn : 3 ≤ x.length) (hx : Increasing x) (m w : ℤ → ℝ)
    (hm : ∀ k : ℕ, k + 1 < x.length → m k = (y.getD (k + 1) 0 - y.getD k 0) / (x.getD (k + 1) 0 - x.getD k 0))
    (e1 : m (-1) - m 0 = m 0 - m 1) (e2 : m (-2) - m (-1) = m (-1) - m 0)
    (e3 : m (x.length - 1) - m (x.length - 2) = m (x.length - 2) - m (x.length - 3))
    (e4 : m x.length - m (x.length - 1) = m (x.length - 1) - m (x.length - 2))
    (hw : ∀ k, w k = |m (k + 1) - m k| + |m (k - 1) - m (k - 2)|) :
    ∃ g : ℝ → ℝ, (∀ xi zs, interpolate x y xi = .ok zs → zs = xi.map g) ∧
      (∀ i < x.length, g (x.getD i 0) = y.getD i 0) ∧
      (∀ i : ℕ, i + 1 < x.length → ∃ a b c d : ℝ, ∀ t, x.getD i 0 ≤ t → t < x.getD (i + 1) 0 →
        g t = a + b * t + c * t ^ 2 + d * t ^ 3) ∧
      ∀ i : ℕ, i < x.length →
        ((∀ k : ℕ, k < x.length → 1e-9 * w k < w i) →
          HasDerivAt g ((|m (i + 1) - m i| * m (i - 1) + |m (i - 1) - m (i - 2)| * m i) / w i) (x.getD i 0)) ∧
        ((∃ k : ℕ, k < x.length ∧ w i ≤ 1e-9 * w k) → HasDerivAt g (m (i - 1)) (x.getD i 0)) := by
  set n := x.length with hnx
  have hpad : ∀ j : ℕ, j ≤ n + 2 → padded n (slope x y) j = m ((j : ℤ) - 2) := by
    intro j hj
    have s0 : slope x y 0 = m 0 := by have := hm 0 (by omega); simpa [slope] using this.symm
    have s1 : slope x y 1 = m 1 := by have := hm 1 (by omega); simpa [slope] using this.symm
    have s2 : slope x y (n - 2) = m ((n : ℤ) - 2) := by
      have := hm (n - 2) (by omega)
      rw [show ((n - 2 : ℕ) : ℤ) = (n : ℤ) - 2 by omega] at this
      exact this.symm
    have s3 : slope x y (n - 3) = m ((n : ℤ) - 3) := by
      have := hm (n - 3) (by omega)
      rw [show ((n - 3 : ℕ) : ℤ) = (n : ℤ) - 3 by omega] at this
      exact this.symm
    unfold padded
    split_ifs with h1 h2 h3 h4
    · subst h1; rw [s0, s1]; norm_num; linarith
    · subst h2; rw [s0, s1]; norm_num; linarith
    · have := hm (j - 2) (by omega)
      rw [show ((j - 2 : ℕ) : ℤ) = (j : ℤ) - 2 by omega] at this
      exact this.symm
    · subst h4; rw [s2, s3]
      rw [show ((n + 1 : ℕ) : ℤ) - 2 = n - 1 by push_cast; ring]; linarith
    · have : j = n + 2 := by omega
      subst this
      rw [s2, s3, show ((n + 2 : ℕ) : ℤ) - 2 = n by push_cast; ring]; linarith
  have hjump : ∀ j : ℕ, j ≤ n + 1 → jump (padded n (slope x y)) j = |m ((j : ℤ) - 1) - m ((j : ℤ) - 2)| := by
    intro j hj
    unfold jump
    rw [hpad (j + 1) (by omega), hpad j (by omega)]
    congr 3; push_cast; ring
  have hweight : ∀ i : ℕ, i < n → weight (padded n (slope x y)) i = w i := by
    intro i hi
    unfold weight
    rw [hjump (i + 2) (by omega), hjump i (by omega), hw]
    congr 3 <;> push_cast <;> ring_nf
  have hspeed : ∀ i < n, HasDerivAt (value x y) (deriv n (padded n (slope x y)) i) (x.getD i 0) := by
    intro i hi
    have hd := value_hasDerivAt y hx (by omega) (x.getD i 0)
    have e : speed x y (x.getD i 0) = deriv n (padded n (slope x y)) i := by
      unfold speed
      have hb : bin x (x.getD i 0) = min (i + 1) (x.length - 1) - 1 := by rw [bin, count_le hx hi]
      rw [hb]
      by_cases hl : i = n - 1
      · have e' : min (i + 1) (x.length - 1) - 1 = i - 1 := by omega
        have hlt : x.getD (i - 1) 0 < x.getD (i - 1 + 1) 0 := getD_lt hx (by omega) (by omega)
        have r2 := pieceSpeed_right x y (deriv x.length (padded x.length (slope x y))) hlt
        rw [show i - 1 + 1 = i by omega] at r2
        rw [e', r2]
      · have e' : min (i + 1) (x.length - 1) - 1 = i := by omega
        rw [e', pieceSpeed_left]
    rw [← e]
    exact hd
  obtain ⟨⟨k0, hk0, hk0'⟩, hmax⟩ := largest_spec (n := n) (by omega) (weight (padded n (slope x y)))
  refine ⟨value x y, fun xi zs h => interpolate_ok h, fun i hi => value_node y hx (by omega) hi, ?_, ?_⟩
  · intro i hi
    have hb : ∀ t, x.getD i 0 ≤ t → t < x.getD (i + 1) 0 → bin x t = i := by
      intro t h1 h2
      have : (x.countP fun a => decide (a ≤ t)) = i + 1 := by
        rw [← count_le hx (by omega : i < x.length)]
        refine List.countP_congr fun a ha => ?_
        obtain ⟨k, hk, rfl⟩ := List.getElem_of_mem ha
        rw [← List.getD_eq_getElem _ 0 hk]
        simp only [decide_eq_true_eq]
        constructor
        · intro h3
          by_contra h4
          push Not at h4
          have h5 : i < k := by
            by_contra h6
            rcases Nat.lt_or_eq_of_le (not_lt.1 h6) with h7 | h7
            · exact absurd h4 (not_lt.2 (getD_lt hx h7 (by omega)).le)
            · subst h7; exact lt_irrefl _ h4
          rcases Nat.lt_or_eq_of_le (Nat.succ_le_of_lt h5) with h7 | h7
          · have := getD_lt hx h7 hk
            simp only [Nat.succ_eq_add_one] at this
            linarith
          · rw [← h7] at h3; simp only [Nat.succ_eq_add_one] at h3; linarith
        · intro h3; linarith
      rw [bin, this]; omega
    set b := deriv n (padded n (slope x y))
    set dx := x.getD (i + 1) 0 - x.getD i 0 with hdx
    set c := (3 * slope x y i - 2 * b i - b (i + 1)) / dx
    set d := (b i + b (i + 1) - 2 * slope x y i) / dx ^ 2
    set x0 := x.getD i 0
    refine ⟨y.getD i 0 - b i * x0 + c * x0 ^ 2 - d * x0 ^ 3, b i - 2 * c * x0 + 3 * d * x0 ^ 2, c - 3 * d * x0, d, ?_⟩
    intro t h1 h2
    unfold value
    rw [hb t h1 h2]
    change ((((t - x0) * d + c) * (t - x0) + b i) * (t - x0) + y.getD i 0) = _
    ring
  · intro i hi
    refine ⟨fun h => ?_, fun h => ?_⟩
    · convert hspeed i hi using 1
      unfold deriv
      rw [if_pos]
      · rw [hweight i hi, hjump (i + 2) (by omega), hjump i (by omega), hpad (i + 1) (by omega), hpad (i + 2) (by omega)]
        push_cast
        ring_nf
      · rw [hk0', hweight i hi, hweight k0 hk0]
        have := h k0 hk0
        norm_num at this ⊢
        linarith
    · obtain ⟨k, hk, h⟩ := h
      convert hspeed i hi using 1
      unfold deriv
      rw [if_neg]
      · rw [hpad (i + 1) (by omega)]
        push_cast
        ring_nf
      · have h2 := hmax k hk
        rw [hweight i hi]
        rw [hweight k hk] at h2
        norm_num at h ⊢
        linarith

-- The hypotheses of `C91_akima` are met: velocities 0 and 1, continued by -2, -1 and 2, 3.
example : ∃ g : ℝ → ℝ, (∀ xi zs, interpolate [0, 1, 2] [0, 0, 1] xi = .ok zs → zs = xi.map g) ∧
    HasDerivAt g (1 / 2) 1 := by
  obtain ⟨g, h1, -, -, h4⟩ := C91_akima (x := [0, 1, 2]) (y := [0, 0, 1]) (by simp)
    (by unfold Increasing; norm_num) (fun k => (k : ℝ)) (fun _ => 2) (by
      intro k hk
      simp only [List.length_cons, List.length_nil] at hk
      have : k = 0 ∨ k = 1 := by omega
      rcases this with rfl | rfl <;> norm_num) (by norm_num) (by norm_num) (by norm_num) (by norm_num)
    (by intro k; push_cast; ring_nf; norm_num)
  refine ⟨g, h1, ?_⟩
  have := (h4 1 (by simp)).1 (by intro k _; norm_num)
  norm_num at this
  exact this

end Tcrm.Akima
