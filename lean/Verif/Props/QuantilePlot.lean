import Verif.Props.EvaluateStats
import Verif.Model.QuantilePlot
import Verif.Spec.QuantilePlot
/-!
C190: the quantile plot of lowest pressures.
-/
namespace Tcrm.QuantilePlot
open Tcrm.Evaluate Tcrm.QuantilePlot.Spec

/-! ### Percentiles of data that are larger one by one -/

theorem countP_mono_forall₂ {vs ws : List ℚ} (h : List.Forall₂ (· ≤ ·) vs ws) (x : ℚ) :
    ws.countP (fun v => decide (v ≤ x)) ≤ vs.countP (fun v => decide (v ≤ x)) := by
  induction h with
  | nil => simp
  | @cons a b as bs hab _ ih =>
    rw [List.countP_cons, List.countP_cons]
    by_cases hb : b ≤ x
    · have ha : a ≤ x := hab.trans hb
      simp only [hb, ha, decide_true, if_true]
      omega
    · simp only [hb, decide_false]
      simp only [Bool.false_eq_true, if_false, Nat.add_zero]
      omega

theorem sort_mono {vs ws : List ℚ} (h : List.Forall₂ (· ≤ ·) vs ws) {i : Nat} (hi : i < vs.length) :
    (sort vs).getD i 0 ≤ (sort ws).getD i 0 := by
  by_contra hc
  push Not at hc
  have h1 := countP_le_of_sorted ws (i := i) (h.length_eq ▸ hi) le_rfl
  have h2 := countP_mono_forall₂ h ((sort ws).getD i 0)
  have h3 := countP_lt_of_sorted vs (i := i) hi le_rfl
  have h4 : vs.countP (fun v => decide (v ≤ (sort ws).getD i 0)) ≤ vs.countP (fun v => decide (v < (sort vs).getD i 0)) := by
    apply List.countP_mono_left
    intro v _ hv
    rw [decide_eq_true_eq] at hv ⊢
    exact lt_of_le_of_lt hv hc
  omega

theorem percentile_mono {vs ws : List ℚ} (h : List.Forall₂ (· ≤ ·) vs ws) {per x y : ℚ} (h0 : 0 ≤ per) (h1 : per ≤ 100)
    (hx : percentile vs per = some x) (hy : percentile ws per = some y) : x ≤ y := by
  have hv : vs ≠ [] := by rintro rfl; simp [percentile] at hx
  have hw : ws ≠ [] := by rintro rfl; simp [percentile] at hy
  obtain ⟨i, hi, p1, p2, he, hc⟩ := percentile_eq hv h0 h1
  obtain ⟨k, hk, r1, r2, hf, hd⟩ := percentile_eq hw h0 h1
  have hpos : position ws per = position vs per := by unfold position; rw [h.length_eq]
  rw [hpos] at r1 r2 hf hd
  have hik : i = k := by
    have a1 : (i : ℚ) < k + 1 := by linarith
    have a2 : (k : ℚ) < i + 1 := by linarith
    have a3 : i < k + 1 := by exact_mod_cast a1
    have a4 : k < i + 1 := by exact_mod_cast a2
    omega
  subst hik
  rw [he, Option.some.injEq] at hx
  rw [hf, Option.some.injEq] at hy
  rw [← hx, ← hy]
  have s1 := sort_mono h hi
  rcases hc with hc | hc
  · have s2 := sort_mono h hc
    nlinarith
  · rw [hc]; simpa using s1

/-! ### Samples -/

theorem sample_ne (data : List ℚ) (draw : Nat → Nat → Nat) (n : Nat) : sample data draw n ≠ [] := by
  intro h
  have := congrArg List.length h
  simp [sample] at this

theorem sample_mem {data : List ℚ} {draw : Nat → Nat → Nat} (hd : Draws data draw) {n : Nat} {v : ℚ} (h : v ∈ sample data draw n) :
    v ∈ data := by
  unfold sample at h
  obtain ⟨k, _, rfl⟩ := List.mem_map.1 h
  rw [List.getD_eq_getElem _ _ (hd n k)]
  exact List.getElem_mem _

theorem samplePercentiles_eq (data : List ℚ) (draw : Nat → Nat → Nat) {per : ℚ} (h0 : 0 ≤ per) (h1 : per ≤ 100) :
    ∃ f : Nat → ℚ, (∀ n, percentile (sample data draw n) per = some (f n)) ∧ samplePercentiles data draw per = (List.range 1000).map f := by
  choose f hf using fun n => C106_percentile (sample_ne data draw n) h0 h1
  refine ⟨f, fun n => (hf n).1, ?_⟩
  unfold samplePercentiles
  rw [← List.filterMap_eq_map]
  apply List.filterMap_congr
  intro n _
  rw [(hf n).1]
  rfl

theorem range_bound (q : Nat) (hq : q < 100) : (0 : ℚ) ≤ (q : ℚ) + 1 ∧ (q : ℚ) + 1 ≤ 100 := by
  have : (q : ℚ) + 1 ≤ 100 := by exact_mod_cast hq
  exact ⟨by positivity, this⟩

/-- The bounds over samples: they exist, lie within the data, the lower not above the upper, and are larger for a larger
percentile. -/
theorem band_aux {data : List ℚ} {draw : Nat → Nat → Nat} (hd : Draws data draw) {per : ℚ} (h0 : 0 ≤ per) (h1 : per ≤ 100) {c : ℚ}
    (c0 : 0 ≤ c) (c1 : c ≤ 100) :
    ∃ x, percentile (samplePercentiles data draw per) c = some x ∧ (∃ a ∈ data, a ≤ x) ∧ (∃ b ∈ data, x ≤ b) := by
  obtain ⟨f, hf, he⟩ := samplePercentiles_eq data draw h0 h1
  have hne : samplePercentiles data draw per ≠ [] := by
    intro h; rw [he] at h; have := congrArg List.length h; simp at this
  obtain ⟨x, hx, _, ⟨a, ha, hax⟩, ⟨b, hb, hbx⟩, _⟩ := C106_percentile hne c0 c1
  refine ⟨x, hx, ?_, ?_⟩
  · rw [he] at ha
    obtain ⟨n, _, rfl⟩ := List.mem_map.1 ha
    obtain ⟨y, hy, _, ⟨u, hu, huy⟩, _⟩ := C106_percentile (sample_ne data draw n) h0 h1
    rw [hf n, Option.some.injEq] at hy
    exact ⟨u, sample_mem hd hu, huy.trans (hy ▸ hax)⟩
  · rw [he] at hb
    obtain ⟨n, _, rfl⟩ := List.mem_map.1 hb
    obtain ⟨y, hy, _, _, ⟨u, hu, huy⟩, _⟩ := C106_percentile (sample_ne data draw n) h0 h1
    rw [hf n, Option.some.injEq] at hy
    exact ⟨u, sample_mem hd hu, hbx.trans (hy ▸ huy)⟩

theorem sample_drawn {data : List ℚ} {draw : Nat → Nat → Nat} (hd : Draws data draw) (n : Nat) :
    Drawn data draw n (sample data draw n) := by
  refine ⟨by simp [sample], fun k hk => ?_⟩
  simp only [sample, List.getElem?_map, List.getElem?_range hk, Option.map_some]
  rw [List.getD_eq_getElem _ _ (hd n k), List.getElem?_eq_getElem (hd n k)]

theorem band_bound {data : List ℚ} {draw : Nat → Nat → Nat} (hd : Draws data draw) {per : ℚ} (h0 : 0 ≤ per) (h1 : per ≤ 100) {c x : ℚ}
    (c0 : 0 ≤ c) (c1 : c ≤ 100) (hx : percentile (samplePercentiles data draw per) c = some x) : Bound data draw per c x := by
  obtain ⟨f, hf, he⟩ := samplePercentiles_eq data draw h0 h1
  have hne : samplePercentiles data draw per ≠ [] := by
    intro h; rw [he] at h; have := congrArg List.length h; simp at this
  obtain ⟨x', hx', _, _, _, r⟩ := C106_percentile hne c0 c1
  rw [hx, Option.some.injEq] at hx'
  subst hx'
  refine ⟨samplePercentiles data draw per, by rw [he]; simp, r, ?_⟩
  intro n hn
  obtain ⟨y, hy, _, _, _, r'⟩ := C106_percentile (sample_ne data draw n) h0 h1
  rw [hf n, Option.some.injEq] at hy
  subst hy
  exact ⟨f n, _, by rw [he, List.getElem?_map, List.getElem?_range hn]; rfl, sample_drawn hd n, r'⟩

theorem band_mono {data : List ℚ} {draw : Nat → Nat → Nat} {p q : ℚ} (h0 : 0 ≤ p) (hpq : p ≤ q) (h1 : q ≤ 100) {c x y : ℚ}
    (c0 : 0 ≤ c) (c1 : c ≤ 100) (hx : percentile (samplePercentiles data draw p) c = some x)
    (hy : percentile (samplePercentiles data draw q) c = some y) : x ≤ y := by
  obtain ⟨f, hf, he⟩ := samplePercentiles_eq data draw h0 (hpq.trans h1)
  obtain ⟨f', hf', he'⟩ := samplePercentiles_eq data draw (h0.trans hpq) h1
  refine percentile_mono ?_ c0 c1 hx hy
  rw [he, he', List.forall₂_map_left_iff, List.forall₂_map_right_iff, List.forall₂_same]
  intro n _
  exact C106_monotone h0 hpq h1 (hf n) (hf' n)

/-! ### The data -/

theorem starts_iff (g : Limit) (t : Track) : Starts g t ↔ StartsIn g t := by
  unfold Starts StartsIn
  cases t with
  | nil => simp
  | cons o os =>
    simp only [List.head?_cons, Option.some.injEq, List.cons.injEq]
    constructor
    · rintro ⟨o', _, ⟨rfl, rfl⟩, h⟩; exact ⟨_, rfl, h⟩
    · rintro ⟨o', rfl, h⟩; exact ⟨_, _, ⟨rfl, rfl⟩, h⟩

theorem lowest_iff (t : Track) (v : ℚ) : minimum (t.map (·.pressure)) = some v ↔ Lowest t v := by
  rw [minimum_spec]
  unfold Lowest
  simp

theorem lows_of {g : Limit} {tracks : List Track} {vs : List ℚ} (h : minPressures g tracks = .ok vs) (hp : Positive tracks) :
    Lows g tracks (vs.filter fun v => decide (0 < v)) := by
  have hf := (minPressures_spec h).2
  clear h
  induction hf with
  | nil => exact .nil
  | @cons t v ts ws h1 _ ih =>
    have ih := ih fun t ht => hp t (List.mem_cons_of_mem _ ht)
    by_cases hs : StartsIn g t
    · have hl := (lowest_iff t v).1 (h1.1 hs)
      obtain ⟨⟨o, ho, hov⟩, _⟩ := id hl
      have hv : 0 < v := hov ▸ (hp t (by simp)).2 o ho
      rw [List.filter_cons_of_pos (by simpa using hv)]
      exact .starts ((starts_iff g t).2 hs) hl ih
    · rw [h1.2 hs, List.filter_cons_of_neg (by simp)]
      exact .elsewhere (fun hc => hs ((starts_iff g t).1 hc)) ih

theorem Spec.Lows.append {g : Limit} {a b : List Track} {xs ys : List ℚ} (h1 : Lows g a xs) (h2 : Lows g b ys) :
    Lows g (a ++ b) (xs ++ ys) := by
  induction h1 with
  | nil => exact h2
  | starts hs hl _ ih => exact .starts hs hl ih
  | elsewhere hs _ ih => exact .elsewhere hs ih

theorem Spec.Lows.unique {g : Limit} {a : List Track} {xs ys : List ℚ} (h1 : Lows g a xs) (h2 : Lows g a ys) : xs = ys := by
  induction h1 generalizing ys with
  | nil => cases h2; rfl
  | starts hs hl _ ih =>
    cases h2 with
    | starts _ hl' h' =>
      rw [ih h']
      obtain ⟨⟨o, ho, e⟩, m⟩ := hl
      obtain ⟨⟨o', ho', e'⟩, m'⟩ := hl'
      have h1 : _ ≤ o'.pressure := m o' ho'
      have h2 : _ ≤ o.pressure := m' o ho
      rw [e'] at h1
      rw [e] at h2
      rw [le_antisymm h1 h2]
    | elsewhere hn _ => exact absurd hs hn
  | elsewhere hn _ ih =>
    cases h2 with
    | starts hs _ _ => exact absurd hs hn
    | elsewhere _ h' => exact ih h'

theorem syntheticMinima_spec (g : Limit) {sims : List (List Track)} (hp : ∀ ts ∈ sims, Positive ts) :
    ∃ vs, syntheticMinima g sims = .ok vs ∧ Lows g sims.flatten (vs.filter fun v => decide (0 < v)) := by
  induction sims with
  | nil => exact ⟨[], rfl, .nil⟩
  | cons ts rest ih =>
    obtain ⟨ws, e, hl⟩ := ih fun t ht => hp t (List.mem_cons_of_mem _ ht)
    obtain ⟨vs, hvs⟩ := minPressures_total g (tracks := ts) fun t ht => (hp ts (by simp) t ht).1
    refine ⟨vs ++ ws, by simp only [syntheticMinima, hvs, e], ?_⟩
    rw [List.filter_append, List.flatten_cons]
    exact (lows_of hvs (hp ts (by simp))).append hl

/-- What `plotQuantiles` draws, given the lowest pressures. -/
theorem plot_eq {g : Limit} {observed : List Track} {simulated : List (List Track)} (hp : Positive observed)
    (hs : ∀ ts ∈ simulated, Positive ts) {xs ys : List ℚ} (hx : Lows g observed xs) (hy : Lows g simulated.flatten ys)
    (dx dy : Nat → Nat → Nat) : plotQuantiles g observed simulated dx dy = subplot xs ys dx dy := by
  obtain ⟨vs, hvs⟩ := minPressures_total g (tracks := observed) fun t ht => (hp t ht).1
  obtain ⟨ws, e, hl⟩ := syntheticMinima_spec g hs
  unfold plotQuantiles
  rw [hvs, e]
  simp only []
  rw [(lows_of hvs hp).unique hx, hl.unique hy]

theorem subplot_ok {xs ys : List ℚ} (hx : xs ≠ []) (hy : ys ≠ []) (dx dy : Nat → Nat → Nat) {p : Plot}
    (h : subplot xs ys dx dy = .ok p) : p.points.length = 100 ∧ p.below.length = 100 ∧ p.above.length = 100 ∧ ∀ q : Nat, q < 100 →
      p.points[q]? = some (percentile xs (q + 1), percentile ys (q + 1)) ∧
      p.below[q]? = some (percentile (samplePercentiles xs dx (q + 1)) 95, percentile (samplePercentiles ys dy (q + 1)) 5) ∧
      p.above[q]? = some (percentile (samplePercentiles xs dx (q + 1)) 5, percentile (samplePercentiles ys dy (q + 1)) 95) := by
  unfold subplot percentileRange at h
  rw [if_neg hx, if_neg hy] at h
  simp only [Except.ok.injEq] at h
  subst h
  refine ⟨by simp [percentiles], by simp, by simp, ?_⟩
  intro q hq
  simp [percentiles, hq, List.getElem?_zip_eq_some]

/-- There are lowest pressures of any tracks with records. -/
theorem lows_exist (g : Limit) {tracks : List Track} (hp : Positive tracks) : ∃ xs, Lows g tracks xs := by
  obtain ⟨vs, hvs⟩ := minPressures_total g (tracks := tracks) fun t ht => (hp t ht).1
  exact ⟨_, lows_of hvs hp⟩

/-- C190: the plot has a hundred points, the `q`-th at the `q`-th percentile of the lowest pressures of the observed tracks that
start in the region and of the simulated ones, whatever the random numbers. -/
theorem C190_points {g : Limit} {observed : List Track} {simulated : List (List Track)} (hp : Positive observed)
    (hs : ∀ ts ∈ simulated, Positive ts) {xs ys : List ℚ} (hx : Lows g observed xs) (hy : Lows g simulated.flatten ys)
    {dx dy : Nat → Nat → Nat} {p : Plot} (h : plotQuantiles g observed simulated dx dy = .ok p) :
    p.points.length = 100 ∧ ∀ q : Nat, 1 ≤ q → q ≤ 100 → ∃ a b, p.points[q - 1]? = some (some a, some b) ∧
      AtPercentile xs q a ∧ AtPercentile ys q b ∧ (∃ l ∈ xs, l ≤ a) ∧ (∃ u ∈ xs, a ≤ u) ∧ (∃ l ∈ ys, l ≤ b) ∧ (∃ u ∈ ys, b ≤ u) := by
  rw [plot_eq hp hs hx hy] at h
  have hxn : xs ≠ [] := by rintro rfl; simp [subplot, percentileRange] at h
  have hyn : ys ≠ [] := by rintro rfl; simp [subplot, percentileRange, hxn] at h
  obtain ⟨h1, _, _, h2⟩ := subplot_ok hxn hyn dx dy h
  refine ⟨h1, ?_⟩
  intro q q1 q2
  obtain ⟨k, rfl⟩ : ∃ k, q = k + 1 := ⟨q - 1, by omega⟩
  obtain ⟨b0, b1⟩ := range_bound k (by omega)
  obtain ⟨a, ha, _, ha1, ha2, ha3⟩ := C106_percentile hxn b0 b1
  obtain ⟨b, hb, _, hb1, hb2, hb3⟩ := C106_percentile hyn b0 b1
  refine ⟨a, b, ?_, ?_, ?_, ha1, ha2, hb1, hb2⟩
  · rw [Nat.add_sub_cancel, (h2 k (by omega)).1, ha, hb]
  · unfold AtPercentile; push_cast; exact ha3
  · unfold AtPercentile; push_cast; exact hb3

/-- C190: the points go up to the right; the last is at the highest of the lowest pressures of each. -/
theorem C190_ascending {g : Limit} {observed : List Track} {simulated : List (List Track)} (hp : Positive observed)
    (hs : ∀ ts ∈ simulated, Positive ts) {xs ys : List ℚ} (hx : Lows g observed xs) (hy : Lows g simulated.flatten ys)
    {dx dy : Nat → Nat → Nat} {p : Plot} (h : plotQuantiles g observed simulated dx dy = .ok p) :
    (∀ (i j : Nat) (a b a' b' : ℚ), i ≤ j → p.points[i]? = some (some a, some b) → p.points[j]? = some (some a', some b') → a ≤ a' ∧ b ≤ b') ∧
      ∃ a b, p.points[99]? = some (some a, some b) ∧ a ∈ xs ∧ b ∈ ys ∧ (∀ v ∈ xs, v ≤ a) ∧ ∀ v ∈ ys, v ≤ b := by
  rw [plot_eq hp hs hx hy] at h
  have hxn : xs ≠ [] := by rintro rfl; simp [subplot, percentileRange] at h
  have hyn : ys ≠ [] := by rintro rfl; simp [subplot, percentileRange, hxn] at h
  obtain ⟨h1, _, _, h2⟩ := subplot_ok hxn hyn dx dy h
  constructor
  · intro i j a b a' b' hij hi hj
    have hj' : j < 100 := by
      by_contra hc
      rw [List.getElem?_eq_none (by omega)] at hj
      cases hj
    rw [(h2 i (by omega)).1] at hi
    rw [(h2 j hj').1] at hj
    simp only [Option.some.injEq, Prod.mk.injEq] at hi hj
    obtain ⟨b0, _⟩ := range_bound i (by omega)
    obtain ⟨_, b1⟩ := range_bound j hj'
    have hle : (i : ℚ) + 1 ≤ (j : ℚ) + 1 := by have : (i : ℚ) ≤ j := by exact_mod_cast hij
                                               linarith
    exact ⟨C106_monotone b0 hle b1 hi.1 hj.1, C106_monotone b0 hle b1 hi.2 hj.2⟩
  · have top : ∀ vs : List ℚ, vs ≠ [] → ∃ a, percentile vs ((99 : ℕ) + 1) = some a ∧ a ∈ vs ∧ ∀ v ∈ vs, v ≤ a := by
      intro vs hne
      have e : (((99 : ℕ) : ℚ) + 1) = 100 := by norm_num
      rw [e]
      obtain ⟨i, hi, p1, p2, he, hc⟩ := percentile_eq hne (per := 100) (by norm_num) le_rfl
      have hpos : position vs 100 = ((vs.length - 1 : ℕ) : ℚ) := by
        unfold position
        rw [Nat.cast_sub (List.length_pos_of_ne_nil hne)]
        norm_num
      have hil : i = vs.length - 1 := by
        rw [hpos] at p1 p2
        have a1 : i ≤ vs.length - 1 := by exact_mod_cast p1
        have a2 : vs.length - 1 < i + 1 := by exact_mod_cast p2
        omega
      rw [hpos, hil] at he
      simp only [sub_self, zero_mul, add_zero] at he
      refine ⟨_, he, sort_mem vs (by omega), ?_⟩
      intro v hv
      have hv' := (sort_perm vs).mem_iff.2 hv
      obtain ⟨k, hk, rfl⟩ := List.getElem_of_mem hv'
      rw [sort_length] at hk
      have := sort_le vs (i := k) (j := vs.length - 1) (by omega) (by omega)
      rwa [List.getD_eq_getElem _ _ (by rw [sort_length]; exact hk)] at this
    obtain ⟨a, ha, ha1, ha2⟩ := top xs hxn
    obtain ⟨b, hb, hb1, hb2⟩ := top ys hyn
    refine ⟨a, b, ?_, ha1, hb1, ha2, hb2⟩
    rw [(h2 99 (by omega)).1, ha, hb]

/-- C190: if the simulated tracks have the same lowest pressures as the observed ones, in any order and in any files, all points
are on the diagonal. -/
theorem C190_diagonal {g : Limit} {observed : List Track} {simulated : List (List Track)} (hp : Positive observed)
    (hs : ∀ ts ∈ simulated, Positive ts) {xs ys : List ℚ} (hx : Lows g observed xs) (hy : Lows g simulated.flatten ys)
    (hperm : xs.Perm ys) {dx dy : Nat → Nat → Nat} {p : Plot} (h : plotQuantiles g observed simulated dx dy = .ok p) :
    ∀ a ∈ p.points, a.1 = a.2 := by
  rw [plot_eq hp hs hx hy] at h
  have hxn : xs ≠ [] := by rintro rfl; simp [subplot, percentileRange] at h
  have hyn : ys ≠ [] := by rintro rfl; simp [subplot, percentileRange, hxn] at h
  obtain ⟨h1, _, _, h2⟩ := subplot_ok hxn hyn dx dy h
  intro a ha
  obtain ⟨k, hk, rfl⟩ := List.getElem_of_mem ha
  have hk' : k < 100 := by omega
  have e := (h2 k hk').1
  rw [List.getElem?_eq_getElem hk, Option.some.injEq] at e
  obtain ⟨b0, b1⟩ := range_bound k hk'
  obtain ⟨x, e1, e2, _⟩ := C106_percentile hxn b0 b1
  rw [e, e1, e2 ys hperm]

/-- C190: the lines on either side, whatever the random numbers: each has a hundred points within the range of the data, going up
to the right, and for every percentile the one line is not left of and not above the other. -/
theorem C190_lines {g : Limit} {observed : List Track} {simulated : List (List Track)} (hp : Positive observed)
    (hs : ∀ ts ∈ simulated, Positive ts) {xs ys : List ℚ} (hx : Lows g observed xs) (hy : Lows g simulated.flatten ys)
    {dx dy : Nat → Nat → Nat} (hdx : Draws xs dx) (hdy : Draws ys dy) {p : Plot}
    (h : plotQuantiles g observed simulated dx dy = .ok p) :
    p.below.length = 100 ∧ p.above.length = 100 ∧
    (∀ q : Nat, q < 100 → ∃ xu yl xl yu, p.below[q]? = some (some xu, some yl) ∧ p.above[q]? = some (some xl, some yu) ∧
      xl ≤ xu ∧ yl ≤ yu ∧ (∃ l ∈ xs, l ≤ xl) ∧ (∃ u ∈ xs, xu ≤ u) ∧ (∃ l ∈ ys, l ≤ yl) ∧ ∃ u ∈ ys, yu ≤ u) ∧
    (∀ line, line = p.below ∨ line = p.above → ∀ (i j : Nat) (a b a' b' : ℚ), i ≤ j → line[i]? = some (some a, some b) →
      line[j]? = some (some a', some b') → a ≤ a' ∧ b ≤ b') := by
  rw [plot_eq hp hs hx hy] at h
  have hxn : xs ≠ [] := by rintro rfl; simp [subplot, percentileRange] at h
  have hyn : ys ≠ [] := by rintro rfl; simp [subplot, percentileRange, hxn] at h
  obtain ⟨_, l1, l2, h2⟩ := subplot_ok hxn hyn dx dy h
  refine ⟨l1, l2, ?_, ?_⟩
  · intro q hq
    obtain ⟨b0, b1⟩ := range_bound q hq
    obtain ⟨xu, e1, _, u1⟩ := band_aux hdx b0 b1 (c := 95) (by norm_num) (by norm_num)
    obtain ⟨xl, e2, u2, _⟩ := band_aux hdx b0 b1 (c := 5) (by norm_num) (by norm_num)
    obtain ⟨yu, e3, _, u3⟩ := band_aux hdy b0 b1 (c := 95) (by norm_num) (by norm_num)
    obtain ⟨yl, e4, u4, _⟩ := band_aux hdy b0 b1 (c := 5) (by norm_num) (by norm_num)
    obtain ⟨_, g1, g2⟩ := h2 q hq
    rw [e1, e4] at g1
    rw [e2, e3] at g2
    exact ⟨xu, yl, xl, yu, g1, g2, C106_monotone (by norm_num) (by norm_num) (by norm_num) e2 e1,
      C106_monotone (by norm_num) (by norm_num) (by norm_num) e4 e3, u2, u1, u4, u3⟩
  · intro line hl i j a b a' b' hij hi hj
    have hlen : line.length = 100 := by rcases hl with rfl | rfl <;> assumption
    have hj' : j < 100 := by
      by_contra hc
      rw [List.getElem?_eq_none (by omega)] at hj
      cases hj
    obtain ⟨b0, _⟩ := range_bound i (by omega)
    obtain ⟨_, b1⟩ := range_bound j hj'
    have hle : (i : ℚ) + 1 ≤ (j : ℚ) + 1 := by have : (i : ℚ) ≤ j := by exact_mod_cast hij
                                               linarith
    obtain ⟨_, g1, g2⟩ := h2 i (by omega)
    obtain ⟨_, g3, g4⟩ := h2 j hj'
    rcases hl with rfl | rfl
    · rw [g1] at hi
      rw [g3] at hj
      simp only [Option.some.injEq, Prod.mk.injEq] at hi hj
      exact ⟨band_mono b0 hle b1 (by norm_num) (by norm_num) hi.1 hj.1, band_mono b0 hle b1 (by norm_num) (by norm_num) hi.2 hj.2⟩
    · rw [g2] at hi
      rw [g4] at hj
      simp only [Option.some.injEq, Prod.mk.injEq] at hi hj
      exact ⟨band_mono b0 hle b1 (by norm_num) (by norm_num) hi.1 hj.1, band_mono b0 hle b1 (by norm_num) (by norm_num) hi.2 hj.2⟩

/-- C190: the lines are the 95th and the 5th percentiles over a thousand samples of a hundred values of the data. -/
theorem C190_bounds {g : Limit} {observed : List Track} {simulated : List (List Track)} (hp : Positive observed)
    (hs : ∀ ts ∈ simulated, Positive ts) {xs ys : List ℚ} (hx : Lows g observed xs) (hy : Lows g simulated.flatten ys)
    {dx dy : Nat → Nat → Nat} (hdx : Draws xs dx) (hdy : Draws ys dy) {p : Plot}
    (h : plotQuantiles g observed simulated dx dy = .ok p) :
    ∀ q : Nat, 1 ≤ q → q ≤ 100 → ∃ xu yl xl yu, p.below[q - 1]? = some (some xu, some yl) ∧
      p.above[q - 1]? = some (some xl, some yu) ∧ Bound xs dx q 95 xu ∧ Bound xs dx q 5 xl ∧ Bound ys dy q 95 yu ∧ Bound ys dy q 5 yl := by
  rw [plot_eq hp hs hx hy] at h
  have hxn : xs ≠ [] := by rintro rfl; simp [subplot, percentileRange] at h
  have hyn : ys ≠ [] := by rintro rfl; simp [subplot, percentileRange, hxn] at h
  obtain ⟨_, l1, l2, h2⟩ := subplot_ok hxn hyn dx dy h
  intro q q1 q2
  obtain ⟨k, rfl⟩ : ∃ k, q = k + 1 := ⟨q - 1, by omega⟩
  obtain ⟨b0, b1⟩ := range_bound k (by omega)
  obtain ⟨xu, e1, _⟩ := band_aux hdx b0 b1 (c := 95) (by norm_num) (by norm_num)
  obtain ⟨xl, e2, _⟩ := band_aux hdx b0 b1 (c := 5) (by norm_num) (by norm_num)
  obtain ⟨yu, e3, _⟩ := band_aux hdy b0 b1 (c := 95) (by norm_num) (by norm_num)
  obtain ⟨yl, e4, _⟩ := band_aux hdy b0 b1 (c := 5) (by norm_num) (by norm_num)
  obtain ⟨_, g1, g2⟩ := h2 k (by omega)
  refine ⟨xu, yl, xl, yu, ?_, ?_, ?_, ?_, ?_, ?_⟩
  · rw [Nat.add_sub_cancel, g1, e1, e4]
  · rw [Nat.add_sub_cancel, g2, e2, e3]
  · push_cast; exact band_bound hdx b0 b1 (by norm_num) (by norm_num) e1
  · push_cast; exact band_bound hdx b0 b1 (by norm_num) (by norm_num) e2
  · push_cast; exact band_bound hdy b0 b1 (by norm_num) (by norm_num) e3
  · push_cast; exact band_bound hdy b0 b1 (by norm_num) (by norm_num) e4

/-- C190: the plot is made exactly if an observed and a simulated track start in the region. -/
theorem C190_made {g : Limit} {observed : List Track} {simulated : List (List Track)} (hp : Positive observed)
    (hs : ∀ ts ∈ simulated, Positive ts) (dx dy : Nat → Nat → Nat) :
    ((∃ p, plotQuantiles g observed simulated dx dy = .ok p) ↔
      (∃ t ∈ observed, Starts g t) ∧ ∃ ts ∈ simulated, ∃ t ∈ ts, Starts g t) ∧
    ∀ e, plotQuantiles g observed simulated dx dy = .error e → e = .valueError := by
  have hps : Positive simulated.flatten := by
    intro t ht
    obtain ⟨ts, h1, h2⟩ := List.mem_flatten.1 ht
    exact hs ts h1 t h2
  obtain ⟨xs, hx⟩ := lows_exist g hp
  obtain ⟨ys, hy⟩ := lows_exist g hps
  have key : ∀ {tracks vs}, Lows g tracks vs → (vs ≠ [] ↔ ∃ t ∈ tracks, Starts g t) := by
    intro tracks vs hl
    induction hl with
    | nil => simp
    | starts h1 _ _ _ => simp [h1]
    | elsewhere h1 _ ih => simp [h1, ih]
  rw [plot_eq hp hs hx hy, ← key hx]
  have e2 : (∃ ts ∈ simulated, ∃ t ∈ ts, Starts g t) ↔ ys ≠ [] := by
    rw [key hy]
    constructor
    · rintro ⟨ts, h1, t, h2, h3⟩; exact ⟨t, List.mem_flatten.2 ⟨ts, h1, h2⟩, h3⟩
    · rintro ⟨t, h1, h3⟩
      obtain ⟨ts, h4, h5⟩ := List.mem_flatten.1 h1
      exact ⟨ts, h4, t, h5, h3⟩
  rw [e2]
  unfold subplot percentileRange
  by_cases h1 : xs = []
  · simp [h1]
  · by_cases h2 : ys = []
    · simp [h1, h2]
    · simp [h1, h2]

/-! ### A case: three observed storms, one of which starts elsewhere, and two files of simulated ones -/

section
private def g : Limit := ⟨140, 160, -20, -10⟩
private def a : Track := [{ lon := 150, lat := -15, pressure := 990 }, { lon := 151, lat := -16, pressure := 950 }]
private def b : Track := [{ lon := 155, lat := -12, pressure := 970 }]
private def c : Track := [{ lon := 170, lat := -12, pressure := 930 }]
private theorem pos : Positive [a, b, c] := by
  intro t ht
  simp only [List.mem_cons, List.not_mem_nil, or_false] at ht
  rcases ht with rfl | rfl | rfl <;> simp [a, b, c]
private theorem low : Lows g [a, b, c] [950, 970] := by
  refine .starts ⟨_, _, rfl, by norm_num [g], by norm_num [g], by norm_num [g], by norm_num [g]⟩ (by simp [Lowest, a]; norm_num) ?_
  refine .starts ⟨_, _, rfl, by norm_num [g], by norm_num [g], by norm_num [g], by norm_num [g]⟩ (by simp [Lowest, b]) ?_
  refine .elsewhere ?_ .nil
  rintro ⟨o, r, h, _, h2, _⟩
  simp only [c, List.cons.injEq] at h
  rw [← h.1] at h2
  norm_num [g] at h2
private theorem low2 : Lows g [[b], [c, a]].flatten [970, 950] := by
  refine .starts ⟨_, _, rfl, by norm_num [g], by norm_num [g], by norm_num [g], by norm_num [g]⟩ (by simp [Lowest, b]) ?_
  refine .elsewhere ?_ ?_
  · rintro ⟨o, r, h, _, h2, _⟩
    simp only [c, List.cons.injEq] at h
    rw [← h.1] at h2
    norm_num [g] at h2
  · exact .starts ⟨_, _, rfl, by norm_num [g], by norm_num [g], by norm_num [g], by norm_num [g]⟩ (by simp [Lowest, a]; norm_num) .nil
private theorem pos2 : ∀ ts ∈ [[b], [c, a]], Positive ts := by
  intro ts hts t ht
  refine pos t ?_
  simp only [List.mem_cons, List.not_mem_nil, or_false] at hts
  rcases hts with rfl | rfl <;> simp at ht <;> aesop

example : ∃ p, plotQuantiles g [a, b, c] [[b], [c, a]] (fun n k => (n + k) % 2) (fun n _ => n % 2) = .ok p ∧ p.points.length = 100 ∧
    (∀ x ∈ p.points, x.1 = x.2) ∧ ∃ u v, p.points[99]? = some (some u, some v) ∧ u = 970 ∧ v = 970 := by
  obtain ⟨p, h⟩ := (C190_made pos pos2 (g := g) (fun n k => (n + k) % 2) (fun n _ => n % 2)).1.2
    ⟨⟨a, by simp, ⟨_, _, rfl, by norm_num [g], by norm_num [g], by norm_num [g], by norm_num [g]⟩⟩,
      [b], by simp, b, by simp, ⟨_, _, rfl, by norm_num [g], by norm_num [g], by norm_num [g], by norm_num [g]⟩⟩
  obtain ⟨u, v, h1, h2, h3, h4, h5⟩ := (C190_ascending pos pos2 low low2 h).2
  refine ⟨p, h, (C190_points pos pos2 low low2 h).1, C190_diagonal pos pos2 low low2 (List.Perm.swap _ _ _) h, u, v, h1, ?_, ?_⟩
  · have := h4 970 (by simp)
    simp only [List.mem_cons, List.not_mem_nil, or_false] at h2
    rcases h2 with rfl | rfl
    · norm_num at this
    · rfl
  · have := h5 970 (by simp)
    simp only [List.mem_cons, List.not_mem_nil, or_false] at h3
    rcases h3 with rfl | rfl
    · rfl
    · norm_num at this
example : Draws [950, 970] (fun n k => (n + k) % 2) := fun n k => Nat.mod_lt _ (by norm_num)
example : AtPercentile [950, 970, 990] 50 970 ∧ ¬ AtPercentile [950, 970, 990] 50 950 := by
  unfold AtPercentile; norm_num [List.countP, List.countP.go]
end

end Tcrm.QuantilePlot
