import Verif.Model.Plots
import Mathlib.Tactic.Linarith
import Mathlib.Tactic.Ring
import Mathlib.Tactic.FieldSimp
import Mathlib.Tactic.NormNum
import Mathlib.Tactic.Positivity
/-!
C133: the points of a hazard curve; C134: contour levels.
-/
namespace Tcrm.Plots

/-- `v` is the `r`-th largest of the values. -/
def Rank (recs : List ℝ) (r : ℕ) (v : ℝ) : Prop :=
  ∃ d : List ℝ, d.Perm recs ∧ d.Pairwise (· ≥ ·) ∧ d[r - 1]? = some v

theorem desc_unique {d e : List ℝ} (h : d.Perm e) (hd : d.Pairwise (· ≥ ·)) (he : e.Pairwise (· ≥ ·)) : d = e :=
  List.Perm.eq_of_pairwise' hd he h

theorem sorted_zeros {k : ℕ} {recs : List ℝ} (h : ∀ v ∈ recs, 0 ≤ v) :
    (List.replicate k 0 ++ recs).insertionSort (· ≤ ·) = List.replicate k 0 ++ recs.insertionSort (· ≤ ·) := by
  apply List.Perm.eq_of_pairwise' (r := (· ≤ ·)) (List.pairwise_insertionSort _ _)
  · rw [List.pairwise_append]
    refine ⟨by rw [List.pairwise_replicate]; exact Or.inr le_rfl, List.pairwise_insertionSort _ _, ?_⟩
    intro a ha b hb
    rw [(List.mem_replicate.1 ha).2]
    exact h b ((List.mem_insertionSort _).1 hb)
  · exact (List.perm_insertionSort _ _).trans ((List.perm_insertionSort _ _).symm.append_left _)

theorem rank_iff {recs : List ℝ} {r : ℕ} {v : ℝ} :
    Rank recs r v ↔ (recs.insertionSort (· ≤ ·)).reverse[r - 1]? = some v := by
  have h1 : (recs.insertionSort (· ≤ ·)).reverse.Perm recs :=
    (List.reverse_perm _).trans (List.perm_insertionSort _ _)
  have h2 : (recs.insertionSort (· ≤ ·)).reverse.Pairwise (· ≥ ·) := by
    rw [List.pairwise_reverse]
    exact List.pairwise_insertionSort _ _
  constructor
  · rintro ⟨d, hd, hs, hv⟩
    rw [desc_unique (h1.trans hd.symm) h2 hs]
    exact hv
  · intro h
    exact ⟨_, h1, h2, h⟩

/-- The recurrence interval of the `r`-th largest event, in years. -/
def interval (days r : ℕ) : ℚ := (days + 1) / r / 365.25

theorem empReturnPeriod_get {n i : ℕ} (h : i < n) : (empReturnPeriod n)[i]? = some (interval n (n - i)) := by
  unfold empReturnPeriod interval
  rw [List.getElem?_map, List.getElem?_range h]
  simp only [Option.map_some, Option.some.injEq]
  have : ((n - i : ℕ) : ℚ) = n - i := by rw [Nat.cast_sub h.le]
  rw [this]
  have h1 : ((n : ℚ) + 1) ≠ 0 := by positivity
  have h2 : (n : ℚ) - i ≠ 0 := by
    have : (i : ℚ) < n := by exact_mod_cast h
    linarith
  have h3 : 1 - ((i : ℚ) + 1) / (n + 1) = (n - i) / (n + 1) := by field_simp; ring
  rw [h3]
  field_simp

/-- C133: for wind speeds in metres per second and one simulated year per simulation, the points of a hazard curve are
the events of the location: the `r`-th largest at the interval of `r` such events in the simulated days (those above one
year), and nothing else but zeros. -/
theorem C133_points_partial (n : ℕ) (recs : List ℝ) (hpos : ∀ v ∈ recs, 0 ≤ v)
    (hlen : recs.length ≤ ⌊(n : ℚ) * 365.25⌋₊) :
    ∃ events, allEvents n recs = some events ∧
      (∀ r v, 1 ≤ r → Rank recs r v → 1 < interval ⌊(n : ℚ) * 365.25⌋₊ r →
        (interval ⌊(n : ℚ) * 365.25⌋₊ r, v) ∈ scatter events) ∧
      ∀ p ∈ scatter events, ∃ r, 1 ≤ r ∧ p.1 = interval ⌊(n : ℚ) * 365.25⌋₊ r ∧ 1 < p.1 ∧
        (Rank recs r p.2 ∨ recs.length < r ∧ p.2 = 0) := by
  have hev : allEvents n recs = some (List.replicate (⌊(n : ℚ) * 365.25⌋₊ - recs.length) 0 ++ recs.insertionSort (· ≤ ·)) := by
    unfold allEvents
    simp only
    rw [if_pos hlen, sorted_zeros hpos]
  refine ⟨_, hev, ?_⟩
  clear hev
  generalize ⌊(n : ℚ) * 365.25⌋₊ = days at *
  have hlenE : (List.replicate (days - recs.length) 0 ++ recs.insertionSort (· ≤ ·)).length = days := by
    rw [List.length_append, List.length_replicate, List.length_insertionSort]; omega
  have hmem : ∀ (p : ℚ × ℝ), p ∈ scatter (List.replicate (days - recs.length) 0 ++ recs.insertionSort (· ≤ ·)) ↔
      1 < p.1 ∧ ∃ i < days, p.1 = interval days (days - i) ∧
        (List.replicate (days - recs.length) (0 : ℝ) ++ recs.insertionSort (· ≤ ·))[i]? = some p.2 := by
    intro p
    unfold scatter
    rw [List.mem_filter, hlenE, decide_eq_true_eq, and_comm, List.mem_iff_getElem?]
    refine and_congr_right fun _ => ?_
    constructor
    · rintro ⟨i, hi⟩
      rw [List.getElem?_zip_eq_some] at hi
      have hid : i < days := by
        by_contra hc
        rw [List.getElem?_eq_none (by simp [empReturnPeriod]; omega)] at hi
        cases hi.1
      rw [empReturnPeriod_get hid] at hi
      exact ⟨i, hid, (Option.some.inj hi.1).symm, hi.2⟩
    · rintro ⟨i, hid, h1, h2⟩
      refine ⟨i, ?_⟩
      rw [List.getElem?_zip_eq_some, empReturnPeriod_get hid, h1]
      exact ⟨rfl, h2⟩
  have hrank : ∀ r v, 1 ≤ r → r ≤ recs.length → (Rank recs r v ↔
      (List.replicate (days - recs.length) (0 : ℝ) ++ recs.insertionSort (· ≤ ·))[days - r]? = some v) := by
    intro r v hr hr'
    rw [rank_iff, List.getElem?_reverse (by rw [List.length_insertionSort]; omega),
      List.getElem?_append_right (by rw [List.length_replicate]; omega), List.length_replicate,
      List.length_insertionSort]
    rw [show recs.length - 1 - (r - 1) = days - r - (days - recs.length) by omega]
  constructor
  · intro r v hr hv hi
    have hr' : r ≤ recs.length := by
      obtain ⟨d, hd, _, h⟩ := hv
      have := (List.getElem?_eq_some_iff.1 h).1
      rw [hd.length_eq] at this
      omega
    rw [hmem]
    refine ⟨hi, days - r, by omega, ?_, (hrank r v hr hr').1 hv⟩
    rw [show days - (days - r) = r by omega]
  · intro p hp
    rw [hmem] at hp
    obtain ⟨h1, i, hi, h2, h3⟩ := hp
    refine ⟨days - i, by omega, h2, h1, ?_⟩
    by_cases hr : days - i ≤ recs.length
    · left
      rw [hrank _ _ (by omega) hr, show days - (days - i) = i by omega]
      exact h3
    · right
      refine ⟨by omega, ?_⟩
      rw [List.getElem?_append_left (by rw [List.length_replicate]; omega)] at h3
      have := List.mem_of_getElem? h3
      exact (List.mem_replicate.1 this).2

/-- C133: the interval of the `r`-th largest of the events of `n` years is `n / r`, up to a day. -/
theorem C133_interval_partial (n r : ℕ) (hr : 1 ≤ r) :
    |interval ⌊(n : ℚ) * 365.25⌋₊ r * r - n| ≤ 1 / 365.25 := by
  have h1 := Nat.floor_le (a := (n : ℚ) * 365.25) (by positivity)
  have h2 := Nat.lt_floor_add_one ((n : ℚ) * 365.25)
  have hr' : (r : ℚ) ≠ 0 := by positivity
  have : interval ⌊(n : ℚ) * 365.25⌋₊ r * r = ((⌊(n : ℚ) * 365.25⌋₊ : ℚ) + 1) / 365.25 := by
    unfold interval
    field_simp
  rw [this, abs_le]
  generalize (⌊(n : ℚ) * 365.25⌋₊ : ℚ) = d at *
  constructor
  · rw [neg_le_sub_iff_le_add, ← add_div, le_div_iff₀ (by norm_num)]
    linarith
  · rw [sub_le_iff_le_add, div_le_iff₀ (by norm_num)]
    linarith

/-- C133 fails with several years per simulation: the intervals are those of the number of simulations, shorter by that
factor than the simulated time. -/
theorem C133_years_fails (n years r : ℕ) (hn : 1 ≤ n) (hy : 2 ≤ years) (hr : 1 ≤ r) :
    interval ⌊(n : ℚ) * 365.25⌋₊ r < 0.51 * ((n * years : ℕ) / r : ℚ) := by
  have h := C133_interval_partial n r hr
  rw [abs_le] at h
  have hr' : (0 : ℚ) < r := by exact_mod_cast hr
  rw [← mul_lt_mul_iff_of_pos_right hr']
  have e : 0.51 * ((n * years : ℕ) / r : ℚ) * r = 0.51 * (n * years) := by push_cast; field_simp
  rw [e]
  have h1 : (1 : ℚ) ≤ n := by exact_mod_cast hn
  have h2 : (2 : ℚ) ≤ years := by exact_mod_cast hy
  have h3 : (n : ℚ) * 2 ≤ n * years := by nlinarith
  have h4 : (1 : ℚ) / 365.25 < 0.02 := by norm_num
  nlinarith [h.2]

/-- C133: the fitted curve is that of the grid point found for the location, in the units of the plot; the points do not
depend on the units. -/
theorem C133_curve (units : String) (n : ℕ) (lon lat years : List ℚ) (wspd : ℕ → ℕ → ℕ → ℝ) (plon plat : ℚ) (recs : List ℝ)
    {i j : ℕ} (hi : Grid.findIndex lon plon = .ok i) (hj : Grid.findIndex lat plat = .ok j) {events : List ℝ}
    (he : allEvents n recs = some events) :
    ∃ c, hazardCurve units n lon lat years wspd plon plat recs = some c ∧ c.points = scatter events ∧
      ∀ k y, years[k]? = some y → c.fitted[k]? = some (y, Units.convert (wspd k j i) "mps" units) := by
  refine ⟨⟨years.mapIdx fun k y => (y, Units.convert (wspd k j i) "mps" units), scatter events⟩,
    by unfold hazardCurve; rw [hi, hj, he], rfl, ?_⟩
  intro k y hy
  simp only
  rw [List.getElem?_mapIdx, hy]
  rfl

/-- C133 fails for other units than metres per second: the fitted curve is drawn in kilometres per hour, the events that
it describes are not, so that a level equal to the speed of the events is drawn 3.6 times as high. -/
theorem C133_units_fails (v : ℝ) : Units.convert v "mps" "kph" = 3.6 * v := by
  have h : Units.lookup "mps" "kph" = some (3.6, 0) := by decide +kernel
  unfold Units.convert
  rw [if_neg (by decide), show Units.standardName "mps" = "mps" by decide]
  rw [show Units.pre "mps" "kph" = 0 by decide +kernel, show Units.post "mps" "kph" = 0 by decide +kernel]
  simp only [Units.scale, h]
  norm_num
  ring

/-- C133 fails for the unit `kmh`, which can be configured: the levels are labelled km/h and not converted at all. -/
theorem C133_kmh_fails : ("kmh", "km/h") ∈ plotUnits ∧ ∀ v : ℝ, Units.convert v "mps" "kmh" = v := by
  refine ⟨by decide, fun v => ?_⟩
  have h : Units.lookup "mps" "kmh" = none := by decide +kernel
  unfold Units.convert
  rw [if_neg (by decide), show Units.standardName "mps" = "mps" by decide]
  rw [show Units.pre "mps" "kmh" = 0 by decide +kernel, show Units.post "mps" "kmh" = 0 by decide +kernel]
  simp only [Units.scale, h]
  norm_num

/-- Two events in ten simulated years. -/
example : ([50, 30] : List ℝ).length ≤ ⌊((10 : ℕ) : ℚ) * 365.25⌋₊ ∧ Rank [30, 50] 1 50 ∧
    1 < interval ⌊((10 : ℕ) : ℚ) * 365.25⌋₊ 1 := by
  have h : ⌊((10 : ℕ) : ℚ) * 365.25⌋₊ = 3652 := by decide +kernel
  rw [h]
  refine ⟨by simp, ⟨[50, 30], List.Perm.swap _ _ _, by simp; norm_num, rfl⟩, by norm_num [interval]⟩

/-- The levels between `lo` and `hi`, where `hi` has the order of magnitude `e`. -/
theorem levels_eq {lo hi : ℚ} (h0 : 0 < hi) (hlo : lo < hi) {e : ℤ} (he1 : (10 : ℚ) ^ e ≤ hi) (he2 : hi < 10 ^ (e + 1)) :
    levels hi lo = match levelOpts.find? (fun o => 7 < (hi - lo) / (10 : ℚ) ^ e / o) with
      | none => .error .index
      | some o => .ok (arange lo hi (o * (10 : ℚ) ^ e), e) := by
  have hlog : Int.log 10 hi = e := by
    have h1 : e ≤ Int.log 10 hi := (Int.zpow_le_iff_le_log (by norm_num) h0).1 (by exact_mod_cast he1)
    have h2 : Int.log 10 hi < e + 1 := (Int.lt_zpow_iff_log_lt (by norm_num) h0).1 (by exact_mod_cast he2)
    omega
  unfold levels
  rw [if_neg hlo.ne']
  simp only
  rw [max_eq_left hlo.le, min_eq_right hlo.le, if_neg (not_le.2 h0), hlog, zpow_neg, ← div_eq_mul_inv]
  generalize List.find? _ levelOpts = q
  cases q <;> rfl

theorem arange_facts {lo hi s : ℚ} (hs : 0 < s) {a b : ℕ} (ha : (a : ℚ) < (hi - lo) / s) (hb : (hi - lo) / s ≤ b) :
    ∃ n, arange lo hi s = (List.range n).map (fun i : ℕ => lo + i * s) ∧ a + 1 ≤ n ∧ n ≤ b ∧
      lo + ((n : ℚ) - 1) * s < hi ∧ hi ≤ lo + n * s := by
  refine ⟨⌈(hi - lo) / s⌉₊, rfl, Nat.lt_ceil.2 ha, Nat.ceil_le.2 hb, ?_, ?_⟩
  · have := Nat.ceil_lt_add_one (a := (hi - lo) / s) (le_trans (by positivity) ha.le)
    have h2 : ((⌈(hi - lo) / s⌉₊ : ℚ) - 1) < (hi - lo) / s := by linarith
    rw [lt_div_iff₀ hs] at h2
    linarith
  · have := Nat.le_ceil ((hi - lo) / s)
    rw [div_le_iff₀ hs] at this
    linarith

/-- C134: contour levels for values between `lo` and `hi`, not negative: equally spaced from the least value at a step of
1, 0.5, 0.25, 0.2 or 0.1 times the order of magnitude of the greatest, eight to fourteen of them, the last less than a
step below the greatest value. -/
theorem C134_levels {lo hi : ℚ} (h0 : 0 ≤ lo) (e : ℤ) (he1 : (10 : ℚ) ^ e ≤ hi) (he2 : hi < 10 ^ (e + 1))
    (hw : 0.7 * (10 : ℚ) ^ e < hi - lo) :
    ∃ o n, o ∈ ([1, 0.5, 0.25, 0.2, 0.1] : List ℚ) ∧ 8 ≤ n ∧ n ≤ 14 ∧
      levels hi lo = .ok ((List.range n).map (fun i : ℕ => lo + i * (o * 10 ^ e)), e) ∧
      lo + ((n : ℚ) - 1) * (o * 10 ^ e) < hi ∧ hi ≤ lo + n * (o * 10 ^ e) := by
  have hp : (0 : ℚ) < 10 ^ e := by positivity
  have hhi : 0 < hi := lt_of_lt_of_le hp he1
  have hlo : lo < hi := by
    have : (0 : ℚ) < 0.7 * 10 ^ e := by positivity
    linarith
  rw [levels_eq hhi hlo he1 he2]
  have hsig : (hi - lo) / 10 ^ e < 10 := by
    rw [div_lt_iff₀ hp, ← zpow_one_add₀ (by norm_num), add_comm]
    linarith
  have hsig0 : 0.7 < (hi - lo) / 10 ^ e := by rw [lt_div_iff₀ hp]; exact hw
  have hdiv : ∀ o : ℚ, (hi - lo) / (o * 10 ^ e) = (hi - lo) / 10 ^ e / o := fun o => by
    rw [div_div, mul_comm]
  have key : ∀ o : ℚ, 0 < o → levelOpts.find? (fun o => 7 < (hi - lo) / (10 : ℚ) ^ e / o) = some o →
      o ∈ ([1, 0.5, 0.25, 0.2, 0.1] : List ℚ) → 7 < (hi - lo) / 10 ^ e / o → (hi - lo) / 10 ^ e / o ≤ 14 →
      ∃ o n, o ∈ ([1, 0.5, 0.25, 0.2, 0.1] : List ℚ) ∧ 8 ≤ n ∧ n ≤ 14 ∧
      (match levelOpts.find? (fun o => 7 < (hi - lo) / (10 : ℚ) ^ e / o) with
      | none => .error .index
      | some o => .ok (arange lo hi (o * (10 : ℚ) ^ e), e)) =
        (.ok ((List.range n).map (fun i : ℕ => lo + i * (o * 10 ^ e)), e) : Except Err _) ∧
      lo + ((n : ℚ) - 1) * (o * 10 ^ e) < hi ∧ hi ≤ lo + n * (o * 10 ^ e) := by
    intro o ho hf hm h7 h14
    obtain ⟨n, h1, h2, h3, h4, h5⟩ := arange_facts (lo := lo) (hi := hi) (s := o * 10 ^ e) (by positivity) (a := 7) (b := 14)
      (by rw [hdiv]; exact_mod_cast h7) (by rw [hdiv]; exact_mod_cast h14)
    refine ⟨o, n, hm, h2, h3, ?_, h4, h5⟩
    rw [hf]
    simp only
    rw [h1]
  generalize (hi - lo) / (10 : ℚ) ^ e = s at *
  have no : ∀ {o : ℚ}, 0 < o → s ≤ 7 * o → decide (7 < s / o) = false := fun ho h =>
    decide_eq_false (by rw [not_lt, div_le_iff₀ ho]; exact h)
  have yes : ∀ {o : ℚ}, 0 < o → 7 * o < s → decide (7 < s / o) = true := fun ho h =>
    decide_eq_true (by rw [lt_div_iff₀ ho]; exact h)
  have yes' : ∀ {o : ℚ}, 0 < o → 7 * o < s → 7 < s / o := fun ho h => by rw [lt_div_iff₀ ho]; exact h
  have top : ∀ {o : ℚ}, 0 < o → s ≤ 14 * o → s / o ≤ 14 := fun ho h => by rw [div_le_iff₀ ho]; exact h
  have n5 : decide (7 < s / 5) = false := no (by norm_num) (by linarith)
  rcases lt_or_ge 7 s with h | h1
  · exact key 1 (by norm_num) (by simp only [levelOpts, List.find?_cons, n5, yes (o := 1) (by norm_num) (by linarith)])
      (by simp) (yes' (by norm_num) (by linarith)) (top (by norm_num) (by linarith))
  have n1 : decide (7 < s / 1) = false := no (by norm_num) (by linarith)
  rcases lt_or_ge 3.5 s with h | h2
  · exact key 0.5 (by norm_num) (by simp only [levelOpts, List.find?_cons, n5, n1, yes (o := 0.5) (by norm_num) (by linarith)])
      (by simp) (yes' (by norm_num) (by linarith)) (top (by norm_num) (by linarith))
  have n2 : decide (7 < s / 0.5) = false := no (by norm_num) (by linarith)
  rcases lt_or_ge 1.75 s with h | h3
  · exact key 0.25 (by norm_num)
      (by simp only [levelOpts, List.find?_cons, n5, n1, n2, yes (o := 0.25) (by norm_num) (by linarith)])
      (by simp) (yes' (by norm_num) (by linarith)) (top (by norm_num) (by linarith))
  have n3 : decide (7 < s / 0.25) = false := no (by norm_num) (by linarith)
  rcases lt_or_ge 1.4 s with h | h4
  · exact key 0.2 (by norm_num)
      (by simp only [levelOpts, List.find?_cons, n5, n1, n2, n3, yes (o := 0.2) (by norm_num) (by linarith)])
      (by simp) (yes' (by norm_num) (by linarith)) (top (by norm_num) (by linarith))
  have n4 : decide (7 < s / 0.2) = false := no (by norm_num) (by linarith)
  exact key 0.1 (by norm_num)
    (by simp only [levelOpts, List.find?_cons, n5, n1, n2, n3, n4, yes (o := 0.1) (by norm_num) (by linarith)])
    (by simp) (yes' (by norm_num) (by linarith)) (top (by norm_num) (by linarith))

/-- C134: maps of values from 0 upwards, as all maps of the program are, always get their levels. -/
theorem C134_from_zero {hi : ℚ} (h : 0 < hi) : ∃ s n, 0 < s ∧ 8 ≤ n ∧ n ≤ 14 ∧
    (∃ e, levels hi 0 = .ok ((List.range n).map (fun i : ℕ => i * s), e)) ∧ ((n : ℚ) - 1) * s < hi ∧ hi ≤ n * s := by
  have he1 : (10 : ℚ) ^ Int.log 10 hi ≤ hi := by exact_mod_cast Int.zpow_log_le_self (b := 10) (by norm_num) h
  have he2 : hi < (10 : ℚ) ^ (Int.log 10 hi + 1) := by exact_mod_cast Int.lt_zpow_succ_log_self (b := 10) (by norm_num) hi
  have hp : (0 : ℚ) < 10 ^ Int.log 10 hi := by positivity
  obtain ⟨o, n, ho, h1, h2, h3, h4, h5⟩ := C134_levels le_rfl _ he1 he2 (by linarith)
  have ho' : 0 < o := by
    simp only [List.mem_cons, List.not_mem_nil, or_false] at ho
    rcases ho with rfl | rfl | rfl | rfl | rfl <;> norm_num
  refine ⟨o * 10 ^ Int.log 10 hi, n, by positivity, h1, h2, ⟨Int.log 10 hi, ?_⟩, by linarith, by linarith⟩
  rw [h3]
  simp only [zero_add]

/-- C134 does not extend to ranges that are narrow for their order of magnitude (pressures, say): these raise. -/
theorem C134_narrow_range {lo hi : ℚ} (hlo : lo < hi) (h0 : 0 < hi) (e : ℤ) (he1 : (10 : ℚ) ^ e ≤ hi)
    (he2 : hi < 10 ^ (e + 1)) : levels hi lo = .error .index ↔ hi - lo ≤ 0.7 * 10 ^ e := by
  have hp : (0 : ℚ) < 10 ^ e := by positivity
  rw [levels_eq h0 hlo he1 he2]
  have hs : hi - lo ≤ 0.7 * 10 ^ e ↔ (hi - lo) / 10 ^ e ≤ 0.7 := by rw [div_le_iff₀ hp]
  rw [hs]
  have hiff : levelOpts.find? (fun o => 7 < (hi - lo) / (10 : ℚ) ^ e / o) = none ↔ (hi - lo) / 10 ^ e ≤ 0.7 := by
    generalize (hi - lo) / (10 : ℚ) ^ e = s
    simp only [levelOpts, List.find?_eq_none, List.mem_cons, List.not_mem_nil, or_false, forall_eq_or_imp, forall_eq,
      decide_eq_true_eq, not_lt]
    rw [div_le_iff₀ (by norm_num), div_le_iff₀ (by norm_num), div_le_iff₀ (by norm_num), div_le_iff₀ (by norm_num),
      div_le_iff₀ (by norm_num), div_le_iff₀ (by norm_num)]
    constructor
    · rintro ⟨_, _, _, _, _, h⟩; linarith
    · intro h; refine ⟨?_, ?_, ?_, ?_, ?_, ?_⟩ <;> linarith
  rw [← hiff]
  cases List.find? (fun o => decide (7 < (hi - lo) / (10 : ℚ) ^ e / o)) levelOpts <;> simp

/-- Values up to 37: eight levels at a step of 5; and pressures from 950 to 1000, whose levels raise. -/
example : levels 37 0 = .ok ([0, 5, 10, 15, 20, 25, 30, 35], 1) ∧ levels 1000 950 = .error .index ∧
    levels 0 0 = .error .value := by
  decide +kernel

end Tcrm.Plots
