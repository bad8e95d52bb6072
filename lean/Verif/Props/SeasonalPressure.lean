import Verif.Model.SeasonalPressure
import Mathlib.Algebra.BigOperators.Group.Finset.Basic
import Mathlib.Algebra.Order.BigOperators.Group.Finset
import Mathlib.Algebra.BigOperators.Ring.Finset
import Mathlib.Data.List.Sort
import Mathlib.Tactic.Linarith
import Mathlib.Tactic.NormNum
/-!
C214: the seasonal mean of the pressure.
-/
namespace Tcrm.SeasonalPressure

/-- The mean over the set of months of the values of row `r` and column `i`, months counted from 1 -/
def monthMean (f : Monthly) (S : Finset ℤ) (r i : ℕ) : ℚ := (∑ m ∈ S, f.value (m - 1).toNat r i) / S.card

theorem npIndex_month {n : ℕ} {m : ℤ} (h1 : 1 ≤ m) (h2 : m ≤ n) : npIndex n (m - 1) = .ok (m - 1).toNat := by
  rw [npIndex, if_pos ⟨by omega, by omega⟩]

theorem npIndex_error {n : ℕ} {i : ℤ} : npIndex n i = .error .index ↔ i < -(n : ℤ) ∨ (n : ℤ) ≤ i := by
  unfold npIndex
  split
  · simp; omega
  · split
    · simp; omega
    · simp; omega

theorem mapM_month {n : ℕ} : ∀ {l : List ℤ}, (∀ m ∈ l, 1 ≤ m ∧ m ≤ n) →
    l.mapM (fun month => npIndex n (month - 1)) = .ok (l.map fun m => (m - 1).toNat)
  | [], _ => rfl
  | m :: l, h => by
    have hm := h m (by simp)
    rw [List.mapM_cons, npIndex_month hm.1 hm.2, mapM_month fun m' h' => h m' (by simp [h'])]
    rfl

/-- C214: for months of the file, in any order and with repetitions, the mean is that over the set of these months; its rows
are in the reverse order. -/
theorem C214_mean (f : Monthly) (selected : List ℤ) (hne : selected ≠ []) (h : ∀ m ∈ selected, 1 ≤ m ∧ m ≤ f.months) :
    ∃ g, seasonal f selected = .ok g ∧ g.lon = f.lon ∧ g.lat = f.lat ∧
      ∀ j i, g.mean j i = some (monthMean f selected.toFinset (f.lat.length - 1 - j) i) := by
  refine ⟨_, by rw [seasonal, mapM_month fun m hm => h m (List.mem_dedup.1 hm)]; rfl, rfl, rfl, fun j i => ?_⟩
  have hd : selected.dedup ≠ [] := by simpa using hne
  simp only [List.map_eq_nil_iff, hd, if_false, List.map_map, List.length_map, monthMean, List.card_toFinset]
  rw [List.sum_toFinset _ (List.nodup_dedup selected) |>.symm]
  rw [show selected.dedup.toFinset = selected.toFinset by ext m; simp]
  simp

/-- C214: only which months are selected matters. -/
theorem C214_set (f : Monthly) (s t : List ℤ) (hs : s ≠ []) (h : ∀ m ∈ s, 1 ≤ m ∧ m ≤ f.months)
    (hst : ∀ m, m ∈ s ↔ m ∈ t) : ∃ g g', seasonal f s = .ok g ∧ seasonal f t = .ok g' ∧ ∀ j i, g.mean j i = g'.mean j i := by
  obtain ⟨x, hx⟩ := List.exists_mem_of_ne_nil s hs
  obtain ⟨g, hg, _, _, hm⟩ := C214_mean f s hs h
  obtain ⟨g', hg', _, _, hm'⟩ := C214_mean f t (List.ne_nil_of_mem ((hst x).1 hx)) fun m hm => h m ((hst m).2 hm)
  refine ⟨g, g', hg, hg', fun j i => ?_⟩
  rw [hm, hm', show s.toFinset = t.toFinset by ext m; simp [hst m]]

/-- C214: the mean is between the bounds of the monthly values. -/
theorem C214_between (f : Monthly) (selected : List ℤ) (hne : selected ≠ []) (h : ∀ m ∈ selected, 1 ≤ m ∧ m ≤ f.months)
    (lo hi : ℚ) (r i : ℕ) (hb : ∀ m ∈ selected, lo ≤ f.value (m - 1).toNat r i ∧ f.value (m - 1).toNat r i ≤ hi)
    (hr : r < f.lat.length) : ∃ g v, seasonal f selected = .ok g ∧ g.mean (f.lat.length - 1 - r) i = some v ∧ lo ≤ v ∧ v ≤ hi := by
  obtain ⟨g, hg, _, _, hm⟩ := C214_mean f selected hne h
  obtain ⟨x, hx⟩ := List.exists_mem_of_ne_nil selected hne
  have hc : (0 : ℚ) < selected.toFinset.card := by
    exact_mod_cast Finset.card_pos.2 ⟨x, List.mem_toFinset.2 hx⟩
  refine ⟨g, _, hg, hm _ _, ?_⟩
  rw [show f.lat.length - 1 - (f.lat.length - 1 - r) = r by omega, monthMean]
  constructor
  · rw [le_div_iff₀ hc, mul_comm, ← nsmul_eq_mul]
    exact Finset.card_nsmul_le_sum _ _ _ fun m hm => (hb m (List.mem_toFinset.1 hm)).1
  · rw [div_le_iff₀ hc, mul_comm, ← nsmul_eq_mul]
    exact Finset.sum_le_card_nsmul _ _ _ fun m hm => (hb m (List.mem_toFinset.1 hm)).2

theorem mapM_error {n : ℕ} : ∀ {l : List ℤ}, l.mapM (fun month => npIndex n (month - 1)) = .error .index ↔
    ∃ m ∈ l, m - 1 < -(n : ℤ) ∨ (n : ℤ) ≤ m - 1
  | [] => by simp [pure, Except.pure]
  | m :: l => by
    rw [List.mapM_cons]
    cases hm : npIndex n (m - 1) with
    | error e =>
      cases e with
      | index => simp only [bind, Except.bind, true_iff]; exact ⟨m, by simp, npIndex_error.1 hm⟩
      | notFound =>
        unfold npIndex at hm
        split at hm
        · simp at hm
        · split at hm <;> simp at hm
    | ok k =>
      have hn : ¬ (m - 1 < -(n : ℤ) ∨ (n : ℤ) ≤ m - 1) := by
        rw [← npIndex_error, hm]; simp
      have ih := mapM_error (n := n) (l := l)
      simp only [List.mem_cons, exists_eq_or_imp, hn, false_or]
      rw [← ih]
      cases hl : l.mapM (fun month => npIndex n (month - 1)) with
      | error e => simp [bind, Except.bind]
      | ok ks => simp [bind, Except.bind, pure, Except.pure]

/-- C214: the selection is refused just if a month is after the last one of the file, or so far before the first that
counting from the end does not reach it. -/
theorem C214_refused (f : Monthly) (selected : List ℤ) :
    seasonal f selected = .error .index ↔ ∃ m ∈ selected, m ≤ -(f.months : ℤ) ∨ (f.months : ℤ) < m := by
  have h := mapM_error (n := f.months) (l := selected.dedup)
  have e : (∃ m ∈ selected, m ≤ -(f.months : ℤ) ∨ (f.months : ℤ) < m) ↔
      ∃ m ∈ selected.dedup, m - 1 < -(f.months : ℤ) ∨ (f.months : ℤ) ≤ m - 1 := by
    simp only [List.mem_dedup]
    constructor <;> rintro ⟨m, hm, h⟩ <;> exact ⟨m, hm, by omega⟩
  rw [e, ← h, seasonal]
  cases selected.dedup.mapM (fun month => npIndex f.months (month - 1)) with
  | error e => simp [bind, Except.bind]
  | ok ks => simp [bind, Except.bind, pure, Except.pure]

/-- C214 (the failure): month 0 is not refused, but taken for the last month of the file. -/
theorem C214_month_zero_fails (f : Monthly) (h : 0 < f.months) :
    ∃ g, seasonal f [0] = .ok g ∧ ∀ j i, g.mean j i = some (f.value (f.months - 1) (f.lat.length - 1 - j) i) := by
  have hi : npIndex f.months ((0 : ℤ) - 1) = .ok (f.months - 1) := by
    rw [npIndex, if_neg (by omega), if_pos ⟨by omega, by omega⟩]
    congr 1; omega
  refine ⟨⟨f.lon, f.lat, fun j i => some (f.value (f.months - 1) (f.lat.length - 1 - j) i)⟩, ?_, fun _ _ => rfl⟩
  rw [seasonal, show ([0] : List ℤ).dedup = [0] by decide, List.mapM_cons, hi]
  simp [bind, Except.bind, pure, Except.pure]

/-- C214 (the failure): a selection without any month is not refused: all means are nan. -/
theorem C214_no_month_fails (f : Monthly) : ∃ g, seasonal f [] = .ok g ∧ ∀ j i, g.mean j i = none := by
  refine ⟨⟨f.lon, f.lat, fun _ _ => none⟩, ?_, fun _ _ => rfl⟩
  simp [seasonal, bind, Except.bind, pure, Except.pure]

/-! ### Sampling -/

/-- Between points `k` and `k + 1` of an increasing axis `k + 1` points are below. -/
theorem searchsorted_between : ∀ {l : List ℚ} {x : ℚ} {k : ℕ}, l.Pairwise (· < ·) → (hk : k < l.length) → l[k] < x →
    (∀ h : k + 1 < l.length, x ≤ l[k + 1]) → searchsorted l x = k + 1
  | [], _, _, _, hk, _, _ => by simp at hk
  | a :: l, x, k, hp, hk, h1, h2 => by
    obtain ⟨ha, hp⟩ := List.pairwise_cons.1 hp
    cases k with
    | zero =>
      have hax : a < x := by simpa using h1
      cases l with
      | nil => simp [searchsorted, hax]
      | cons b l =>
        have hb : ¬ b < x := not_lt.2 (by simpa using h2 (by simp))
        simp [searchsorted, hax, hb]
    | succ k =>
      have hk' : k < l.length := by simpa using hk
      have h1' : l[k] < x := by simpa using h1
      have hax : a < x := lt_trans (ha _ (List.getElem_mem hk')) h1'
      have ih := searchsorted_between (l := l) hp hk' h1' fun h => by
        have := h2 (by simpa using h)
        simpa using this
      simp only [searchsorted] at ih ⊢
      simp [hax, ih]

/-- At or below the first point of an increasing axis no points are below. -/
theorem searchsorted_first {l : List ℚ} {x : ℚ} (h0 : 0 < l.length) (h : x ≤ l[0]) : searchsorted l x = 0 := by
  cases l with
  | nil => simp at h0
  | cons a l =>
    have : ¬ a < x := not_lt.2 (by simpa using h)
    simp [searchsorted, this]

theorem npIndex_point {n k : ℕ} (h : k < n) : npIndex n (((k + 1 : ℕ) : ℤ) - 1) = .ok k := by
  rw [npIndex, if_pos ⟨by omega, by omega⟩]
  congr 1; omega

theorem npIndex_last {n : ℕ} (h : 0 < n) : npIndex n (((0 : ℕ) : ℤ) - 1) = .ok (n - 1) := by
  rw [npIndex, if_neg (by omega), if_pos ⟨by omega, by omega⟩]
  congr 1; omega

/-- Point `k` of an axis is the last one below `x`. -/
def LastBelow (l : List ℚ) (x : ℚ) (k : ℕ) : Prop :=
  ∃ hk : k < l.length, l[k] < x ∧ ∀ h : k + 1 < l.length, x ≤ l[k + 1]

/-- C214: with increasing axes the value at a place is the mean at the last longitude below it (no interpolation, and not
always the nearest), and at the latitude that is as far from the end of the axis as the last one below it is from the start. -/
theorem C214_sample (f : Monthly) (selected : List ℤ) (hne : selected ≠ []) (h : ∀ m ∈ selected, 1 ≤ m ∧ m ≤ f.months)
    (hlon : f.lon.Pairwise (· < ·)) (hlat : f.lat.Pairwise (· < ·)) (x y : ℚ) (i j : ℕ) (hi : LastBelow f.lon x i)
    (hj : LastBelow f.lat y j) :
    ∃ g, seasonal f selected = .ok g ∧
      sample g x y = .ok (some (monthMean f selected.toFinset (f.lat.length - 1 - j) i)) := by
  obtain ⟨g, hg, h1, h2, hm⟩ := C214_mean f selected hne h
  obtain ⟨hik, hi1, hi2⟩ := hi
  obtain ⟨hjk, hj1, hj2⟩ := hj
  refine ⟨g, hg, ?_⟩
  simp only [sample, h1, h2, searchsorted_between hlon hik hi1 hi2, searchsorted_between hlat hjk hj1 hj2,
    npIndex_point hik, npIndex_point hjk, bind, Except.bind, pure, Except.pure, hm]

/-- C214 (part): the value is that of the last latitude below the place if the monthly values are the same at latitudes
equally far from the ends of the axis; so it is for a place in the middle one of an odd number of rows. -/
theorem C214_sample_partial (f : Monthly) (selected : List ℤ) (hne : selected ≠ [])
    (h : ∀ m ∈ selected, 1 ≤ m ∧ m ≤ f.months) (hlon : f.lon.Pairwise (· < ·)) (hlat : f.lat.Pairwise (· < ·)) (x y : ℚ)
    (i j : ℕ) (hi : LastBelow f.lon x i) (hj : LastBelow f.lat y j)
    (hsym : ∀ m ∈ selected, f.value (m - 1).toNat (f.lat.length - 1 - j) i = f.value (m - 1).toNat j i) :
    ∃ g, seasonal f selected = .ok g ∧ sample g x y = .ok (some (monthMean f selected.toFinset j i)) := by
  obtain ⟨g, hg, hs⟩ := C214_sample f selected hne h hlon hlat x y i j hi hj
  refine ⟨g, hg, ?_⟩
  rw [hs, monthMean, monthMean, Finset.sum_congr rfl fun m hm => hsym m (List.mem_toFinset.1 hm)]

/-- C214 (the failure): a place at or west of the first longitude gets the value of the last one. (At or below the first
latitude the same error and the reversed rows cancel out.) -/
theorem C214_edge_fails (f : Monthly) (selected : List ℤ) (hne : selected ≠ []) (h : ∀ m ∈ selected, 1 ≤ m ∧ m ≤ f.months)
    (h0 : 0 < f.lon.length) (h1 : 0 < f.lat.length) (x y : ℚ) (hx : x ≤ f.lon[0]) (hy : y ≤ f.lat[0]) :
    ∃ g, seasonal f selected = .ok g ∧
      sample g x y = .ok (some (monthMean f selected.toFinset 0 (f.lon.length - 1))) := by
  obtain ⟨g, hg, hl1, hl2, hm⟩ := C214_mean f selected hne h
  refine ⟨g, hg, ?_⟩
  simp only [sample, hl1, hl2, searchsorted_first h0 hx, searchsorted_first h1 hy, npIndex_last h0, npIndex_last h1, bind,
    Except.bind, pure, Except.pure, hm, Nat.sub_self]

/-- A file with three longitudes, three latitudes and two months -/
def exFile : Monthly :=
  { lon := [100, 110, 120], lat := [-30, -20, -10], months := 2,
    value := fun m r i => 1000 + 10 * r + i + 4 * m }

/-- C214 (the failure): the sample is not the value at the nearest point: at one that is all but on the southern row of a
file it is the value of the northern row, and of the longitude to the west although the next one is nearer. -/
theorem C214_nearest_fails : ∃ g, seasonal exFile [1, 2] = .ok g ∧
    sample g 119 (-29) = .ok (some (monthMean exFile {1, 2} 2 1)) ∧
    monthMean exFile {1, 2} 2 1 = 1023 ∧ monthMean exFile {1, 2} 0 2 = 1004 := by
  obtain ⟨g, hg, hs⟩ := C214_sample exFile [1, 2] (by decide) (by decide) (by decide +kernel) (by decide +kernel) 119 (-29) 1 0
    (by refine ⟨by decide, ?_, fun _ => ?_⟩ <;> simp [exFile] <;> norm_num)
    (by refine ⟨by decide, ?_, fun _ => ?_⟩ <;> simp [exFile] <;> norm_num)
  refine ⟨g, hg, hs, ?_, ?_⟩ <;> decide +kernel

/-- C214 (the failure): a file that is given but is not there is not reported: the one that comes with the program is read. -/
theorem C214_file_fails {P : Type} (isFile : P → Bool) (given own : P) (hg : isFile given = false) (ho : isFile own = true) :
    chooseFile isFile given own = .ok own := by
  simp [chooseFile, hg, ho]

/-- C214: a file that is there is read, and without any the object is not made. -/
theorem C214_file {P : Type} (isFile : P → Bool) (given own : P) :
    (isFile given = true → chooseFile isFile given own = .ok given) ∧
    (chooseFile isFile given own = .error .notFound ↔ isFile given = false ∧ isFile own = false) := by
  cases h1 : isFile given <;> cases h2 : isFile own <;> simp [chooseFile, h1, h2]

-- the hypotheses of `C214_mean`, `C214_set`, `C214_between`
example : ∀ m ∈ ([2, 1, 2] : List ℤ), 1 ≤ m ∧ m ≤ exFile.months := by decide

example : ((seasonal exFile [2, 1, 2]).toOption.bind fun g => g.mean 0 1) = some 1023 := by decide +kernel

-- the middle row, `C214_sample_partial`
example : ((seasonal exFile [2]).toOption.map fun g => sample g 105 (-15)) = some (.ok (some 1014)) := by decide +kernel

-- outside the grid, `C214_edge_fails`
example : ((seasonal exFile [1]).toOption.map fun g => sample g 100 (-30)) = some (.ok (some 1002)) := by decide +kernel

example : seasonal exFile [1, 3] = .error .index := (C214_refused _ _).2 ⟨3, by decide, by decide⟩

end Tcrm.SeasonalPressure
