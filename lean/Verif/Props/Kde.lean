import Verif.Model.Kde
import Verif.Props.Cdf
import Mathlib.Tactic.Linarith
import Mathlib.Tactic.Ring
import Mathlib.Tactic.FieldSimp
import Mathlib.Tactic.ByContra
import Mathlib.Order.Interval.Finset.Basic
import Mathlib.Data.Int.Interval

/-!
C113: the distributions of cyclone parameters are distribution functions on the range observed.
C114: densities of days and bearings are those of a circle.
-/

namespace Tcrm.Kde

open Tcrm.Cdf (Err)

/-- Rows (value, density, cumulative) that describe a distribution: values increase, densities are
not negative, the cumulative values are the shares of the total, and end with 1. -/
structure IsDistribution (t : List (ℚ × ℚ × ℚ)) : Prop where
  increasing : (t.map (·.1)).Pairwise (· < ·)
  density : ∀ r ∈ t, 0 ≤ r.2.1
  share : ∀ (i : ℕ) (r : ℚ × ℚ × ℚ), t[i]? = some r →
    r.2.2 = ((t.take (i + 1)).map (·.2.1)).sum / (t.map (·.2.1)).sum
  last : ∃ r, t.getLast? = some r ∧ r.2.2 = 1

theorem mem_arange {a b d v : ℚ} (hd : 0 < d) :
    v ∈ arange a b d ↔ ∃ i : ℕ, v = a + i * d ∧ v < b := by
  unfold arange
  simp only [List.mem_map, List.mem_range]
  have key : ∀ i : ℕ, i < ⌈(b - a) / d⌉.toNat ↔ a + i * d < b := by
    intro i
    rw [Int.lt_toNat, Int.lt_ceil, lt_div_iff₀ hd]
    constructor <;> intro h <;> push_cast at * <;> linarith
  constructor
  · rintro ⟨i, hi, rfl⟩
    exact ⟨i, rfl, (key i).mp hi⟩
  · rintro ⟨i, rfl, h⟩
    exact ⟨i, (key i).mpr h, rfl⟩

theorem arange_increasing (a b : ℚ) {d : ℚ} (hd : 0 < d) :
    (arange a b d).Pairwise (· < ·) := by
  unfold arange
  rw [List.pairwise_map]
  refine List.pairwise_lt_range.imp fun {i j} h => ?_
  have : (i : ℚ) < j := by exact_mod_cast h
  nlinarith

theorem arange_length (a b d : ℚ) : (arange a b d).length = ⌈(b - a) / d⌉.toNat := by
  simp [arange]

theorem two_le_arange {a b d : ℚ} (hd : 0 < d) : 2 ≤ (arange a b d).length ↔ d < b - a := by
  rw [arange_length]
  rw [show (2 ≤ ⌈(b - a) / d⌉.toNat) ↔ 1 < ⌈(b - a) / d⌉.toNat from Iff.rfl, Int.lt_toNat, Int.lt_ceil,
    lt_div_iff₀ hd]
  push_cast
  rw [one_mul]

/-! #### What `fit` does -/

theorem noSpread_iff (l : List ℚ) : noSpread l = true ↔ l ≠ [] ∧ ∀ a ∈ l, ∀ b ∈ l, a = b := by
  cases l with
  | nil => simp [noSpread]
  | cons x l =>
    simp only [noSpread, List.all_eq_true, decide_eq_true_eq]
    constructor
    · intro h
      refine ⟨by simp, ?_⟩
      have : ∀ a ∈ x :: l, a = x := by
        intro a ha
        rcases List.mem_cons.mp ha with rfl | ha
        · rfl
        · exact h a ha
      intro a ha b hb
      rw [this a ha, this b hb]
    · rintro ⟨-, h⟩ a ha
      exact h a (by simp [ha]) x (by simp)

theorem fit_ok_iff (dens : Density) (data grid : List ℚ) (sub : List ℚ → List ℚ) (f : ℚ)
    (hs : ∀ l l' : List ℚ, l.length = l'.length → (sub l).length = (sub l').length) :
    (∃ t, fit dens data grid sub f = .ok t) ↔
      2 ≤ grid.length ∧ (∃ a ∈ data, ∃ b ∈ data, a ≠ b) ∧ 2 ≤ (sub grid).length := by
  unfold fit
  have hsp : (∃ a ∈ data, ∃ b ∈ data, a ≠ b) ↔ data ≠ [] ∧ noSpread data = false := by
    constructor
    · rintro ⟨a, ha, b, hb, hab⟩
      refine ⟨List.ne_nil_of_mem ha, ?_⟩
      rw [← Bool.not_eq_true, noSpread_iff]
      exact fun h => hab (h.2 a ha b hb)
    · rintro ⟨hne, h⟩
      rw [← Bool.not_eq_true, noSpread_iff] at h
      by_contra hcon
      push Not at hcon
      exact h ⟨hne, hcon⟩
  rw [hsp]
  by_cases h1 : grid.length < 2
  · simp [h1]
  · by_cases h2 : data = []
    · simp [h1, h2]
    · by_cases h3 : noSpread data = true
      · simp [h1, h2, h3]
      · have hl : (sub (grid.map (dens data))).length = (sub grid).length := hs _ _ (by simp)
        have herr := Cdf.C05_error_iff (sub grid) ((sub (grid.map (dens data))).map (f * ·))
        simp only [h1, h2, h3, if_false]
        have h3' : noSpread data = false := by simpa using h3
        simp only [h3', ne_eq, not_false_eq_true, true_and]
        have h1' : 2 ≤ grid.length := by omega
        simp only [h1', true_and]
        constructor
        · rintro ⟨t, ht⟩
          by_contra hcon
          have hcon : (sub grid).length < 2 := by
            by_contra h'
            exact hcon ⟨⟨h2, trivial⟩, by omega⟩
          obtain ⟨e, he⟩ := herr.mpr (.inl (by omega))
          simp [he] at ht
        · intro h
          cases hc : Cdf.cdf (sub grid) ((sub (grid.map (dens data))).map (f * ·)) with
          | ok cy => exact ⟨_, rfl⟩
          | error e =>
            rcases herr.mp ⟨e, hc⟩ with h' | h'
            · omega
            · have : (sub (grid.map (dens data))).length = 0 := by simpa using congrArg List.length h'
              omega

theorem fit_values (dens : Density) (data grid : List ℚ) (sub : List ℚ → List ℚ) (f : ℚ)
    (hs : ∀ (g : ℚ → ℚ) (l : List ℚ), sub (l.map g) = (sub l).map g)
    (t : List (ℚ × ℚ × ℚ)) (h : fit dens data grid sub f = .ok t) :
    ∃ cy, Cdf.cdf (sub grid) ((sub grid).map fun x => f * dens data x) = .ok cy ∧
      t = (sub grid).zip (((sub grid).map fun x => f * dens data x).zip cy) := by
  unfold fit at h
  split at h
  · simp at h
  split at h
  · simp at h
  split at h
  · simp at h
  rw [hs, List.map_map] at h
  simp only at h
  split at h
  · simp at h
  · rename_i cy hcy
    simp only [Except.ok.injEq] at h
    exact ⟨cy, hcy, h.symm⟩

theorem cdf_length (x y c : List ℚ) (h : Cdf.cdf x y = .ok c) : c.length = y.length := by
  match x with
  | [] => simp [Cdf.cdf] at h
  | [_] => simp [Cdf.cdf] at h
  | x0 :: x1 :: xs =>
    simp only [Cdf.cdf] at h
    split at h
    · simp at h
    · split at h
      · simp only [Except.ok.injEq] at h
        rw [← h]
        simp [Cdf.cumsum]
      · simp only [Except.ok.injEq] at h
        rw [← h]
        simp [Cdf.cumsum]

theorem fit_first (dens : Density) (data grid : List ℚ) (sub : List ℚ → List ℚ) (f : ℚ)
    (hs : ∀ (g : ℚ → ℚ) (l : List ℚ), sub (l.map g) = (sub l).map g)
    (t : List (ℚ × ℚ × ℚ)) (h : fit dens data grid sub f = .ok t) :
    t.map (·.1) = sub grid ∧ t.map (·.2.1) = (sub grid).map fun x => f * dens data x := by
  obtain ⟨cy, hcy, rfl⟩ := fit_values dens data grid sub f hs t h
  have hl := cdf_length _ _ _ hcy
  rw [List.length_map] at hl
  constructor
  · apply List.map_fst_zip
    simp [hl]
  · rw [show (fun x : ℚ × ℚ × ℚ => x.2.1) = Prod.fst ∘ Prod.snd from rfl, ← List.map_map,
      List.map_snd_zip (by simp [hl])]
    apply List.map_fst_zip
    simp [hl]

theorem fit_distribution (dens : Density) (data grid : List ℚ) (sub : List ℚ → List ℚ) (f : ℚ)
    (hf : 0 < f) (hs : ∀ (g : ℚ → ℚ) (l : List ℚ), sub (l.map g) = (sub l).map g)
    (hinc : (sub grid).Pairwise (· < ·)) (hd : ∀ x, 0 ≤ dens data x)
    (hpos : ∃ x ∈ sub grid, 0 < dens data x)
    (t : List (ℚ × ℚ × ℚ)) (h : fit dens data grid sub f = .ok t) : IsDistribution t := by
  obtain ⟨h1, h2⟩ := fit_first dens data grid sub f hs t h
  obtain ⟨cy, hcy, ht⟩ := fit_values dens data grid sub f hs t h
  set g := sub grid with hg
  set y := g.map fun x => f * dens data x with hy
  have hlen := cdf_length _ _ _ hcy
  have hyl : y.length = g.length := by simp [hy]
  have hy0 : ∀ v ∈ y, 0 ≤ v := by
    intro v hv
    obtain ⟨x, -, rfl⟩ := List.mem_map.mp hv
    exact mul_nonneg hf.le (hd x)
  have hysum : 0 < y.sum := by
    obtain ⟨x, hx, hxp⟩ := hpos
    have hmem : f * dens data x ∈ y := List.mem_map.mpr ⟨x, hx, rfl⟩
    exact lt_of_lt_of_le (mul_pos hf hxp) (List.single_le_sum hy0 _ hmem)
  obtain ⟨x0, x1, xs, hX⟩ : ∃ x0 x1 xs, g = x0 :: x1 :: xs := by
    match hgg : g with
    | [] => simp [Cdf.cdf] at hcy
    | [_] => simp [Cdf.cdf] at hcy
    | x0 :: x1 :: xs => exact ⟨x0, x1, xs, rfl⟩
  have hx01 : x0 ≠ x1 := by
    rw [hX] at hinc
    exact ((List.pairwise_cons.mp hinc).1 x1 (by simp)).ne
  obtain ⟨c, hc, hcl, hci, hmono, hrange, hlast⟩ :=
    Cdf.C05_cdf_is_distribution_function x0 x1 xs y hx01 hy0 hysum
  rw [← hX, hcy] at hc
  obtain rfl := Except.ok.inj hc
  have hget : ∀ (i : ℕ) r, t[i]? = some r → i < y.length ∧ cy[i]? = some r.2.2 := by
    intro i r hr
    rw [ht] at hr
    obtain ⟨hi, hr'⟩ := List.getElem?_eq_some_iff.mp hr
    simp only [List.length_zip] at hi
    simp only [List.getElem_zip] at hr'
    refine ⟨by omega, ?_⟩
    rw [← hr', List.getElem?_eq_getElem (by omega)]
  refine ⟨by rw [h1]; exact hinc, ?_, ?_, ?_⟩
  · intro r hr
    have : r.2.1 ∈ t.map (·.2.1) := List.mem_map.mpr ⟨r, hr, rfl⟩
    rw [h2] at this
    exact hy0 _ this
  · intro i r hr
    obtain ⟨hi, hc⟩ := hget i r hr
    rw [hci i hi] at hc
    rw [List.map_take, h2]
    exact (Option.some.inj hc).symm
  · have htl : t.length = y.length := by rw [ht]; simp [hlen, hyl]
    have hyl0 : 0 < y.length := by rw [hyl, hX]; simp
    have hlt : t.length - 1 < t.length := by omega
    refine ⟨t[t.length - 1], ?_, ?_⟩
    · rw [List.getLast?_eq_getElem?, List.getElem?_eq_getElem hlt]
    · obtain ⟨-, hc⟩ := hget (t.length - 1) _ (List.getElem?_eq_getElem hlt)
      rw [List.getLast?_eq_getElem?, hlen, ← htl, hc] at hlast
      exact Option.some.inj hlast

/-! ### C113 -/

/-- The observations that are used: neither missing nor beyond the largest integer. -/
def Valid (missing : ℚ) (parameters : List ℚ) (v : ℚ) : Prop :=
  v ∈ parameters ∧ v ≠ missing ∧ v < 9223372036854775807

theorem mem_remove (missing : ℚ) (l : List ℚ) (v : ℚ) :
    v ∈ Extract.statRemoveNum missing l ↔ Valid missing l v := by
  simp only [Extract.statRemoveNum, Valid, List.mem_filter, decide_eq_true_eq, and_assoc]
  rfl

/-- C113: the distribution of a parameter is made exactly if there are two values or more and the
valid ones differ by more than one step. -/
theorem C113_plain_iff (dens : Density) (missing step : ℚ) (hs : 0 < step) (ps : List ℚ) :
    (∃ t, generateKDE dens .plain missing step ps = .ok t) ↔
      ∃ a b, Valid missing ps a ∧ Valid missing ps b ∧ step < b - a := by
  unfold generateKDE
  by_cases h1 : ps.length ≤ 1
  · simp only [h1, if_true, reduceCtorEq, exists_false, false_iff]
    rintro ⟨a, b, ha, hb, hab⟩
    match ps, h1 with
    | [], _ => simp [Valid] at ha
    | [x], _ =>
      have h1 : a = x := by simpa using ha.1
      have h2 : b = x := by simpa using hb.1
      rw [h1, h2] at hab
      linarith
  · simp only [h1, if_false]
    cases hmin : (Extract.statRemoveNum missing ps).min? with
    | none =>
      have : Extract.statRemoveNum missing ps = [] := by simpa using hmin
      simp only [reduceCtorEq, exists_false, false_iff]
      rintro ⟨a, b, ha, -, -⟩
      rw [← mem_remove, this] at ha
      simp at ha
    | some lo =>
      cases hmax : (Extract.statRemoveNum missing ps).max? with
      | none =>
        have : Extract.statRemoveNum missing ps = [] := by simpa using hmax
        simp [this] at hmin
      | some hi =>
        obtain ⟨hlo, hlo'⟩ := List.min?_eq_some_iff.mp hmin
        obtain ⟨hhi, hhi'⟩ := List.max?_eq_some_iff.mp hmax
        simp only
        rw [fit_ok_iff _ _ _ id _ (fun l l' h => h), two_le_arange hs]
        simp only [id, two_le_arange hs]
        constructor
        · rintro ⟨h, -, -⟩
          exact ⟨lo, hi, (mem_remove _ _ _).mp hlo, (mem_remove _ _ _).mp hhi, h⟩
        · rintro ⟨a, b, ha, hb, hab⟩
          rw [← mem_remove] at ha hb
          have h1 := hlo' a ha
          have h2 := hhi' b hb
          have : step < hi - lo := by linarith
          exact ⟨this, ⟨lo, hlo, hi, hhi, by intro he; rw [he] at this; linarith⟩, this⟩

/-- C113: the values of the distribution of a parameter lie in the range of the valid
observations, the largest one excluded, and the smallest is the first of them. -/
theorem C113_plain_range (dens : Density) (missing step : ℚ) (hs : 0 < step) (ps : List ℚ)
    (t : List (ℚ × ℚ × ℚ)) (h : generateKDE dens .plain missing step ps = .ok t) :
    ∃ lo hi, Valid missing ps lo ∧ Valid missing ps hi ∧ (∀ v, Valid missing ps v → lo ≤ v ∧ v ≤ hi) ∧
      ∀ v, v ∈ t.map (·.1) ↔ ∃ i : ℕ, v = lo + i * step ∧ v < hi := by
  unfold generateKDE at h
  split at h
  · simp at h
  simp only at h
  split at h
  · rename_i lo hi hmin hmax
    obtain ⟨hlo, hlo'⟩ := List.min?_eq_some_iff.mp hmin
    obtain ⟨hhi, hhi'⟩ := List.max?_eq_some_iff.mp hmax
    obtain ⟨h1, -⟩ := fit_first dens _ _ id 1 (fun _ _ => rfl) t h
    refine ⟨lo, hi, (mem_remove _ _ _).mp hlo, (mem_remove _ _ _).mp hhi, ?_, ?_⟩
    · intro v hv
      rw [← mem_remove] at hv
      exact ⟨hlo' v hv, hhi' v hv⟩
    · intro v
      rw [h1]
      exact mem_arange hs
  · simp at h

/-- C113: the distribution of an angle is made exactly if there are two values or more and the
valid ones are not all equal (for steps below 360). -/
theorem C113_angular_iff (dens : Density) (missing step : ℚ) (hs : 0 < step) (hs' : step < 360)
    (ps : List ℚ) :
    (∃ t, generateKDE dens .angular missing step ps = .ok t) ↔
      ∃ a b, Valid missing ps a ∧ Valid missing ps b ∧ a ≠ b := by
  unfold generateKDE
  by_cases h1 : ps.length ≤ 1
  · simp only [h1, if_true, reduceCtorEq, exists_false, false_iff]
    rintro ⟨a, b, ha, hb, hab⟩
    match ps, h1 with
    | [], _ => simp [Valid] at ha
    | [x], _ =>
      have h1 : a = x := by simpa using ha.1
      have h2 : b = x := by simpa using hb.1
      exact hab (h1.trans h2.symm)
  · simp only [h1, if_false]
    rw [fit_ok_iff _ _ _ id _ (fun l l' h => h)]
    simp only [id, two_le_arange hs, sub_zero, hs', true_and, and_true]
    constructor
    · rintro ⟨a, ha, b, hb, hab⟩
      exact ⟨a, b, (mem_remove _ _ _).mp ha, (mem_remove _ _ _).mp hb, hab⟩
    · rintro ⟨a, b, ha, hb, hab⟩
      exact ⟨a, (mem_remove _ _ _).mpr ha, b, (mem_remove _ _ _).mpr hb, hab⟩

/-- C113: the values of the distribution of an angle are the multiples of the step in [0, 360). -/
theorem C113_angular_range (dens : Density) (missing step : ℚ) (hs : 0 < step) (ps : List ℚ)
    (t : List (ℚ × ℚ × ℚ)) (h : generateKDE dens .angular missing step ps = .ok t) (v : ℚ) :
    v ∈ t.map (·.1) ↔ ∃ i : ℕ, v = i * step ∧ v < 360 := by
  unfold generateKDE at h
  split at h
  · simp at h
  obtain ⟨h1, -⟩ := fit_first dens _ _ id 1 (fun _ _ => rfl) t h
  rw [h1, id, mem_arange hs]
  simp

/-- The central part of the grid for a period that is a whole number of steps. -/
theorem central (p step : ℚ) (n : ℕ) (hs : 0 < step) (hn : p = n * step) :
    ⌊p / step⌋.toNat = n ∧ (arange 1 (p + 1) step).length = n := by
  have : p / step = n := by rw [hn]; field_simp
  constructor
  · rw [this]; simp
  · rw [arange_length, show (p + 1 - 1) / step = n by rw [← this]; ring]
    simp

theorem central_slice {α : Type} (a b c : List α) (n : ℕ) (ha : a.length = n) (hb : b.length = n) :
    ((a ++ b ++ c).drop n).take n = b := by
  rw [List.append_assoc, List.drop_append_of_le_length (by omega), List.drop_of_length_le (by omega),
    List.nil_append, List.take_append_of_le_length (by omega), List.take_of_length_le (by omega)]

theorem slice_map (n : ℕ) (g : ℚ → ℚ) (l : List ℚ) :
    ((l.map g).drop n).take n = ((l.drop n).take n).map g := by
  rw [List.map_take, List.map_drop]

/-- C113: for a period that is a whole number of steps (two or more), as in the calibration of
days (365 days, steps of a quarter), the distribution is made exactly if there are two values or
more and a valid one among them. -/
theorem C113_periodic_iff (dens : Density) (missing step p : ℚ) (hs : 0 < step) (n : ℕ) (hn2 : 2 ≤ n)
    (hn : p = n * step) (ps : List ℚ) :
    (∃ t, generateKDE dens (.periodic p) missing step ps = .ok t) ↔
      2 ≤ ps.length ∧ ∃ a, Valid missing ps a := by
  unfold generateKDE
  obtain ⟨hc1, hc2⟩ := central p step n hs hn
  have hp : 0 < p := by rw [hn]; positivity
  by_cases h1 : ps.length ≤ 1
  · simp only [h1, if_true, reduceCtorEq, exists_false, false_iff]
    omega
  · simp only [h1, if_false]
    rw [fit_ok_iff _ _ _ _ _ (fun l l' h => by simp [h])]
    rw [hc1, central_slice _ _ _ n (by simp [hc2]) hc2, hc2]
    constructor
    · rintro ⟨-, ⟨a, ha, -⟩, -⟩
      refine ⟨by omega, ?_⟩
      simp only [List.mem_append, List.mem_map] at ha
      rcases ha with (⟨x, hx, -⟩ | hx) | ⟨x, hx, -⟩
      · exact ⟨x, (mem_remove _ _ _).mp hx⟩
      · exact ⟨a, (mem_remove _ _ _).mp hx⟩
      · exact ⟨x, (mem_remove _ _ _).mp hx⟩
    · rintro ⟨-, a, ha⟩
      rw [← mem_remove] at ha
      refine ⟨by simp [hc2]; omega, ⟨a, by simp [ha], a + p, ?_, by linarith⟩, hn2⟩
      simp only [List.mem_append, List.mem_map]
      exact .inr ⟨a, ha, rfl⟩

/-- C113: its values are exactly the points of one period from 1 on, in steps. -/
theorem C113_periodic_range (dens : Density) (missing step p : ℚ) (hs : 0 < step) (n : ℕ)
    (hn : p = n * step) (ps : List ℚ) (t : List (ℚ × ℚ × ℚ))
    (h : generateKDE dens (.periodic p) missing step ps = .ok t) :
    t.map (·.1) = (List.range n).map (fun (i : ℕ) => 1 + i * step) ∧
      ∀ v ∈ t.map (·.1), 1 ≤ v ∧ v < p + 1 := by
  unfold generateKDE at h
  split at h
  · simp at h
  obtain ⟨hc1, hc2⟩ := central p step n hs hn
  obtain ⟨h1, -⟩ := fit_first dens _ _ _ 3 (slice_map _) t h
  rw [hc1, central_slice _ _ _ n (by simp [hc2]) hc2] at h1
  have hr : t.map (·.1) = (List.range n).map (fun (i : ℕ) => 1 + i * step) := by
    rw [h1]
    have := hc2
    rw [arange_length] at this
    rw [arange, this]
  refine ⟨hr, fun v hv => ?_⟩
  rw [h1, mem_arange hs] at hv
  obtain ⟨i, hi, hlt⟩ := hv
  refine ⟨?_, hlt⟩
  rw [hi]
  have : (0 : ℚ) ≤ i * step := by positivity
  linarith

/-- C113 (the limit): if the period is not a whole number of steps, the values do not begin at 1,
but before it. -/
theorem C113_periodic_uneven (dens : Density) (missing step p : ℚ) (hs : 0 < step) (hp : step < p)
    (hn : ∀ n : ℕ, p ≠ n * step) (ps : List ℚ) (t : List (ℚ × ℚ × ℚ))
    (h : generateKDE dens (.periodic p) missing step ps = .ok t) :
    ∃ v, (t.map (·.1)).head? = some v ∧ v < 1 ∧ 1 - step < v := by
  unfold generateKDE at h
  split at h
  · simp at h
  obtain ⟨h1, -⟩ := fit_first dens _ _ _ 3 (slice_map _) t h
  set m := ⌊p / step⌋.toNat with hm
  have hfl : (⌊p / step⌋ : ℤ) = (m : ℤ) := by
    rw [hm, Int.toNat_of_nonneg]
    exact Int.floor_nonneg.mpr (div_nonneg (by linarith) hs.le)
  have hle : (m : ℚ) ≤ p / step := by
    have := Int.floor_le (p / step)
    rw [hfl] at this
    exact_mod_cast this
  have hlt : p / step < m + 1 := by
    have := Int.lt_floor_add_one (p / step)
    rw [hfl] at this
    exact_mod_cast this
  rw [le_div_iff₀ hs] at hle
  rw [div_lt_iff₀ hs] at hlt
  have hlt' : (m : ℚ) * step < p := lt_of_le_of_ne hle (fun e => hn m e.symm)
  have hlen : m < (arange 1 (p + 1) step).length := by
    rw [arange_length, Int.lt_toNat, Int.lt_ceil, lt_div_iff₀ hs]
    push_cast
    linarith
  have hm1 : 0 < m := by
    by_contra hcon
    have : m = 0 := by omega
    rw [this] at hlt
    push_cast at hlt
    linarith
  refine ⟨1 + m * step - p, ?_, by linarith, by nlinarith⟩
  rw [h1, List.head?_take, if_neg (by omega), List.head?_drop, List.append_assoc,
    List.getElem?_append_left (by simpa using hlen), List.getElem?_map,
    List.getElem?_eq_getElem hlen]
  simp [arange]

/-- C113: for a density that is nowhere negative and positive at some point of the table, the
result is a distribution, whatever the kind of parameter. -/
theorem C113_distribution (dens : Density) (mode : Mode) (missing step : ℚ) (hs : 0 < step)
    (hmode : ∀ p, mode = .periodic p → ∃ n : ℕ, p = n * step) (ps : List ℚ)
    (hd : ∀ data x, 0 ≤ dens data x) (t : List (ℚ × ℚ × ℚ))
    (h : generateKDE dens mode missing step ps = .ok t) (hpos : ∃ r ∈ t, 0 < r.2.1) :
    IsDistribution t := by
  have key : ∀ data grid sub (f : ℚ), 0 < f →
      (∀ (g : ℚ → ℚ) (l : List ℚ), sub (l.map g) = (sub l).map g) → (sub grid).Pairwise (· < ·) →
      fit dens data grid sub f = .ok t → IsDistribution t := by
    intro data grid sub f hf hsub hinc hfit
    refine fit_distribution dens data grid sub f hf hsub hinc (hd data) ?_ t hfit
    obtain ⟨r, hr, hrp⟩ := hpos
    have h2 := (fit_first dens data grid sub f hsub t hfit).2
    have : r.2.1 ∈ t.map (·.2.1) := List.mem_map.mpr ⟨r, hr, rfl⟩
    rw [h2] at this
    obtain ⟨x, hx, hxe⟩ := List.mem_map.mp this
    exact ⟨x, hx, by rw [← hxe] at hrp; exact (mul_pos_iff_of_pos_left hf).mp hrp⟩
  unfold generateKDE at h
  split at h
  · simp at h
  simp only at h
  split at h
  · exact key _ _ _ _ one_pos (fun _ _ => rfl) (arange_increasing _ _ hs) h
  · split at h
    · exact key _ _ _ _ one_pos (fun _ _ => rfl) (arange_increasing _ _ hs) h
    · simp at h
  · rename_i p
    obtain ⟨n, hn⟩ := hmode p rfl
    obtain ⟨hc1, hc2⟩ := central p step n hs hn
    refine key _ _ _ _ (by norm_num) (slice_map _) ?_ h
    rw [hc1, central_slice _ _ _ n (by simp [hc2]) hc2]
    exact arange_increasing _ _ hs

/-- C113: the table of a cell that the track generator finds in the distributions of all cells is
the distribution made for that cell. -/
theorem C113_cells (extract : ℕ → Except Err (List ℚ))
    (kde : List ℚ → Except Err (List (ℚ × ℚ × ℚ))) (cells : List ℕ) (hnd : cells.Nodup)
    (rows : List (ℕ × ℚ × ℚ)) (h : allDistributions extract kde cells = .ok rows) :
    (∀ c ∈ cells, ∃ ps t, extract c = .ok ps ∧ kde ps = .ok t ∧
      tableOf rows c = t.map fun r => (r.1, r.2.2)) ∧ ∀ c, c ∉ cells → tableOf rows c = [] := by
  induction cells generalizing rows with
  | nil =>
    simp only [allDistributions, Except.ok.injEq] at h
    subst h
    simp [tableOf]
  | cons c cs ih =>
    obtain ⟨hc, hnd⟩ := List.nodup_cons.mp hnd
    simp only [allDistributions] at h
    split at h
    · simp at h
    rename_i ps hps
    split at h
    · simp at h
    rename_i t ht
    split at h
    · simp at h
    rename_i r hr
    simp only [Except.ok.injEq] at h
    obtain ⟨ih1, ih2⟩ := ih hnd r hr
    have hown : tableOf rows c = t.map fun r => (r.1, r.2.2) := by
      have := ih2 c hc
      unfold tableOf at this ⊢
      have e : (t.map fun row => (c, row.1, row.2.2)).filter (fun r => decide (r.1 = c)) =
          t.map fun row => (c, row.1, row.2.2) := by
        rw [List.filter_eq_self]
        intro a ha
        obtain ⟨r, -, rfl⟩ := List.mem_map.mp ha
        simp
      rw [← h, List.filter_append, List.map_append, this, List.append_nil, e, List.map_map]
      rfl
    have hother : ∀ d, d ≠ c → tableOf rows d = tableOf r d := by
      intro d hd
      unfold tableOf
      have e : (t.map fun row => (c, row.1, row.2.2)).filter (fun r => decide (r.1 = d)) = [] := by
        rw [List.filter_eq_nil_iff]
        intro a ha
        obtain ⟨r, -, rfl⟩ := List.mem_map.mp ha
        simpa using Ne.symm hd
      rw [← h, List.filter_append, e, List.nil_append]
    constructor
    · intro d hd
      by_cases e : d = c
      · subst e
        exact ⟨ps, t, hps, ht, hown⟩
      · rw [hother d e]
        exact ih1 d (by simpa [e] using hd)
    · intro d hd
      simp only [List.mem_cons, not_or] at hd
      rw [hother d hd.1]
      exact ih2 d hd.2

/-- C113: a value drawn from the distribution of a parameter lies between the smallest and the
largest valid observation of the cell (the largest excluded), and a variate in (0, 1] always gives
one. -/
theorem C113_sample (dens : Density) (missing step : ℚ) (hs : 0 < step) (ps : List ℚ)
    (hd : ∀ data x, 0 ≤ dens data x) (t : List (ℚ × ℚ × ℚ))
    (h : generateKDE dens .plain missing step ps = .ok t) (hpos : ∃ r ∈ t, 0 < r.2.1)
    (u : ℚ) (hu : u ≤ 1) :
    ∃ v, Cdf.ppf u (t.map fun r => (r.1, r.2.2)) = .ok v ∧
      (∃ a, Valid missing ps a ∧ a ≤ v) ∧ ∃ b, Valid missing ps b ∧ v < b := by
  have hdist := C113_distribution dens .plain missing step hs (by simp) ps hd t h hpos
  obtain ⟨lo, hi, hlo, hhi, -, hv⟩ := C113_plain_range dens missing step hs ps t h
  have hex : ∃ v, Cdf.ppf u (t.map fun r => (r.1, r.2.2)) = .ok v := by
    unfold Cdf.ppf
    have hlt : Cdf.searchsorted ((t.map fun r => (r.1, r.2.2)).map (·.2)) u <
        ((t.map fun r => (r.1, r.2.2)).map (·.1)).length := by
      rw [show ((t.map fun r => (r.1, r.2.2)).map (·.1)).length =
        ((t.map fun r => (r.1, r.2.2)).map (·.2)).length by simp, Cdf.searchsorted_lt_iff]
      obtain ⟨r, hr, h1⟩ := hdist.last
      refine ⟨1, ?_, hu⟩
      rw [List.map_map]
      exact List.mem_map.mpr ⟨r, List.mem_of_getLast? hr, h1⟩
    rw [List.getElem?_eq_getElem hlt]
    exact ⟨_, rfl⟩
  obtain ⟨v, hvv⟩ := hex
  refine ⟨v, hvv, ?_⟩
  obtain ⟨i, c, hic, -, -⟩ := (Cdf.C06_quantile _ u v).mp hvv
  have hmem : v ∈ t.map (·.1) := by
    have := List.mem_of_getElem? hic
    obtain ⟨r, hr, he⟩ := List.mem_map.mp this
    exact List.mem_map.mpr ⟨r, hr, congrArg Prod.fst he⟩
  obtain ⟨k, hk, hlt⟩ := (hv v).mp hmem
  refine ⟨⟨lo, hlo, ?_⟩, hi, hhi, hlt⟩
  rw [hk]
  have : (0 : ℚ) ≤ k * step := by positivity
  linarith

/-! ### C114 -/

/-- C114 (part): the density of days is that of the circle: with kernels of finite width not above
the period, and days between 1 and the period, it is the mean of the kernels about each day and
about its repetitions before and after, however many of them are taken into account.
Kernels of infinite width: `C114_infinite_kernel_fails`. -/
theorem C114_days_partial (k : ℚ → ℚ) (h : List ℚ → ℚ) (hk : ∀ t, 1 ≤ |t| → k t = 0)
    (p : ℚ) (hp : 0 < p) (days : List ℚ) (hdays : ∀ d ∈ days, 1 ≤ d ∧ d ≤ p)
    (H : ℚ) (hH : h (days.map (· - p) ++ days ++ days.map (· + p)) = H) (hH0 : 0 < H) (hHp : H ≤ p)
    (x : ℚ) (hx : 1 ≤ x ∧ x < p + 1) (M : ℕ) (hM : 1 ≤ M) :
    3 * kernelDensity k h (days.map (· - p) ++ days ++ days.map (· + p)) x =
      (days.map fun d => ∑ m ∈ Finset.Icc (-(M : ℤ)) M, k ((x - (d + m * p)) / H)).sum /
        (days.length * H) := by
  unfold kernelDensity
  rw [hH]
  have hsum : ∀ d ∈ days, ∑ m ∈ Finset.Icc (-(M : ℤ)) M, k ((x - (d + m * p)) / H) =
      k ((x - (d - p)) / H) + k ((x - d) / H) + k ((x - (d + p)) / H) := by
    intro d hd
    obtain ⟨h1, h2⟩ := hdays d hd
    rw [← Finset.sum_subset (s₁ := Finset.Icc (-1 : ℤ) 1)]
    · rw [show Finset.Icc (-1 : ℤ) 1 = {-1, 0, 1} by decide]
      rw [Finset.sum_insert (by decide), Finset.sum_insert (by decide), Finset.sum_singleton]
      push_cast
      rw [show d + -1 * p = d - p by ring, show d + 0 * p = d by ring,
        show d + 1 * p = d + p by ring]
      ring
    · intro m hm
      simp only [Finset.mem_Icc] at hm ⊢
      omega
    · intro m _ hm
      apply hk
      rw [abs_div, abs_of_pos hH0, le_div_iff₀ hH0, one_mul]
      refine hHp.trans ?_
      simp only [Finset.mem_Icc, not_and_or, not_le] at hm
      rcases hm with hm | hm
      · have : (m : ℚ) ≤ -2 := by exact_mod_cast (by omega : m ≤ -2)
        rw [le_abs]
        left
        nlinarith
      · have : (2 : ℚ) ≤ m := by exact_mod_cast (by omega : 2 ≤ m)
        rw [le_abs]
        right
        nlinarith
  rw [List.map_congr_left hsum]
  have hnum : (((days.map (· - p) ++ days ++ days.map (· + p)).map fun d => k ((x - d) / H))).sum =
      (days.map fun d => k ((x - (d - p)) / H) + k ((x - d) / H) + k ((x - (d + p)) / H)).sum := by
    clear hsum hdays hH
    simp only [List.map_append, List.sum_append, List.map_map]
    induction days with
    | nil => simp
    | cons a l ih =>
      simp only [List.map_cons, List.sum_cons, Function.comp] at ih ⊢
      linarith
  rw [hnum]
  have hlen : ((days.map (· - p) ++ days ++ days.map (· + p)).length : ℚ) = 3 * days.length := by
    simp only [List.length_append, List.length_map]
    push_cast
    ring
  rw [hlen]
  by_cases h0 : days = []
  · subst h0; simp
  · have : (days.length : ℚ) ≠ 0 := by
      simpa using h0
    field_simp

/-- C114 (the failure): the density of bearings is that of a line: where all bearings are farther
than the width of the kernel along the line, it is zero, even if they are close along the circle. -/
theorem C114_bearings_fail (k : ℚ → ℚ) (h : List ℚ → ℚ) (hk : ∀ t, 1 ≤ |t| → k t = 0)
    (bearings : List ℚ) (hH : 0 < h bearings) (x : ℚ) (hx : ∀ b ∈ bearings, h bearings ≤ |x - b|) :
    kernelDensity k h bearings x = 0 := by
  unfold kernelDensity
  rw [List.sum_eq_zero, zero_div]
  intro v hv
  obtain ⟨b, hb, rfl⟩ := List.mem_map.mp hv
  apply hk
  rw [abs_div, abs_of_pos hH, le_div_iff₀ hH, one_mul]
  exact hx b hb

/-- C114 (the failure, for kernels of infinite width such as the Gaussian): the density falls short of that of the circle everywhere,
as only one repetition before and after is taken into account. -/
theorem C114_infinite_kernel_fails (k : ℚ → ℚ) (h : List ℚ → ℚ) (hk : ∀ t, 0 < k t) (p : ℚ) (days : List ℚ) (hne : days ≠ [])
    (H : ℚ) (hH : h (days.map (· - p) ++ days ++ days.map (· + p)) = H) (hH0 : 0 < H) (x : ℚ) (M : ℕ) (hM : 2 ≤ M) :
    3 * kernelDensity k h (days.map (· - p) ++ days ++ days.map (· + p)) x <
      (days.map fun d => ∑ m ∈ Finset.Icc (-(M : ℤ)) M, k ((x - (d + m * p)) / H)).sum / (days.length * H) := by
  have hsum : ∀ d ∈ days, k ((x - (d - p)) / H) + k ((x - d) / H) + k ((x - (d + p)) / H) <
      ∑ m ∈ Finset.Icc (-(M : ℤ)) M, k ((x - (d + m * p)) / H) := by
    intro d _
    have hsub : ({-1, 0, 1} : Finset ℤ) ⊂ Finset.Icc (-(M : ℤ)) M := by
      rw [Finset.ssubset_iff_of_subset]
      · refine ⟨2, by simp; omega, by decide⟩
      · intro m hm
        simp only [Finset.mem_insert, Finset.mem_singleton] at hm
        rw [Finset.mem_Icc]
        omega
    have := Finset.sum_lt_sum_of_subset (f := fun m : ℤ => k ((x - (d + m * p)) / H)) hsub.1
      (i := 2) (by rw [Finset.mem_Icc]; omega) (by decide) (hk _) (fun _ _ _ => (hk _).le)
    have e : ∑ m ∈ ({-1, 0, 1} : Finset ℤ), k ((x - (d + m * p)) / H) =
        k ((x - (d - p)) / H) + k ((x - d) / H) + k ((x - (d + p)) / H) := by
      rw [Finset.sum_insert (by decide), Finset.sum_insert (by decide), Finset.sum_singleton]
      push_cast
      rw [show d + (-1 : ℚ) * p = d - p by ring, show d + (0 : ℚ) * p = d by ring, show d + (1 : ℚ) * p = d + p by ring]
      ring
    rw [← e]; exact this
  have hlen : (0 : ℚ) < days.length := by
    have : 0 < days.length := List.length_pos_of_ne_nil hne
    exact_mod_cast this
  have key : (days.map fun d => k ((x - (d - p)) / H)).sum + (days.map fun d => k ((x - d) / H)).sum +
      (days.map fun d => k ((x - (d + p)) / H)).sum <
      (days.map fun d => ∑ m ∈ Finset.Icc (-(M : ℤ)) M, k ((x - (d + m * p)) / H)).sum := by
    clear hH hlen
    induction days with
    | nil => exact absurd rfl hne
    | cons d ds ih =>
      simp only [List.map_cons, List.sum_cons]
      have h1 := hsum d List.mem_cons_self
      rcases ds with _ | ⟨d', ds⟩
      · simp only [List.map_nil, List.sum_nil]; linarith
      · have := ih (by simp) fun e he => hsum e (List.mem_cons_of_mem _ he)
        linarith
  unfold kernelDensity
  rw [hH]
  have hl : ((days.map (· - p) ++ days ++ days.map (· + p)).length : ℚ) = 3 * days.length := by
    simp only [List.length_append, List.length_map]; push_cast; ring
  rw [hl]
  have e2 : 3 * (((days.map (· - p) ++ days ++ days.map (· + p)).map fun d => k ((x - d) / H)).sum / (3 * days.length * H)) =
      ((days.map (· - p) ++ days ++ days.map (· + p)).map fun d => k ((x - d) / H)).sum / (days.length * H) := by
    field_simp
  rw [e2]
  apply div_lt_div_of_pos_right _ (by positivity)
  simp only [List.map_append, List.sum_append, List.map_map, Function.comp_def]
  exact key

/-- C114 (the failure, for kernels of infinite width): the density does not close, day 1 of the year and day 1 of the next have
different densities; here for cyclones in the first half of the year. -/
theorem C114_not_closed_fails (k : ℚ → ℚ) (h : List ℚ → ℚ) (hk : ∀ s t, |s| < |t| → k t < k s) (p : ℚ) (days : List ℚ)
    (hne : days ≠ []) (hdays : ∀ d ∈ days, 1 ≤ d ∧ 2 * d < p + 2) (H : ℚ)
    (hH : h (days.map (· - p) ++ days ++ days.map (· + p)) = H) (hH0 : 0 < H) :
    kernelDensity k h (days.map (· - p) ++ days ++ days.map (· + p)) (p + 1) <
      kernelDensity k h (days.map (· - p) ++ days ++ days.map (· + p)) 1 := by
  have hlen : (0 : ℚ) < days.length := by
    have : 0 < days.length := List.length_pos_of_ne_nil hne
    exact_mod_cast this
  have hone : ∀ d ∈ days, k ((p + 1 - (d - p)) / H) + k ((p + 1 - d) / H) + k ((p + 1 - (d + p)) / H) <
      k ((1 - (d - p)) / H) + k ((1 - d) / H) + k ((1 - (d + p)) / H) := by
    intro d hd
    obtain ⟨h1, h2⟩ := hdays d hd
    have e1 : p + 1 - d = 1 - (d - p) := by ring
    have e2 : p + 1 - (d + p) = 1 - d := by ring
    rw [e1, e2]
    have := hk ((1 - (d + p)) / H) ((p + 1 - (d - p)) / H) (by
      rw [abs_div, abs_div, abs_of_pos hH0]
      apply div_lt_div_of_pos_right _ hH0
      rw [abs_of_nonpos (by linarith), abs_of_pos (by linarith)]
      linarith)
    linarith
  have key : (days.map fun d => k ((p + 1 - (d - p)) / H)).sum + (days.map fun d => k ((p + 1 - d) / H)).sum +
      (days.map fun d => k ((p + 1 - (d + p)) / H)).sum <
      (days.map fun d => k ((1 - (d - p)) / H)).sum + (days.map fun d => k ((1 - d) / H)).sum +
      (days.map fun d => k ((1 - (d + p)) / H)).sum := by
    clear hH hlen hdays
    induction days with
    | nil => exact absurd rfl hne
    | cons d ds ih =>
      simp only [List.map_cons, List.sum_cons]
      have h1 := hone d List.mem_cons_self
      rcases ds with _ | ⟨d', ds⟩
      · simp only [List.map_nil, List.sum_nil]; linarith
      · have := ih (by simp) fun e he => hone e (List.mem_cons_of_mem _ he)
        linarith
  unfold kernelDensity
  rw [hH]
  have hl : (0 : ℚ) < ((days.map (· - p) ++ days ++ days.map (· + p)).length : ℚ) := by
    simp only [List.length_append, List.length_map]; push_cast; linarith
  apply div_lt_div_of_pos_right _ (by positivity)
  simp only [List.map_append, List.sum_append, List.map_map, Function.comp_def]
  exact key

-- A kernel of infinite width as in these theorems
example : (∀ t : ℚ, 0 < 1 / (1 + t ^ 2)) ∧ ∀ s t : ℚ, |s| < |t| → 1 / (1 + t ^ 2) < 1 / (1 + s ^ 2) := by
  refine ⟨fun t => by positivity, fun s t h => ?_⟩
  have := sq_lt_sq.2 h
  exact one_div_lt_one_div_of_lt (by positivity) (by linarith)

/-- The valid observations, in order. -/
def validOf (missing : ℚ) (ps : List ℚ) : List ℚ :=
  ps.filter fun v => decide (v ≠ missing ∧ v < 9223372036854775807)

theorem remove_eq (missing : ℚ) (ps : List ℚ) : Extract.statRemoveNum missing ps = validOf missing ps := by
  unfold Extract.statRemoveNum validOf
  rw [List.filter_filter]
  apply List.filter_congr
  intro v _
  rw [Bool.eq_iff_iff, Bool.and_eq_true, decide_eq_true_iff, decide_eq_true_iff, decide_eq_true_iff]
  exact and_comm

/-- C114 (part): the density column of the table of days that calibration writes is at each of its
values the density of the circle: the mean, over the valid days, of the kernels about the day and
all its repetitions.  Kernels of infinite width are not covered. -/
theorem C114_days_table_partial (k : ℚ → ℚ) (h : List ℚ → ℚ) (hk : ∀ t, 1 ≤ |t| → k t = 0)
    (missing step p : ℚ) (hs : 0 < step) (n : ℕ) (hn0 : 0 < n) (hn : p = n * step) (ps : List ℚ)
    (hdays : ∀ d, Valid missing ps d → 1 ≤ d ∧ d ≤ p) (H : ℚ)
    (hH : h ((validOf missing ps).map (· - p) ++ validOf missing ps ++
      (validOf missing ps).map (· + p)) = H) (hH0 : 0 < H) (hHp : H ≤ p)
    (t : List (ℚ × ℚ × ℚ))
    (ht : generateKDE (kernelDensity k h) (.periodic p) missing step ps = .ok t)
    (M : ℕ) (hM : 1 ≤ M) (r : ℚ × ℚ × ℚ) (hr : r ∈ t) :
    r.2.1 = ((validOf missing ps).map fun d =>
        ∑ m ∈ Finset.Icc (-(M : ℤ)) M, k ((r.1 - (d + m * p)) / H)).sum /
      ((validOf missing ps).length * H) := by
  have hx : 1 ≤ r.1 ∧ r.1 < p + 1 :=
    (C113_periodic_range _ missing step p hs n hn ps t ht).2 _ (List.mem_map.mpr ⟨r, hr, rfl⟩)
  have hp : 0 < p := by
    have : (0 : ℚ) < n := by exact_mod_cast hn0
    rw [hn]; positivity
  rw [← C114_days_partial k h hk p hp (validOf missing ps) ?_ H hH hH0 hHp r.1 hx M hM]
  · unfold generateKDE at ht
    split at ht
    · simp at ht
    obtain ⟨cy, hcy, hzip⟩ := fit_values _ _ _ _ 3 (slice_map _) t ht
    rw [remove_eq] at hzip
    rw [hzip] at hr
    obtain ⟨i, hi⟩ := List.getElem?_of_mem hr
    rw [List.getElem?_zip_eq_some] at hi
    obtain ⟨h1, h2⟩ := hi
    rw [List.getElem?_zip_eq_some, List.getElem?_map, h1] at h2
    simpa using h2.1.symm
  · intro d hd
    rw [← remove_eq, mem_remove] at hd
    exact hdays d hd

/-- C114 (the failure, for the table): the density of a bearing in the table that calibration writes
is zero where all bearings are farther than the width of the kernel along the line. -/
theorem C114_bearings_table_fails (k : ℚ → ℚ) (h : List ℚ → ℚ) (hk : ∀ t, 1 ≤ |t| → k t = 0)
    (missing step : ℚ) (ps : List ℚ) (hH : 0 < h (validOf missing ps)) (t : List (ℚ × ℚ × ℚ))
    (ht : generateKDE (kernelDensity k h) .angular missing step ps = .ok t)
    (r : ℚ × ℚ × ℚ) (hr : r ∈ t)
    (hx : ∀ b, Valid missing ps b → h (validOf missing ps) ≤ |r.1 - b|) : r.2.1 = 0 := by
  unfold generateKDE at ht
  split at ht
  · simp at ht
  obtain ⟨cy, hcy, hzip⟩ := fit_values _ _ _ _ 1 (fun _ _ => rfl) t ht
  rw [remove_eq] at hzip
  rw [hzip] at hr
  obtain ⟨i, hi⟩ := List.getElem?_of_mem hr
  rw [List.getElem?_zip_eq_some] at hi
  obtain ⟨h1, h2⟩ := hi
  rw [List.getElem?_zip_eq_some, List.getElem?_map, h1] at h2
  have h3 := h2.1
  simp only [Option.map_some, one_mul, Option.some.injEq] at h3
  rw [← h3]
  apply C114_bearings_fail k h hk _ hH
  intro b hb
  rw [← remove_eq, mem_remove] at hb
  exact hx b hb

/-- C114 (the failure): the distribution of genesis days by `generateGenesisDateCDF` does not depend
on the days it is given. -/
theorem C114_genesis_days_fail (dens : Density) (before : Option (List ℚ)) (file file' : List ℚ) :
    genesisDateCDF dens before file = genesisDateCDF dens before file' := rfl

/-- C114: the table of genesis days has a row for each day of the year, with three times the density of the earlier
data there and the share of the days up to it in the sum of these densities. -/
theorem C114_genesis_days_table (dens : Density) (data file : List ℚ) (hd : ∀ x, 0 ≤ dens data x)
    (hpos : ∃ i : ℕ, i < 365 ∧ 0 < dens data (i + 1)) :
    ∃ t, genesisDateCDF dens (some data) file = some (.ok t) ∧ t.length = 365 ∧
      ∀ i : ℕ, i < 365 → t[i]? = some ((i : ℚ) + 1, 3 * dens data (i + 1),
        ((List.range (i + 1)).map fun k : ℕ => dens data (k + 1)).sum / ((List.range 365).map fun k : ℕ => dens data (k + 1)).sum) := by
  set days : List ℚ := (List.range 365).map fun (i : ℕ) => 1 + (i : ℚ) with hdays
  set pdf := days.map fun d => 3 * dens data d with hpdf
  have hpdf' : pdf = (List.range 365).map fun k : ℕ => 3 * dens data (k + 1) := by
    rw [hpdf, hdays, List.map_map]
    refine List.map_congr_left fun k _ => ?_
    simp only [Function.comp_apply]
    rw [add_comm]
  have hy : ∀ v ∈ pdf, 0 ≤ v := by
    intro v hv
    obtain ⟨x, -, rfl⟩ := List.mem_map.1 hv
    exact mul_nonneg (by norm_num) (hd x)
  have hsum : 0 < pdf.sum := by
    obtain ⟨i, hi, hp⟩ := hpos
    have hm : 3 * dens data (i + 1) ∈ pdf := by
      rw [hpdf']
      exact List.mem_map.2 ⟨i, List.mem_range.2 hi, rfl⟩
    exact lt_of_lt_of_le (mul_pos (by norm_num) hp) (List.single_le_sum hy _ hm)
  have hx : days = 1 :: 2 :: (List.range 363).map fun (i : ℕ) => 3 + (i : ℚ) := by decide +kernel
  have hlen : pdf.length = 365 := by simp [hpdf, hdays]
  obtain ⟨c, hc, hcl, hci, -⟩ := Cdf.C05_cdf_is_distribution_function (1 : ℚ) 2
    ((List.range 363).map fun (i : ℕ) => 3 + (i : ℚ)) pdf (by norm_num) hy hsum
  rw [← hx] at hc
  refine ⟨days.zip (pdf.zip c), ?_, by simp [hcl, hlen, hdays], ?_⟩
  · unfold genesisDateCDF
    simp only [Option.map_some]
    rw [← hdays, ← hpdf, hc]
  · intro i hi
    have hs : ∀ n : ℕ, ((List.range n).map fun k : ℕ => 3 * dens data (k + 1)).sum =
        3 * ((List.range n).map fun k : ℕ => dens data (k + 1)).sum := fun n => by
      rw [← List.sum_map_mul_left]
    rw [List.getElem?_zip_eq_some, List.getElem?_zip_eq_some, hci i (by omega)]
    refine ⟨?_, ?_, ?_⟩
    · rw [hdays, List.getElem?_map, List.getElem?_range hi]
      simp [add_comm]
    · rw [hpdf', List.getElem?_map, List.getElem?_range hi]
      rfl
    · rw [hpdf', ← List.map_take, List.take_range, min_eq_left (by omega), hs, hs, mul_div_mul_left _ _ (by norm_num)]

/-- C114 (the failure): the density of `circularKDE` contains what happened to be in memory: for
every change of the memory at a grid point, it changes in proportion. -/
theorem C114_circular_fails (kernel : ℚ → ℚ → ℚ) (garbage garbage' data grid : List ℚ) (i : ℕ)
    (x g g' : ℚ) (hx : grid[i]? = some x) (hg : garbage[i]? = some g) (hg' : garbage'[i]? = some g')
    (hne : g ≠ g') :
    (circularKDE kernel garbage data grid)[i]? ≠ (circularKDE kernel garbage' data grid)[i]? := by
  unfold circularKDE
  obtain ⟨hi, hxi⟩ := List.getElem?_eq_some_iff.mp hx
  obtain ⟨hi1, hgi⟩ := List.getElem?_eq_some_iff.mp hg
  obtain ⟨hi2, hgi'⟩ := List.getElem?_eq_some_iff.mp hg'
  rw [List.getElem?_eq_getElem (by simp; omega), List.getElem?_eq_getElem (by simp; omega)]
  simp only [List.getElem_map, List.getElem_zip, hxi, hgi, hgi', ne_eq, Option.some.injEq]
  have : (grid.length : ℚ) ≠ 0 := by
    have : 0 < grid.length := by omega
    positivity
  rw [div_left_inj' this]
  intro h
  exact hne (by linarith)

/-! ### Examples -/

/-- The hypotheses of `C114_genesis_days_table` hold for a density that is one everywhere. -/
example : (∀ x, (0 : ℚ) ≤ (fun _ _ => 1 : Density) [] x) ∧ ∃ i : ℕ, i < 365 ∧ (0 : ℚ) < (fun _ _ => 1 : Density) [] (i + 1) :=
  ⟨fun _ => zero_le_one, 0, by norm_num, zero_lt_one⟩

/-- The triangular kernel. -/
def triangle (t : ℚ) : ℚ := max 0 (1 - |t|)

/-- Kernels of width 20. -/
def twenty : Density := kernelDensity triangle fun _ => 20

example : generateKDE twenty .plain 99 5 [10, 12, 99, 30] = .ok
    [(10, 19/600, 19/67), (15, 37/1200, 75/134), (20, 2/75, 107/134), (25, 9/400, 1)] := by
  decide +kernel

example : generateKDE twenty .plain 99 5 [10, 12, 99, 15] = .error .valueError := by decide +kernel

example : generateKDE twenty .angular 99 5 [10, 10, 10] = .error .valueError := by decide +kernel

example : (generateKDE twenty (.periodic 365) 99 (1/4) [10, 350]).isOk = true := by
  have := (C113_periodic_iff twenty 99 (1/4) 365 (by norm_num) 1460 (by norm_num) (by norm_num)
    [10, 350]).mpr ⟨by simp, 10, by simp [Valid]; norm_num⟩
  obtain ⟨t, ht⟩ := this
  rw [ht]; rfl

-- Bearings near north, all on the western side: nothing just east of it.
example : twenty [358, 359, 357] 0 = 0 := by decide +kernel

-- The same for days: the kernels reach over the new year.
example : 3 * twenty ([358, 359, 357].map (· - 365) ++ [358, 359, 357] ++
    [358, 359, 357].map (· + 365)) 1 = 3/100 := by decide +kernel

end Tcrm.Kde
