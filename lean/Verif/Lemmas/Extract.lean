import Verif.Spec.Extract
import Mathlib.Tactic.Linarith
import Mathlib.Tactic.Ring
import Mathlib.Algebra.Order.Archimedean.Basic
import Mathlib.Logic.Function.Iterate
import Mathlib.Algebra.Order.Archimedean.Real.Basic
import Mathlib.Tactic.FieldSimp
import Mathlib.Tactic.Positivity
namespace Tcrm.Extract
open Tcrm.Cells

theorem sample_eq_valuesIn (obs : List Obs) (missing : ℚ) (sel : ℚ → Bool) (w : Win) :
    sample obs missing sel w = valuesIn obs missing sel w := by
  simp only [sample, statRemoveNum, valuesIn]
  induction obs with
  | nil => rfl
  | cons o t ih =>
    rw [List.filter_cons, List.filter_cons]
    by_cases hc : Counts missing sel w o
    · have h := hc
      obtain ⟨h1, h2, h3, h4, h5, h6, h7⟩ := h
      rw [if_pos (by simp [h1, h2, h3, h4, h5]), if_pos (by simpa using hc), List.map_cons,
        List.map_cons, List.filter_cons, if_pos (by simpa using h6), List.filter_cons,
        if_pos (show decide (o.value < maxsize) = true from decide_eq_true h7), ih]
    · by_cases hw : (decide (w.s ≤ o.lat) && decide (o.lat < w.n)) &&
          (decide (w.w ≤ o.lon) && decide (o.lon < w.e)) && sel o.flag
      · rw [if_pos hw, List.map_cons, List.filter_cons]
        have hdec : ¬ (decide (Counts missing sel w o) = true) := by simpa using hc
        rw [if_neg hdec]
        by_cases hm : o.value = missing
        · simp only [ne_eq, hm, not_true_eq_false, decide_false, Bool.false_eq_true, if_false]
          exact ih
        · have : ¬ o.value < maxsize := by
            intro hlt
            simp only [Bool.and_eq_true, decide_eq_true_eq] at hw
            exact hc ⟨hw.1.2.1, hw.1.2.2, hw.1.1.1, hw.1.1.2, hw.2, hm, hlt⟩
          simp only [ne_eq, hm, not_false_eq_true, decide_true, if_true, List.filter_cons, this,
            decide_false, Bool.false_eq_true, if_false]
          exact ih
      · rw [if_neg hw]
        have hdec : ¬ (decide (Counts missing sel w o) = true) := by simpa using hc
        rw [if_neg hdec]
        exact ih

theorem Win.Contains.refl (w : Win) : w.Contains w := ⟨le_rfl, le_rfl, le_rfl, le_rfl⟩

theorem Win.Contains.trans {u v w : Win} (h : u.Contains v) (h' : v.Contains w) : u.Contains w :=
  ⟨h.1.trans h'.1, h'.2.1.trans h.2.1, h.2.2.1.trans h'.2.2.1, h'.2.2.2.trans h.2.2.2⟩

theorem valuesIn_sublist (obs : List Obs) (missing : ℚ) (sel : ℚ → Bool) {u v : Win}
    (h : u.Contains v) : (valuesIn obs missing sel v).Sublist (valuesIn obs missing sel u) := by
  obtain ⟨h1, h2, h3, h4⟩ := h
  refine List.Sublist.map _ ?_
  have : ∀ o, Counts missing sel v o → Counts missing sel u o := by
    rintro o ⟨c1, c2, c3, c4, c5⟩
    exact ⟨h1.trans c1, c2.trans_le h2, h3.trans c3, c4.trans_le h4, c5⟩
  exact List.monotone_filter_right obs (fun o ho => by simpa using this o (by simpa using ho))

theorem expand_inside (gl : Limit) (inc : Space) (w : Win) (hx : 0 ≤ inc.x) (hy : 0 ≤ inc.y)
    (hw : w.Inside gl) : (expandCell gl inc w).Inside gl ∧ (expandCell gl inc w).Contains w := by
  obtain ⟨h1, h2, h3, h4⟩ := hw
  simp only [expandCell, checkGridLimits, Win.Inside, Win.Contains]
  refine ⟨⟨?_, ?_, ?_, ?_⟩, ?_, ?_, ?_, ?_⟩ <;> split <;> linarith

theorem expand_fixed_iff (gl : Limit) (inc : Space) (w : Win) (hx : 0 < inc.x) (hy : 0 < inc.y)
    (hw : w.Inside gl) : expandCell gl inc w = w ↔ w = wholeDomain gl := by
  obtain ⟨h1, h2, h3, h4⟩ := hw
  obtain ⟨a, b, c, d⟩ := w
  simp only [expandCell, checkGridLimits, wholeDomain, Win.mk.injEq] at *
  constructor
  · rintro ⟨e1, e2, e3, e4⟩
    split at e1 <;> split at e2 <;> split at e3 <;> split at e4 <;>
      refine ⟨?_, ?_, ?_, ?_⟩ <;> linarith
  · rintro ⟨rfl, rfl, rfl, rfl⟩
    refine ⟨?_, ?_, ?_, ?_⟩ <;> rw [if_pos (by linarith)]

theorem iterate_inside (gl : Limit) (inc : Space) (w : Win) (hx : 0 ≤ inc.x) (hy : 0 ≤ inc.y)
    (hw : w.Inside gl) (k : Nat) : ((expandCell gl inc)^[k] w).Inside gl ∧
      ((expandCell gl inc)^[k] w).Contains w := by
  induction k with
  | zero => exact ⟨hw, Win.Contains.refl w⟩
  | succ k ih =>
    rw [Function.iterate_succ_apply']
    have := expand_inside gl inc _ hx hy ih.1
    exact ⟨this.1, this.2.trans ih.2⟩

theorem iterate_val (gl : Limit) (inc : Space) (w : Win) (hx : 0 ≤ inc.x) (hy : 0 ≤ inc.y)
    (hw : w.Inside gl) (k : Nat) :
    ((expandCell gl inc)^[k] w).w = max gl.xMin (w.w - k * inc.x) ∧
    ((expandCell gl inc)^[k] w).e = min gl.xMax (w.e + k * inc.x) ∧
    ((expandCell gl inc)^[k] w).n = min gl.yMax (w.n + k * inc.y) ∧
    ((expandCell gl inc)^[k] w).s = max gl.yMin (w.s - k * inc.y) := by
  obtain ⟨h1, h2, h3, h4⟩ := hw
  induction k with
  | zero => simp [h1, h2, h3, h4]
  | succ k ih =>
    obtain ⟨i1, i2, i3, i4⟩ := ih
    rw [Function.iterate_succ_apply']
    simp only [expandCell, checkGridLimits, i1, i2, i3, i4]
    push_cast
    refine ⟨?_, ?_, ?_, ?_⟩
    · rcases le_total gl.xMin (w.w - k * inc.x) with h | h
      · rw [max_eq_right h]
        split
        · rw [max_eq_left]; linarith
        · rw [max_eq_right] <;> linarith
      · rw [max_eq_left h]
        rw [max_eq_left (by linarith)]
        split <;> linarith
    · rcases le_total gl.xMax (w.e + k * inc.x) with h | h
      · rw [min_eq_left h, min_eq_left (by linarith)]
        split <;> linarith
      · rw [min_eq_right h]
        split
        · rw [min_eq_left]; linarith
        · rw [min_eq_right] <;> linarith
    · rcases le_total gl.yMax (w.n + k * inc.y) with h | h
      · rw [min_eq_left h, min_eq_left (by linarith)]
        split <;> linarith
      · rw [min_eq_right h]
        split
        · rw [min_eq_left]; linarith
        · rw [min_eq_right] <;> linarith
    · rcases le_total gl.yMin (w.s - k * inc.y) with h | h
      · rw [max_eq_right h]
        split
        · rw [max_eq_left]; linarith
        · rw [max_eq_right] <;> linarith
      · rw [max_eq_left h, max_eq_left (by linarith)]
        split <;> linarith

/-- Number of rounds after which the window is the whole domain. -/
theorem exists_rounds (gl : Limit) (inc : Space) (hx : 0 < inc.x) (hy : 0 < inc.y) :
    ∃ N : Nat, ∀ w : Win, w.Inside gl → w.w ≤ w.e → w.s ≤ w.n →
      ∀ k, N ≤ k → (expandCell gl inc)^[k] w = wholeDomain gl := by
  obtain ⟨n, hn⟩ := exists_nat_gt ((gl.xMax - gl.xMin) / inc.x)
  obtain ⟨m, hm⟩ := exists_nat_gt ((gl.yMax - gl.yMin) / inc.y)
  rw [div_lt_iff₀ hx] at hn
  rw [div_lt_iff₀ hy] at hm
  refine ⟨max n m, fun w hw hwe hsn k hk => ?_⟩
  have hnk : (n : ℚ) ≤ k := by exact_mod_cast le_trans (le_max_left _ _) hk
  have hmk : (m : ℚ) ≤ k := by exact_mod_cast le_trans (le_max_right _ _) hk
  obtain ⟨i1, i2, i3, i4⟩ := iterate_val gl inc w hx.le hy.le hw k
  obtain ⟨h1, h2, h3, h4⟩ := hw
  have e1 : (n : ℚ) * inc.x ≤ k * inc.x := by gcongr
  have e2 : (m : ℚ) * inc.y ≤ k * inc.y := by gcongr
  rw [max_eq_left (by linarith)] at i1
  rw [min_eq_left (by linarith)] at i2
  rw [min_eq_left (by linarith)] at i3
  rw [max_eq_left (by linarith)] at i4
  generalize (expandCell gl inc)^[k] w = v at *
  obtain ⟨a, b, c, d⟩ := v
  simp only at i1 i2 i3 i4
  simp [wholeDomain, i1, i2, i3, i4]

/-- What a search returns when its condition can be evaluated on every visited sample. -/
theorem search_spec (smp : Win → List ℚ) (bad : List ℚ → Option Bool) (expand : Win → Win)
    (N fuel : Nat) (hfuel : N < fuel) (w : Win)
    (hfix : expand^[N + 1] w = expand^[N] w)
    (hev : ∀ k, ∃ b, bad (smp (expand^[k] w)) = some b) :
    (∃ k, search smp bad expand fuel w = .ok (expand^[k] w) (smp (expand^[k] w)) ∧
        bad (smp (expand^[k] w)) = some false) ∨
    (search smp bad expand fuel w = .insufficient ∧
      ∃ k, expand^[k + 1] w = expand^[k] w ∧ bad (smp (expand^[k] w)) = some true) := by
  induction fuel generalizing w N with
  | zero => omega
  | succ fuel ih =>
    obtain ⟨b, hb⟩ := hev 0
    rw [Function.iterate_zero, id_eq] at hb
    rw [search, hb]
    cases b with
    | false => left; exact ⟨0, rfl, hb⟩
    | true =>
      simp only
      by_cases hf : expand w = w
      · right
        rw [if_pos hf]
        exact ⟨rfl, 0, by simpa using hf, hb⟩
      · rw [if_neg hf]
        cases N with
        | zero => exact absurd (by simpa using hfix) hf
        | succ N =>
          have := ih N (by omega) (expand w) (by simpa [Function.iterate_succ_apply] using hfix)
            (fun k => by simpa [Function.iterate_succ_apply] using hev (k + 1))
          rcases this with ⟨k, h⟩ | ⟨h, k, hk⟩
          · left; exact ⟨k + 1, by simpa [Function.iterate_succ_apply] using h⟩
          · right; exact ⟨h, k + 1, by simpa [Function.iterate_succ_apply] using hk⟩

theorem constant_some (p : List ℚ) (hp : p ≠ []) :
    ∃ b, constant p = some b ∧ (b = true ↔ ∀ x ∈ p, ∀ y ∈ p, x = y) := by
  obtain ⟨a, ha⟩ := Option.isSome_iff_exists.1 (List.isSome_max?_of_ne_nil hp)
  obtain ⟨c, hc⟩ := Option.isSome_iff_exists.1 (List.isSome_min?_of_ne_nil hp)
  refine ⟨decide (a = c), by simp [constant, ha, hc], ?_⟩
  have hmax := (List.max?_eq_some_iff).1 ha
  have hmin := (List.min?_eq_some_iff).1 hc
  rw [decide_eq_true_iff]
  constructor
  · rintro rfl x hx y hy
    exact le_antisymm ((hmax.2 x hx).trans (hmin.2 y hy)) ((hmax.2 y hy).trans (hmin.2 x hx))
  · intro h
    exact h a hmax.1 c hmin.1

theorem good_iff_not (minSample : ℤ) (hm : 0 ≤ minSample) (p : List ℚ) :
    Good minSample p ↔ tooFew minSample p = some false ∧ constant p = some false := by
  simp only [Good, tooFew, Option.some.injEq, decide_eq_false_iff_not, not_le]
  refine and_congr_right fun hl => ?_
  have hne : p ≠ [] := by rintro rfl; simp at hl; omega
  obtain ⟨b, hb, hbt⟩ := constant_some p hne
  rw [hb]
  cases b with
  | true =>
    refine iff_of_false ?_ (by simp)
    rintro ⟨x, hx, y, hy, hxy⟩
    exact hxy (hbt.1 rfl x hx y hy)
  | false =>
    refine iff_of_true ?_ rfl
    by_contra hcon
    push Not at hcon
    exact absurd (hbt.2 hcon) (by simp)

theorem good_mono {minSample : ℤ} {p q : List ℚ} (h : p.Sublist q) (hp : Good minSample p) :
    Good minSample q := by
  obtain ⟨hl, a, ha, b, hb, hab⟩ := hp
  refine ⟨lt_of_lt_of_le hl (by exact_mod_cast h.length_le), a, h.subset ha, b, h.subset hb, hab⟩

/-- Main fact about one land/sea class. -/
theorem searchClass_spec (obs : List Obs) (missing : ℚ) (sel : ℚ → Bool) (minSample : ℤ)
    (hm : 0 ≤ minSample) (gl : Limit) (inc : Space) (hx : 0 < inc.x) (hy : 0 < inc.y) :
    ∃ N : Nat, ∀ w0 : Win, w0.Inside gl → w0.w ≤ w0.e → w0.s ≤ w0.n → ∀ fuel, N ≤ fuel →
      (∃ w, searchClass obs missing sel minSample gl inc fuel w0 =
          .ok w (valuesIn obs missing sel w) ∧ w.Inside gl ∧ w.Contains w0 ∧
          Good minSample (valuesIn obs missing sel w)) ∨
      (searchClass obs missing sel minSample gl inc fuel w0 = .insufficient ∧
        ¬ Good minSample (valuesIn obs missing sel (wholeDomain gl))) := by
  obtain ⟨N, hN⟩ := exists_rounds gl inc hx hy
  refine ⟨N + 1, fun w0 hin hwe hsn fuel hfuel => ?_⟩
  have hs : sample obs missing sel = valuesIn obs missing sel :=
    funext fun w => sample_eq_valuesIn obs missing sel w
  have hit := iterate_inside gl inc w0 hx.le hy.le hin
  unfold searchClass
  rw [hs]
  rcases search_spec (valuesIn obs missing sel) (tooFew minSample) (expandCell gl inc) N fuel
    (by omega) w0 (by rw [hN w0 hin hwe hsn _ (by omega), hN w0 hin hwe hsn _ le_rfl])
    (fun k => ⟨_, rfl⟩) with ⟨k, hk, hb⟩ | ⟨hk, k, hfix, hb⟩
  · rw [hk]
    simp only
    set w1 := (expandCell gl inc)^[k] w0 with hw1
    have h1 := hit k
    rw [← hw1] at h1
    have hit1 := iterate_inside gl inc w1 hx.le hy.le h1.1
    have hlen : ∀ j, minSample < (valuesIn obs missing sel ((expandCell gl inc)^[j] w1)).length := by
      intro j
      simp only [tooFew, Option.some.injEq, decide_eq_false_iff_not, not_le] at hb
      exact lt_of_lt_of_le hb
        (by exact_mod_cast (valuesIn_sublist obs missing sel (hit1 j).2).length_le)
    have hne : ∀ j, valuesIn obs missing sel ((expandCell gl inc)^[j] w1) ≠ [] := by
      intro j h
      have := hlen j
      rw [h] at this; simp at this; omega
    have hwe1 : w1.w ≤ w1.e := by
      have := h1.2; exact this.1.trans (hwe.trans this.2.1)
    have hsn1 : w1.s ≤ w1.n := by
      have := h1.2; exact this.2.2.1.trans (hsn.trans this.2.2.2)
    rcases search_spec (valuesIn obs missing sel) constant (expandCell gl inc) N fuel
      (by omega) w1 (by rw [hN w1 h1.1 hwe1 hsn1 _ (by omega), hN w1 h1.1 hwe1 hsn1 _ le_rfl])
      (fun j => by obtain ⟨b, hb, -⟩ := constant_some _ (hne j); exact ⟨b, hb⟩)
      with ⟨j, hj, hb2⟩ | ⟨hj, j, hfix, hb2⟩
    · left
      refine ⟨_, hj, (hit1 j).1, (hit1 j).2.trans h1.2, ?_⟩
      rw [good_iff_not _ hm]
      refine ⟨?_, hb2⟩
      simp only [tooFew, Option.some.injEq, decide_eq_false_iff_not, not_le]
      exact hlen j
    · right
      refine ⟨hj, ?_⟩
      rw [Function.iterate_succ_apply', expand_fixed_iff gl inc _ hx hy (hit1 j).1] at hfix
      rw [← hfix, good_iff_not _ hm, hb2]
      simp
  · rw [hk]
    right
    refine ⟨rfl, ?_⟩
    rw [Function.iterate_succ_apply', expand_fixed_iff gl inc _ hx hy (hit k).1] at hfix
    rw [← hfix, good_iff_not _ hm, hb]
    simp

theorem arangeSize_up' (a g : ℚ) (n : ℕ) (hg : 0 < g) : arangeSize a (a + n * g) g = n := by
  have : ((a + n * g) - a) / g = ((n : ℤ) : ℚ) := by
    push_cast; field_simp; ring
  rw [arangeSize, this, Int.ceil_intCast]; simp

theorem arangeSize_down' (a g : ℚ) (n : ℕ) (hg : 0 < g) : arangeSize (a + n * g) a (-g) = n := by
  have : (a - (a + n * g)) / (-g) = ((n : ℤ) : ℚ) := by
    push_cast; field_simp; ring
  rw [arangeSize, this, Int.ceil_intCast]; simp

theorem initialWindow_eq (gl : Limit) (gs inc : Space) (nx ny : ℕ) (hd : Divides gl gs inc nx ny)
    (c : ℕ) (hc : c < nx * ny) :
    initialWindow c gl gs = .ok (cellBox gl gs nx c) ∧ (cellBox gl gs nx c).Inside gl := by
  obtain ⟨hgx, hgy, -, -, hx, hy⟩ := hd
  have hnx : 0 < nx := by rcases Nat.eq_zero_or_pos nx with h | h <;> [simp [h] at hc; exact h]
  have sx : arangeSize gl.xMin gl.xMax gs.x = nx := by rw [hx, arangeSize_up' _ _ _ hgx]
  have sy : arangeSize gl.yMax gl.yMin (-gs.y) = ny := by rw [hy, arangeSize_down' _ _ _ hgy]
  have hcol : c % nx < nx := Nat.mod_lt _ hnx
  have hrow : c / nx < ny := Nat.div_lt_of_lt_mul hc
  constructor
  · have hv : validCellNum c gl gs = true := by
      simp only [validCellNum, sx, sy]
      rw [if_neg (by omega), if_neg]
      have : ((c : ℕ) : ℤ) < (nx * ny : ℕ) := by exact_mod_cast hc
      push_cast at this
      rw [mul_comm]
      omega
    simp only [initialWindow, hv, if_true, getCellLonLat]
    rw [if_neg (by omega), if_neg (by rintro (h | h) <;> linarith)]
    simp only [sx, if_neg (Nat.pos_iff_ne_zero.1 hnx), Int.toNat_natCast, arangeGet, sy, if_pos hcol,
      if_pos hrow]
    simp only [cellBox]
    congr 2 <;> ring
  · have h1 : ((c % nx : ℕ) : ℚ) + 1 ≤ nx := by exact_mod_cast hcol
    have h2 : ((c / nx : ℕ) : ℚ) + 1 ≤ ny := by exact_mod_cast hrow
    have e1 : (((c % nx : ℕ) : ℚ) + 1) * gs.x ≤ nx * gs.x := by gcongr
    have e2 : (((c / nx : ℕ) : ℚ) + 1) * gs.y ≤ ny * gs.y := by gcongr
    have p1 : 0 ≤ ((c % nx : ℕ) : ℚ) * gs.x := by positivity
    have p2 : 0 ≤ ((c / nx : ℕ) : ℚ) * gs.y := by positivity
    simp only [Win.Inside, cellBox]
    refine ⟨?_, ?_, ?_, ?_⟩ <;> linarith

theorem initialWindow_invalid (gl : Limit) (gs inc : Space) (nx ny : ℕ) (hd : Divides gl gs inc nx ny)
    (c : ℤ) (hc : c < 0 ∨ (nx * ny : ℕ) ≤ c) : initialWindow c gl gs = .error .indexError := by
  obtain ⟨hgx, hgy, -, -, hx, hy⟩ := hd
  have sx : arangeSize gl.xMin gl.xMax gs.x = nx := by rw [hx, arangeSize_up' _ _ _ hgx]
  have sy : arangeSize gl.yMax gl.yMin (-gs.y) = ny := by rw [hy, arangeSize_down' _ _ _ hgy]
  have hv : validCellNum c gl gs = false := by
    simp only [validCellNum, sx, sy]
    split
    · rfl
    · rw [if_pos]
      push_cast at hc
      rw [mul_comm]
      omega
  simp [initialWindow, hv]

end Tcrm.Extract
