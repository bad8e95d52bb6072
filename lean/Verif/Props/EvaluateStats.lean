import Mathlib.Tactic.Positivity
import Mathlib.Tactic.GCongr
import Verif.Props.Evaluate
/-!
C106: what is plotted of many simulations; C102: pressure by cell.
-/
namespace Tcrm.Evaluate

theorem countP_le_of_sorted (vs : List ℚ) {i : Nat} {x : ℚ} (hi : i < vs.length) (h : (sort vs).getD i 0 ≤ x) :
    i + 1 ≤ vs.countP fun v => decide (v ≤ x) := by
  rw [← (sort_perm vs).countP_eq]
  have hl : i < (sort vs).length := by rw [sort_length]; exact hi
  have h1 : ((sort vs).take (i + 1)).countP (fun v => decide (v ≤ x)) = ((sort vs).take (i + 1)).length := by
    rw [List.countP_eq_length]
    intro v hv
    obtain ⟨k, hk, rfl⟩ := List.getElem_of_mem hv
    rw [List.length_take] at hk
    rw [List.getElem_take, decide_eq_true_eq]
    have := sort_le vs (i := k) (j := i) (by omega) hi
    rw [List.getD_eq_getElem _ _ (by omega)] at this
    exact this.trans h
  have h2 := (List.take_sublist (i + 1) (sort vs)).countP_le (p := fun v => decide (v ≤ x))
  rw [h1, List.length_take] at h2
  omega

theorem countP_lt_of_sorted (vs : List ℚ) {i : Nat} {x : ℚ} (hi : i < vs.length) (h : x ≤ (sort vs).getD i 0) :
    vs.countP (fun v => decide (v < x)) ≤ i := by
  rw [← (sort_perm vs).countP_eq]
  have hl : i < (sort vs).length := by rw [sort_length]; exact hi
  have h1 : ((sort vs).drop i).countP (fun v => decide (v < x)) = 0 := by
    rw [List.countP_eq_zero]
    intro v hv
    obtain ⟨k, hk, rfl⟩ := List.getElem_of_mem hv
    rw [List.length_drop] at hk
    rw [List.getElem_drop, decide_eq_true_eq]
    have := sort_le vs (i := i) (j := i + k) (by omega) (by rw [sort_length] at hk; omega)
    rw [List.getD_eq_getElem (sort vs) _ (n := i + k) (by omega)] at this
    exact not_lt.mpr (h.trans this)
  have h2 := List.countP_append (p := fun v => decide (v < x)) (l₁ := (sort vs).take i) (l₂ := (sort vs).drop i)
  rw [List.take_append_drop, h1] at h2
  rw [h2]
  have := List.countP_le_length (p := fun v => decide (v < x)) (l := (sort vs).take i)
  rw [List.length_take] at this
  omega

/-- The position of a percentile in the sorted values -/
def position (vs : List ℚ) (per : ℚ) : ℚ := per / 100 * (vs.length - 1)

theorem position_bounds {vs : List ℚ} (hne : vs ≠ []) {per : ℚ} (h0 : 0 ≤ per) (h1 : per ≤ 100) :
    0 ≤ position vs per ∧ position vs per ≤ vs.length - 1 := by
  have hn : (1 : ℚ) ≤ vs.length := by exact_mod_cast List.length_pos_of_ne_nil hne
  unfold position
  constructor
  · apply mul_nonneg <;> linarith
  · have : per / 100 ≤ 1 := by linarith
    nlinarith

theorem percentile_eq {vs : List ℚ} (hne : vs ≠ []) {per : ℚ} (h0 : 0 ≤ per) (h1 : per ≤ 100) :
    ∃ i : Nat, i < vs.length ∧ (i : ℚ) ≤ position vs per ∧ position vs per < i + 1 ∧
      percentile vs per = some ((sort vs).getD i 0 + (position vs per - i) * ((sort vs).getD (i + 1) 0 - (sort vs).getD i 0)) ∧
      (i + 1 < vs.length ∨ position vs per = i) := by
  obtain ⟨p0, p1⟩ := position_bounds hne h0 h1
  have hfl : (⌊position vs per⌋.toNat : ℤ) = ⌊position vs per⌋ := Int.toNat_of_nonneg (Int.floor_nonneg.mpr p0)
  have hfq : ((⌊position vs per⌋.toNat : ℕ) : ℚ) = (⌊position vs per⌋ : ℚ) := by exact_mod_cast congrArg (Int.cast (R := ℚ)) hfl
  have hle : ((⌊position vs per⌋.toNat : ℕ) : ℚ) ≤ position vs per := by rw [hfq]; exact Int.floor_le _
  have hlt : position vs per < ((⌊position vs per⌋.toNat : ℕ) : ℚ) + 1 := by rw [hfq]; exact Int.lt_floor_add_one _
  have hi : ⌊position vs per⌋.toNat < vs.length := by
    have : ((⌊position vs per⌋.toNat : ℕ) : ℚ) < vs.length := by linarith
    exact_mod_cast this
  refine ⟨⌊position vs per⌋.toNat, hi, hle, hlt, ?_, ?_⟩
  · unfold percentile
    rw [if_neg hne]
    simp only [sort_length]
    change (if position vs per = _ then _ else _) = _
    split
    · rename_i h
      have h' : position vs per - ((⌊position vs per⌋.toNat : ℕ) : ℚ) = 0 := sub_eq_zero.mpr h
      rw [h', zero_mul, add_zero]
      have hi' : ⌊position vs per⌋.toNat < (sort vs).length := by rw [sort_length]; exact hi
      change (sort vs)[⌊position vs per⌋.toNat]? = _
      rw [List.getD_eq_getElem _ _ hi', List.getElem?_eq_getElem hi']
    · congr 1
      change (sort vs).getD ⌊position vs per⌋.toNat 0 * (((⌊position vs per⌋.toNat : ℕ) : ℚ) + 1 - position vs per) +
        (sort vs).getD (⌊position vs per⌋.toNat + 1) 0 * (position vs per - ((⌊position vs per⌋.toNat : ℕ) : ℚ)) = _
      ring
  · by_cases h : ⌊position vs per⌋.toNat + 1 < vs.length
    · exact .inl h
    · right
      have : (vs.length : ℚ) ≤ ((⌊position vs per⌋.toNat : ℕ) : ℚ) + 1 := by exact_mod_cast not_lt.mp h
      linarith

/-- Between neighbours -/
theorem percentile_between {vs : List ℚ} (hne : vs ≠ []) {per x : ℚ} (h0 : 0 ≤ per) (h1 : per ≤ 100)
    (hx : percentile vs per = some x) : ∃ i j : Nat, j < vs.length ∧ i ≤ j ∧ (i : ℚ) ≤ position vs per ∧
      position vs per < i + 1 ∧ (j : ℚ) < position vs per + 1 ∧ position vs per ≤ j ∧
      (sort vs).getD i 0 ≤ x ∧ x ≤ (sort vs).getD j 0 := by
  obtain ⟨i, hi, p1, p2, he, hc⟩ := percentile_eq hne h0 h1
  rw [he, Option.some.injEq] at hx
  by_cases hp : position vs per = i
  · refine ⟨i, i, hi, le_rfl, p1, p2, by linarith, hp.le, ?_, ?_⟩ <;> rw [← hx, hp] <;> simp
  · have hi1 : i + 1 < vs.length := hc.resolve_right hp
    have hlt := lt_of_le_of_ne p1 (Ne.symm hp)
    have hs := sort_le vs (i := i) (j := i + 1) (by omega) hi1
    refine ⟨i, i + 1, hi1, by omega, p1, p2, by push_cast; linarith, by push_cast; linarith, ?_, ?_⟩
    · rw [← hx]; nlinarith
    · rw [← hx]; nlinarith

/-- C106: a percentile exists for any values, does not depend on the order of the simulations, is between the least and
the greatest value, and has the right rank: more than `per/100·(n-1)` values are not above it, and fewer than
`per/100·(n-1) + 1` are below it. -/
theorem C106_percentile {vs : List ℚ} (hne : vs ≠ []) {per : ℚ} (h0 : 0 ≤ per) (h1 : per ≤ 100) :
    ∃ x, percentile vs per = some x ∧ (∀ ws, vs.Perm ws → percentile ws per = some x) ∧
      (∃ a ∈ vs, a ≤ x) ∧ (∃ b ∈ vs, x ≤ b) ∧
      per / 100 * (vs.length - 1) < (vs.countP fun v => decide (v ≤ x) : ℕ) ∧
      ((vs.countP fun v => decide (v < x) : ℕ) : ℚ) < per / 100 * (vs.length - 1) + 1 := by
  obtain ⟨i, hi, p1, p2, he, hc⟩ := percentile_eq hne h0 h1
  refine ⟨_, he, ?_, ?_⟩
  · intro ws hw
    rw [← he]
    have hne' : ws ≠ [] := by rintro rfl; exact hne (List.perm_nil.mp hw)
    unfold percentile
    rw [if_neg hne, if_neg hne', sort_congr hw]
  · obtain ⟨i', j', hj, hij, q1, q2, q3, q4, q5, q6⟩ := percentile_between hne h0 h1 he
    refine ⟨⟨_, sort_mem vs (by omega), q5⟩, ⟨_, sort_mem vs hj, q6⟩, ?_, ?_⟩
    · have := countP_le_of_sorted vs (by omega) q5
      exact lt_of_lt_of_le q2 (by exact_mod_cast this)
    · have := countP_lt_of_sorted vs hj q6
      exact lt_of_le_of_lt (Nat.cast_le.mpr this) q3

/-- C106: a higher percentile is not lower. -/
theorem C106_monotone {vs : List ℚ} {p q x y : ℚ} (h0 : 0 ≤ p) (hpq : p ≤ q) (h1 : q ≤ 100)
    (hx : percentile vs p = some x) (hy : percentile vs q = some y) : x ≤ y := by
  have hne : vs ≠ [] := by rintro rfl; simp [percentile] at hx
  obtain ⟨i, hi, p1, p2, he, hc⟩ := percentile_eq hne h0 (hpq.trans h1)
  obtain ⟨k, hk, r1, r2, hf, hd⟩ := percentile_eq hne (h0.trans hpq) h1
  have hn : (1 : ℚ) ≤ vs.length := by exact_mod_cast List.length_pos_of_ne_nil hne
  have hpos : position vs p ≤ position vs q := by
    unfold position
    apply mul_le_mul_of_nonneg_right <;> linarith
  have hik : i ≤ k := by
    have : (i : ℚ) < k + 1 := by linarith
    have : i < k + 1 := by exact_mod_cast this
    omega
  rcases hik.eq_or_lt with rfl | hlt
  · rw [he, Option.some.injEq] at hx
    rw [hf, Option.some.injEq] at hy
    rw [← hx, ← hy]
    rcases hd with hd | hd
    · have := sort_le vs (i := i) (j := i + 1) (by omega) hd
      nlinarith
    · have e : position vs p = i := by linarith
      rw [hd, e]
  · obtain ⟨a, b, hb, hab, s1, s2, s3, s4, s5, s6⟩ := percentile_between hne h0 (hpq.trans h1) hx
    obtain ⟨a', b', hb', hab', t1, t2, t3, t4, t5, t6⟩ := percentile_between hne (h0.trans hpq) h1 hy
    have hba : b ≤ a' := by
      have e1 : i = a := by
        have u1 : (i : ℚ) < a + 1 := by linarith
        have u2 : (a : ℚ) < i + 1 := by linarith
        have u1' : i < a + 1 := by exact_mod_cast u1
        have u2' : a < i + 1 := by exact_mod_cast u2
        omega
      have e2 : k = a' := by
        have u1 : (k : ℚ) < a' + 1 := by linarith
        have u2 : (a' : ℚ) < k + 1 := by linarith
        have u1' : k < a' + 1 := by exact_mod_cast u1
        have u2' : a' < k + 1 := by exact_mod_cast u2
        omega
      have : (b : ℚ) < (i + 1 : ℕ) + 1 := by push_cast; linarith
      have : b < (i + 1) + 1 := by exact_mod_cast this
      omega
    exact s6.trans ((sort_le vs hba (by omega)).trans t5)

theorem median_eq_percentile {vs : List ℚ} (hne : vs ≠ []) : median vs = percentile vs 50 := by
  obtain ⟨i, hi, p1, p2, he, hc⟩ := percentile_eq hne (per := 50) (by norm_num) (by norm_num)
  rw [he]
  have hpos := List.length_pos_of_ne_nil hne
  have hp : position vs 50 = (vs.length - 1) / 2 := by unfold position; ring
  rw [hp] at p1 p2
  unfold median
  rw [if_neg hne]
  simp only [sort_length]
  have hi2 : 2 * i ≤ vs.length - 1 ∧ vs.length - 1 < 2 * i + 2 := by
    have u1 : (2 * i + 1 : ℚ) ≤ vs.length := by linarith
    have u2 : (vs.length : ℚ) < 2 * i + 3 := by linarith
    have u1' : 2 * i + 1 ≤ vs.length := by exact_mod_cast u1
    have u2' : vs.length < 2 * i + 3 := by exact_mod_cast u2
    omega
  split
  · rename_i hodd
    have e : vs.length / 2 = i := by omega
    have el : vs.length = 2 * i + 1 := by omega
    have hz : position vs 50 - i = 0 := by rw [hp, el]; push_cast; ring
    have hi' : i < (sort vs).length := by rw [sort_length]; exact hi
    rw [e, hz, List.getElem?_eq_getElem hi', List.getD_eq_getElem _ _ hi']
    simp
  · rename_i heven
    have el : vs.length = 2 * i + 2 := by omega
    have e1 : vs.length / 2 = i + 1 := by omega
    have hz : position vs 50 - i = 1 / 2 := by rw [hp, el]; push_cast; ring
    rw [e1, hz, Nat.add_sub_cancel]
    congr 1
    ring

/-- C106: of the values of a cell in all simulations, the lower percentile, the median and the upper percentile are in
this order between the extremes, the mean is between the extremes, and the order of the simulations does not matter. -/
theorem C106_summary {vs : List ℚ} (hne : vs ≠ []) : ∃ m md up lw lo hi, summarise vs = ⟨some m, some md, some up, some lw⟩ ∧
    minimum vs = some lo ∧ maximum vs = some hi ∧ lo ≤ lw ∧ lw ≤ md ∧ md ≤ up ∧ up ≤ hi ∧ lo ≤ m ∧ m ≤ hi ∧
    m * vs.length = vs.sum ∧ ∀ ws, vs.Perm ws → summarise ws = summarise vs := by
  obtain ⟨lw, e1, f1, ⟨a1, m1, g1⟩, ⟨b1, n1, k1⟩, _⟩ := C106_percentile hne (per := 5) (by norm_num) (by norm_num)
  obtain ⟨md, e2, f2, _⟩ := C106_percentile hne (per := 50) (by norm_num) (by norm_num)
  obtain ⟨up, e3, f3, ⟨a3, m3, g3⟩, ⟨b3, n3, k3⟩, _⟩ := C106_percentile hne (per := 95) (by norm_num) (by norm_num)
  obtain ⟨lo, hlo⟩ : ∃ lo, minimum vs = some lo := by
    cases vs with
    | nil => exact absurd rfl hne
    | cons v vs => exact ⟨_, rfl⟩
  obtain ⟨hi, hhi⟩ : ∃ hi, maximum vs = some hi := by
    cases vs with
    | nil => exact absurd rfl hne
    | cons v vs => exact ⟨_, rfl⟩
  have l1 := minimum_spec.mp hlo
  have l2 := maximum_spec.mp hhi
  have hpos : (vs.length : ℚ) ≠ 0 := by exact_mod_cast (List.length_pos_of_ne_nil hne).ne'
  have hm : mean vs = some (vs.sum / vs.length) := by unfold mean; rw [if_neg hne]
  have hmb := mean_bounds (a := lo) (b := hi) (fun v hv => ⟨l1.2 v hv, l2.2 v hv⟩) hm
  refine ⟨vs.sum / vs.length, md, up, lw, lo, hi, ?_, hlo, hhi, (l1.2 a1 m1).trans g1, C106_monotone (by norm_num) (by norm_num) (by norm_num) e1 e2,
    C106_monotone (by norm_num) (by norm_num) (by norm_num) e2 e3, k3.trans (l2.2 b3 n3), hmb.1, hmb.2, by field_simp, ?_⟩
  · unfold summarise
    rw [hm, median_eq_percentile hne, e1, e2, e3]
  · intro ws hw
    have hne' : ws ≠ [] := by rintro rfl; exact hne (List.perm_nil.mp hw)
    unfold summarise
    rw [median_eq_percentile hne, median_eq_percentile hne', e1, e2, e3, f1 ws hw, f2 ws hw, f3 ws hw]
    congr 1
    unfold mean
    rw [if_neg hne, if_neg hne', hw.sum_eq, hw.length_eq]

example : summarise [3, 1, 2, 10] = ⟨some 4, some (5 / 2), some (179 / 20), some (23 / 20)⟩ := by decide +kernel

/-! ### Pressure -/

/-- In the half-open cell -/
def InBox (xmin xmax ymin ymax : ℚ) (o : Obs) : Prop := xmin ≤ o.lon ∧ o.lon < xmax ∧ ymin ≤ o.lat ∧ o.lat < ymax

instance (a b c d : ℚ) : DecidablePred (InBox a b c d) := fun _ => by unfold InBox; infer_instance
instance : DecidablePred Recorded := fun _ => by unfold Recorded; infer_instance

theorem cellValues_eq (a b c d : ℚ) (tracks : List Track) :
    cellValues a b c d tracks = ((records tracks).filter fun o => decide (InBox a b c d o ∧ Recorded o)).map (·.pressure) := by
  unfold cellValues records
  rw [← List.flatMap_id, List.filter_flatMap, List.map_flatMap]
  congr 1
  funext t
  simp only [id, List.filter_map, List.filter_filter]
  congr 1
  apply List.filter_congr
  intro o _
  rw [Bool.eq_iff_iff]
  rw [decide_eq_true_eq]
  simp only [Function.comp, Bool.and_eq_true, decide_eq_true_eq, InBox, Recorded]
  tauto

/-- C102: a cell is masked in all four maps if there is no recorded pressure in it. Otherwise the minimum and the maximum
are those of the recorded pressures in the cell, the mean is their sum divided by their number, and the median has at
most half of them below and at most half of them above it. -/
theorem C102_cell (a b c d : ℚ) (tracks : List Track) :
    let rec' := (records tracks).filter fun o => decide (InBox a b c d o ∧ Recorded o)
    (rec' = [] → cellStats a b c d tracks = ⟨none, none, none, none⟩) ∧
    (rec' ≠ [] → ∃ m lo hi md, cellStats a b c d tracks = ⟨some m, some lo, some hi, some md⟩ ∧
      (∃ o ∈ rec', o.pressure = lo) ∧ (∃ o ∈ rec', o.pressure = hi) ∧ (∀ o ∈ rec', lo ≤ o.pressure ∧ o.pressure ≤ hi) ∧
      m * rec'.length = (rec'.map (·.pressure)).sum ∧ lo ≤ m ∧ m ≤ hi ∧ lo ≤ md ∧ md ≤ hi ∧
      2 * (rec'.countP fun o => decide (o.pressure < md)) ≤ rec'.length ∧
      2 * (rec'.countP fun o => decide (md < o.pressure)) ≤ rec'.length) := by
  intro rec'
  have hv : cellValues a b c d tracks = rec'.map (·.pressure) := cellValues_eq a b c d tracks
  constructor
  · intro h
    unfold cellStats
    rw [hv, h]
    rfl
  · intro h
    have hne : rec'.map (·.pressure) ≠ [] := by simpa using h
    obtain ⟨m, md, up, lw, lo, hi, hs, hlo, hhi, h1, h2, h3, h4, h5, h6, h7, _⟩ := C106_summary hne
    have hmean : mean (rec'.map (·.pressure)) = some m := congrArg Summary.mean hs
    have hmed : median (rec'.map (·.pressure)) = some md := congrArg Summary.median hs
    have hpos : ∀ v ∈ rec'.map (·.pressure), 0 < v := by
      intro v hv
      obtain ⟨o, ho, rfl⟩ := List.mem_map.mp hv
      have := (List.mem_filter.mp ho).2
      rw [decide_eq_true_eq] at this
      exact this.2.1
    have l1 := minimum_spec.mp hlo
    have l2 := maximum_spec.mp hhi
    have hlo0 := hpos lo l1.1
    have em : m ≠ 0 := by linarith
    have eh : hi ≠ 0 := by linarith
    have ed : md ≠ 0 := by linarith
    have hper := hmed
    rw [median_eq_percentile hne] at hper
    obtain ⟨x, hx, _, _, _, r1, r2⟩ := C106_percentile hne (per := 50) (by norm_num) (by norm_num)
    rw [hper, Option.some.injEq] at hx
    subst hx
    rw [List.countP_map, List.length_map] at r1 r2
    refine ⟨m, lo, hi, md, ?_, ?_, ?_, ?_, ?_, h5, h6, h1.trans h2, h3.trans h4, ?_, ?_⟩
    · simp only [cellStats]
      rw [hv, hmean, hlo, hhi, hmed]
      simp [masked0, em, eh, ed, hlo0.ne']
    · simpa using l1.1
    · simpa using l2.1
    · intro o ho
      have : o.pressure ∈ rec'.map (·.pressure) := List.mem_map.mpr ⟨o, ho, rfl⟩
      exact ⟨l1.2 _ this, l2.2 _ this⟩
    · rw [List.length_map] at h7; exact h7
    · have : (2 * (rec'.countP ((fun v => decide (v < md)) ∘ (·.pressure)) : ℕ) : ℚ) < rec'.length + 1 := by linarith
      have : 2 * rec'.countP ((fun v => decide (v < md)) ∘ (·.pressure)) < rec'.length + 1 := by exact_mod_cast this
      exact Nat.lt_succ_iff.mp this
    · have hsplit := List.length_eq_countP_add_countP (fun o : Obs => decide (o.pressure ≤ md)) (l := rec')
      have e : (rec'.countP fun o => decide ¬ decide (o.pressure ≤ md) = true) = rec'.countP fun o => decide (md < o.pressure) := by
        apply List.countP_congr
        intro o _
        simp
      rw [e] at hsplit
      have : (rec'.length : ℚ) - 1 < (2 * (rec'.countP ((fun v => decide (v ≤ md)) ∘ (·.pressure)) : ℕ) : ℚ) := by linarith
      have : rec'.length < 2 * rec'.countP ((fun v => decide (v ≤ md)) ∘ (·.pressure)) + 1 := by
        have : (rec'.length : ℚ) < (2 * (rec'.countP ((fun v => decide (v ≤ md)) ∘ (·.pressure)) : ℕ) : ℚ) + 1 := by linarith
        exact_mod_cast this
      have e2 : rec'.countP ((fun v => decide (v ≤ md)) ∘ (·.pressure)) = rec'.countP fun o => decide (o.pressure ≤ md) := rfl
      rw [e2] at this
      omega

example : cellStats 0 2 0 2 ([⟨0, 0, 0, 0⟩, ⟨2, 1, 900, 0⟩] :: sample) = ⟨some 990, some 990, some 990, some 990⟩ ∧
    cellStats 2 4 0 2 ([⟨0, 0, 0, 0⟩, ⟨2, 1, 900, 0⟩] :: sample) = ⟨some 940, some 900, some 980, some 940⟩ ∧
    cellStats 4 6 0 2 sample = ⟨none, none, none, none⟩ := by decide +kernel

/-- C102: the cells of the pressure maps are those of the density maps, but without the last edge. -/
theorem C102_same_cells_partial {lo hi d r : ℚ} {n k : Nat} (hd : 0 < d) (hr : 0 ≤ r) (hrd : r + 1 / 10 ≤ d)
    (hn : hi = lo + n * d + r) (hk : k < n) (v : ℚ) :
    ((gridRange lo hi d).getD k 0 ≤ v ∧ v < (gridRange lo hi d).getD k 0 + d) ↔
      InCell (gridRange lo hi d) k v ∧ v ≠ hi - r := by
  have he := C100_edges hd hr hrd hn
  have hget : ∀ i, i < n + 1 → (gridRange lo hi d)[i]? = some (lo + i * d) := by
    intro i hi'
    rw [he, List.getElem?_map, List.getElem?_range hi']
    rfl
  have hlen : (gridRange lo hi d).length = n + 1 := by rw [he]; simp
  have hD : (gridRange lo hi d).getD k 0 = lo + k * d := by
    rw [List.getD_eq_getElem?_getD, hget k (by omega)]; rfl
  rw [hD]
  unfold InCell
  rw [hget k (by omega), hget (k + 1) (by omega), hlen]
  push_cast
  constructor
  · rintro ⟨h1, h2⟩
    refine ⟨⟨_, _, rfl, rfl, h1, .inl (by linarith)⟩, ?_⟩
    have : ((k + 1 : ℕ) : ℚ) ≤ n := by exact_mod_cast hk
    push_cast at this
    intro hv
    rw [hn] at hv
    nlinarith
  · rintro ⟨⟨a, b, ha, hb, h1, h2⟩, h3⟩
    cases ha
    cases hb
    refine ⟨h1, ?_⟩
    rcases h2 with h2 | ⟨h2, h4⟩
    · linarith
    · exfalso
      apply h3
      have : (n : ℚ) = k + 1 := by
        have : n = k + 1 := by omega
        rw [this]; push_cast; ring
      rw [h4, hn, this]
      ring

/-- C102 does not hold on the last edge: a record there is in a cell of the density map but in no cell of the pressure
maps. -/
theorem C102_edge_fails {lo hi d : ℚ} {n : Nat} (hd : 1 / 10 ≤ d) (hn : hi = lo + n * d) (h0 : 0 < n) :
    (∃ k, InCell (gridRange lo hi d) k hi) ∧
    ∀ k, k + 1 < (gridRange lo hi d).length → ¬ ((gridRange lo hi d).getD k 0 ≤ hi ∧ hi < (gridRange lo hi d).getD k 0 + d) := by
  have hd' : 0 < d := by linarith
  have he := C100_edges (r := 0) hd' le_rfl (by linarith) (by linarith [hn] : hi = lo + n * d + 0)
  have hlen : (gridRange lo hi d).length = n + 1 := by rw [he]; simp
  constructor
  · refine ⟨n - 1, ?_⟩
    unfold InCell
    rw [hlen, he, List.getElem?_map, List.getElem?_map, List.getElem?_range (by omega), List.getElem?_range (by omega)]
    refine ⟨_, _, rfl, rfl, ?_, .inr ⟨by omega, ?_⟩⟩
    · have : ((n - 1 : ℕ) : ℚ) ≤ n := by exact_mod_cast Nat.sub_le n 1
      rw [hn]; nlinarith
    · have : ((n - 1 + 1 : ℕ) : ℚ) = n := by congr 1; omega
      change hi = lo + ((n - 1 + 1 : ℕ) : ℚ) * d
      rw [this, hn]
  · intro k hk
    rw [C102_same_cells_partial hd' le_rfl (by linarith) (by linarith [hn] : hi = lo + n * d + 0) (by omega)]
    intro h
    exact h.2 (by ring)

/-- C102: entries of the grid -/
theorem C102_grid {lons lats : List ℚ} (dx dy : ℚ) (tracks : List Track) {k l : Nat} (hk : k + 1 < lons.length)
    (hl : l + 1 < lats.length) : entry (pressureGrid lons lats dx dy tracks) k l =
      some (cellStats (lons.getD k 0) (lons.getD k 0 + dx) (lats.getD l 0) (lats.getD l 0 + dy) tracks) := by
  unfold entry pressureGrid
  rw [List.getElem?_map, List.getElem?_range (by omega)]
  simp only [Option.map_some, Option.bind_some]
  rw [List.getElem?_map, List.getElem?_range (by omega)]
  rfl

/-- The first record is inside the region. -/
def StartsIn (g : Limit) (t : Track) : Prop := ∃ o, t.head? = some o ∧ g.xMin ≤ o.lon ∧ o.lon ≤ g.xMax ∧ g.yMin ≤ o.lat ∧ o.lat ≤ g.yMax

instance (g : Limit) : DecidablePred (StartsIn g) := fun _ => by unfold StartsIn; infer_instance

theorem inRegion_cons (g : Limit) (o : Obs) (os : Track) : inRegion g (o :: os) = .ok (decide (StartsIn g (o :: os))) := by
  have : (decide (g.xMin ≤ o.lon) && decide (o.lon ≤ g.xMax) && decide (g.yMin ≤ o.lat) && decide (o.lat ≤ g.yMax)) =
      decide (StartsIn g (o :: os)) := by
    rw [Bool.eq_iff_iff, decide_eq_true_eq]
    simp [StartsIn, and_assoc]
  rw [← this]
  rfl

theorem minPressures_spec {g : Limit} {tracks : List Track} {vs : List ℚ} (h : minPressures g tracks = .ok vs) :
    (∀ t ∈ tracks, t ≠ []) ∧ List.Forall₂ (fun (t : Track) v => (StartsIn g t → minimum (t.map (·.pressure)) = some v) ∧ (¬ StartsIn g t → v = 0))
      tracks vs := by
  induction tracks generalizing vs with
  | nil =>
    simp only [minPressures, Except.ok.injEq] at h
    subst h
    simp
  | cons t ts ih =>
    cases t with
    | nil => simp [minPressures, inRegion] at h
    | cons o os =>
      simp only [minPressures, inRegion_cons] at h
      split at h
      · cases h
      · rename_i ws hws
        obtain ⟨h1, h2⟩ := ih hws
        simp only [Except.ok.injEq] at h
        subst h
        refine ⟨by simpa using h1, .cons ⟨?_, ?_⟩ h2⟩
        · intro hs
          rw [if_pos (by simpa using hs)]
          rfl
        · intro hs
          rw [if_neg (by simpa using hs)]

theorem minPressures_total (g : Limit) {tracks : List Track} (hne : ∀ t ∈ tracks, t ≠ []) : ∃ vs, minPressures g tracks = .ok vs := by
  induction tracks with
  | nil => exact ⟨[], rfl⟩
  | cons t ts ih =>
    cases t with
    | nil => exact absurd rfl (hne [] (by simp))
    | cons o os =>
      obtain ⟨ws, hws⟩ := ih (fun t ht => hne t (List.mem_cons_of_mem _ ht))
      exact ⟨_, by simp only [minPressures, inRegion_cons, hws]; rfl⟩

theorem pressureBins_pos {i : Nat} {v : ℚ} (h : inBin pressureBins i v = true) : 850 ≤ v ∧ v ≤ 1015 := by
  have hb : pressureBins = [850, 855, 860, 865, 870, 875, 880, 885, 890, 895, 900, 905, 910, 915, 920, 925, 930, 935, 940, 945,
    950, 955, 960, 965, 970, 975, 980, 985, 990, 995, 1000, 1005, 1010, 1015] := by decide +kernel
  have hw : Within pressureBins v := by
    by_contra hc
    refine (C100_one_cell (edges := pressureBins) ?_ ?_ v).2 hc i (inBin_iff.mp h)
    · rw [hb]; decide +kernel
    · rw [hb]; decide
  obtain ⟨a, b, ha, hb', h1, h2⟩ := hw
  rw [hb] at ha hb'
  simp only [List.head?_cons, Option.some.injEq] at ha
  have : b = 1015 := by
    simp only [List.getLast?_cons_cons, List.getLast?_singleton, Option.some.injEq] at hb'
    exact hb'.symm
  subst ha this
  exact ⟨h1, h2⟩

theorem density_congr {vs ws edges : List ℚ} (h : histogram vs edges = histogram ws edges) : density vs edges = density ws edges := by
  unfold density
  rw [h]

/-- C102: the distribution of minimum pressures is that of the tracks that start in the region, as if the others were not
there; it counts only those from 850 to 1015 hPa. -/
theorem C102_minimum {g : Limit} {tracks : List Track} (hne : ∀ t ∈ tracks, t ≠ []) : ∃ vs h,
    calcMinPressure g tracks = .ok (h, vs) ∧ vs.length = tracks.length ∧
    (∃ lows : List ℚ, (tracks.filter fun t => decide (StartsIn g t)).map (fun t => minimum (t.map (·.pressure))) = lows.map some ∧
      h = density lows pressureBins ∧ h = density (lows.filter fun v => decide (850 ≤ v ∧ v ≤ 1015)) pressureBins) := by
  obtain ⟨vs, hvs⟩ := minPressures_total g hne
  have hf := (minPressures_spec hvs).2
  refine ⟨vs, _, by unfold calcMinPressure; rw [hvs], hf.length_eq.symm, ?_⟩
  have key : ∃ lows : List ℚ, (tracks.filter fun t => decide (StartsIn g t)).map (fun t => minimum (t.map (·.pressure))) = lows.map some ∧
      ∀ p : ℚ → Bool, p 0 = false → lows.countP p = vs.countP p := by
    clear hvs hne
    induction hf with
    | nil => exact ⟨[], rfl, fun _ _ => rfl⟩
    | @cons t v ts ws h1 _ ih =>
      obtain ⟨lows, e, hc⟩ := ih
      by_cases hs : StartsIn g t
      · refine ⟨v :: lows, ?_, ?_⟩
        · rw [List.filter_cons_of_pos (by simpa using hs), List.map_cons, h1.1 hs, e]
          rfl
        · intro p hp
          rw [List.countP_cons, List.countP_cons, hc p hp]
      · refine ⟨lows, ?_, ?_⟩
        · rw [List.filter_cons_of_neg (by simpa using hs), e]
        · intro p hp
          rw [h1.2 hs, List.countP_cons, hp, hc p hp]
          simp
  obtain ⟨lows, e, hc⟩ := key
  refine ⟨lows, e, ?_, ?_⟩
  · apply density_congr
    unfold histogram
    apply List.map_congr_left
    intro i _
    refine (hc _ ?_).symm
    rw [Bool.eq_false_iff]
    intro h
    have := pressureBins_pos h
    norm_num at this
  · apply density_congr
    unfold histogram
    apply List.map_congr_left
    intro i _
    rw [← hc]
    · rw [List.countP_filter]
      apply List.countP_congr
      intro v _
      constructor
      · intro h
        simp [h, pressureBins_pos h]
      · intro h
        simp only [Bool.and_eq_true] at h
        exact h.1
    · rw [Bool.eq_false_iff]
      intro h
      have := pressureBins_pos h
      norm_num at this

example : (calcMinPressure ⟨0, 2, 0, 2⟩ sample).toOption.map (·.2) = some [980, 0] ∧ (∀ t ∈ sample, t ≠ []) := by
  decide +kernel

end Tcrm.Evaluate
