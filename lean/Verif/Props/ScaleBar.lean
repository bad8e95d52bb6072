import Verif.Model.ScaleBar
import Mathlib.Topology.MetricSpace.Basic
import Mathlib.Topology.UniformSpace.HeineCantor
import Mathlib.Topology.Order.Compact
import Mathlib.Analysis.SpecificLimits.Basic
import Mathlib.Tactic.Linarith
import Mathlib.Tactic.FieldSimp
import Mathlib.Tactic.IntervalCases
/-!
C170: the scale bar of a map has the length that it shows.
-/
namespace Tcrm.ScaleBar

/-- The exponential search ends at the first of the points at 0.1, 0.2, 0.4, … times the direction that is not closer
than the distance. -/
theorem doubling_some {dist : Pt → Pt → ℝ} {start direction : Pt} {distance : ℝ} :
    ∀ {n : ℕ} {l : ℝ} {e : Pt}, doubling dist start direction distance n l = some e →
      ∃ k : ℕ, e = start + (l * 2 ^ k) • direction ∧ distance ≤ dist start e
  | 0, _, _, h => by simp [doubling] at h
  | n + 1, l, e, h => by
    simp only [doubling] at h
    split at h
    · obtain ⟨k, hk, hd⟩ := doubling_some h
      exact ⟨k + 1, by rw [hk, pow_succ]; congr 2; ring, hd⟩
    · rename_i hlt
      cases h
      exact ⟨0, by simp, not_lt.1 hlt⟩

theorem doubling_ends {dist : Pt → Pt → ℝ} {start direction : Pt} {distance : ℝ} :
    ∀ {k n : ℕ} {l : ℝ}, k < n → distance ≤ dist start (start + (l * 2 ^ k) • direction) →
      ∃ j : ℕ, j ≤ k ∧ doubling dist start direction distance n l = some (start + (l * 2 ^ j) • direction) ∧
        distance ≤ dist start (start + (l * 2 ^ j) • direction)
  | _, 0, _, h, _ => absurd h (by omega)
  | 0, n + 1, l, _, hd => by
    refine ⟨0, le_refl _, ?_, hd⟩
    simp only [pow_zero, mul_one] at hd ⊢
    simp only [doubling]
    exact if_neg (not_lt.2 hd)
  | k + 1, n + 1, l, h, hd => by
    simp only [doubling]
    split
    · obtain ⟨j, hj, he, hjd⟩ := doubling_ends (k := k) (n := n) (l := l * 2) (start := start) (direction := direction)
        (distance := distance) (dist := dist) (by omega)
        (by rw [show l * 2 * 2 ^ k = l * 2 ^ (k + 1) by ring]; exact hd)
      refine ⟨j + 1, by omega, ?_, ?_⟩
      · rw [he, show l * 2 * 2 ^ j = l * 2 ^ (j + 1) by ring]
      · rw [show l * 2 ^ (j + 1) = l * 2 * 2 ^ j by ring]
        exact hjd
    · rename_i hlt
      exact ⟨0, by omega, by simp, by simpa using hlt⟩

/-- What the binary search returns: a point between the ends, close enough, and not closer than the distance. -/
theorem halving_some {dist : Pt → Pt → ℝ} {start direction : Pt} {distance tol : ℝ} :
    ∀ {n : ℕ} {a b : ℝ} {e : Pt}, a ≤ b → distance ≤ dist start (start + b • direction) →
      halving dist start distance tol n (start + a • direction) (start + b • direction) = some e →
      ∃ t, a ≤ t ∧ t ≤ b ∧ e = start + t • direction ∧ distance ≤ dist start e ∧ close (dist start e) distance tol
  | 0, _, _, _, _, _, h => by simp [halving] at h
  | n + 1, a, b, e, hab, hb, h => by
    have hmid : (1 / 2 : ℝ) • ((start + a • direction) + (start + b • direction)) = start + ((a + b) / 2) • direction := by
      ext <;> simp <;> ring
    simp only [halving, hmid] at h
    split at h
    · rename_i hc
      cases h
      exact ⟨b, hab, le_refl _, rfl, hb, hc⟩
    · split at h
      · obtain ⟨t, h1, h2, h3⟩ := halving_some (by linarith) hb h
        exact ⟨t, by linarith, h2, h3⟩
      · rename_i hge
        obtain ⟨t, h1, h2, h3⟩ := halving_some (by linarith) (not_lt.1 hge) h
        exact ⟨t, h1, by linarith, h3⟩

/-- The binary search ends when the interval is so short that the distance varies by less than the tolerance. -/
theorem halving_ends {dist : Pt → Pt → ℝ} {start direction : Pt} {distance tol : ℝ} (hd : 0 < distance) (ht : 0 < tol)
    {δ : ℝ} {A B : ℝ}
    (hδ : ∀ s t, A ≤ s → s ≤ t → t ≤ B → t - s < δ →
      |dist start (start + t • direction) - dist start (start + s • direction)| < tol * distance) :
    ∀ {n : ℕ} {a b : ℝ}, A ≤ a → a ≤ b → b ≤ B → dist start (start + a • direction) < distance →
      distance ≤ dist start (start + b • direction) → (b - a) < δ * 2 ^ n →
      ∃ e, halving dist start distance tol (n + 1) (start + a • direction) (start + b • direction) = some e := by
  intro n
  induction n with
  | zero =>
    intro a b hA hab hB ha hb hlen
    refine ⟨start + b • direction, ?_⟩
    simp only [halving]
    refine if_pos ?_
    have := hδ a b hA hab hB (by simpa using hlen)
    rw [abs_lt] at this
    unfold close
    rw [abs_of_pos hd, abs_of_nonneg (by linarith)]
    have : (0 : ℝ) ≤ 1e-8 := by norm_num
    linarith
  | succ n ih =>
    intro a b hA hab hB ha hb hlen
    have hmid : (1 / 2 : ℝ) • ((start + a • direction) + (start + b • direction)) = start + ((a + b) / 2) • direction := by
      ext <;> simp <;> ring
    rw [halving]
    simp only [hmid]
    split
    · exact ⟨_, rfl⟩
    · rw [pow_succ] at hlen
      split
      · rename_i h
        exact ih (by linarith) (by linarith) hB h hb (by linarith)
      · rename_i h
        exact ih hA (by linarith) (by linarith) ha (not_lt.1 h) (by linarith)

/-- C170: whenever the end of the bar is found, the bar lies in the direction of its angle, and its length is at least
the distance asked for and exceeds it by no more than the tolerance (and 10 nanometres). -/
theorem C170_end_right {dist : Pt → Pt → ℝ} {fuel : ℕ} {start : Pt} {distance angle tol : ℝ} {e : Pt}
    (h : pointAlongLine dist fuel start distance angle tol = .ok (some e)) :
    0 < distance ∧ 0 < tol ∧ (∃ t : ℝ, 0 ≤ t ∧ e = start + t • ((Real.cos angle, Real.sin angle) : Pt)) ∧
      distance ≤ dist start e ∧ dist start e ≤ (1 + tol) * distance + 1e-8 := by
  unfold pointAlongLine at h
  split at h
  · simp at h
  · simp at h
  · rename_i stop hu
    unfold upperBound at hu
    split at hu
    · simp at hu
    rename_i hpos
    split at hu
    · simp at hu
    simp only [Except.ok.injEq] at hu
    obtain ⟨k, hk, hkd⟩ := doubling_some hu
    unfold distanceAlongLine at h
    split at h
    · simp at h
    split at h
    · simp at h
    rename_i htol
    simp only [Except.ok.injEq] at h
    have h0 : start = start + (0 : ℝ) • ((Real.cos angle, Real.sin angle) : Pt) := by simp
    have hT : (0 : ℝ) ≤ 0.1 * 2 ^ k := by positivity
    rw [hk] at h hkd
    obtain ⟨t, ht0, -, hte, htd, htc⟩ := halving_some hT hkd (a := 0) (e := e) (n := fuel) (tol := tol)
      (by rw [← h0]; exact h)
    have hd := not_le.1 hpos
    refine ⟨hd, not_le.1 htol, ⟨t, ht0, hte⟩, htd, ?_⟩
    unfold close at htc
    rw [abs_of_pos hd] at htc
    have := (abs_le.1 htc).2
    linarith

/-- C170: the search ends whenever one of the points it tries first is far enough and the distance is continuous along
the line. -/
theorem C170_end_found {dist : Pt → Pt → ℝ} {start : Pt} {distance angle tol : ℝ} (hd : 0 < distance) (ht : 0 < tol)
    (hself : dist start start = 0)
    (hcont : ContinuousOn (fun t : ℝ => dist start (start + t • ((Real.cos angle, Real.sin angle) : Pt))) (Set.Ici 0))
    (hfar : ∃ k : ℕ, distance ≤ dist start (start + (0.1 * 2 ^ k : ℝ) • ((Real.cos angle, Real.sin angle) : Pt))) :
    ∃ N, ∀ fuel, N ≤ fuel → ∃ e, pointAlongLine dist fuel start distance angle tol = .ok (some e) := by
  obtain ⟨k, hk⟩ := hfar
  set direction : Pt := (Real.cos angle, Real.sin angle) with hdir
  have hne : direction ≠ 0 := by
    intro h0
    have h1 : Real.cos angle = 0 := by simpa [hdir] using congrArg Prod.fst h0
    have h2 : Real.sin angle = 0 := by simpa [hdir] using congrArg Prod.snd h0
    have := Real.sin_sq_add_cos_sq angle
    rw [h1, h2] at this
    norm_num at this
  set B : ℝ := 0.1 * 2 ^ k with hB
  have hB0 : 0 ≤ B := by positivity
  have huc : UniformContinuousOn (fun t : ℝ => dist start (start + t • direction)) (Set.Icc 0 B) :=
    isCompact_Icc.uniformContinuousOn_of_continuous (hcont.mono Set.Icc_subset_Ici_self)
  obtain ⟨δ, hδ0, hδ⟩ := Metric.uniformContinuousOn_iff.1 huc (tol * distance) (mul_pos ht hd)
  obtain ⟨n, hn⟩ : ∃ n : ℕ, B / δ < 2 ^ n := pow_unbounded_of_one_lt _ (by norm_num)
  refine ⟨k + 1 + (n + 1), fun fuel hf => ?_⟩
  obtain ⟨j, hj, hstop, hjd⟩ := doubling_ends (n := fuel) (l := 0.1) (k := k) (by omega) hk
  have hjB : (0.1 : ℝ) * 2 ^ j ≤ B := by
    rw [hB]
    have : (2 : ℝ) ^ j ≤ 2 ^ k := pow_le_pow_right₀ (by norm_num) hj
    linarith
  have hj0 : (0 : ℝ) ≤ 0.1 * 2 ^ j := by positivity
  obtain ⟨m, hm⟩ : ∃ m, fuel = m + 1 := ⟨fuel - 1, by omega⟩
  have hnm : (2 : ℝ) ^ n ≤ 2 ^ m := pow_le_pow_right₀ (by norm_num) (by omega)
  obtain ⟨e, he⟩ := halving_ends (dist := dist) (start := start) (direction := direction) hd ht (δ := δ) (A := 0) (B := B)
    (fun s t h0 hst htB hlt => by
      have := hδ t ⟨by linarith, htB⟩ s ⟨h0, by linarith⟩ (by rw [Real.dist_eq, abs_of_nonneg (by linarith)]; exact hlt)
      rwa [Real.dist_eq] at this)
    (n := m) (a := 0) (b := 0.1 * 2 ^ j) (le_refl _) hj0 hjB (by simpa [hself] using hd) hjd
    (by
      rw [div_lt_iff₀ hδ0] at hn
      have := mul_le_mul_of_nonneg_left hnm hδ0.le
      linarith)
  refine ⟨e, ?_⟩
  unfold pointAlongLine upperBound
  rw [if_neg (not_le.2 hd), if_neg hne, hstop]
  simp only [distanceAlongLine]
  rw [if_neg (not_lt.2 hjd), if_neg (not_le.2 ht)]
  rw [← hm] at he
  simpa using he

/-- C170: if none of the points that the search tries is far enough (no two points of the globe are more than about
20000 km apart), it does not end. -/
theorem C170_endless {dist : Pt → Pt → ℝ} {start : Pt} {distance angle tol : ℝ} (hd : 0 < distance)
    (hnear : ∀ p, dist start p < distance) (fuel : ℕ) : pointAlongLine dist fuel start distance angle tol = .ok none := by
  have hne : ((Real.cos angle, Real.sin angle) : Pt) ≠ 0 := by
    intro h0
    have h1 : Real.cos angle = 0 := by simpa using congrArg Prod.fst h0
    have h2 : Real.sin angle = 0 := by simpa using congrArg Prod.snd h0
    have := Real.sin_sq_add_cos_sq angle
    rw [h1, h2] at this
    norm_num at this
  have hnone : ∀ (n : ℕ) (l : ℝ), doubling dist start (Real.cos angle, Real.sin angle) distance n l = none := by
    intro n
    induction n with
    | zero => intro l; rfl
    | succ n ih => intro l; simp only [doubling, hnear, if_true, ih]
  unfold pointAlongLine upperBound
  rw [if_neg (not_le.2 hd), if_neg hne, hnone]

theorem log_eq {x : ℝ} {n : ℤ} (h1 : (10 : ℝ) ^ n ≤ x) (h2 : x < 10 ^ (n + 1)) : Int.log 10 x = n := by
  have hx : 0 < x := lt_of_lt_of_le (by positivity) h1
  have a : n ≤ Int.log 10 x := (Int.zpow_le_iff_le_log (b := 10) (by norm_num) hx).1 (by exact_mod_cast h1)
  have b : Int.log 10 x < n + 1 := (Int.lt_zpow_iff_log_lt (b := 10) (by norm_num) hx).1 (by exact_mod_cast h2)
  omega

theorem firstDigit_eq {d : ℤ} {n : ℤ} (hd1 : 1 ≤ d) (hd9 : d ≤ 9) (hn : 0 ≤ n) :
    firstDigit ((d : ℝ) * 10 ^ n) = some d := by
  have hp : (0 : ℝ) < 10 ^ n := by positivity
  have h1 : (1 : ℝ) ≤ d := by exact_mod_cast hd1
  have h9 : (d : ℝ) ≤ 9 := by exact_mod_cast hd9
  have hp1 : (1 : ℝ) ≤ 10 ^ n := one_le_zpow₀ (by norm_num) hn
  have hlog : Int.log 10 ((d : ℝ) * 10 ^ n) = n := by
    apply log_eq
    · nlinarith
    · rw [zpow_add_one₀ (by norm_num)]; nlinarith
  unfold firstDigit
  rw [if_pos (.inl (by nlinarith)), hlog, mul_div_cancel_right₀ _ hp.ne']
  simp

theorem firstDigit_ten {n : ℤ} (hn : 0 ≤ n) : firstDigit ((10 : ℤ) * 10 ^ n : ℝ) = some 1 := by
  have h := firstDigit_eq (d := 1) (n := n + 1) (le_refl _) (by norm_num) (by omega)
  rw [zpow_add_one₀ (by norm_num)] at h
  have e : ((1 : ℤ) : ℝ) * ((10 : ℝ) ^ n * 10) = ((10 : ℤ) : ℝ) * 10 ^ n := by push_cast; ring
  rw [e] at h
  exact h

/-- The distance between a number and its rounding. -/
theorem roundEven_near (y : ℝ) : |y - roundEven y| ≤ 1 / 2 := by
  have h1 := Int.floor_le y
  have h2 := Int.lt_floor_add_one y
  unfold roundEven
  split
  · rw [abs_of_nonneg (by linarith)]; linarith
  · rename_i h
    split
    · rename_i h'
      push_cast
      rw [abs_le]; constructor <;> linarith
    · rename_i h'
      split
      · rw [abs_of_nonneg (by linarith)]; linarith
      · push_cast
        rw [abs_le]; constructor <;> linarith

/-- The number that is reached from a digit. -/
def nice (d : ℤ) : ℤ := if d = 10 then 10 else if 5 ≤ d then 5 else if 2 ≤ d then 2 else 1

theorem scale_stop {n : ℤ} {m : ℕ} {d : ℤ} (hn : 0 ≤ n) (h : d = 1 ∨ d = 2 ∨ d = 5) :
    scaleNumber n (m + 1) ((d : ℝ) * 10 ^ n) = .ok ⌊(d : ℝ) * 10 ^ n⌋ := by
  simp only [scaleNumber]
  rw [firstDigit_eq (by omega) (by omega) hn]
  rw [if_pos (by rcases h with h | h | h <;> simp [h])]

theorem scale_go {n : ℤ} {m : ℕ} {d : ℤ} (hn : 0 ≤ n) (h1 : 1 ≤ d) (h9 : d ≤ 9) (h : ¬ (d = 1 ∨ d = 2 ∨ d = 5)) :
    scaleNumber n (m + 1) ((d : ℝ) * 10 ^ n) = scaleNumber n m (((d - 1 : ℤ) : ℝ) * 10 ^ n) := by
  rw [scaleNumber]
  rw [firstDigit_eq h1 h9 hn]
  rw [if_neg (by simpa using h)]
  congr 1
  push_cast
  ring

theorem scaleNumber_nice {n : ℤ} (hn : 0 ≤ n) (m : ℕ) {d : ℤ} (h1 : 1 ≤ d) (h10 : d ≤ 10) :
    scaleNumber n (m + 5) ((d : ℝ) * 10 ^ n) = .ok ⌊((nice d : ℤ) : ℝ) * 10 ^ n⌋ := by
  have e9 : d ≤ 9 ∨ d = 10 := by omega
  rcases e9 with h9 | rfl
  · interval_cases d
    · rw [scale_stop hn (by norm_num)]; rfl
    · rw [scale_stop hn (by norm_num)]; rfl
    · rw [scale_go hn (by norm_num) (by norm_num) (by norm_num), scale_stop hn (by norm_num)]; rfl
    · rw [scale_go hn (by norm_num) (by norm_num) (by norm_num), scale_go hn (by norm_num) (by norm_num) (by norm_num),
        scale_stop hn (by norm_num)]; rfl
    · rw [scale_stop hn (by norm_num)]; rfl
    · rw [scale_go hn (by norm_num) (by norm_num) (by norm_num), scale_stop hn (by norm_num)]; rfl
    · rw [scale_go hn (by norm_num) (by norm_num) (by norm_num), scale_go hn (by norm_num) (by norm_num) (by norm_num),
        scale_stop hn (by norm_num)]; rfl
    · rw [scale_go hn (by norm_num) (by norm_num) (by norm_num), scale_go hn (by norm_num) (by norm_num) (by norm_num),
        scale_go hn (by norm_num) (by norm_num) (by norm_num), scale_stop hn (by norm_num)]; rfl
    · rw [scale_go hn (by norm_num) (by norm_num) (by norm_num), scale_go hn (by norm_num) (by norm_num) (by norm_num),
        scale_go hn (by norm_num) (by norm_num) (by norm_num), scale_go hn (by norm_num) (by norm_num) (by norm_num),
        scale_stop hn (by norm_num)]; rfl
  · show scaleNumber n (m + 4 + 1) _ = _
    rw [scaleNumber, firstDigit_ten hn]
    simp [nice]

/-- C170: on a map at least 5 km wide the length chosen is 1, 2 or 5 times a power of ten, and between 4/9 and 4/3 of a
fifth of the width. -/
theorem C170_nice_length {width : ℝ} (hw : 5000 ≤ width) {limit : ℕ} (hl : 5 ≤ limit) :
    ∃ (c k : ℕ), (c = 1 ∨ c = 2 ∨ c = 5) ∧ setLength limit width = .ok ((c * 10 ^ k : ℕ) : ℤ) ∧
      4 / 9 * (width / 5000) ≤ (c * 10 ^ k : ℕ) ∧ ((c * 10 ^ k : ℕ) : ℝ) ≤ 4 / 3 * (width / 5000) := by
  obtain ⟨m, rfl⟩ : ∃ m, limit = m + 5 := ⟨limit - 5, by omega⟩
  set L := width / 5000 with hL
  have hL1 : 1 ≤ L := by rw [hL, le_div_iff₀ (by norm_num)]; linarith
  set n := Int.log 10 L with hn
  have hn0 : 0 ≤ n := by
    have : (10 : ℝ) ^ (0 : ℤ) ≤ L := by simpa using hL1
    exact (Int.zpow_le_iff_le_log (b := 10) (by norm_num) (by linarith)).1 (by exact_mod_cast this)
  have hp : (0 : ℝ) < 10 ^ n := by positivity
  have hlo : (10 : ℝ) ^ n ≤ L := by exact_mod_cast Int.zpow_log_le_self (b := 10) (by norm_num) (show (0 : ℝ) < L by linarith)
  have hhi : L < 10 ^ (n + 1) := by exact_mod_cast Int.lt_zpow_succ_log_self (b := 10) (by norm_num) L
  set y := L / 10 ^ n with hy
  have hy1 : 1 ≤ y := by rw [hy, le_div_iff₀ hp]; linarith
  have hy10 : y < 10 := by rw [hy, div_lt_iff₀ hp]; rw [zpow_add_one₀ (by norm_num)] at hhi; linarith
  have hLy : L = y * 10 ^ n := by rw [hy]; field_simp
  set d := roundEven y with hd
  have hnear := abs_le.1 (roundEven_near y)
  rw [← hd] at hnear
  have hd1 : 1 ≤ d := by
    have : (0 : ℝ) < d := by linarith
    have : 0 < d := by exact_mod_cast this
    omega
  have hd10 : d ≤ 10 := by
    have : (d : ℝ) < 11 := by linarith
    have : d < 11 := by exact_mod_cast this
    omega
  obtain ⟨k, hk⟩ := Int.eq_ofNat_of_zero_le hn0
  have hset : setLength (m + 5) width = .ok ⌊((nice d : ℤ) : ℝ) * 10 ^ n⌋ := by
    unfold setLength
    exact scaleNumber_nice hn0 m hd1 hd10
  have key : ∀ (c k' : ℕ), ((nice d : ℤ) : ℝ) * 10 ^ n = (c * 10 ^ k' : ℕ) →
      setLength (m + 5) width = .ok ((c * 10 ^ k' : ℕ) : ℤ) := by
    intro c k' h
    rw [hset, h]
    congr 1
    exact Int.floor_natCast _
  have hbound : 4 / 9 * y ≤ nice d ∧ (nice d : ℝ) ≤ 4 / 3 * y := by
    have h1 := hnear.1
    have h2 := hnear.2
    clear_value d y
    interval_cases d <;> simp [nice] at * <;> constructor <;> linarith
  have hfin : ∀ (c k' : ℕ), ((nice d : ℤ) : ℝ) * 10 ^ n = (c * 10 ^ k' : ℕ) →
      4 / 9 * L ≤ (c * 10 ^ k' : ℕ) ∧ ((c * 10 ^ k' : ℕ) : ℝ) ≤ 4 / 3 * L := by
    intro c k' h
    rw [← h, hLy]
    constructor
    · have := mul_le_mul_of_nonneg_right hbound.1 hp.le
      linarith
    · have := mul_le_mul_of_nonneg_right hbound.2 hp.le
      linarith
  have hcase : nice d = 1 ∨ nice d = 2 ∨ nice d = 5 ∨ nice d = 10 := by
    unfold nice; split_ifs <;> simp
  have hpow : (10 : ℝ) ^ n = 10 ^ k := by rw [hk]; simp
  rcases hcase with h | h | h | h
  · have e : ((nice d : ℤ) : ℝ) * 10 ^ n = ((1 * 10 ^ k : ℕ) : ℝ) := by rw [h, hpow]; push_cast; ring
    exact ⟨1, k, by simp, key _ _ e, hfin _ _ e⟩
  · have e : ((nice d : ℤ) : ℝ) * 10 ^ n = ((2 * 10 ^ k : ℕ) : ℝ) := by rw [h, hpow]; push_cast; ring
    exact ⟨2, k, by simp, key _ _ e, hfin _ _ e⟩
  · have e : ((nice d : ℤ) : ℝ) * 10 ^ n = ((5 * 10 ^ k : ℕ) : ℝ) := by rw [h, hpow]; push_cast; ring
    exact ⟨5, k, by simp, key _ _ e, hfin _ _ e⟩
  · have e : ((nice d : ℤ) : ℝ) * 10 ^ n = ((1 * 10 ^ (k + 1) : ℕ) : ℝ) := by rw [h, hpow]; push_cast; ring
    exact ⟨1, k + 1, by simp, key _ _ e, hfin _ _ e⟩

/-- C170: a scale bar that is drawn starts at its location and is at least as long as its label says, by no more than
the tolerance; a length that is given is its label; the text is beside the middle of the bar. -/
theorem C170_bar {dist : Pt → Pt → ℝ} {limit fuel : ℕ} {width : ℝ} {location : Pt} {length : Option ℝ}
    {metresPerUnit tol angle textOffset : ℝ} {b : Bar}
    (h : scaleBar dist limit fuel width location length metresPerUnit tol angle textOffset = .ok (some b)) :
    b.start = location ∧ (∀ l, length = some l → l ≠ 0 → b.label = l) ∧
      (length = none → ∃ n : ℤ, setLength limit width = .ok n ∧ b.label = n) ∧
      b.label * metresPerUnit ≤ dist b.start b.stop ∧
      dist b.start b.stop ≤ (1 + tol) * (b.label * metresPerUnit) + 1e-8 ∧
      (∃ t : ℝ, 0 ≤ t ∧ b.stop = b.start +
        t • ((Real.cos (angle * Real.pi / 180), Real.sin (angle * Real.pi / 180)) : Pt)) ∧
      b.text.1 = (b.start.1 + b.stop.1) / 2 - textOffset * Real.sin (angle * Real.pi / 180) ∧
      b.text.2 = (b.start.2 + b.stop.2) / 2 + textOffset * Real.cos (angle * Real.pi / 180) := by
  unfold scaleBar at h
  split at h
  · simp at h
  · rename_i l hl
    split at h
    · simp at h
    · simp at h
    · rename_i stop hp
      simp only [Except.ok.injEq, Option.some.injEq] at h
      subst h
      obtain ⟨-, -, ht, h1, h2⟩ := C170_end_right hp
      refine ⟨rfl, ?_, ?_, h1, h2, ht, ?_, ?_⟩
      · rintro l' rfl hne
        simp only [hne, if_false, Except.ok.injEq] at hl
        exact hl.symm
      · rintro rfl
        simp only at hl
        cases hs : setLength limit width with
        | error e => rw [hs] at hl; simp [Except.map] at hl
        | ok n =>
          rw [hs] at hl
          simp only [Except.map, Except.ok.injEq] at hl
          exact ⟨n, rfl, hl.symm⟩
      · simp; ring
      · simp; ring

/-- C170 for the maps of the program, if they are at least 5 km wide, distances are continuous along the bottom of the
map and reach as far as the length chosen: the scale bar is drawn; its label is 1, 2 or 5 times a power of ten in
kilometres, about a fifth of the width (from 4/45 to 4/15 of it), and the bar is up to 1 % longer than its label. -/
theorem C170_map {dist : Pt → Pt → ℝ} {limit : ℕ} (hl : 5 ≤ limit) {width : ℝ} (hw : 5000 ≤ width)
    (hself : dist (0.05, 0.1) (0.05, 0.1) = 0)
    (hcont : ContinuousOn (fun t : ℝ => dist (0.05, 0.1) (0.05 + t, 0.1)) (Set.Ici 0))
    (hfar : ∃ k : ℕ, 4 / 15 * width ≤ dist (0.05, 0.1) (0.05 + 0.1 * 2 ^ k, 0.1)) :
    ∃ N, ∀ fuel, N ≤ fuel → ∃ (b : Bar) (c k : ℕ), mapScale dist limit fuel width = .ok (some b) ∧
      (c = 1 ∨ c = 2 ∨ c = 5) ∧ b.label = (c * 10 ^ k : ℕ) ∧
      4 / 45 * width ≤ 1000 * b.label ∧ 1000 * b.label ≤ 4 / 15 * width ∧
      b.start = (0.05, 0.1) ∧ 1000 * b.label ≤ dist b.start b.stop ∧
      dist b.start b.stop ≤ 1.01 * (1000 * b.label) + 1e-8 ∧ b.stop.2 = 0.1 ∧ 0.05 ≤ b.stop.1 ∧
      b.text = ((b.start.1 + b.stop.1) / 2, 0.105) := by
  obtain ⟨c, k, hc, hset, hlo, hhi⟩ := C170_nice_length hw hl
  have hz : (0 : ℝ) * Real.pi / 180 = 0 := by simp
  have hline : ∀ t : ℝ, ((0.05, 0.1) : Pt) + t • ((Real.cos 0, Real.sin 0) : Pt) = (0.05 + t, 0.1) := by
    intro t; ext <;> simp
  have hpos : (0 : ℝ) < (c * 10 ^ k : ℕ) := by
    have : 0 < 4 / 9 * (width / 5000) := by positivity
    linarith
  obtain ⟨N, hN⟩ := C170_end_found (dist := dist) (start := (0.05, 0.1)) (distance := ((c * 10 ^ k : ℕ) : ℝ) * 1000)
    (angle := 0) (tol := 0.01) (by linarith) (by norm_num) hself (by simpa only [hline] using hcont)
    (by
      obtain ⟨j, hj⟩ := hfar
      refine ⟨j, ?_⟩
      rw [hline]
      linarith)
  refine ⟨N, fun fuel hf => ?_⟩
  obtain ⟨e, he⟩ := hN fuel hf
  have hbar : mapScale dist limit fuel width = .ok (some
      { start := (0.05, 0.1), stop := e, label := ((c * 10 ^ k : ℕ) : ℝ)
        text := (1 / 2 : ℝ) • (((0.05, 0.1) : Pt) + e) + (0.005 : ℝ) • ((-Real.sin 0, Real.cos 0) : Pt) }) := by
    unfold mapScale scaleBar
    simp only [hset, Except.map, hz]
    have e1 : (((c * 10 ^ k : ℕ) : ℤ) : ℝ) = ((c * 10 ^ k : ℕ) : ℝ) := by push_cast; ring
    rw [e1, he]
  obtain ⟨h1, -, -, h4, h5, ⟨t, ht, hst⟩, h6, h7⟩ := C170_bar (b := _) (by unfold mapScale at hbar; exact hbar)
  refine ⟨_, c, k, hbar, hc, rfl, ?_, ?_, rfl, ?_, ?_, ?_, ?_, ?_⟩
  · simp only; linarith
  · simp only; linarith
  · simp only at h4 ⊢; linarith
  · simp only at h5 ⊢; linarith
  · simp only [hz] at hst
    simp only [hst]
    simp
  · simp only [hz] at hst
    simp only [hst]
    simp [ht]
  · simp only [hz] at h6 h7 hst
    ext
    · simp only [h6]; simp
    · simp only [h7, hst]; simp; norm_num

theorem scaleNumber_small {n : ℤ} : ∀ {m : ℕ} {x : ℝ}, x < 1 → scaleNumber n m x = .error .recursionError ∨
    scaleNumber n m x = .ok 0
  | 0, _, _ => .inl rfl
  | m + 1, x, hx => by
    simp only [scaleNumber]
    split
    · rename_i h
      right
      have hpos : 0 < x := by
        by_contra hneg
        have : firstDigit x = none := by
          unfold firstDigit
          rw [if_neg]
          rintro (h1 | ⟨h1, -⟩) <;> linarith
        rw [this] at h
        simp at h
      congr 1
      rw [Int.floor_eq_iff]
      constructor
      · simpa using hpos.le
      · simpa using hx
    · apply scaleNumber_small
      have : (0 : ℝ) < 10 ^ n := by positivity
      linarith

/-- C170 fails on maps narrower than 4.75 km: there is no suitable length below 1 km, and the program ends with an
error. -/
theorem C170_narrow_fails {width : ℝ} (h0 : 0 < width) (h1 : width < 4750) (dist : Pt → Pt → ℝ) (limit fuel : ℕ) :
    ∃ e, mapScale dist limit fuel width = .error e := by
  set L := width / 5000 with hL
  have hL0 : 0 < L := by positivity
  have hL1 : L < 0.95 := by rw [hL, div_lt_iff₀ (by norm_num)]; linarith
  set n := Int.log 10 L with hn
  have hp : (0 : ℝ) < 10 ^ n := by positivity
  have hlo : (10 : ℝ) ^ n ≤ L := by exact_mod_cast Int.zpow_log_le_self (b := 10) (by norm_num) hL0
  have hhi : L < 10 ^ (n + 1) := by exact_mod_cast Int.lt_zpow_succ_log_self (b := 10) (by norm_num) L
  set y := L / 10 ^ n with hy
  have hLy : L = y * 10 ^ n := by rw [hy]; field_simp
  have hy10 : y < 10 := by rw [hy, div_lt_iff₀ hp]; rw [zpow_add_one₀ (by norm_num)] at hhi; linarith
  have hnear := abs_le.1 (roundEven_near y)
  have hneg : n ≤ -1 := by
    by_contra h
    have : (1 : ℝ) ≤ 10 ^ n := one_le_zpow₀ (by norm_num) (by omega)
    linarith
  have hx : (roundEven y : ℝ) * 10 ^ n < 1 := by
    rcases Int.lt_or_le n (-1) with h | h
    · have h2 : (10 : ℝ) ^ n ≤ 10 ^ (-2 : ℤ) := zpow_le_zpow_right₀ (by norm_num) (by omega)
      have h3 : (10 : ℝ) ^ (-2 : ℤ) = 0.01 := by norm_num
      rw [h3] at h2
      have : (roundEven y : ℝ) ≤ 10.5 := by linarith
      nlinarith
    · have hn1 : n = -1 := by omega
      rw [hn1] at hLy ⊢
      have h3 : (10 : ℝ) ^ (-1 : ℤ) = 0.1 := by norm_num
      rw [h3] at hLy ⊢
      have hy : y < 9.5 := by linarith
      have : roundEven y < 10 := by
        have : (roundEven y : ℝ) < 10 := by linarith
        exact_mod_cast this
      have : (roundEven y : ℝ) ≤ 9 := by
        have : roundEven y ≤ 9 := by omega
        exact_mod_cast this
      linarith
  have hset : setLength limit width = .error .recursionError ∨ setLength limit width = .ok 0 := by
    unfold setLength
    exact scaleNumber_small hx
  unfold mapScale scaleBar
  rcases hset with h | h
  · exact ⟨.recursionError, by simp [h, Except.map]⟩
  · exact ⟨.valueError, by simp [h, Except.map, pointAlongLine, upperBound]⟩

/-- A plane map of 1000 km by 1000 km meets the hypotheses. -/
example : let dist : Pt → Pt → ℝ := fun a b => 1000000 * Real.sqrt ((b.1 - a.1) ^ 2 + (b.2 - a.2) ^ 2)
    dist (0.05, 0.1) (0.05, 0.1) = 0 ∧
    ContinuousOn (fun t : ℝ => dist (0.05, 0.1) (0.05 + t, 0.1)) (Set.Ici 0) ∧
    ∃ k : ℕ, 4 / 15 * 1000000 ≤ dist (0.05, 0.1) (0.05 + 0.1 * 2 ^ k, 0.1) := by
  refine ⟨by simp, by fun_prop, 2, ?_⟩
  simp only [sub_self, add_sub_cancel_left]
  rw [show ((0.1 : ℝ) * 2 ^ 2) ^ 2 + 0 ^ 2 = 0.4 ^ 2 by norm_num, Real.sqrt_sq (by norm_num)]
  norm_num

end Tcrm.ScaleBar
