import Verif.Model.Ages
import Verif.Props.Dates
import Mathlib.Tactic.NormNum
import Mathlib.Tactic.Linarith
/-!
C150 (ages in place of dates), C151 (time of day of the environmental pressure).
-/
namespace Tcrm.Ages
open Tcrm.Dates Tcrm.DataProc

theorem monthDay_spec : ∀ leap : Bool, ∀ n < (if leap then 366 else 365),
    validDay leap (monthDay leap 11 1 n).1 (monthDay leap 11 1 n).2 = true ∧
    dayOfYear leap (monthDay leap 11 1 n).1 (monthDay leap 11 1 n).2 = n + 1 := by
  decide +kernel

theorem daysBefore_succ (y : ℕ) (h : 1 ≤ y) : daysBefore (y + 1) = daysBefore y + yearLength y := by
  unfold daysBefore yearLength isLeap
  by_cases h4 : y % 4 = 0 <;> by_cases h100 : y % 100 = 0 <;> by_cases h400 : y % 400 = 0 <;>
    simp [h4, h100, h400] <;> omega

/-- The date `n` days after the first of January exists, and its number is `n` more. -/
theorem dateFrom_spec (y n : ℕ) (hy : 1 ≤ y) :
    y ≤ (dateFrom y n).1 ∧
    validDay (isLeap (dateFrom y n).1) (dateFrom y n).2.1 (dateFrom y n).2.2 = true ∧
    ordinal (dateFrom y n).1 (dateFrom y n).2.1 (dateFrom y n).2.2 = daysBefore y + 1 + n := by
  induction n using Nat.strong_induction_on generalizing y with
  | _ n ih =>
    unfold dateFrom
    split
    · rename_i h
      have := monthDay_spec (isLeap y) n (by unfold yearLength at h; simpa using h)
      refine ⟨le_refl _, this.1, ?_⟩
      unfold ordinal
      simp only
      rw [this.2]; omega
    · rename_i h
      have hp : 0 < yearLength y := by unfold yearLength; split <;> omega
      obtain ⟨a, b, c⟩ := ih (n - yearLength y) (by omega) (y + 1) (by omega)
      refine ⟨by omega, b, ?_⟩
      rw [c, daysBefore_succ y hy]
      omega

theorem hours_parseAge (age : ℚ) :
    hours (parseAge age) = 24 * ((daysBefore 2000 + 1 : ℕ) : ℚ) + ((microseconds age / 60000000 : ℕ) : ℚ) / 60 := by
  unfold hours parseAge
  simp only
  generalize microseconds age / 60000000 = k
  rw [(dateFrom_spec 2000 (k / 1440) (by norm_num)).2.2]
  have h1 : k = 1440 * (k / 1440) + 60 * (k / 60 % 24) + k % 60 := by omega
  have h2 : (k : ℚ) = 1440 * ((k / 1440 : ℕ) : ℚ) + 60 * ((k / 60 % 24 : ℕ) : ℚ) + ((k % 60 : ℕ) : ℚ) := by
    exact_mod_cast h1
  push_cast
  rw [h2]
  push_cast
  ring

theorem microseconds_near {age : ℚ} (h : 0 ≤ age) : |(microseconds age : ℚ) - 3600000000 * age| ≤ 1 / 2 := by
  have e := npRound_error (age / 24 * 86400000000)
  have hn : 0 ≤ npRound (age / 24 * 86400000000) := by
    by_contra hc
    have : (npRound (age / 24 * 86400000000) : ℚ) ≤ -1 := by exact_mod_cast (by omega : npRound (age / 24 * 86400000000) ≤ -1)
    have := (abs_le.1 e).1
    linarith
  have hc : ((microseconds age : ℕ) : ℚ) = (npRound (age / 24 * 86400000000) : ℚ) := by
    have : ((microseconds age : ℕ) : ℤ) = npRound (age / 24 * 86400000000) := Int.toNat_of_nonneg hn
    exact_mod_cast this
  rw [hc]
  have : age / 24 * 86400000000 = 3600000000 * age := by ring
  rw [this] at e ⊢
  exact e

/-- C150: an observation is dated its age after the start of 2000, to the minute below (ages are read to the
microsecond), and the date exists. -/
theorem C150_clock (age : ℚ) (h : 0 ≤ age) :
    validDay (isLeap (parseAge age).year) (parseAge age).month (parseAge age).day = true ∧
    (parseAge age).hour < 24 ∧ (parseAge age).minute < 60 ∧
    hours (parseAge age) - hours ⟨2000, 1, 1, 0, 0⟩ ≤ age + 1 / 7200000000 ∧
    age - 1 / 60 - 1 / 7200000000 < hours (parseAge age) - hours ⟨2000, 1, 1, 0, 0⟩ := by
  refine ⟨?_, ?_, ?_, ?_⟩
  · unfold parseAge
    exact (dateFrom_spec 2000 _ (by norm_num)).2.1
  · unfold parseAge; exact Nat.mod_lt _ (by norm_num)
  · unfold parseAge; exact Nat.mod_lt _ (by norm_num)
  · rw [hours_parseAge]
    have e0 : hours ⟨2000, 1, 1, 0, 0⟩ = 24 * ((daysBefore 2000 + 1 : ℕ) : ℚ) := by decide +kernel
    rw [e0]
    have e := abs_le.1 (microseconds_near h)
    have h1 : microseconds age / 60000000 * 60000000 ≤ microseconds age := Nat.div_mul_le_self _ _
    have h2 : microseconds age < (microseconds age / 60000000 + 1) * 60000000 := by omega
    have h1' : ((microseconds age / 60000000 : ℕ) : ℚ) * 60000000 ≤ (microseconds age : ℚ) := by exact_mod_cast h1
    have h2' : (microseconds age : ℚ) < (((microseconds age / 60000000 : ℕ) : ℚ) + 1) * 60000000 := by exact_mod_cast h2
    obtain ⟨e1, e2⟩ := e
    constructor <;> linarith

/-- C150: whole minutes are kept exactly. -/
theorem C150_whole_minutes (n : ℕ) : hours (parseAge ((n : ℚ) / 60)) - hours ⟨2000, 1, 1, 0, 0⟩ = (n : ℚ) / 60 := by
  have e0 : hours ⟨2000, 1, 1, 0, 0⟩ = 24 * ((daysBefore 2000 + 1 : ℕ) : ℚ) := by decide +kernel
  have em : microseconds ((n : ℚ) / 60) = n * 60000000 := by
    unfold microseconds
    rw [show (n : ℚ) / 60 / 24 * 86400000000 = ((n * 60000000 : ℤ) : ℚ) by push_cast; ring, npRound_int]
    omega
  rw [hours_parseAge, e0, em, Nat.mul_div_cancel _ (by norm_num)]
  ring

/-- C150: the elapsed times are the ages, and the steps between observations are whole hours, one per observation, the
first zero, within 31 minutes of the differences of the ages; they are the differences if the ages are whole hours. -/
theorem C150_steps (ages : List ℚ) (hne : ages ≠ []) (h : ∀ a ∈ ages, 0 ≤ a) :
    (loadAges ages).1 = ages ∧ (loadAges ages).2.1.length = ages.length ∧ (loadAges ages).2.1[0]? = some 0 ∧
    ∀ (i : ℕ) (a b : ℚ), ages[i]? = some a → ages[i + 1]? = some b →
      ∃ n : ℤ, (loadAges ages).2.1[i + 1]? = some (n : ℚ) ∧ |(n : ℚ) - (b - a)| < 31 / 60 + 1 / 1000000000 ∧
        (∀ j k : ℕ, a = j → b = k → (n : ℚ) = b - a) := by
  have hne' : (ages.map parseAge).map hours ≠ [] := by simpa using hne
  obtain ⟨h1, h2, h3⟩ := C71_steps_partial hne'
  refine ⟨rfl, by simpa [loadAges] using h1, h2, ?_⟩
  intro i a b ha hb
  obtain ⟨n, hn, hd⟩ := h3 i (hours (parseAge a)) (hours (parseAge b)) (by simp [ha]) (by simp [hb])
  refine ⟨n, hn, ?_, ?_⟩
  · have ka := C150_clock a (h a (List.mem_of_getElem? ha))
    have kb := C150_clock b (h b (List.mem_of_getElem? hb))
    obtain ⟨-, -, -, a1, a2⟩ := ka
    obtain ⟨-, -, -, b1, b2⟩ := kb
    rw [abs_le] at hd
    rw [abs_lt]
    constructor <;> norm_num at * <;> linarith [hd.1, hd.2]
  · intro j k hj hk
    have ea : hours (parseAge a) = hours ⟨2000, 1, 1, 0, 0⟩ + j := by
      have := C150_whole_minutes (60 * j)
      push_cast at this
      rw [show (60 * (j : ℚ)) / 60 = j by ring, ← hj] at this
      rw [← hj]; linarith
    have eb : hours (parseAge b) = hours ⟨2000, 1, 1, 0, 0⟩ + k := by
      have := C150_whole_minutes (60 * k)
      push_cast at this
      rw [show (60 * (k : ℚ)) / 60 = k by ring, ← hk] at this
      rw [← hk]; linarith
    rw [ea, eb] at hd
    rw [hj, hk]
    have h4 : |((n - ((k : ℤ) - j) : ℤ) : ℚ)| ≤ 1 / 2 := by
      push_cast
      convert hd using 2
      ring
    have h5 : n - ((k : ℤ) - j) = 0 := by
      rw [abs_le] at h4
      have l1 : (-1 : ℚ) < ((n - ((k : ℤ) - j) : ℤ) : ℚ) := by linarith [h4.1]
      have l2 : ((n - ((k : ℤ) - j) : ℤ) : ℚ) < 1 := by linarith [h4.2]
      have l1' : (-1 : ℤ) < n - ((k : ℤ) - j) := by exact_mod_cast l1
      have l2' : n - ((k : ℤ) - j) < 1 := by exact_mod_cast l2
      omega
    have : n = (k : ℤ) - j := by omega
    rw [this]; push_cast; ring

/-- C150: every storm starts on the first of January, and the day of the year counts the days of its age: the month in
which a storm occurred is not known to the model. -/
theorem C150_day (age : ℚ) (h : 0 ≤ age) (hy : age < 366 * 24 - 1) :
    julianDay (parseAge age).year (parseAge age).month (parseAge age).day =
      .ok (microseconds age / 86400000000 + 1) ∧ julianDay (parseAge 0).year (parseAge 0).month (parseAge 0).day = .ok 1 ∧
    (∀ n : ℕ, age = n → microseconds age / 86400000000 = n / 24) := by
  have key : ∀ a : ℚ, 0 ≤ a → a < 366 * 24 - 1 →
      julianDay (parseAge a).year (parseAge a).month (parseAge a).day = .ok (microseconds a / 86400000000 + 1) := by
    intro a h0 h1
    have e := (abs_le.1 (microseconds_near h0)).2
    have hm : microseconds a < 366 * 86400000000 := by
      have : (microseconds a : ℚ) < 366 * 86400000000 := by linarith
      exact_mod_cast this
    unfold parseAge
    simp only
    have hk : microseconds a / 60000000 / 1440 = microseconds a / 86400000000 := by
      rw [Nat.div_div_eq_div_mul]
    rw [hk]
    have hlt : microseconds a / 86400000000 < 366 := by omega
    generalize microseconds a / 86400000000 = d at hlt
    have hl : isLeap 2000 = true := by decide
    unfold dateFrom
    rw [dif_pos (by unfold yearLength; rw [hl]; exact hlt)]
    have := monthDay_spec true d (by simpa using hlt)
    unfold julianDay
    simp only [hl]
    rw [show (if 2000 < 1900 then 1904 else 2000) = 2000 from rfl, hl, if_pos this.1, this.2]
  refine ⟨key age h hy, ?_, ?_⟩
  · rw [key 0 (le_refl _) (by norm_num)]; decide +kernel
  · intro n hn
    have em : microseconds age = n * 3600000000 := by
      unfold microseconds
      rw [hn, show (n : ℚ) / 24 * 86400000000 = ((n * 3600000000 : ℤ) : ℚ) by push_cast; ring, npRound_int]
      omega
    rw [em]; omega

/-- A storm of 36 hours with six-hourly observations, and the next one. -/
example : (loadAges [0, 6, 12, 36, 0, 3 / 2]).2.1 = [0, 6, 6, 24, -36, 2] := by decide +kernel

example : parseAge 1500 = ⟨2000, 3, 3, 12, 0⟩ := by decide +kernel

/-! ### C151 -/

theorem npRound_natAdd (k : ℤ) (x : ℚ) (hk : k % 2 = 0) : npRound (k + x) = k + npRound x := by
  unfold npRound
  have hf : ⌊(k : ℚ) + x⌋ = k + ⌊x⌋ := Int.floor_intCast_add k x
  rw [hf]
  have e : (k : ℚ) + x - ((k + ⌊x⌋ : ℤ) : ℚ) = x - ⌊x⌋ := by push_cast; ring
  rw [e, show (k + ⌊x⌋) % 2 = ⌊x⌋ % 2 by omega]
  split_ifs <;> omega

/-- The fraction of the day that is used for an hour. -/
def usedFraction (hour : ℕ) : ℚ := ((2 * hour + 1) / 3 : ℕ) / 16

theorem hourTable : ∀ h : ℕ, h < 24 → npRound (2 * (h : ℚ) / 3) = (((2 * h + 1) / 3 : ℕ) : ℤ) ∧ (2 * h + 1) / 3 < 16 := by
  decide +kernel

theorem getTime_eq (c : Clock) (h : c.hour < 24) :
    getTime c = (ordinal c.year c.month c.day : ℚ) + usedFraction c.hour ∧ 0 ≤ usedFraction c.hour ∧
      usedFraction c.hour < 1 := by
  obtain ⟨e, hl⟩ := hourTable c.hour h
  refine ⟨?_, by unfold usedFraction; positivity, ?_⟩
  · unfold getTime single usedFraction
    rw [show 16 * ((ordinal c.year c.month c.day : ℚ) + c.hour / 24) =
      ((16 * (ordinal c.year c.month c.day : ℤ) : ℤ) : ℚ) + 2 * (c.hour : ℚ) / 3 by push_cast; ring,
      npRound_natAdd _ _ (by omega), e]
    generalize (2 * c.hour + 1) / 3 = q
    push_cast
    ring
  · unfold usedFraction
    rw [div_lt_one (by norm_num)]
    exact_mod_cast hl

/-- C151 in part: the environmental pressure of an observation is that of the climatology at its day of the year and
its hour, if that is a multiple of three; for other hours, at a time less than half an hour away. Missing: other hours
and the minutes. -/
theorem C151_time_partial (f : Climate.File) (c : Clock) (lat lon : ℚ) (hh : c.hour < 24) (j : ℕ)
    (hj : julianDay c.year c.month c.day = .ok j) :
    ∃ r : ℚ, environment f c lat lon = .ok (Climate.getPressure f (j + r) lat lon) ∧ 0 ≤ r ∧ r < 1 ∧
      (3 ∣ c.hour → r = (c.hour : ℚ) / 24) ∧ |r - (c.hour : ℚ) / 24| ≤ 1 / 48 := by
  obtain ⟨e, h0, h1⟩ := getTime_eq c hh
  refine ⟨usedFraction c.hour, ?_, h0, h1, ?_, ?_⟩
  · unfold environment
    rw [hj]
    simp only [Climate.ltmPressure, Climate.getPressure]
    rw [e]
    have : ⌊((ordinal c.year c.month c.day : ℕ) : ℚ) + usedFraction c.hour⌋ = (ordinal c.year c.month c.day : ℤ) := by
      rw [Int.floor_eq_iff]
      push_cast
      constructor <;> linarith
    rw [this]
    push_cast
    rw [add_sub_cancel_left]
  · rintro ⟨k, hk⟩
    unfold usedFraction
    rw [hk, show (2 * (3 * k) + 1) / 3 = 2 * k by omega]
    push_cast; ring
  · unfold usedFraction
    have h3 : 3 * ((2 * c.hour + 1) / 3) ≤ 2 * c.hour + 1 := Nat.mul_div_le _ _
    have h4 : 2 * c.hour + 1 < 3 * ((2 * c.hour + 1) / 3) + 3 := by omega
    generalize (2 * c.hour + 1) / 3 = q at h3 h4
    have h3' : 3 * (q : ℚ) ≤ 2 * c.hour + 1 := by exact_mod_cast h3
    have h4' : 2 * (c.hour : ℚ) ≤ 3 * q + 1 := by exact_mod_cast (by omega : 2 * c.hour ≤ 3 * q + 1)
    rw [abs_le]
    constructor <;> linarith

/-- C151 fails: the times have single precision, so that the first and the second hour of each three cannot be told
apart, and minutes are ignored. -/
theorem C151_hours_fail (y m d k : ℕ) (n n' : ℕ) :
    getTime ⟨y, m, d, 3 * k + 1, n⟩ = getTime ⟨y, m, d, 3 * k + 2, n'⟩ := by
  unfold getTime single
  simp only
  congr 2
  have e1 : 16 * ((ordinal y m d : ℚ) + ((3 * k + 1 : ℕ) : ℚ) / 24) = ((16 * (ordinal y m d : ℤ) + 2 * k : ℤ) : ℚ) + 2 / 3 := by
    push_cast; ring
  have e2 : 16 * ((ordinal y m d : ℚ) + ((3 * k + 2 : ℕ) : ℚ) / 24) = ((16 * (ordinal y m d : ℤ) + 2 * k : ℤ) : ℚ) + 4 / 3 := by
    push_cast; ring
  rw [e1, e2, npRound_natAdd _ _ (by omega), npRound_natAdd _ _ (by omega)]
  have a : npRound (2 / 3) = 1 := by decide +kernel
  have b : npRound (4 / 3) = 1 := by decide +kernel
  rw [a, b]

/-- C151 fails: at 01:00 and at 02:59 the climatology is read for 01:30. -/
theorem C151_example (f : Climate.File) (lat lon : ℚ) :
    environment f ⟨2011, 2, 2, 1, 0⟩ lat lon = .ok (Climate.getPressure f (33 + 1 / 16) lat lon) ∧
    environment f ⟨2011, 2, 2, 2, 59⟩ lat lon = .ok (Climate.getPressure f (33 + 1 / 16) lat lon) := by
  have hj : julianDay 2011 2 2 = .ok 33 := rfl
  have t1 : getTime ⟨2011, 2, 2, 1, 0⟩ = (ordinal 2011 2 2 : ℚ) + 1 / 16 := by decide +kernel
  have t2 : getTime ⟨2011, 2, 2, 2, 59⟩ = (ordinal 2011 2 2 : ℚ) + 1 / 16 := by decide +kernel
  have o : ordinal 2011 2 2 = 734170 := by decide +kernel
  have fl : ⌊((734170 : ℕ) : ℚ) + 1 / 16⌋ = 734170 := by decide +kernel
  constructor
  · simp only [environment, hj, Climate.ltmPressure, Climate.getPressure, t1, o, fl]
    norm_num
  · simp only [environment, hj, Climate.ltmPressure, Climate.getPressure, t2, o, fl]
    norm_num

/-- The day numbers for which single precision is modelled. -/
example : 2 ^ 19 ≤ ordinal 1437 1 1 ∧ ordinal 2869 12 31 < 2 ^ 20 := by decide +kernel

/-- The example meets the hypotheses of `C151_time_partial` at an hour that is a multiple of three. -/
example : julianDay 2011 2 2 = .ok 33 ∧ (18 : ℕ) < 24 ∧ 3 ∣ 18 := ⟨rfl, by norm_num, by norm_num⟩

end Tcrm.Ages
