import Verif.Model.Dates
import Verif.Spec.Dates
import Verif.Props.DataProc
import Mathlib.Tactic.IntervalCases
/-!
C40 (elapsed time and day of year), C70 (clock times), C71 (time steps), C72 (extremes of a track and
outer pressure).
-/
namespace Tcrm.Dates
open Tcrm.DataProc

/-! ### C40 -/

theorem leap_rule (y : ℕ) : isLeap y = true ↔ LeapYear y := by
  unfold isLeap LeapYear
  simp

theorem calendar_days {leap : Bool} {m d : ℕ} : validDay leap m d = true ↔ RealDay leap m d := by
  unfold validDay RealDay
  rw [decide_eq_true_eq]
  refine and_congr_right fun h1 => and_congr_right fun h2 => and_congr_right fun h3 => ?_
  cases leap <;> interval_cases m <;> simp [daysInMonth, lengths]

theorem calendar_number {m d : ℕ} (h : RealDay false m d) : dayOfYear false m d = before m + d := by
  obtain ⟨h1, h2, _, _⟩ := h
  unfold dayOfYear
  interval_cases m <;> simp [List.range', daysInMonth, before, lengths]

/-- The number of a day, by the days of the model's months -/
def number (m d : ℕ) : ℕ := if m = 2 ∧ d = 29 then 59 else dayOfYear false m d

theorem number_eq {leap : Bool} {m d : ℕ} (h : RealDay leap m d) : number m d = calendarNumber m d := by
  unfold number calendarNumber
  split_ifs with hc
  · rfl
  · refine calendar_number ?_
    obtain ⟨h1, h2, h3, h4⟩ := h
    refine ⟨h1, h2, h3, ?_⟩
    cases leap
    · exact h4
    · interval_cases m <;> simp [lengths] at h4 ⊢ <;> omega

theorem leap_shift {m d : ℕ} (h : validDay true m d = true) :
    dayOfYear true m d = if m ≤ 2 then dayOfYear false m d else dayOfYear false m d + 1 := by
  unfold validDay at h
  rw [decide_eq_true_eq] at h
  obtain ⟨h1, h2, _, _⟩ := h
  unfold dayOfYear
  interval_cases m <;> simp [List.range', daysInMonth] <;> omega

theorem day_bounds {leap : Bool} {m d : ℕ} (h : validDay leap m d = true) :
    (m ≤ 2 → dayOfYear leap m d ≤ 60 ∧ (dayOfYear leap m d = 60 ↔ m = 2 ∧ d = 29)) ∧
      (3 ≤ m → 60 ≤ dayOfYear leap m d) := by
  unfold validDay at h
  rw [decide_eq_true_eq] at h
  obtain ⟨h1, h2, h3, h4⟩ := h
  unfold dayOfYear
  cases leap <;> interval_cases m <;> simp [List.range', daysInMonth] at h4 ⊢ <;> omega

theorem stored_partial {y m d : ℕ} (hv : validDay (isLeap y) m d = true)
    (hy : (y % 4 = 0 ∧ (y < 1900 ∨ isLeap y = true)) ∨ (y % 4 ≠ 0 ∧ 1900 ≤ y)) :
    storedDay y m d = .ok (number m d) := by
  unfold storedDay julianDay number
  have h1904 : isLeap 1904 = true := by decide
  rcases hy with ⟨h4, hl⟩ | ⟨h4, h19⟩
  · have hleap : isLeap (if y < 1900 then 1904 else y) = true := by
      split
      · exact h1904
      · rcases hl with hl | hl
        · omega
        · exact hl
    have hv' : validDay true m d = true := by
      cases hlp : isLeap y
      · rw [hlp] at hv
        unfold validDay at hv ⊢
        rw [decide_eq_true_eq] at hv ⊢
        refine ⟨hv.1, hv.2.1, hv.2.2.1, le_trans hv.2.2.2 ?_⟩
        obtain ⟨a, b, _, _⟩ := hv
        interval_cases m <;> simp [daysInMonth]
      · rwa [hlp] at hv
    simp only [hleap, hv', if_true, h4, true_and]
    have hb := day_bounds hv'
    rw [leap_shift hv'] at hb ⊢
    congr 1
    by_cases hm : m ≤ 2
    · simp only [hm, if_true, forall_true_left] at hb ⊢
      split_ifs <;> omega
    · simp only [hm, if_false] at hb ⊢
      have := hb.2 (by omega)
      split_ifs <;> omega
  · have hleap : isLeap y = false := by simp [isLeap, h4]
    have hjy : (if y < 1900 then 1904 else y) = y := if_neg (by omega)
    rw [hleap] at hv
    simp only [hjy, hleap, hv, if_true, h4, false_and, if_false]
    congr 1
    rw [if_neg]
    rintro ⟨rfl, rfl⟩
    simp [validDay, daysInMonth] at hv

theorem stored_before_1900 {y m d : ℕ} (hv : validDay false m d = true) (hy : y < 1900) (h4 : y % 4 ≠ 0)
    (hm : 3 ≤ m) : storedDay y m d = .ok (number m d + 1) := by
  unfold storedDay julianDay number
  have hv' : validDay true m d = true := by
    unfold validDay at hv ⊢
    rw [decide_eq_true_eq] at hv ⊢
    refine ⟨hv.1, hv.2.1, hv.2.2.1, le_trans hv.2.2.2 ?_⟩
    obtain ⟨a, b, _, _⟩ := hv
    interval_cases m <;> simp [daysInMonth]
  have h1904 : isLeap 1904 = true := by decide
  simp only [if_pos hy, h1904, hv', if_true, h4, false_and, if_false, leap_shift hv']
  rw [if_neg (by omega), if_neg (by omega)]

theorem stored_century {y m d : ℕ} (hv : validDay false m d = true) (hy : 1900 ≤ y) (h4 : y % 4 = 0)
    (hl : isLeap y = false) (hm : 3 ≤ m) : storedDay y m d = .ok (number m d - 1) := by
  unfold storedDay julianDay number
  have hjy : (if y < 1900 then 1904 else y) = y := if_neg (by omega)
  have := (day_bounds hv).2 hm
  simp only [hjy, hl, hv, if_true, h4, true_and]
  rw [if_pos (by omega), if_neg (by omega)]

/-- C40 in part: the stored day is the number of the calendar day if the year is a multiple of four that is
a leap year or before 1900, or not a multiple of four and not before 1900. -/
theorem C40_day_partial {y m d : ℕ} (hv : RealDay (LeapYear y) m d)
    (hy : (y % 4 = 0 ∧ (y < 1900 ∨ LeapYear y)) ∨ (y % 4 ≠ 0 ∧ 1900 ≤ y)) :
    storedDay y m d = .ok (calendarNumber m d) := by
  rw [← number_eq hv]
  refine stored_partial (calendar_days.2 ?_) (by rwa [leap_rule])
  rwa [show isLeap y = decide (LeapYear y) from Bool.eq_iff_iff.2 (by rw [leap_rule, decide_eq_true_eq])]

/-- C40 fails after February in the years before 1900 that are not multiples of four: the stored day is
one too large. -/
theorem C40_day_before_1900_fails {y m d : ℕ} (hv : RealDay false m d) (hy : y < 1900) (h4 : y % 4 ≠ 0)
    (hm : 3 ≤ m) : storedDay y m d = .ok (calendarNumber m d + 1) := by
  rw [← number_eq hv]
  exact stored_before_1900 (calendar_days.2 hv) hy h4 hm

/-- C40 fails after February in 1900, 2100 and so on: the stored day is one too small. -/
theorem C40_day_century_fails {y m d : ℕ} (hv : RealDay false m d) (hy : 1900 ≤ y) (h4 : y % 4 = 0)
    (hl : ¬ LeapYear y) (hm : 3 ≤ m) : storedDay y m d = .ok (calendarNumber m d - 1) := by
  rw [← number_eq hv]
  refine stored_century (calendar_days.2 hv) hy h4 ?_ hm
  rwa [← leap_rule, Bool.not_eq_true] at hl

/-- C40: a day that is not in the calendar is refused, except that February 29 is accepted in the years before 1900. -/
theorem C40_no_such_day {y m d : ℕ} (hv : ¬ RealDay (LeapYear y ∨ y < 1900) m d) : storedDay y m d = .error .valueError := by
  unfold storedDay julianDay
  have h : validDay (isLeap (if y < 1900 then 1904 else y)) m d = false := by
    rw [← Bool.not_eq_true, calendar_days]
    convert hv using 2
    refine Bool.eq_iff_iff.2 ?_
    rw [leap_rule, decide_eq_true_eq]
    split_ifs with h
    · simp [h, LeapYear]
    · simp [h]
  simp [h]

/-- The last start at or before observation `i`. -/
def StartOf (ind : List ℤ) (i k : ℕ) : Prop :=
  k ≤ i ∧ ind[k]? = some 1 ∧ ∀ j, k < j → j ≤ i → ind[j]? ≠ some 1

theorem elapsed_spec : ∀ (l : List (ℤ × ℚ)) (s : Option ℚ), (∃ p ∈ l.head?, p.1 = 1) ∨ s ≠ none ∨ l = [] →
    ∃ es, timeElapsed s l = .ok es ∧ es.length = l.length ∧
      ∀ (i : ℕ) (p : ℤ × ℚ), l[i]? = some p →
        (∀ (k : ℕ) (q : ℤ × ℚ), l[k]? = some q → StartOf (l.map (·.1)) i k → es[i]? = some (p.2 - q.2)) ∧
        (∀ t, s = some t → (∀ j ≤ i, (l.map (·.1))[j]? ≠ some 1) → es[i]? = some (p.2 - t))
  | [], s, _ => ⟨[], by simp [timeElapsed], rfl, by simp⟩
  | x :: l, s, h => by
    have shift : ∀ i k, StartOf (x.1 :: l.map (·.1)) (i + 1) (k + 1) ↔ StartOf (l.map (·.1)) i k := by
      intro i k
      unfold StartOf
      simp only [List.getElem?_cons_succ]
      constructor
      · rintro ⟨a, b, c⟩
        exact ⟨by omega, b, fun j h1 h2 => by simpa using c (j + 1) (by omega) (by omega)⟩
      · rintro ⟨a, b, c⟩
        refine ⟨by omega, b, fun j h1 h2 => ?_⟩
        obtain ⟨j, rfl⟩ : ∃ j', j = j' + 1 := ⟨j - 1, by omega⟩
        simpa using c j (by omega) (by omega)
    by_cases hx : x.1 = 1
    · obtain ⟨es, h1, h2, h3⟩ := elapsed_spec l (some x.2) (Or.inr (Or.inl (by simp)))
      refine ⟨0 :: es, by simp [timeElapsed, hx, h1], by simp [h2], ?_⟩
      intro i p hp
      cases i with
      | zero =>
        simp only [List.getElem?_cons_zero, Option.some.injEq] at hp
        subst hp
        constructor
        · intro k q hq hk
          have : k = 0 := by have := hk.1; omega
          subst this
          simp only [List.getElem?_cons_zero, Option.some.injEq] at hq
          subst hq
          simp
        · intro t _ hn
          exact absurd (by simp [hx]) (hn 0 (le_refl _))
      | succ i =>
        rw [List.getElem?_cons_succ] at hp
        obtain ⟨g1, g2⟩ := h3 i p hp
        constructor
        · intro k q hq hk
          rw [List.getElem?_cons_succ]
          cases k with
          | zero =>
            simp only [List.getElem?_cons_zero, Option.some.injEq] at hq
            subst hq
            apply g2 _ rfl
            intro j hj
            have := hk.2.2 (j + 1) (by omega) (by omega)
            simpa using this
          | succ k =>
            rw [List.getElem?_cons_succ] at hq
            exact g1 k q hq ((shift i k).1 hk)
        · intro t _ hn
          exact absurd (by simp [hx]) (hn 0 (Nat.zero_le _))
    · have hs : s ≠ none := by
        rcases h with ⟨p, hp, hp1⟩ | h | h
        · simp only [List.head?_cons, Option.mem_def, Option.some.injEq] at hp
          subst hp; exact absurd hp1 hx
        · exact h
        · simp at h
      obtain ⟨t, rfl⟩ := Option.ne_none_iff_exists'.1 hs
      obtain ⟨es, h1, h2, h3⟩ := elapsed_spec l (some t) (Or.inr (Or.inl (by simp)))
      refine ⟨(x.2 - t) :: es, by simp [timeElapsed, hx, h1], by simp [h2], ?_⟩
      intro i p hp
      cases i with
      | zero =>
        simp only [List.getElem?_cons_zero, Option.some.injEq] at hp
        subst hp
        constructor
        · intro k q hq hk
          have : k = 0 := by have := hk.1; omega
          subst this
          have := hk.2.1
          simp [hx] at this
        · intro t' ht' _
          simp only [Option.some.injEq] at ht'
          subst ht'; simp
      | succ i =>
        rw [List.getElem?_cons_succ] at hp
        obtain ⟨g1, g2⟩ := h3 i p hp
        constructor
        · intro k q hq hk
          rw [List.getElem?_cons_succ]
          cases k with
          | zero =>
            have := hk.2.1
            simp [hx] at this
          | succ k =>
            rw [List.getElem?_cons_succ] at hq
            exact g1 k q hq ((shift i k).1 hk)
        · intro t' ht' hn
          rw [List.getElem?_cons_succ]
          apply g2 t' ht'
          intro j hj
          have := hn (j + 1) (by omega)
          simpa using this

/-- C40: if the record begins with a start, the elapsed time of each observation is the time since the
start of its track; in particular zero at each start. -/
theorem C40_elapsed {l : List (ℤ × ℚ)} (h : ∃ p ∈ l.head?, p.1 = 1) :
    ∃ es, timeElapsed none l = .ok es ∧ es.length = l.length ∧
      ∀ (i k : ℕ) (p q : ℤ × ℚ), l[i]? = some p → l[k]? = some q → StartOf (l.map (·.1)) i k →
        es[i]? = some (p.2 - q.2) := by
  obtain ⟨es, h1, h2, h3⟩ := elapsed_spec l none (Or.inl h)
  exact ⟨es, h1, h2, fun i k p q hp hq hk => (h3 i p hp).1 k q hq hk⟩

/-- C40 fails without a start at the beginning: an exception. -/
theorem C40_elapsed_unbound {p : ℤ × ℚ} (l : List (ℤ × ℚ)) (h : p.1 ≠ 1) :
    timeElapsed none (p :: l) = .error .unboundLocal := by
  simp [timeElapsed, h]

/-- C40 fails at a track that begins with a jump: its elapsed time does not restart. -/
theorem C40_elapsed_jump_fails {o p : Obs} {t0 t1 : ℚ} (ho : o.index = 1) (hp : p.index = 0)
    (hj : p.lon - o.lon > 10) : loadTimes [o, p] [t0, t1] = .ok ([1, 1], [0, t1 - t0]) := by
  simp [loadTimes, timeElapsed, splitJumps, ho, hp, hj]

example : storedDay 2000 3 1 = .ok 60 ∧ storedDay 1999 3 1 = .ok 60 ∧ storedDay 2000 2 29 = .ok 59 ∧
    storedDay 1999 12 31 = .ok 365 ∧ storedDay 2000 12 31 = .ok 365 ∧ storedDay 1900 3 1 = .ok 59 := by decide +kernel

example : timeElapsed none [(1, 5), (0, 11), (1, 30), (0, 36), (0, 42)] = .ok [0, 6, 0, 6, 12] := by decide +kernel

/-! ### C70 -/

/-- C70 in part: times given as hhmm are split into hours and minutes if one of them is 01:00 or later,
and plain hours are kept. -/
theorem C70_clock_partial (times : List (ℕ × ℕ)) (hm : ∀ p ∈ times, p.2 < 60 ∧ p.1 < 24) :
    ((∃ p ∈ times, 1 ≤ p.1) → splitHours (times.map fun p => 100 * p.1 + p.2) = times) ∧
    ((∀ p ∈ times, p.2 = 0) → splitHours (times.map (·.1)) = times) := by
  constructor
  · rintro ⟨p, hp, h1⟩
    unfold splitHours
    rw [if_pos ⟨100 * p.1 + p.2, List.mem_map.2 ⟨p, hp, rfl⟩, by omega⟩, List.map_map]
    conv_rhs => rw [← List.map_id times]
    apply List.map_congr_left
    intro q hq
    have := hm q hq
    simp only [Function.comp_apply, id_eq]
    ext <;> simp only <;> omega
  · intro h0
    unfold splitHours
    rw [if_neg, List.map_map]
    · conv_rhs => rw [← List.map_id times]
      apply List.map_congr_left
      intro q hq
      have := h0 q hq
      simp only [Function.comp_apply, id_eq]
      ext <;> simp only <;> omega
    · rintro ⟨h, hh, hge⟩
      obtain ⟨p, hp, rfl⟩ := List.mem_map.1 hh
      have := hm p hp
      omega

/-- C70 fails if all times of the file are before 01:00: minutes are taken for hours. -/
theorem C70_after_midnight_fails {m : ℕ} (hm : 0 < m ∧ m < 60) : splitHours [100 * 0 + m] = [(m, 0)] ∧
    splitHours [100 * 0 + m] ≠ [(0, m)] := by
  have h : splitHours [100 * 0 + m] = [(m, 0)] := by
    unfold splitHours
    rw [if_neg]
    · simp
    · simp; omega
  rw [h]
  refine ⟨rfl, ?_⟩
  intro e
  simp at e
  omega

example : splitHours [0, 600, 1230] = [(0, 0), (6, 0), (12, 30)] := by decide +kernel

/-! ### C71 -/

/-- C71: one time step per observation, the first zero; each within half an hour of the time since the
previous observation, and a whole number of hours. -/
theorem C71_steps_partial {ts : List ℚ} (h : ts ≠ []) : (timeDelta ts).length = ts.length ∧
    (timeDelta ts)[0]? = some 0 ∧
    ∀ (i : ℕ) (s t : ℚ), ts[i]? = some s → ts[i + 1]? = some t →
      ∃ n : ℤ, (timeDelta ts)[i + 1]? = some (n : ℚ) ∧ |(n : ℚ) - (t - s)| ≤ 1 / 2 := by
  match ts with
  | [] => exact absurd rfl h
  | a :: l =>
    refine ⟨by simp [timeDelta], by simp [timeDelta], ?_⟩
    intro i s t hs ht
    have : ((a :: l).zip l)[i]? = some (s, t) := by
      rw [List.getElem?_zip_eq_some]
      exact ⟨hs, by simpa using ht⟩
    simp only [timeDelta, List.getElem?_cons_succ, List.getElem?_map, this, Option.map_some]
    exact ⟨_, rfl, npRound_error _⟩

theorem npRound_int (n : ℤ) : npRound n = n := by
  unfold npRound
  simp

/-- C71: steps of whole hours are exact. -/
theorem C71_whole_hours (t : ℚ) (n : ℤ) : timeDelta [t, t + n] = [0, n] := by
  simp [timeDelta, npRound_int]

/-- C71 fails for steps below half an hour: they become zero. -/
theorem C71_short_steps_fail (t : ℚ) {d : ℚ} (h0 : 0 < d) (h1 : d < 1 / 2) : timeDelta [t, t + d] = [0, 0] := by
  simp only [timeDelta, List.zip_cons_cons, List.zip_nil_right, List.map_cons, List.map_nil, add_sub_cancel_left]
  have hf : ⌊d⌋ = 0 := Int.floor_eq_iff.2 ⟨by simpa using h0.le, by push_cast; linarith⟩
  simp [npRound, hf]
  intro h
  exact absurd h1 (by simpa using h)

/-! ### C72 -/

theorem foldl_min_spec : ∀ (l : List ℚ) (a : ℚ), (l.foldl min a = a ∨ l.foldl min a ∈ l) ∧
    l.foldl min a ≤ a ∧ ∀ x ∈ l, l.foldl min a ≤ x
  | [], a => by simp
  | y :: l, a => by
    obtain ⟨h1, h2, h3⟩ := foldl_min_spec l (min a y)
    simp only [List.foldl_cons]
    refine ⟨?_, h2.trans (min_le_left _ _), ?_⟩
    · rcases h1 with h1 | h1
      · rcases min_choice a y with h | h
        · left; rw [h1, h]
        · right; rw [h1, h]; simp
      · right; exact List.mem_cons_of_mem _ h1
    · intro x hx
      rcases List.mem_cons.1 hx with rfl | hx
      · exact h2.trans (min_le_right _ _)
      · exact h3 x hx

theorem foldl_max_spec : ∀ (l : List ℚ) (a : ℚ), (l.foldl max a = a ∨ l.foldl max a ∈ l) ∧
    a ≤ l.foldl max a ∧ ∀ x ∈ l, x ≤ l.foldl max a
  | [], a => by simp
  | y :: l, a => by
    obtain ⟨h1, h2, h3⟩ := foldl_max_spec l (max a y)
    simp only [List.foldl_cons]
    refine ⟨?_, (le_max_left _ _).trans h2, ?_⟩
    · rcases h1 with h1 | h1
      · rcases max_choice a y with h | h
        · left; rw [h1, h]
        · right; rw [h1, h]; simp
      · right; exact List.mem_cons_of_mem _ h1
    · intro x hx
      rcases List.mem_cons.1 hx with rfl | hx
      · exact (le_max_right _ _).trans h2
      · exact h3 x hx

/-- C72: the lowest pressure (highest wind) of a track is the least (greatest) of its values that are not
missing, and missing if all are. -/
theorem C72_extremes (missing : ℚ) (l : List ℚ) :
    ((∀ x ∈ l, x = missing) → best min missing l = missing ∧ best max missing l = missing) ∧
    ((∃ x ∈ l, x ≠ missing) →
      (best min missing l ∈ l ∧ best min missing l ≠ missing ∧ ∀ x ∈ l, x ≠ missing → best min missing l ≤ x) ∧
      (best max missing l ∈ l ∧ best max missing l ≠ missing ∧ ∀ x ∈ l, x ≠ missing → x ≤ best max missing l)) := by
  have hmem : ∀ x, x ∈ l.filter (· ≠ missing) ↔ x ∈ l ∧ x ≠ missing := by
    intro x; simp [List.mem_filter]
  unfold best
  constructor
  · intro h
    have : l.filter (· ≠ missing) = [] := by
      rw [List.filter_eq_nil_iff]; intro x hx; simp [h x hx]
    rw [this]; exact ⟨rfl, rfl⟩
  · rintro ⟨x, hx, hne⟩
    cases hf : l.filter (· ≠ missing) with
    | nil => have := (hmem x).2 ⟨hx, hne⟩; rw [hf] at this; simp at this
    | cons y ys =>
      rw [hf] at hmem
      simp only
      obtain ⟨a1, a2, a3⟩ := foldl_min_spec ys y
      obtain ⟨b1, b2, b3⟩ := foldl_max_spec ys y
      have m1 : ys.foldl min y ∈ y :: ys := by
        rcases a1 with h | h
        · rw [h]; simp
        · exact List.mem_cons_of_mem _ h
      have m2 : ys.foldl max y ∈ y :: ys := by
        rcases b1 with h | h
        · rw [h]; simp
        · exact List.mem_cons_of_mem _ h
      refine ⟨⟨((hmem _).1 m1).1, ((hmem _).1 m1).2, ?_⟩, ((hmem _).1 m2).1, ((hmem _).1 m2).2, ?_⟩
      · intro z hz hzm
        rcases List.mem_cons.1 ((hmem z).2 ⟨hz, hzm⟩) with rfl | h
        · exact a2
        · exact a3 z h
      · intro z hz hzm
        rcases List.mem_cons.1 ((hmem z).2 ⟨hz, hzm⟩) with rfl | h
        · exact b2
        · exact b3 z h

/-- C72: the outer pressure is undefined exactly where the central pressure is above the environmental one
or has the mark for missing values. -/
theorem C72_poci (model : ℚ → ℚ → ℚ) (missing penv pc : ℚ) :
    (getPoci model missing penv pc = none ↔ penv < pc ∨ pc = missing) ∧
    (pc ≤ penv → pc ≠ missing → getPoci model missing penv pc = some (model penv pc)) := by
  unfold getPoci
  constructor
  · split_ifs with h1 h2
    · simp [h1]
    · simp [h2]
    · simp [h1, h2]
  · intro h1 h2
    rw [if_neg (not_lt.2 h1), if_neg h2]

/-- C72 fails for track files: a missing pressure (mark 0) gets an outer pressure. -/
theorem C72_missing_pressure_fails (model : ℚ → ℚ → ℚ) {penv p : ℚ} (hp : p < 600 ∨ p > 1100) (hpe : 0 ≤ penv) :
    loadPoci model 0 penv p = some (model penv 0) := by
  unfold loadPoci filterPressure getPoci
  rw [if_pos hp, if_neg (not_lt.2 hpe), if_neg (by norm_num)]

/-- C72: with `sys.maxsize` as the mark for missing values it is right. -/
theorem C72_poci_maxsize (model : ℚ → ℚ → ℚ) (penv p : ℚ) :
    (p < 600 ∨ 1100 < p → loadPoci model (2 ^ 63) penv p = none) ∧
    (600 ≤ p → p ≤ 1100 → loadPoci model (2 ^ 63) penv p = if p ≤ penv then some (model penv p) else none) := by
  unfold loadPoci filterPressure
  constructor
  · intro h
    rw [if_pos h]
    exact ((C72_poci model _ penv _).1).2 (.inr rfl)
  · intro h1 h2
    rw [if_neg (not_or.2 ⟨not_lt.2 h1, not_lt.2 h2⟩)]
    by_cases h : p ≤ penv
    · rw [if_pos h]
      exact (C72_poci model _ penv _).2 h (by rintro rfl; norm_num at h2)
    · rw [if_neg h]
      exact ((C72_poci model _ penv _).1).2 (.inl (not_le.1 h))

example : best min 0 [0, 990, 985, 0] = 985 ∧ best max 0 [0, 0] = 0 := by decide +kernel

end Tcrm.Dates
