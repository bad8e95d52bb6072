import Verif.Lemmas.TrackDates
import Mathlib.Tactic.IntervalCases
/-!
C188 — times and dates of interpolated tracks in double precision.
-/
namespace Tcrm.TrackDates

open Tcrm.TrackInterp Tcrm.Binary64 Tcrm.Times64
open Tcrm.DataProc (npRound)
open Tcrm.Akima (Increasing)

variable {leg : ℚ × ℚ → ℚ × ℚ → ℚ × ℚ} {kind : Kind} {obs : List Obs}

theorem last64 (hv : ∀ o ∈ obs, Valid o.date) {x : List ℚ} (hx : HoursSinceFirst obs x) {T : ℚ} (hT : x.getLast? = some T) :
    ∃ T', (elapsed64 obs).getLast? = some T' ∧ |T' - T| < 1 / 10 ^ 6 := by
  have hex := hours_elapsed (fun o ho => (hv o ho).2.2.2) hx
  subst hex
  obtain ⟨T', hT', eT⟩ := C183_error obs hv _ _ (by rw [List.getLast?_eq_getElem?] at hT; exact hT)
  refine ⟨T', ?_, eT⟩
  rw [List.getLast?_eq_getElem?, (Times64.elapsed_length obs).1, ← (Times64.elapsed_length obs).2]; exact hT'

theorem last_bound (hv : ∀ o ∈ obs, Valid o.date) {x : List ℚ} (hx : HoursSinceFirst obs x) {T : ℚ} (hT : x.getLast? = some T) :
    T ≤ 24 * 2 ^ 22 := by
  have hex := hours_elapsed (fun o ho => (hv o ho).2.2.2) hx
  subst hex
  cases obs with
  | nil => simp [elapsed] at hT
  | cons o rest =>
    simp only [elapsed] at hT
    rw [List.getLast?_map] at hT
    obtain ⟨p, hp, rfl⟩ := Option.map_eq_some_iff.1 hT
    have h1 := (dayTime_error (hv p (List.mem_of_getLast? hp))).2.2
    have h2 := (dayTime_error (hv o (by simp))).2.1
    linarith

theorem double64 {T : ℚ} (hT : (elapsed64 obs).getLast? = some T) : Double T := by
  cases obs with
  | nil => simp [elapsed64] at hT
  | cons o rest =>
    simp only [elapsed64] at hT
    rw [List.getLast?_map] at hT
    obtain ⟨p, -, rfl⟩ := Option.map_eq_some_iff.1 hT
    exact fl_double _

/-- Everything about the new times that the theorems need. -/
theorem times64 (leg : ℚ × ℚ → ℚ × ℚ → ℚ × ℚ) (hkind : kind = .linear ∨ kind = .akima) (h2 : 2 ≤ obs.length)
    (hv : ∀ o ∈ obs, Valid o.date) {x : List ℚ} (hx : HoursSinceFirst obs x) (hinc : Increasing x)
    (hp : ∀ o ∈ obs, o.pressure < 9223372036854775807) {δ : ℚ} (hd : Double δ) (hδ : 1 / 50 ≤ δ)
    {T : ℚ} (hT : x.getLast? = some T) :
    ∃ (n : ℕ) (T' : ℚ) (recs : List Rec), |T' - T| < 1 / 10 ^ 6 ∧
      interpolateDates leg kind obs δ = .ok (recs, newDates obs (recs.map (·.time))) ∧
      recs.map (·.time) = ((List.range n).map fun k : ℕ => fl (k * δ)) ++ [T'] ∧
      (n : ℚ) * δ < T' + 1 / 100 + 1 / 10 ^ 6 ∧ T' + 1 / 100 - 1 / 10 ^ 6 ≤ (n + 1 : ℚ) * δ ∧
      ∀ k : ℕ, k < n → |fl (k * δ) - k * δ| ≤ 1 / 10 ^ 7 ∧ 0 ≤ fl (k * δ) ∧ fl (k * δ) < T' := by
  have hne : obs ≠ [] := by rintro rfl; simp at h2
  obtain ⟨T', hT', eT⟩ := last64 hv hx hT
  have hb := last_bound hv hx hT
  have hex := hours_elapsed (fun o ho => (hv o ho).2.2.2) hx
  have hinc' : Increasing (elapsed64 obs) := increasing64 hv (hex ▸ hinc)
  have hT0 := last_nonneg_at (head64 hne) hinc' hT'
  have hTb : T' ≤ 2 ^ 27 := by
    rw [abs_lt] at eT
    norm_num at hb eT ⊢
    linarith
  obtain ⟨n, a1, a2, a3⟩ := newTimes64_eq hT0 hTb (show 0 < δ by linarith) hd
  have ht := times_of hT0 hTb (double64 hT') hδ a2
  obtain ⟨recs, hr⟩ := total_on (δ := δ) leg hkind h2 (Times64.elapsed_length obs).1 (head64 hne) hinc' hp hT'
    (ts := ((List.range n).map fun k : ℕ => fl (k * δ)) ++ [T']) (by simp) (by
      intro t h
      rcases List.mem_append.1 h with h | h
      · obtain ⟨k, hk, rfl⟩ := List.mem_map.1 h
        have := ht k (List.mem_range.1 hk)
        exact ⟨this.2.1, this.2.2.le⟩
      · rw [List.mem_singleton.1 h]
        exact ⟨hT0, le_refl _⟩)
  obtain ⟨xs, ys, ps, ws, es, rs, p⟩ := parts_on hr
  have hk : kind.Full := by rcases hkind with rfl | rfl <;> trivial
  have hm := p.map_time hk
  refine ⟨n, T', recs, eT, ?_, hm, a2, a3, ht⟩
  unfold interpolateDates
  rw [hT', Option.getD_some, a1]
  simp only [hr, hm]

/-- C188: with all calculations of times in double precision, a track of two or more observations at increasing times, all
with a pressure, is interpolated successfully to any time step of at least a fiftieth of an hour. The new times increase, are
multiples of the time step (within a ten-millionth of an hour) except for the last, which is that of the last observation
(within a millionth); the last step is less than twice as long as the others, and at most two hundredths of an hour shorter. -/
theorem C188_times (leg : ℚ × ℚ → ℚ × ℚ → ℚ × ℚ) (hkind : kind = .linear ∨ kind = .akima) (h2 : 2 ≤ obs.length)
    (hv : ∀ o ∈ obs, Valid o.date) {x : List ℚ} (hx : HoursSinceFirst obs x) (hinc : Increasing x)
    (hp : ∀ o ∈ obs, o.pressure < 9223372036854775807) {δ : ℚ} (hd : Double δ) (hδ : 1 / 50 ≤ δ)
    {T : ℚ} (hT : x.getLast? = some T) :
    ∃ recs dates, interpolateDates leg kind obs δ = .ok (recs, dates) ∧ dates.length = recs.length ∧
      Increasing (recs.map (·.time)) ∧
      (∃ r, recs.getLast? = some r ∧ |r.time - T| < 1 / 10 ^ 6) ∧
      (∀ (i : ℕ) (r : Rec), recs[i]? = some r → i + 1 < recs.length → |r.time - i * δ| ≤ 1 / 10 ^ 7) ∧
      (recs.length - 1 : ℚ) * δ - 2 / 100 ≤ T ∧ T < recs.length * δ := by
  obtain ⟨n, T', recs, eT, h, hm, a2, a3, ht⟩ := times64 leg hkind h2 hv hx hinc hp hd hδ hT
  have hδ0 : 0 < δ := by linarith
  have hl : recs.length = n + 1 := by
    have := congrArg List.length hm
    simpa using this
  refine ⟨recs, _, h, ?_, ?_, ?_, ?_, ?_, ?_⟩
  · cases obs with
    | nil => simp at h2
    | cons o rest => simp [newDates]
  · rw [hm]
    unfold Increasing
    rw [List.pairwise_append]
    refine ⟨?_, List.pairwise_singleton _ _, ?_⟩
    · rw [List.pairwise_map, List.pairwise_iff_getElem]
      intro i j hi hj hij
      simp only [List.length_range] at hi hj
      simp only [List.getElem_range]
      have b1 := abs_le.1 (ht i hi).1
      have b2 := abs_le.1 (ht j hj).1
      have b3 : ((i + 1 : ℕ) : ℚ) ≤ j := by exact_mod_cast hij
      have b4 := mul_le_mul_of_nonneg_right b3 hδ0.le
      push_cast at b4
      norm_num at b1 b2
      linarith
    · intro a ha b hb
      obtain ⟨i, hi, rfl⟩ := List.mem_map.1 ha
      rw [List.mem_singleton.1 hb]
      exact (ht i (List.mem_range.1 hi)).2.2
  · have : (recs.map (·.time)).getLast? = some T' := by rw [hm]; exact List.getLast?_concat
    rw [List.getLast?_map] at this
    obtain ⟨r, hr, e⟩ := Option.map_eq_some_iff.1 this
    exact ⟨r, hr, by rw [e]; exact eT⟩
  · intro i r hr hi
    have : (recs.map (·.time))[i]? = some r.time := by rw [List.getElem?_map, hr]; rfl
    rw [hm, List.getElem?_append_left (by simp; omega), List.getElem?_map, List.getElem?_range (by omega)] at this
    injection this with this
    rw [← this]
    exact (ht i (by omega)).1
  · rw [abs_lt] at eT
    rw [hl]
    push_cast
    norm_num at eT a2 ⊢
    linarith
  · rw [abs_lt] at eT
    rw [hl]
    push_cast
    norm_num at eT a3 ⊢
    linarith

/-- C188: if the track lasts a whole number `N` of time steps `σ` there are `N + 1` records, at the multiples of the time step
within a millionth of an hour. The time step need not be a double; it is rounded. -/
theorem C188_whole (leg : ℚ × ℚ → ℚ × ℚ → ℚ × ℚ) (hkind : kind = .linear ∨ kind = .akima) (h2 : 2 ≤ obs.length)
    (hv : ∀ o ∈ obs, Valid o.date) {x : List ℚ} (hx : HoursSinceFirst obs x) (hinc : Increasing x)
    (hp : ∀ o ∈ obs, o.pressure < 9223372036854775807) {σ : ℚ} (hσ : 1 / 40 ≤ σ) {N : ℕ} (hT : x.getLast? = some (N * σ)) :
    ∃ recs dates, interpolateDates leg kind obs (fl σ) = .ok (recs, dates) ∧ recs.length = N + 1 ∧
      ∀ (i : ℕ) (r : Rec), recs[i]? = some r → |r.time - i * σ| ≤ 1 / 10 ^ 6 := by
  have e := abs_le.1 (fl_error σ)
  rw [abs_of_pos (by linarith)] at e
  set δ := fl σ with hδd
  have hδ : 1 / 50 ≤ δ := by norm_num at hσ e ⊢; linarith
  obtain ⟨n, T', recs, eT, h, hm, a2, a3, ht⟩ := times64 leg hkind h2 hv hx hinc hp (fl_double σ) hδ hT
  have hb := last_bound hv hx hT
  have hσ0 : 0 < σ := by linarith
  have hl : recs.length = n + 1 := by
    have := congrArg List.length hm
    simpa using this
  have cl : ∀ k : ℕ, |(k : ℚ) * δ - k * σ| ≤ k * σ / 2 ^ 53 := by
    intro k
    rw [← mul_sub, abs_mul, abs_of_nonneg (Nat.cast_nonneg k), mul_div_assoc]
    exact mul_le_mul_of_nonneg_left (abs_le.2 e) (Nat.cast_nonneg k)
  have hTb : T' ≤ 2 ^ 27 := by
    rw [abs_lt] at eT
    norm_num at hb eT ⊢
    linarith
  have hn : n = N := by
    have c1 := abs_le.1 (cl n)
    have c2 := abs_le.1 (cl (n + 1))
    rw [abs_lt] at eT
    have u : (n : ℚ) * σ ≤ 2 ^ 28 := by
      norm_num at c1 a2 hTb ⊢
      linarith
    have l1 : (n : ℚ) * σ < (N + 1) * σ := by
      norm_num at c1 a2 eT u ⊢
      linarith
    have l2 : (N : ℚ) * σ < (n + 1 : ℚ) * σ := by
      push_cast at c2
      norm_num at c2 a3 eT hb ⊢
      by_contra hc
      push Not at hc
      linarith
    have l1' := lt_of_mul_lt_mul_right l1 hσ0.le
    have l2' := lt_of_mul_lt_mul_right l2 hσ0.le
    have : n < N + 1 := by exact_mod_cast l1'
    have : N < n + 1 := by exact_mod_cast l2'
    omega
  subst hn
  refine ⟨recs, _, h, hl, ?_⟩
  intro i r hr
  have hi : i < recs.length := (List.getElem?_eq_some_iff.1 hr).1
  have : (recs.map (·.time))[i]? = some r.time := by rw [List.getElem?_map, hr]; rfl
  rw [hm] at this
  rcases Nat.lt_or_ge i n with hin | hin
  · rw [List.getElem?_append_left (by simpa using hin), List.getElem?_map, List.getElem?_range hin] at this
    injection this with this
    rw [← this]
    have b1 := abs_le.1 (ht i hin).1
    have b2 := abs_le.1 (cl i)
    have b3 : (i : ℚ) * σ ≤ n * σ := mul_le_mul_of_nonneg_right (by exact_mod_cast hin.le) hσ0.le
    rw [abs_le]
    norm_num at b1 b2 hb ⊢
    constructor <;> linarith
  · obtain rfl : i = n := by omega
    rw [List.getElem?_append_right (by simp)] at this
    simp at this
    rw [← this]
    exact eT.le

/-- A day number of the years 1436 to 2870 and a part of a day: whole units of 2⁻³³ days. -/
theorem fl_day {y : ℚ} (h1 : 2 ^ 19 ≤ y) (h2 : y < 2 ^ 20) : ∃ m : ℤ, fl y = m / 2 ^ 33 ∧ |(m : ℚ) - y * 2 ^ 33| ≤ 1 / 2 := by
  have hy : 0 < y := by norm_num at h1; linarith
  obtain ⟨e, he, b1, b2⟩ := fl_spec hy.ne'
  rw [abs_of_pos hy] at b1 b2
  have e33 : e = -33 := by
    apply le_antisymm
    · by_contra hc
      push Not at hc
      have : (2 : ℚ) ^ (-32 : ℤ) ≤ 2 ^ e := zpow_le_zpow_right₀ (by norm_num) (by omega)
      have k : (2 : ℚ) ^ (-32 : ℤ) = 1 / 4294967296 := by norm_num
      rw [k] at this
      norm_num at b1 h2
      linarith
    · by_contra hc
      push Not at hc
      have : (2 : ℚ) ^ e ≤ 2 ^ (-34 : ℤ) := zpow_le_zpow_right₀ (by norm_num) (by omega)
      have k : (2 : ℚ) ^ (-34 : ℤ) = 1 / 17179869184 := by norm_num
      rw [k] at this
      norm_num at b2 h1
      linarith
  subst e33
  have k : (2 : ℚ) ^ (-33 : ℤ) = 1 / 2 ^ 33 := by norm_num
  rw [k] at he
  refine ⟨_, by rw [he, mul_one_div], ?_⟩
  have := npRound_half (y / (1 / 2 ^ 33))
  rw [div_div_eq_mul_div, div_one] at this ⊢
  exact this

theorem midnight (o : ℕ) (ho : o < 2 ^ 22) : dayTime64 ⟨o, 0, 0, 0⟩ = o := by
  have : fl (o : ℚ) = o := by
    have := fl_int (n := (o : ℤ)) (by rw [abs_le]; omega)
    exact_mod_cast this
  simp [dayTime64, fl_zero, this]

/-- Microseconds after the first observation, at midnight: early by 1 to 5 microseconds, or late by 0 to 5. -/
theorem micros_five {o k : ℕ} (h1 : 693614 ≤ o) (h2 : (o : ℚ) + k / 288 ≤ 744712) (hk : k ≤ 115200) {t : ℚ}
    (ht : |t - k / 12| ≤ 1 / 10 ^ 10) (ht0 : 0 ≤ t) :
    let us := num2date (serial (dayTime64 ⟨o, 0, 0, 0⟩) t)
    let M := 60000000 * (1440 * ((o : ℤ) - 719163) + 5 * k)
    if k % 9 = 3 ∨ k % 9 = 4 ∨ k % 9 = 7 ∨ k % 9 = 8 then M - 5 ≤ us ∧ us ≤ M - 1 else M ≤ us ∧ us ≤ M + 5 := by
  intro us M
  have hkq : (k : ℚ) ≤ 115200 := by exact_mod_cast hk
  have hk0 : (0 : ℚ) ≤ k := Nat.cast_nonneg k
  have h1q : (693614 : ℚ) ≤ o := by exact_mod_cast h1
  have ho : o < 2 ^ 22 := by
    have : (o : ℚ) < 4194304 := by linarith
    exact_mod_cast (by norm_num at this ⊢; exact this : (o : ℕ) < 4194304)
  have e1 := abs_le.1 (fl_error (t / 24))
  rw [abs_of_nonneg (a := t / 24) (by positivity)] at e1
  rw [abs_le] at ht
  set s := fl (t / 24) with hs
  have s0 : 0 ≤ s := fl_nonneg (by positivity)
  have d1 : |s - k / 288| ≤ 1 / 2 ^ 37 := by
    rw [abs_le]
    norm_num at e1 ht ⊢
    constructor <;> linarith
  rw [abs_le] at d1
  obtain ⟨m, hm, em⟩ := fl_day (y := s + o) (by norm_num; linarith) (by norm_num at d1 ⊢; linarith)
  rw [abs_le] at em
  obtain ⟨E, hE⟩ : ∃ E : ℤ, E = k * 2 ^ 28 + 9 * o * 2 ^ 33 - 9 * m := ⟨_, rfl⟩
  have hEq : (E : ℚ) = k * 2 ^ 28 + 9 * o * 2 ^ 33 - 9 * m := by rw [hE]; push_cast; ring
  have hE1 : (E : ℚ) < 5 := by
    rw [hEq]
    norm_num at d1 em ⊢
    linarith
  have hE2 : (-5 : ℚ) < E := by
    rw [hEq]
    norm_num at d1 em ⊢
    linarith
  have hE1' : E ≤ 4 := by
    have : E < 5 := by exact_mod_cast hE1
    omega
  have hE2' : -4 ≤ E := by
    have : -5 < E := by exact_mod_cast hE2
    omega
  have hx : serial (dayTime64 ⟨o, 0, 0, 0⟩) t = ((m - 719163 * 2 ^ 33 : ℤ) : ℚ) / 2 ^ 33 := by
    unfold serial
    rw [midnight o ho, ← hs, hm]
    have e : (m : ℚ) / 2 ^ 33 + -719163 = ((m - 719163 * 2 ^ 33 : ℤ) : ℚ) / 2 ^ 33 := by push_cast; ring
    rw [e]
    refine Arange64.fl_dyadic _ _ ?_
    have u1 : (m : ℚ) ≤ 744713 * 2 ^ 33 := by norm_num at d1 em ⊢; linarith
    have u2 : (693613 * 2 ^ 33 : ℚ) ≤ m := by norm_num at d1 em ⊢; linarith
    have u1' : m ≤ 744713 * 2 ^ 33 := by exact_mod_cast u1
    have u2' : 693613 * 2 ^ 33 ≤ m := by exact_mod_cast u2
    rw [abs_le]
    omega
  have hxe : ((m - 719163 * 2 ^ 33 : ℤ) : ℚ) / 2 ^ 33 = (o : ℚ) - 719163 + k / 288 - E / (9 * 2 ^ 33) := by
    rw [hEq]; push_cast; ring
  rw [hxe] at hx
  set x := serial (dayTime64 ⟨o, 0, 0, 0⟩) t with hxd
  have hE4 : (E : ℚ) ≤ 4 := by exact_mod_cast hE1'
  have hE5 : (-4 : ℚ) ≤ E := by exact_mod_cast hE2'
  have hxb : |x| ≤ 25550 := by
    rw [hx, abs_le]
    norm_num at h2 ⊢
    constructor <;> linarith
  have hus : us = npRound (fl (x * 86400000000)) := by
    show num2date x = _
    unfold num2date
    rw [if_neg (by norm_num; exact hxb)]
  have r1 := abs_le.1 (npRound_half (fl (x * 86400000000)))
  rw [← hus] at r1
  have r2 := fl_error (x * 86400000000)
  have r3 : |x * 86400000000| ≤ 25550 * 86400000000 := by
    rw [abs_mul, abs_of_pos (by norm_num : (0 : ℚ) < 86400000000)]
    exact mul_le_mul_of_nonneg_right hxb (by norm_num)
  have r4 : |fl (x * 86400000000) - x * 86400000000| ≤ 1 / 4 := by
    refine r2.trans ?_
    rw [div_le_iff₀ (by norm_num)]
    refine r3.trans ?_
    norm_num
  rw [abs_le] at r4
  generalize fl (x * 86400000000) = F at *
  have hM : (M : ℚ) = 60000000 * (1440 * ((o : ℚ) - 719163) + 5 * k) := by simp only [M]; push_cast; ring
  have hval : x * 86400000000 = M - E * (86400000000 / (9 * 2 ^ 33)) := by rw [hx, hM]; ring
  rw [hval] at r4
  have c1 : (1.11 : ℚ) ≤ 86400000000 / (9 * 2 ^ 33) := by norm_num
  have c2 : (86400000000 / (9 * 2 ^ 33) : ℚ) ≤ 1.12 := by norm_num
  generalize (86400000000 / (9 * 2 ^ 33) : ℚ) = c at *
  have c0 : 0 ≤ c := by linarith
  have g1 := mul_le_mul_of_nonneg_right hE4 c0
  have g2 := mul_le_mul_of_nonneg_right hE5 c0
  have hmod : E % 9 = 7 * (k % 9) % 9 := by omega
  have hsign : 1 ≤ E ↔ k % 9 = 3 ∨ k % 9 = 4 ∨ k % 9 = 7 ∨ k % 9 = 8 := by
    have hj : k % 9 < 9 := by omega
    have hjm : E % 9 = 7 * ((k % 9 : ℕ) : ℤ) % 9 := by rw [hmod]; push_cast; rfl
    generalize k % 9 = j at hj hjm
    interval_cases j <;> omega
  split
  · rename_i hc
    have hEp : 1 ≤ E := hsign.2 hc
    have hEpq : (1 : ℚ) ≤ E := by exact_mod_cast hEp
    have g3 := mul_le_mul_of_nonneg_right hEpq c0
    have a1 : (us : ℚ) < M := by linarith [r1.1, r1.2, r4.1, r4.2]
    have a2 : (M : ℚ) - 6 < us := by linarith [r1.1, r1.2, r4.1, r4.2]
    have a1' : us < M := by exact_mod_cast a1
    have a2' : M - 6 < us := by exact_mod_cast a2
    omega
  · rename_i hc
    have hEp : E ≤ 0 := by
      have := mt hsign.1 hc
      omega
    have hEpq : (E : ℚ) ≤ 0 := by exact_mod_cast hEp
    have g3 := mul_nonpos_of_nonpos_of_nonneg hEpq c0
    have a1 : (M : ℚ) - 1 < us := by linarith [r1.1, r1.2, r4.1, r4.2]
    have a2 : (us : ℚ) < M + 6 := by linarith [r1.1, r1.2, r4.1, r4.2]
    have a1' : M - 1 < us := by exact_mod_cast a1
    have a2' : us < M + 6 := by exact_mod_cast a2
    omega

theorem clock_shows (us : ℤ) : Shows (clock us).day (clock us).hour (clock us).minute (1440 * 719163 + us / 60000000) := by
  simp only [Shows, clock]
  omega

/-- C188 fails for the minute: for a track that begins at midnight, on any day of the years 1900 to 2039, of the records every
five minutes four of nine are dated one minute too early (those with a remainder of 3, 4, 7 or 8 when counted by nines), the
others rightly. -/
theorem C188_minute_fails {o k : ℕ} (h1 : 693614 ≤ o) (h2 : (o : ℚ) + k / 288 ≤ 744712) (hk : k ≤ 115200) {t : ℚ}
    (ht : |t - k / 12| ≤ 1 / 10 ^ 10) (ht0 : 0 ≤ t) :
    let c := clock (num2date (serial (dayTime64 ⟨o, 0, 0, 0⟩) t))
    Shows c.day c.hour c.minute
      (if k % 9 = 3 ∨ k % 9 = 4 ∨ k % 9 = 7 ∨ k % 9 = 8 then 1440 * o + 5 * k - 1 else 1440 * o + 5 * k) := by
  intro c
  have h := micros_five h1 h2 hk ht ht0
  have hc := clock_shows (num2date (serial (dayTime64 ⟨o, 0, 0, 0⟩) t))
  simp only at h
  have e : 1440 * 719163 + num2date (serial (dayTime64 ⟨o, 0, 0, 0⟩) t) / 60000000 =
      (if k % 9 = 3 ∨ k % 9 = 4 ∨ k % 9 = 7 ∨ k % 9 = 8 then 1440 * o + 5 * k - 1 else 1440 * o + 5 * k : ℤ) := by
    split <;> rename_i hk <;> simp only [hk, if_true, if_false] at h <;> omega
  rw [← e]
  exact hc

/-- C188: in any case the date is right within a millisecond. -/
theorem C188_date {d : Stamp} (hv : Valid d) {t : ℚ} (h0 : 0 ≤ t) (h1 : t ≤ 2 ^ 20) :
    |(num2date (serial (dayTime64 d) t) : ℚ) - instant d t| ≤ 1000 := by
  obtain ⟨b1, b2, b3⟩ := dayTime_error hv
  have hi : instant d t = 86400000000 * (dayTime d - 719163 + t / 24) := by
    unfold instant dayTime; ring
  rw [hi]
  generalize dayTime64 d = y at *
  generalize dayTime d = u at *
  have e1 := abs_le.1 (fl_error (t / 24))
  rw [abs_of_nonneg (a := t / 24) (by positivity)] at e1
  have s0 : 0 ≤ fl (t / 24) := fl_nonneg (by positivity)
  rw [abs_le] at b1
  unfold serial
  generalize fl (t / 24) = s at *
  have m1 : |s + y| ≤ 2 ^ 23 := by
    rw [abs_le]; norm_num at b1 b3 e1 h1 ⊢; constructor <;> linarith
  have e2 := (fl_error (s + y)).trans (div_le_div_of_nonneg_right m1 (by norm_num))
  rw [abs_le] at e2 m1
  generalize fl (s + y) = w at *
  have m2 : |w + -719163| ≤ 2 ^ 24 := by
    rw [abs_le]; norm_num at e2 m1 ⊢; constructor <;> linarith
  have e3 := (fl_error (w + -719163)).trans (div_le_div_of_nonneg_right m2 (by norm_num))
  rw [abs_le] at e3 m2
  generalize fl (w + -719163) = x at *
  have m3 : |x * 86400000000| ≤ 2 ^ 25 * 86400000000 := by
    rw [abs_le]; norm_num at e3 m2 ⊢; constructor <;> linarith
  have e4 := (fl_error (x * 86400000000)).trans (div_le_div_of_nonneg_right m3 (by norm_num))
  rw [abs_le] at e4
  have key : |x * 86400000000 - 86400000000 * (u - 719163 + t / 24)| ≤ 500 := by
    rw [abs_le]; norm_num at e1 e2 e3 b1 h1 ⊢; constructor <;> linarith
  rw [abs_le] at key
  have r1 := abs_le.1 (npRound_half (fl (x * 86400000000)))
  have hus : |((num2date x : ℤ) : ℚ) - fl (x * 86400000000)| ≤ 20 := by
    unfold num2date
    simp only
    generalize npRound (fl (x * 86400000000)) = us at *
    generalize fl (x * 86400000000) = F at *
    split
    · have q := abs_le.1 (npRound_half (fl (((us % 1000000 : ℤ) : ℚ) / 20)))
      have n1 : 0 ≤ us % 1000000 := by omega
      have n2 : us % 1000000 ≤ 1000000 := by omega
      generalize us % 1000000 = z at *
      have n1' : (0 : ℚ) ≤ z := by exact_mod_cast n1
      have n2' : (z : ℚ) ≤ 1000000 := by exact_mod_cast n2
      have q2 := abs_le.1 (fl_error ((z : ℚ) / 20))
      rw [abs_of_nonneg (a := (z : ℚ) / 20) (by positivity)] at q2
      generalize fl ((z : ℚ) / 20) = G at *
      generalize npRound G = g at *
      push_cast
      rw [abs_le]
      norm_num at q q2 r1 ⊢
      constructor <;> linarith
    · rw [abs_le]
      norm_num at r1 ⊢
      constructor <;> linarith
  rw [abs_le] at hus
  generalize fl (x * 86400000000) = F at *
  generalize x * 86400000000 = X at *
  rw [abs_le]
  norm_num at e4 ⊢
  constructor <;> linarith

theorem npRound_int (n : ℤ) : npRound (n : ℚ) = n := by
  have h := abs_le.1 (npRound_half (n : ℚ))
  have h1 : ((npRound (n : ℚ) - n : ℤ) : ℚ) < 1 := by push_cast; linarith
  have h2 : (-1 : ℚ) < ((npRound (n : ℚ) - n : ℤ) : ℚ) := by push_cast; linarith
  have h1' : npRound (n : ℚ) - n < 1 := by exact_mod_cast h1
  have h2' : -1 < npRound (n : ℚ) - n := by exact_mod_cast h2
  omega

/-- C188 (part): a record a multiple of 45 minutes after a first observation at such a time of the day (for instance every
three hours) has its exact date, and the right minute. -/
theorem C188_grid_partial {d : Stamp} (hv : Valid d) (hg : OnGrid d) {q : ℕ} (hq : q ≤ 2 ^ 24) :
    (num2date (serial (dayTime64 d) (3 / 4 * q)) : ℚ) = instant d (3 / 4 * q) ∧
    let c := clock (num2date (serial (dayTime64 d) (3 / 4 * q)))
    Shows c.day c.hour c.minute (1440 * d.ordinal + 60 * d.hour + d.minute + 45 * q) := by
  obtain ⟨a1, n, hn, a2⟩ := dayTime_exact hv hg
  rw [abs_lt] at hn
  have e1 : (3 / 4 * q : ℚ) / 24 = ((q : ℤ) : ℚ) / 2 ^ 5 := by push_cast; ring
  have e2 : ((q : ℤ) : ℚ) / 2 ^ 5 + n / 32 = ((q + n : ℤ) : ℚ) / 2 ^ 5 := by push_cast; ring
  have e3 : ((q + n : ℤ) : ℚ) / 2 ^ 5 + -719163 = ((q + n - 719163 * 32 : ℤ) : ℚ) / 2 ^ 5 := by push_cast; ring
  have hx : serial (dayTime64 d) (3 / 4 * q) = ((q + n - 719163 * 32 : ℤ) : ℚ) / 2 ^ 5 := by
    unfold serial
    rw [e1, Arange64.fl_dyadic _ _ (by rw [abs_le]; omega), a1, a2, e2, Arange64.fl_dyadic _ _ (by rw [abs_le]; omega), e3,
      Arange64.fl_dyadic _ _ (by rw [abs_le]; omega)]
  obtain ⟨z, hz⟩ : ∃ z : ℤ, z = q + n - 719163 * 32 := ⟨_, rfl⟩
  rw [← hz] at hx
  have hp : fl ((z : ℚ) / 2 ^ 5 * 86400000000) = ((2700000000 * z : ℤ) : ℚ) := by
    rw [fl_exact ⟨10546875 * z, 8, by rw [abs_le]; omega, by push_cast; norm_num; ring⟩]
    push_cast; ring
  have hus : num2date (serial (dayTime64 d) (3 / 4 * q)) = 2700000000 * z := by
    rw [hx]
    unfold num2date
    simp only [hp, npRound_int]
    have : 2700000000 * z % 1000000 = 0 := by omega
    rw [this]
    have h0 : npRound (fl (((0 : ℤ) : ℚ) / 20)) = 0 := by
      rw [Int.cast_zero, zero_div, fl_zero]; exact npRound_int 0
    rw [h0]
    split <;> omega
  have hd : (n : ℚ) / 32 = d.ordinal + (d.hour + d.minute / 60) / 24 := by rw [← a2]; rfl
  refine ⟨?_, ?_⟩
  · rw [hus, hz]
    unfold instant
    push_cast
    have : (n : ℚ) = 32 * (d.ordinal + (d.hour + d.minute / 60) / 24) := by rw [← hd]; ring
    rw [this]; ring
  · intro c
    have hc := clock_shows (num2date (serial (dayTime64 d) (3 / 4 * q)))
    have hn' : (45 * n : ℤ) = 1440 * d.ordinal + 60 * d.hour + d.minute := by
      have : (45 * n : ℚ) = 1440 * d.ordinal + 60 * d.hour + d.minute := by
        have : (n : ℚ) = 32 * (d.ordinal + (d.hour + d.minute / 60) / 24) := by rw [← hd]; ring
        rw [this]; ring
      exact_mod_cast this
    have e : 1440 * 719163 + num2date (serial (dayTime64 d) (3 / 4 * q)) / 60000000 =
        1440 * (d.ordinal : ℤ) + 60 * d.hour + d.minute + 45 * q := by
      rw [hus, hz]; omega
    rw [← e]
    exact hc

/-- C188 fails for the tracks of single events, interpolated to five minutes (the time step of tcevent.py): if the first
observation is at midnight, record `i` is dated one minute too early for four of nine numbers `i`. -/
theorem C188_event_fails (leg : ℚ × ℚ → ℚ × ℚ → ℚ × ℚ) (hkind : kind = .linear ∨ kind = .akima) (h2 : 2 ≤ obs.length)
    (hv : ∀ o ∈ obs, Valid o.date) {x : List ℚ} (hx : HoursSinceFirst obs x) (hinc : Increasing x)
    (hp : ∀ o ∈ obs, o.pressure < 9223372036854775807) {T : ℚ} (hT : x.getLast? = some T)
    {first : Obs} (hf : obs.head? = some first) (hm : first.date.hour = 0 ∧ first.date.minute = 0)
    (h1 : 693614 ≤ first.date.ordinal) (hlong : first.date.ordinal ≤ 744312) :
    ∃ recs dates, interpolateDates leg kind obs (fl (1 / 12)) = .ok (recs, dates) ∧
      ∀ (i : ℕ) (us : ℤ), dates[i]? = some us → i + 1 < recs.length → i ≤ 115200 →
        Shows (clock us).day (clock us).hour (clock us).minute
          (if i % 9 = 3 ∨ i % 9 = 4 ∨ i % 9 = 7 ∨ i % 9 = 8 then 1440 * first.date.ordinal + 5 * i - 1
           else 1440 * first.date.ordinal + 5 * i) := by
  have hδ : (1 : ℚ) / 50 ≤ fl (1 / 12) := by decide +kernel
  obtain ⟨n, T', recs, eT, h, hmm, a2, a3, ht⟩ := times64 leg hkind h2 hv hx hinc hp (fl_double (1 / 12)) hδ hT
  have hl : recs.length = n + 1 := by
    have := congrArg List.length hmm
    simpa using this
  refine ⟨recs, _, h, ?_⟩
  intro i us hus hi hib
  rw [hmm] at hus
  cases obs with
  | nil => simp at hf
  | cons o rest =>
    simp only [List.head?_cons, Option.some.injEq] at hf
    subst hf
    simp only [newDates] at hus
    rw [List.getElem?_map, List.getElem?_append_left (by simp; omega), List.getElem?_map, List.getElem?_range (by omega)] at hus
    simp only [Option.map_some, Option.some.injEq] at hus
    have hi' : i < n := by omega
    have hs0 := (hv o (by simp)).2.2.2
    have hd : o.date = ⟨o.date.ordinal, 0, 0, 0⟩ := by
      rcases ho : o.date with ⟨a, b, c, d⟩
      rw [ho] at hm hs0
      simp only at hm hs0
      simp [hm.1, hm.2, hs0]
    rw [hd] at hus
    have hiq : (i : ℚ) ≤ 115200 := by exact_mod_cast hib
    have hi0 : (0 : ℚ) ≤ i := Nat.cast_nonneg i
    have hoq : (o.date.ordinal : ℚ) ≤ 744312 := by exact_mod_cast hlong
    have f1 := abs_le.1 (fl_error (1 / 12))
    rw [abs_of_pos (by norm_num)] at f1
    have f2 : |(i : ℚ) * fl (1 / 12) - i / 12| ≤ 115200 * (1 / 12 / 2 ^ 53) := by
      have : (i : ℚ) * fl (1 / 12) - i / 12 = i * (fl (1 / 12) - 1 / 12) := by ring
      rw [this, abs_mul, abs_of_nonneg hi0]
      exact mul_le_mul hiq (abs_le.2 f1) (abs_nonneg _) (by norm_num)
    have f3 := fl_error ((i : ℚ) * fl (1 / 12))
    rw [abs_of_nonneg (mul_nonneg hi0 (by linarith))] at f3
    rw [abs_le] at f2 f3
    have ht' : |fl ((i : ℚ) * fl (1 / 12)) - i / 12| ≤ 1 / 10 ^ 10 := by
      rw [abs_le]
      norm_num at f2 f3 ⊢
      constructor <;> linarith
    have := C188_minute_fails h1 (by linarith) hib ht' (ht i hi').2.1
    rw [hus] at this
    exact this

/-- The hypotheses are met: the observations of C92, in the year 2000, and those every hour; the record of ten past one is
dated 01:10, that of a quarter past midnight 00:14, and that of one o'clock 00:59. -/
example : (∀ o ∈ exTrack, o.date.ordinal < 2 ^ 22 ∧ o.date.hour < 24 ∧ o.date.minute < 60 ∧ o.date.second = 0) ∧
    (∃ o, exTrack.head? = some o ∧ o.date.hour = 0 ∧ o.date.minute = 0 ∧ 693614 ≤ o.date.ordinal ∧ o.date.ordinal ≤ 744312) ∧
    ((interpolateDates exLeg .linear exTrack (fl (1 / 12))).toOption.map fun p => (p.1.length, p.2.length)) = some (217, 217) ∧
    ((interpolateDates exLeg .linear exTrack (fl (1 / 12))).toOption.bind fun p => p.2[14]?.map clock) = some ⟨730000, 1, 10⟩ ∧
    ((interpolateDates exLeg .linear exTrack (fl (1 / 12))).toOption.bind fun p => p.2[3]?.map clock) = some ⟨730000, 0, 14⟩ ∧
    ((interpolateDates exLeg .linear exTrack 1).toOption.bind fun p => p.2[1]?.map clock) = some ⟨730000, 0, 59⟩ := by
  refine ⟨by decide +kernel, ⟨_, rfl, by decide +kernel⟩, by decide +kernel, by decide +kernel, by decide +kernel, by decide +kernel⟩

end Tcrm.TrackDates
