import Verif.Model.Times64
import Verif.Spec.Times64
import Verif.Lemmas.Binary64
import Verif.Props.TrackInterp
/-!
C183 — interpolated tracks with times in double precision.
-/
namespace Tcrm.Times64

open Tcrm.TrackInterp Tcrm.Binary64
open Tcrm.Akima (Increasing)

theorem dayTime_exact {d : Stamp} (hv : Valid d) (hg : OnGrid d) :
    dayTime64 d = dayTime d ∧ ∃ n : ℤ, |n| < 2 ^ 28 ∧ dayTime d = n / 32 := by
  obtain ⟨h1, h2, h3, -⟩ := hv
  obtain ⟨q, hq⟩ := hg
  obtain ⟨m4, hm4⟩ : ∃ m4, d.minute = 15 * m4 := ⟨d.minute / 15, by omega⟩
  have hqq : (60 : ℚ) * d.hour + d.minute = 45 * q := by exact_mod_cast hq
  have hmq : (d.minute : ℚ) = 15 * m4 := by exact_mod_cast hm4
  have hhq : (d.hour : ℚ) = 3 / 4 * q - 1 / 4 * m4 := by linarith
  have e1 : fl ((d.minute : ℚ) / 60) = d.minute / 60 := fl_exact ⟨m4, -2, by rw [abs_le]; constructor <;> omega, by rw [hmq]; norm_num; ring⟩
  have e2 : fl ((d.hour : ℚ) + d.minute / 60) = d.hour + d.minute / 60 :=
    fl_exact ⟨3 * q, -2, by rw [abs_le]; constructor <;> omega, by rw [hmq, hhq]; push_cast; norm_num; ring⟩
  have e3 : fl (((d.hour : ℚ) + d.minute / 60) / 24) = (d.hour + d.minute / 60) / 24 :=
    fl_exact ⟨q, -5, by rw [abs_le]; constructor <;> omega, by rw [hmq, hhq]; push_cast; norm_num; ring⟩
  have e4 : (d.ordinal : ℚ) + (d.hour + d.minute / 60) / 24 = ((32 * d.ordinal + q : ℤ) : ℚ) / 32 := by
    rw [hmq, hhq]; push_cast; ring
  have hb : |(32 * d.ordinal + q : ℤ)| < 2 ^ 28 := by rw [abs_lt]; constructor <;> omega
  refine ⟨?_, _, hb, e4⟩
  unfold dayTime64 dayTime
  rw [e1, e2, e3]
  exact fl_exact ⟨32 * d.ordinal + q, -5, by omega, by rw [e4]; push_cast; norm_num; ring⟩

/-- C183 (part): if all observations are at multiples of 45 minutes (for instance every three hours) their times are
exact, and the interpolated track is that of C92 to C95. -/
theorem C183_exact_partial (obs : List Obs) (hv : ∀ o ∈ obs, Valid o.date) (hg : ∀ o ∈ obs, OnGrid o.date)
    (leg : ℚ × ℚ → ℚ × ℚ → ℚ × ℚ) (kind : Kind) (δ : ℚ) :
    elapsed64 obs = elapsed obs ∧ interpolate64 leg kind obs δ = interpolate leg kind obs δ := by
  have h : elapsed64 obs = elapsed obs := by
    cases obs with
    | nil => rfl
    | cons o rest =>
      simp only [elapsed64, elapsed]
      refine List.map_congr_left fun p hp => ?_
      obtain ⟨a1, n, hn, a2⟩ := dayTime_exact (hv p hp) (hg p hp)
      obtain ⟨b1, m, hm, b2⟩ := dayTime_exact (hv o (by simp)) (hg o (by simp))
      rw [abs_lt] at hn hm
      rw [a1, b1, a2, b2]
      have e1 : (n : ℚ) / 32 - m / 32 = ((n - m : ℤ) : ℚ) / 32 := by push_cast; ring
      rw [e1, fl_exact (x := ((n - m : ℤ) : ℚ) / 32) ⟨n - m, -5, by rw [abs_le]; constructor <;> omega, by norm_num; ring⟩]
      exact fl_exact ⟨3 * (n - m), -2, by rw [abs_le]; constructor <;> omega, by push_cast; norm_num; ring⟩
  exact ⟨h, by unfold interpolate64 interpolate; rw [h]⟩

theorem dayTime_error {d : Stamp} (hv : Valid d) : |dayTime64 d - dayTime d| ≤ 1 / 2 ^ 30 ∧ 0 ≤ dayTime d ∧ dayTime d < 2 ^ 22 := by
  obtain ⟨h1, h2, h3, -⟩ := hv
  have g1 : (d.ordinal : ℚ) ≤ 4194303 := by exact_mod_cast Nat.le_of_lt_succ h1
  have g2 : (d.hour : ℚ) ≤ 23 := by exact_mod_cast Nat.le_of_lt_succ h2
  have g3 : (d.minute : ℚ) ≤ 59 := by exact_mod_cast Nat.le_of_lt_succ h3
  have p1 : (0 : ℚ) ≤ d.ordinal := by positivity
  have p2 : (0 : ℚ) ≤ d.hour := by positivity
  have p3 : (0 : ℚ) ≤ d.minute := by positivity
  have e1 := fl_error ((d.minute : ℚ) / 60)
  rw [abs_of_nonneg (a := (d.minute : ℚ) / 60) (by positivity)] at e1
  have e2 := fl_error ((d.hour : ℚ) + fl (d.minute / 60))
  have n1 : 0 ≤ fl ((d.minute : ℚ) / 60) := fl_nonneg (by positivity)
  rw [abs_of_nonneg (a := (d.hour : ℚ) + fl (d.minute / 60)) (by linarith)] at e2
  have e3 := fl_error (fl ((d.hour : ℚ) + fl (d.minute / 60)) / 24)
  have n2 : 0 ≤ fl ((d.hour : ℚ) + fl (d.minute / 60)) := fl_nonneg (by linarith)
  rw [abs_of_nonneg (a := fl ((d.hour : ℚ) + fl (d.minute / 60)) / 24) (by linarith)] at e3
  have e4 := fl_error (d.ordinal + fl (fl ((d.hour : ℚ) + fl (d.minute / 60)) / 24))
  have n3 : 0 ≤ fl (fl ((d.hour : ℚ) + fl (d.minute / 60)) / 24) := fl_nonneg (by linarith)
  rw [abs_of_nonneg (a := d.ordinal + fl (fl ((d.hour : ℚ) + fl (d.minute / 60)) / 24)) (by linarith)] at e4
  unfold dayTime64 dayTime
  generalize fl ((d.minute : ℚ) / 60) = a at *
  generalize fl ((d.hour : ℚ) + a) = b at *
  generalize fl (b / 24) = c at *
  generalize fl (d.ordinal + c) = f at *
  rw [abs_le] at *
  norm_num at e1 e2 e3 e4 ⊢
  refine ⟨⟨?_, ?_⟩, ?_, ?_⟩ <;> linarith

/-- C183: in general the times are right within a millionth of an hour. -/
theorem C183_error (obs : List Obs) (hv : ∀ o ∈ obs, Valid o.date) (i : ℕ) (t : ℚ) (ht : (elapsed obs)[i]? = some t) :
    ∃ t', (elapsed64 obs)[i]? = some t' ∧ |t' - t| < 1 / 10 ^ 6 := by
  cases obs with
  | nil => simp [elapsed] at ht
  | cons o rest =>
    simp only [elapsed, elapsed64, List.getElem?_map, Option.map_eq_some_iff] at ht ⊢
    obtain ⟨p, hp, rfl⟩ := ht
    refine ⟨_, ⟨p, hp, rfl⟩, ?_⟩
    obtain ⟨a1, a2, a3⟩ := dayTime_error (hv p (List.mem_of_getElem? hp))
    obtain ⟨b1, b2, b3⟩ := dayTime_error (hv o (by simp))
    generalize dayTime64 p.date = x at *
    generalize dayTime64 o.date = y at *
    generalize dayTime p.date = u at *
    generalize dayTime o.date = v at *
    have e1 := fl_error (x - y)
    have e2 := fl_error (24 * fl (x - y))
    rw [abs_le] at a1 b1
    have k1 : |x - y| ≤ 2 ^ 23 := by
      rw [abs_le]; norm_num at a1 b1 a3 b3 ⊢; constructor <;> linarith
    have k2 : |fl (x - y) - (x - y)| ≤ 1 / 2 ^ 30 := by
      refine e1.trans ?_
      rw [div_le_iff₀ (by positivity)]
      refine k1.trans ?_
      norm_num
    have k3 : |24 * fl (x - y)| ≤ 2 ^ 28 := by
      rw [abs_le] at k1 k2 ⊢; norm_num at k1 k2 ⊢; constructor <;> linarith
    have k4 : |fl (24 * fl (x - y)) - 24 * fl (x - y)| ≤ 1 / 2 ^ 25 := by
      refine e2.trans ?_
      rw [div_le_iff₀ (by positivity)]
      refine k3.trans ?_
      norm_num
    rw [abs_le] at k2 k4
    rw [abs_lt]
    norm_num at a1 b1 k2 k4 ⊢
    constructor <;> linarith

theorem elapsed_length (obs : List Obs) : (elapsed64 obs).length = obs.length ∧ (elapsed obs).length = obs.length := by
  cases obs <;> simp [elapsed64, elapsed]

/-- Observations in order of time, to the minute, stay in order. -/
theorem increasing64 {obs : List Obs} (hv : ∀ o ∈ obs, Valid o.date) (h : Increasing (elapsed obs)) :
    Increasing (elapsed64 obs) := by
  unfold Increasing at *
  rw [List.pairwise_iff_getElem] at *
  intro i j hi hj hij
  have l1 := elapsed_length obs
  have hi' : i < (elapsed obs).length := by omega
  have hj' : j < (elapsed obs).length := by omega
  have hlt := h i j hi' hj' hij
  obtain ⟨a, ha, ea⟩ := C183_error obs hv i _ (List.getElem?_eq_getElem hi')
  obtain ⟨b, hb, eb⟩ := C183_error obs hv j _ (List.getElem?_eq_getElem hj')
  rw [List.getElem?_eq_getElem hi, Option.some_inj] at ha
  rw [List.getElem?_eq_getElem hj, Option.some_inj] at hb
  rw [ha, hb]
  have key : (elapsed obs)[i] + 1 / 60 ≤ (elapsed obs)[j] := by
    cases obs with
    | nil => simp [elapsed] at hi'
    | cons o rest =>
      simp only [elapsed, List.getElem_map, dayTime] at hlt ⊢
      generalize ((o :: rest)[i]'(by omega)).date = d at *
      generalize ((o :: rest)[j]'(by omega)).date = e at *
      have h1 : ((1440 * d.ordinal + 60 * d.hour + d.minute : ℕ) : ℚ) < ((1440 * e.ordinal + 60 * e.hour + e.minute : ℕ) : ℚ) := by
        push_cast; linarith
      have h2 : 1440 * d.ordinal + 60 * d.hour + d.minute + 1 ≤ 1440 * e.ordinal + 60 * e.hour + e.minute := by
        exact_mod_cast h1
      have h3 : (1440 * d.ordinal + 60 * d.hour + d.minute + 1 : ℚ) ≤ 1440 * e.ordinal + 60 * e.hour + e.minute := by
        exact_mod_cast h2
      linarith
  rw [abs_lt] at ea eb
  norm_num at ea eb
  linarith

theorem head64 {obs : List Obs} (h : obs ≠ []) : (elapsed64 obs)[0]? = some 0 := by
  cases obs with
  | nil => exact absurd rfl h
  | cons o rest => simp [elapsed64, fl_zero]

/-- C183: with times in double precision a track of two or more observations at increasing times, all with a pressure, is
interpolated successfully; its records are a time step apart (except for the last step), and the last one is at the time
of the last observation within a millionth of an hour. -/
theorem C183_total (leg : ℚ × ℚ → ℚ × ℚ → ℚ × ℚ) {kind : Kind} (hkind : kind = .linear ∨ kind = .akima) {obs : List Obs}
    (h2 : 2 ≤ obs.length) (hv : ∀ o ∈ obs, Valid o.date) {x : List ℚ} (hx : HoursSinceFirst obs x) (hinc : Increasing x)
    (hp : ∀ o ∈ obs, o.pressure < 9223372036854775807) {δ : ℚ} (hδ : 1 / 100 ≤ δ) {T : ℚ} (hT : x.getLast? = some T) :
    ∃ recs, interpolate64 leg kind obs δ = .ok recs ∧
      (∃ r, recs.getLast? = some r ∧ |r.time - T| < 1 / 10 ^ 6) ∧
      (2 ≤ recs.length → ∃ r, recs[0]? = some r ∧ r.time = 0) ∧
      ∀ (i : ℕ) (r s : Rec), recs[i]? = some r → recs[i + 1]? = some s → i + 2 < recs.length → s.time - r.time = δ := by
  have hex := hours_elapsed (fun o ho => (hv o ho).2.2.2) hx
  subst hex
  have hne : obs ≠ [] := by rintro rfl; simp at h2
  have hinc' := increasing64 hv hinc
  obtain ⟨recs, hr⟩ := total_at leg hkind h2 (elapsed_length obs).1 (head64 hne) hinc' hp hδ
  have hk : kind.Full := by rcases hkind with rfl | rfl <;> trivial
  obtain ⟨T', hT', eT⟩ := C183_error obs hv _ _ (by rw [List.getLast?_eq_getElem?] at hT; exact hT)
  have hlast : (elapsed64 obs).getLast? = some T' := by
    rw [List.getLast?_eq_getElem?, (elapsed_length obs).1, ← (elapsed_length obs).2]; exact hT'
  obtain ⟨⟨r, r1, r2⟩, t2, -, t4⟩ := times_at hk hr (head64 hne) hinc' hlast hδ
  exact ⟨recs, hr, ⟨r, r1, by rw [r2]; exact eT⟩, t2, fun i r s h1 h2 h3 => (t4 i r s h1 h2).1 h3⟩

/-- Hourly observations from midnight; the pressure is known from the third (2:00) on. -/
def hourly : List Obs :=
  [⟨⟨732388, 0, 0, 0⟩, 150, -10, 20, 90, maxsize, 0, 40, 1008⟩, ⟨⟨732388, 1, 0, 0⟩, 151, -10, 20, 90, maxsize, 0, 40, 1008⟩,
   ⟨⟨732388, 2, 0, 0⟩, 152, -10, 20, 90, 990, 30, 40, 1008⟩, ⟨⟨732388, 3, 0, 0⟩, 153, -10, 20, 90, 980, 30, 40, 1008⟩,
   ⟨⟨732388, 4, 0, 0⟩, 154, -10, 20, 90, 970, 30, 40, 1008⟩, ⟨⟨732388, 5, 0, 0⟩, 155, -10, 20, 90, 960, 30, 40, 1008⟩]

/-- C183 (the failure): the pressure observed at 2:00 is marked missing in the interpolated record at 2:00, as the time of
that observation is a billionth of an hour late; with exact times it is there. -/
theorem C183_pressure_fails : (∃ t, (elapsed64 hourly)[2]? = some t ∧ 2 < t) ∧
    (∃ recs r, interpolate64 exLeg .linear hourly 1 = .ok recs ∧ recs[2]? = some r ∧ r.time = 2 ∧ r.pressure = maxsize) ∧
    (∃ recs r, interpolate exLeg .linear hourly 1 = .ok recs ∧ recs[2]? = some r ∧ r.time = 2 ∧ r.pressure = 990) := by
  refine ⟨⟨_, rfl, by decide +kernel⟩, ?_, ?_⟩
  · have h : ((interpolate64 exLeg .linear hourly 1).toOption.bind fun recs => recs[2]?.map fun r => (r.time, r.pressure)) =
        some (2, maxsize) := by decide +kernel
    cases hi : interpolate64 exLeg .linear hourly 1 with
    | error e => rw [hi] at h; cases h
    | ok recs =>
      rw [hi] at h
      obtain ⟨r, h1, h2⟩ := Option.map_eq_some_iff.1 (show recs[2]?.map (fun r => (r.time, r.pressure)) = some (2, maxsize) from h)
      simp only [Prod.mk.injEq] at h2
      exact ⟨recs, r, rfl, h1, h2⟩
  · have h : ((interpolate exLeg .linear hourly 1).toOption.bind fun recs => recs[2]?.map fun r => (r.time, r.pressure)) =
        some (2, 990) := by decide +kernel
    cases hi : interpolate exLeg .linear hourly 1 with
    | error e => rw [hi] at h; cases h
    | ok recs =>
      rw [hi] at h
      obtain ⟨r, h1, h2⟩ := Option.map_eq_some_iff.1 (show recs[2]?.map (fun r => (r.time, r.pressure)) = some (2, 990) from h)
      simp only [Prod.mk.injEq] at h2
      exact ⟨recs, r, rfl, h1, h2⟩

/-- The observations of the examples of C92 are on the grid of 45 minutes; the hourly ones are valid and in order. -/
example : (∀ o ∈ exTrack, 45 ∣ 60 * o.date.hour + o.date.minute ∧ o.date.ordinal < 2 ^ 22) ∧
    (∀ o ∈ hourly, o.date.ordinal < 2 ^ 22 ∧ o.date.hour < 24) ∧ elapsed hourly = [0, 1, 2, 3, 4, 5] := by decide +kernel

end Tcrm.Times64
