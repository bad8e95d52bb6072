import Verif.Lemmas.TrackInterp
/-!
C92 (new times of interpolated tracks), C93 (positions), C94 (forward speed) and C95 (central pressure).
-/
namespace Tcrm.TrackInterp
open Tcrm.Akima (Increasing Covered)

variable {leg : ℚ × ℚ → ℚ × ℚ → ℚ × ℚ} {kind : Kind} {obs : List Obs} {δ : ℚ} {recs : List Rec} {x : List ℚ}

theorem hours_elapsed (hs : ∀ o ∈ obs, o.date.second = 0) (hx : HoursSinceFirst obs x) : x = elapsed obs := by
  obtain ⟨o, rest, rfl, rfl⟩ := hx
  obtain ⟨o', rest', e, h⟩ := elapsed_hours (obs := o :: rest) (by simp) hs
  injection e with e1 e2
  subst e1
  exact h.symm

theorem hours_length (hx : HoursSinceFirst obs x) : x.length = obs.length := by
  obtain ⟨o, rest, rfl, rfl⟩ := hx
  simp

theorem hours_head (hx : HoursSinceFirst obs x) : x[0]? = some 0 := by
  obtain ⟨o, rest, rfl, rfl⟩ := hx
  simp

theorem ceil_bounds {T : ℚ} (hT : 0 ≤ T) (hδ : 0 < δ) : ∃ n : ℕ, ⌈(T + 1 / 100) / δ⌉ = ((n + 1 : ℕ) : ℤ) ∧
    (n : ℚ) * δ < T + 1 / 100 ∧ T + 1 / 100 ≤ (n + 1 : ℚ) * δ := by
  have hp : 0 < (T + 1 / 100) / δ := div_pos (by linarith) hδ
  have hc : 0 < ⌈(T + 1 / 100) / δ⌉ := Int.ceil_pos.2 hp
  refine ⟨(⌈(T + 1 / 100) / δ⌉ - 1).toNat, ?_, ?_, ?_⟩
  · push_cast
    omega
  · have h1 := Int.ceil_lt_add_one ((T + 1 / 100) / δ)
    have h2 : (((⌈(T + 1 / 100) / δ⌉ - 1).toNat : ℤ) : ℚ) = (⌈(T + 1 / 100) / δ⌉ : ℚ) - 1 := by
      rw [Int.toNat_of_nonneg (by omega)]
      push_cast
      ring
    have h3 : ((⌈(T + 1 / 100) / δ⌉ - 1).toNat : ℚ) = (⌈(T + 1 / 100) / δ⌉ : ℚ) - 1 := by exact_mod_cast h2
    rw [h3, ← lt_div_iff₀ hδ]
    linarith
  · have h1 := Int.le_ceil ((T + 1 / 100) / δ)
    have h2 : (((⌈(T + 1 / 100) / δ⌉ - 1).toNat : ℤ) : ℚ) = (⌈(T + 1 / 100) / δ⌉ : ℚ) - 1 := by
      rw [Int.toNat_of_nonneg (by omega)]
      push_cast
      ring
    have h3 : ((⌈(T + 1 / 100) / δ⌉ - 1).toNat : ℚ) = (⌈(T + 1 / 100) / δ⌉ : ℚ) - 1 := by exact_mod_cast h2
    rw [h3, ← div_le_iff₀ hδ]
    linarith

theorem newTimes_eq {T : ℚ} (hT : 0 ≤ T) (hδ : 0 < δ) : ∃ n : ℕ,
    newTimes T δ = .ok (((List.range n).map fun k : ℕ => (k : ℚ) * δ) ++ [T]) ∧
    (n : ℚ) * δ < T + 1 / 100 ∧ T + 1 / 100 ≤ (n + 1 : ℚ) * δ := by
  obtain ⟨n, h1, h2, h3⟩ := ceil_bounds hT hδ
  refine ⟨n, ?_, h2, h3⟩
  unfold newTimes
  rw [if_neg hδ.ne', h1, if_neg (by push_cast; omega)]
  rfl

/-- The times, as far as they do not depend on the rest of the interpolation. -/
theorem newTimes_spec {T : ℚ} (hT : 0 ≤ T) (hδ : 1 / 100 ≤ δ) {ts : List ℚ} (h : newTimes T δ = .ok ts) :
    ts.getLast? = some T ∧ (2 ≤ ts.length → ts[0]? = some 0) ∧ Increasing ts ∧ (∀ t ∈ ts, 0 ≤ t ∧ t ≤ T) ∧
    ∀ (i : ℕ) (s t : ℚ), ts[i]? = some s → ts[i + 1]? = some t →
      (i + 2 < ts.length → t - s = δ) ∧ (i + 2 = ts.length → δ - 1 / 100 < t - s ∧ t - s ≤ 2 * δ - 1 / 100) := by
  have hδ0 : 0 < δ := by linarith
  obtain ⟨n, h1, h2, h3⟩ := newTimes_eq hT hδ0
  rw [h] at h1
  injection h1 with h1
  subst h1
  have hlt : ∀ i, i < n → (i : ℚ) * δ < T := by
    intro i hi
    have : ((i + 1 : ℕ) : ℚ) ≤ n := by exact_mod_cast hi
    have h4 := mul_le_mul_of_nonneg_right this hδ0.le
    push_cast at h4
    linarith
  have hget : ∀ i, i < n → (((List.range n).map fun k : ℕ => (k : ℚ) * δ) ++ [T])[i]? = some ((i : ℚ) * δ) := by
    intro i hi
    rw [List.getElem?_append_left (by simpa using hi), List.getElem?_map, List.getElem?_range hi]
    rfl
  have hgetn : (((List.range n).map fun k : ℕ => (k : ℚ) * δ) ++ [T])[n]? = some T := by
    rw [List.getElem?_append_right (by simp)]
    simp
  have hlen : (((List.range n).map fun k : ℕ => (k : ℚ) * δ) ++ [T]).length = n + 1 := by simp
  refine ⟨List.getLast?_concat, ?_, ?_, ?_, ?_⟩
  · intro hl
    rw [hlen] at hl
    rw [hget 0 (by omega)]
    simp
  · unfold Increasing
    rw [List.pairwise_append]
    refine ⟨?_, List.pairwise_singleton _ _, ?_⟩
    · rw [List.pairwise_map]
      refine List.pairwise_lt_range.imp ?_
      intro i j hij
      exact mul_lt_mul_of_pos_right (by exact_mod_cast hij) hδ0
    · intro a ha b hb
      obtain ⟨i, hi, rfl⟩ := List.mem_map.1 ha
      rw [List.mem_singleton.1 hb]
      exact hlt i (List.mem_range.1 hi)
  · intro t ht
    rcases List.mem_append.1 ht with ht | ht
    · obtain ⟨i, hi, rfl⟩ := List.mem_map.1 ht
      exact ⟨by positivity, (hlt i (List.mem_range.1 hi)).le⟩
    · rw [List.mem_singleton.1 ht]
      exact ⟨hT, le_refl _⟩
  · intro i s t hs ht
    rw [hlen]
    have hi : i + 1 < n + 1 := by rw [← hlen]; exact lt_of_getElem? ht
    rw [hget i (by omega)] at hs
    injection hs with hs
    constructor
    · intro hi'
      rw [hget (i + 1) (by omega)] at ht
      injection ht with ht
      rw [← hs, ← ht]
      push_cast
      ring
    · intro hi'
      obtain rfl : n = i + 1 := by omega
      rw [hgetn] at ht
      injection ht with ht
      rw [← hs, ← ht]
      push_cast at h2 h3
      constructor <;> linarith

theorem last_nonneg_at (h0 : x[0]? = some 0) (hinc : Increasing x) {T : ℚ} (hT : x.getLast? = some T) : 0 ≤ T := by
  rw [List.getLast?_eq_getElem?] at hT
  rcases Nat.eq_zero_or_pos (x.length - 1) with h | h
  · rw [h, h0] at hT
    injection hT with hT
    exact hT.le
  · exact ((inc_get hinc h0 hT).2 h).le

theorem last_nonneg (hx : HoursSinceFirst obs x) (hinc : Increasing x) {T : ℚ} (hT : x.getLast? = some T) : 0 ≤ T :=
  last_nonneg_at (hours_head hx) hinc hT

theorem times_at (hk : kind.Full) (h : interpolateAt leg kind x obs δ = .ok recs) (h0 : x[0]? = some 0)
    (hinc : Increasing x) {T : ℚ} (hT : x.getLast? = some T) (hδ : 1 / 100 ≤ δ) :
    (∃ r, recs.getLast? = some r ∧ r.time = T) ∧
    (2 ≤ recs.length → ∃ r, recs[0]? = some r ∧ r.time = 0) ∧
    Increasing (recs.map (·.time)) ∧
    ∀ (i : ℕ) (r s : Rec), recs[i]? = some r → recs[i + 1]? = some s →
      (i + 2 < recs.length → s.time - r.time = δ) ∧
      (i + 2 = recs.length → δ - 1 / 100 < s.time - r.time ∧ s.time - r.time ≤ 2 * δ - 1 / 100) := by
  obtain ⟨ts, xs, ys, ps, ws, es, rs, p⟩ := parts_at h
  have hT0 := last_nonneg_at h0 hinc hT
  have ht := p.times
  rw [hT, Option.getD_some] at ht
  obtain ⟨h1, h2, h3, -, h4⟩ := newTimes_spec hT0 hδ ht
  have hm := p.map_time hk
  have hl := p.length hk
  refine ⟨?_, ?_, by rw [hm]; exact h3, ?_⟩
  · rw [← hm, List.getLast?_map] at h1
    obtain ⟨r, hr, e⟩ := Option.map_eq_some_iff.1 h1
    exact ⟨r, hr, e⟩
  · intro h
    have := h2 (by omega)
    rw [← hm, List.getElem?_map] at this
    obtain ⟨r, hr, e⟩ := Option.map_eq_some_iff.1 this
    exact ⟨r, hr, e⟩
  · intro i r s hr hs
    rw [hl]
    exact h4 i _ _ (p.get hr).1 (p.get hs).1

/-- C92: with observations given to the minute and a time step of at least a hundredth of an hour, the new times
increase from the time of the first observation (if there are at least two of them) to that of the last, in steps of
`δ`; the final step can be up to a hundredth shorter and is less than twice as long. -/
theorem C92_times_partial (hk : kind.Full) (h : interpolate leg kind obs δ = .ok recs) (hs : ∀ o ∈ obs, o.date.second = 0)
    (hx : HoursSinceFirst obs x) (hinc : Increasing x) {T : ℚ} (hT : x.getLast? = some T) (hδ : 1 / 100 ≤ δ) :
    (∃ r, recs.getLast? = some r ∧ r.time = T) ∧
    (2 ≤ recs.length → ∃ r, recs[0]? = some r ∧ r.time = 0) ∧
    Increasing (recs.map (·.time)) ∧
    ∀ (i : ℕ) (r s : Rec), recs[i]? = some r → recs[i + 1]? = some s →
      (i + 2 < recs.length → s.time - r.time = δ) ∧
      (i + 2 = recs.length → δ - 1 / 100 < s.time - r.time ∧ s.time - r.time ≤ 2 * δ - 1 / 100) := by
  unfold interpolate at h
  rw [← hours_elapsed hs hx] at h
  exact times_at hk h (hours_head hx) hinc hT hδ

/-- C92: when the duration of the track is a multiple of the time step the new times are exactly its multiples. -/
theorem C92_uniform_partial (hk : kind.Full) (h : interpolate leg kind obs δ = .ok recs) (hs : ∀ o ∈ obs, o.date.second = 0)
    (hx : HoursSinceFirst obs x) {m : ℕ} (hT : x.getLast? = some (m * δ)) (hδ : 1 / 100 ≤ δ) :
    recs.map (·.time) = (List.range (m + 1)).map fun k : ℕ => (k : ℚ) * δ := by
  obtain ⟨ts, xs, ys, ps, ws, es, rs, p⟩ := interpolate_parts h
  have ht := p.times
  rw [← hours_elapsed hs hx, hT, Option.getD_some] at ht
  have hδ0 : 0 < δ := by linarith
  obtain ⟨n, h1, h2, h3⟩ := newTimes_eq (T := m * δ) (by positivity) hδ0
  have e : n = m := by
    have a : (n : ℚ) * δ < (m + 1) * δ := by linarith
    have b : (m : ℚ) * δ < (n + 1) * δ := by linarith
    have a' := lt_of_mul_lt_mul_right a hδ0.le
    have b' := lt_of_mul_lt_mul_right b hδ0.le
    have : n < m + 1 := by exact_mod_cast a'
    have : m < n + 1 := by exact_mod_cast b'
    omega
  subst e
  rw [ht] at h1
  injection h1 with h1
  rw [p.map_time hk, h1, List.range_succ, List.map_append]
  rfl

/-- C92 fails when the time step exceeds the duration: the interpolated track has one record, at the time of the last
observation; the start of the track is lost. -/
theorem C92_start_fails (hk : kind.Full) (h : interpolate leg kind obs δ = .ok recs) (hs : ∀ o ∈ obs, o.date.second = 0)
    (hx : HoursSinceFirst obs x) (hinc : Increasing x) {T : ℚ} (hT : x.getLast? = some T) (hδ : T + 1 / 100 ≤ δ) :
    recs.map (·.time) = [T] := by
  obtain ⟨ts, xs, ys, ps, ws, es, rs, p⟩ := interpolate_parts h
  have hT0 := last_nonneg hx hinc hT
  have ht := p.times
  rw [← hours_elapsed hs hx, hT, Option.getD_some] at ht
  have hδ0 : 0 < δ := by linarith
  obtain ⟨n, h1, h2, h3⟩ := newTimes_eq hT0 hδ0
  have e : n = 0 := by
    have a : (n : ℚ) * δ < 1 * δ := by linarith
    have a' := lt_of_mul_lt_mul_right a hδ0.le
    have : n < 1 := by exact_mod_cast a'
    omega
  subst e
  rw [ht] at h1
  injection h1 with h1
  rw [p.map_time hk, h1]
  rfl

theorem last_lt (hinc : Increasing x) {T : ℚ} (hT : x.getLast? = some T) : x.getD (x.length - 1) 0 = T := by
  rw [List.getLast?_eq_getElem?] at hT
  rw [List.getD_eq_getElem?_getD, hT]
  rfl

theorem zip_pressure_valid (hv : ∀ o ∈ obs, o.pressure < 9223372036854775807) (col : Obs → ℚ) (hl : x.length = obs.length) :
    validOf x obs col = x.zip (obs.map col) := by
  unfold validOf
  rw [List.filter_eq_self.2, List.zip_map_right]
  · rfl
  · intro p hp
    exact decide_eq_true (hv p.2 (List.of_mem_zip hp).2)

theorem total_on (leg : ℚ × ℚ → ℚ × ℚ → ℚ × ℚ) (hkind : kind = .linear ∨ kind = .akima) (h2 : 2 ≤ obs.length)
    (hl : x.length = obs.length) (h0 : x[0]? = some 0) (hinc : Increasing x)
    (hv : ∀ o ∈ obs, o.pressure < 9223372036854775807) {T : ℚ} (hT : x.getLast? = some T) {ts : List ℚ} (hne : ts ≠ [])
    (t4 : ∀ t ∈ ts, 0 ≤ t ∧ t ≤ T) : ∃ recs, interpolateOn leg kind x obs δ ts = .ok recs := by
  have hd0 : x.getD 0 0 = 0 := by rw [List.getD_eq_getElem?_getD, h0]; rfl
  have hdl := last_lt hinc hT
  have hcov : ∀ t ∈ ts, x.getD 0 0 ≤ t ∧ t ≤ x.getD (x.length - 1) 0 := by
    rw [hd0, hdl]
    exact t4
  have lin : ∀ y, ∃ vs, linAll x y ts = .ok vs := fun y => linAll_total hcov
  have pos : ∀ y : List ℚ, y.length = x.length → ∃ vs, positions kind x y ts = .ok vs := by
    intro y hy
    unfold positions
    split_ifs with h3
    · exact lin y
    · rcases hkind with rfl | rfl
      · exact lin y
      · obtain ⟨zs, hz⟩ := (Akima.C91_succeeds x y ts).2 ⟨by omega, hy.symm, hinc, fun t ht =>
          (Akima.covered_iff hinc (by omega) t).2 (hcov t ht)⟩
        simp only [hz]
        exact ⟨zs, rfl⟩
  have inten : ∀ col : Obs → ℚ, ∃ vs, intensity x obs col ts = .ok vs := by
    intro col
    unfold intensity
    rw [zip_pressure_valid hv col hl]
    have hzl : (x.zip (obs.map col)).length = x.length := by simp [hl]
    match hz : x.zip (obs.map col), hzl with
    | [], hzl => simp only [List.length_nil] at hzl; omega
    | [p], _ => exact ⟨_, rfl⟩
    | p :: q :: rest, _ =>
      simp only
      split_ifs with h3
      · exact lin _
      · have e1 : (p :: q :: rest).map (·.1) = x := by
          rw [← hz]
          exact List.map_fst_zip (by simp [hl])
        have e2 : p.1 = 0 := by
          rw [← e1] at h0
          simpa using h0
        have e3 : ((q :: rest).getLast (by simp)).1 = T := by
          have h5 : ((p :: q :: rest).map (·.1)).getLast? = some T := by rw [e1]; exact hT
          rw [List.getLast?_map, List.getLast?_cons_cons, List.getLast?_eq_some_getLast (by simp)] at h5
          simpa using h5
        unfold between
        have hlen : 0 < ts.length := List.length_pos_iff.2 hne
        have f1 : ts.findIdx? (fun t => decide (p.1 ≤ t)) = some 0 := by
          rw [List.findIdx?_eq_some_iff_getElem]
          refine ⟨hlen, ?_, fun j hj => by omega⟩
          rw [e2]
          simpa using (t4 _ (List.getElem_mem hlen)).1
        rw [f1]
        have f2 : ((List.range ts.length).filter fun i => decide (ts.getD i 0 ≤ ((q :: rest).getLast (by simp)).1)).getLast? =
            some (ts.length - 1) := by
          rw [List.filter_eq_self.2]
          · rw [List.getLast?_range, if_neg (by omega)]
          · intro i hi
            have hi' := List.mem_range.1 hi
            rw [e3, List.getD_eq_getElem _ _ hi']
            simpa using (t4 _ (List.getElem_mem hi')).2
        simp only [f2]
        split_ifs with h6
        · exact ⟨_, rfl⟩
        · obtain ⟨vs, hvs⟩ := linAll_total (x := (p :: q :: rest).map (·.1)) (y := (p :: q :: rest).map (·.2))
            (ts := (ts.take (ts.length - 1)).drop 0) (by
              rw [e1]
              intro t ht
              exact hcov t (List.mem_of_mem_take (List.mem_of_mem_drop ht)))
          simp only [hvs]
          have hvl := (linAll_ok hvs).1
          rw [List.drop_zero, List.length_take] at hvl
          rcases hg : vs.getLast? with _ | w
          · rw [List.getLast?_eq_none_iff] at hg
            rw [hg] at hvl
            simp only [List.length_nil] at hvl
            omega
          · exact ⟨_, rfl⟩
  obtain ⟨a1, b1⟩ := pos (obs.map (·.lon)) (by simp [hl])
  obtain ⟨a2, b2⟩ := pos (obs.map (·.lat)) (by simp [hl])
  obtain ⟨a3, b3⟩ := inten (·.pressure)
  obtain ⟨a4, b4⟩ := inten (·.wind)
  obtain ⟨a5, b5⟩ := lin (obs.map (·.penv))
  obtain ⟨a6, b6⟩ := lin (obs.map (·.rmax))
  unfold interpolateOn
  simp only [b1, b2, b3, b4, b5, b6]
  exact ⟨_, rfl⟩

theorem total_at (leg : ℚ × ℚ → ℚ × ℚ → ℚ × ℚ) (hkind : kind = .linear ∨ kind = .akima) (h2 : 2 ≤ obs.length)
    (hl : x.length = obs.length) (h0 : x[0]? = some 0) (hinc : Increasing x)
    (hv : ∀ o ∈ obs, o.pressure < 9223372036854775807) (hδ : 1 / 100 ≤ δ) : ∃ recs, interpolateAt leg kind x obs δ = .ok recs := by
  obtain ⟨T, hT⟩ : ∃ T, x.getLast? = some T := by
    rcases hg : x.getLast? with _ | T
    · rw [List.getLast?_eq_none_iff] at hg
      rw [hg] at hl
      simp at hl
      omega
    · exact ⟨T, rfl⟩
  have hT0 := last_nonneg_at h0 hinc hT
  obtain ⟨n, hts, -, -⟩ := newTimes_eq hT0 (show 0 < δ by linarith)
  obtain ⟨-, -, -, t4, -⟩ := newTimes_spec hT0 hδ hts
  unfold interpolateAt
  simp only [hT, Option.getD_some, hts]
  exact total_on leg hkind h2 hl h0 hinc hv hT (by simp) t4

/-- C92: a track of two or more observations at increasing times, all with a pressure, is interpolated successfully
with either of the methods `linear` and `akima`, whatever the time step. -/
theorem C92_total (leg : ℚ × ℚ → ℚ × ℚ → ℚ × ℚ) (hkind : kind = .linear ∨ kind = .akima) (h2 : 2 ≤ obs.length)
    (hs : ∀ o ∈ obs, o.date.second = 0) (hx : HoursSinceFirst obs x) (hinc : Increasing x)
    (hv : ∀ o ∈ obs, o.pressure < 9223372036854775807) (hδ : 1 / 100 ≤ δ) : ∃ recs, interpolate leg kind obs δ = .ok recs := by
  unfold interpolate
  rw [← hours_elapsed hs hx]
  exact total_at leg hkind h2 (hours_length hx) (hours_head hx) hinc hv hδ

/-- A track of four observations, used in the examples: six hours apart, moving east and then north. -/
def exTrack : List Obs :=
  [⟨⟨730000, 0, 0, 0⟩, 150, -10, 20, 90, 990, 30, 40, 1008⟩, ⟨⟨730000, 6, 0, 0⟩, 151, -10, 20, 90, 980, 35, 40, 1008⟩,
   ⟨⟨730000, 12, 0, 0⟩, 152, -10, 20, 90, 970, 40, 30, 1008⟩, ⟨⟨730000, 18, 0, 0⟩, 152, -11, 20, 180, 990, 30, 40, 1008⟩]

/-- A measure of distance for the examples. -/
def exLeg (a b : ℚ × ℚ) : ℚ × ℚ := (if b.2 < a.2 then 180 else 90, 100 * (|b.1 - a.1| + |b.2 - a.2|))

theorem exTrack_hours : HoursSinceFirst exTrack [0, 6, 12, 18] := ⟨_, _, rfl, by decide +kernel⟩

/-- The hypotheses of the theorems on C92 to C95 are met. -/
example : interpolate exLeg .linear exTrack 5 = .ok
    [⟨0, 150, -10, 50/3, 90, 990, 30, 40, 1008⟩, ⟨5, 905/6, -10, 50/3, 90, 2945/3, 205/6, 40, 1008⟩,
     ⟨10, 455/3, -10, 80/3, 180, 2920/3, 115/3, 100/3, 1008⟩, ⟨18, 152, -11, 80/3, 180, 2920/3, 115/3, 40, 1008⟩] := by
  decide +kernel

example : (∀ o ∈ exTrack, o.date.second = 0) ∧ Increasing ([0, 6, 12, 18] : List ℚ) ∧
    (∀ o ∈ exTrack, o.pressure < 9223372036854775807) := by
  refine ⟨by decide +kernel, ?_, by decide +kernel⟩
  unfold Increasing
  decide +kernel

/-- C92 fails: the final step of the new times is 8 hours instead of 5. -/
theorem C92_step_fails : ∃ (obs : List Obs) (recs : List Rec) (i : ℕ) (r s : Rec), interpolate exLeg .linear obs 5 = .ok recs ∧
    recs[i]? = some r ∧ recs[i + 1]? = some s ∧ s.time - r.time ≠ 5 :=
  ⟨exTrack, _, 2, _, _, (by decide +kernel : _ = Except.ok
    [⟨0, 150, -10, 50/3, 90, 990, 30, 40, 1008⟩, ⟨5, 905/6, -10, 50/3, 90, 2945/3, 205/6, 40, 1008⟩,
     ⟨10, 455/3, -10, 80/3, 180, 2920/3, 115/3, 100/3, 1008⟩, ⟨18, 152, -11, 80/3, 180, 2920/3, 115/3, 40, 1008⟩]), rfl, rfl,
    by norm_num⟩

/-- C92 fails for observations with seconds: those are dropped. -/
theorem C92_seconds_fails (a b : Obs) (h1 : b.date.ordinal = a.date.ordinal) (h2 : b.date.hour = a.date.hour)
    (h3 : b.date.minute = a.date.minute) : elapsed [a, b] = [0, 0] := by
  simp [elapsed, dayTime, h1, h2, h3]

example : HoursSinceFirst [⟨⟨730000, 0, 0, 0⟩, 150, -10, 20, 90, 990, 30, 40, 1008⟩,
    ⟨⟨730000, 0, 0, 36⟩, 150, -10, 20, 90, 990, 30, 40, 1008⟩] [0, 1/100] := ⟨_, _, rfl, by decide +kernel⟩

/-- C92: on the first process the result has one track for each track of the input, in the same order: itself if it has
a single observation, and otherwise its interpolation; the other processes get an empty list. -/
theorem C92_parse {tracks : List (List Obs)} {rank : ℕ} {outs : List Out}
    (h : parseTracks leg kind rank tracks δ = .ok outs) :
    0 ≤ δ ∧ (rank ≠ 0 → outs = []) ∧ (rank = 0 → List.Forall₂ (fun obs out =>
      (obs.length = 1 ∧ out = Out.same obs) ∨
      (obs.length ≠ 1 ∧ ∃ recs, interpolate leg kind obs δ = .ok recs ∧ out = Out.new recs)) tracks outs) := by
  unfold parseTracks at h
  split_ifs at h with h1 h2
  · injection h with h
    exact ⟨not_lt.1 h1, fun _ => h.symm, fun e => absurd e h2⟩
  · refine ⟨not_lt.1 h1, fun e => absurd e h2, fun _ => ?_⟩
    induction tracks generalizing outs with
    | nil =>
      injection h with h
      subst h
      exact List.Forall₂.nil
    | cons obs tracks ih =>
      unfold parseAll at h
      split_ifs at h with hl
      · split at h
        · exact absurd h (by simp)
        rename_i outs' ho
        injection h with h
        subst h
        exact List.Forall₂.cons (Or.inl ⟨hl, rfl⟩) (ih ho)
      · split at h
        · exact absurd h (by simp)
        rename_i recs hi
        split at h
        · exact absurd h (by simp)
        rename_i outs' ho
        injection h with h
        subst h
        exact List.Forall₂.cons (Or.inr ⟨hl, recs, hi, rfl⟩) (ih ho)

example : parseTracks exLeg .linear 0 [exTrack.take 1, exTrack.take 2] 6 = .ok [.same (exTrack.take 1),
    .new [⟨0, 150, -10, 50/3, 90, 990, 30, 40, 1008⟩, ⟨6, 151, -10, 50/3, 90, 980, 35, 40, 1008⟩]] := by decide +kernel

/-- C93: environmental pressure and radius lie on the straight lines between the observed values; so do longitude and
latitude for linear interpolation and for tracks of at most three observations. -/
theorem C93_lines (h : interpolate leg kind obs δ = .ok recs) (hs : ∀ o ∈ obs, o.date.second = 0)
    (hx : HoursSinceFirst obs x) (hinc : Increasing x) (h2 : 2 ≤ obs.length) {r : Rec} (hr : r ∈ recs) :
    OnLine x (obs.map (·.penv)) r.time r.penv ∧ OnLine x (obs.map (·.rmax)) r.time r.rmax ∧
    ((kind = .linear ∨ obs.length ≤ 3) →
      OnLine x (obs.map (·.lon)) r.time r.lon ∧ OnLine x (obs.map (·.lat)) r.time r.lat) := by
  obtain ⟨ts, xs, ys, ps, ws, es, rs, p⟩ := interpolate_parts h
  obtain ⟨i, hi⟩ := List.getElem?_of_mem hr
  obtain ⟨g1, g2, g3, -, -, -, g7, g8⟩ := p.get hi
  have hl := hours_length hx
  have hex := hours_elapsed hs hx
  have key : ∀ {y vs : List ℚ} {v : ℚ}, y.length = x.length → linAll x y ts = .ok vs → vs[i]? = some v → OnLine x y r.time v := by
    intro y vs v hy hv hvi
    obtain ⟨w, hw, hlin⟩ := (linAll_ok hv).2 i _ g1
    rw [hvi] at hw
    injection hw with hw
    subst hw
    exact lin_ok hlin hinc (by omega) hy
  have hp := p.penv
  have hm := p.rmax
  have hlo := p.lons
  have hla := p.lats
  rw [← hex] at hp hm hlo hla
  refine ⟨key (by simp [hl]) hp g8, key (by simp [hl]) hm g7, ?_⟩
  intro hk
  have hpos : ∀ y, positions kind x y ts = linAll x y ts := by
    intro y
    unfold positions
    split_ifs with h3
    · rfl
    · rcases hk with rfl | hk
      · rfl
      · omega
  rw [hpos] at hlo hla
  exact ⟨key (by simp [hl]) hlo g2, key (by simp [hl]) hla g3⟩

/-- C93: at the time of an observation the interpolated track is where it was observed (methods `linear` and `akima`),
with the observed environmental pressure and radius. -/
theorem C93_observed (hkind : kind = .linear ∨ kind = .akima) (h : interpolate leg kind obs δ = .ok recs)
    (hs : ∀ o ∈ obs, o.date.second = 0) (hx : HoursSinceFirst obs x) (hinc : Increasing x) (h2 : 2 ≤ obs.length)
    {r : Rec} (hr : r ∈ recs) {k : ℕ} {o : Obs} (ho : obs[k]? = some o) (ht : x[k]? = some r.time) :
    r.lon = o.lon ∧ r.lat = o.lat ∧ r.penv = o.penv ∧ r.rmax = o.rmax := by
  obtain ⟨c1, c2, c3⟩ := C93_lines h hs hx hinc h2 hr
  have hl := hours_length hx
  have node : ∀ (col : Obs → ℚ) (v : ℚ), OnLine x (obs.map col) r.time v → v = col o := by
    intro col v hv
    exact hv.unique hinc (OnLine.node (by omega) (by simp [hl]) hinc ht (by rw [List.getElem?_map, ho]; rfl))
  refine ⟨?_, ?_, node _ _ c1, node _ _ c2⟩
  all_goals
    by_cases hsm : kind = .linear ∨ obs.length ≤ 3
  · exact node _ _ (c3 hsm).1
  · push Not at hsm
    obtain ⟨hsm1, hsm2⟩ := hsm
    have hka : kind = .akima := hkind.resolve_left hsm1
    subst hka
    obtain ⟨ts, xs, ys, ps, ws, es, rs, p⟩ := interpolate_parts h
    obtain ⟨i, hi⟩ := List.getElem?_of_mem hr
    obtain ⟨g1, g2, g3, -⟩ := p.get hi
    have hlo := p.lons
    rw [← hours_elapsed hs hx] at hlo
    unfold positions at hlo
    rw [if_neg (by omega)] at hlo
    simp only at hlo
    split at hlo
    · exact absurd hlo (by simp)
    rename_i zs hz
    injection hlo with hlo
    subst hlo
    have := (Akima.C91_observed hz).2 i k _ o.lon g1 ht (by rw [List.getElem?_map, ho]; rfl)
    exact Option.some.inj (g2.symm.trans this)
  · exact node _ _ (c3 hsm).2
  · push Not at hsm
    obtain ⟨hsm1, hsm2⟩ := hsm
    have hka : kind = .akima := hkind.resolve_left hsm1
    subst hka
    obtain ⟨ts, xs, ys, ps, ws, es, rs, p⟩ := interpolate_parts h
    obtain ⟨i, hi⟩ := List.getElem?_of_mem hr
    obtain ⟨g1, g2, g3, -⟩ := p.get hi
    have hla := p.lats
    rw [← hours_elapsed hs hx] at hla
    unfold positions at hla
    rw [if_neg (by omega)] at hla
    simp only at hla
    split at hla
    · exact absurd hla (by simp)
    rename_i zs hz
    injection hla with hla
    subst hla
    have := (Akima.C91_observed hz).2 i k _ o.lat g1 ht (by rw [List.getElem?_map, ho]; rfl)
    exact Option.some.inj (g3.symm.trans this)

/-- The hypotheses of `C93_observed` are met with the Akima method. -/
example : (match interpolate exLeg .akima exTrack 3 with
    | .ok recs => recs.map fun r => (r.time, r.lon, r.lat)
    | .error _ => []) =
    [(0, 150, -10), (3, 301/2, -10), (6, 151, -10), (9, 303/2, -10), (12, 152, -10), (15, 2435/16, -165/16), (18, 152, -11)] := by
  decide +kernel

/-- C93 fails across the zero meridian: halfway between 359°E and 1°E the interpolated track is at 180°E. -/
theorem C93_meridian_fails : ∃ (a b : Obs) (recs : List Rec) (r : Rec), a.lon = 359 ∧ b.lon = 1 ∧
    interpolate exLeg .linear [a, b] 3 = .ok recs ∧ r ∈ recs ∧ r.lon = 180 :=
  ⟨⟨⟨730000, 0, 0, 0⟩, 359, 30, 20, 90, 990, 30, 40, 1008⟩, ⟨⟨730000, 6, 0, 0⟩, 1, 30, 20, 90, 990, 30, 40, 1008⟩,
    [⟨0, 359, 30, 17900/3, 90, 990, 30, 40, 1008⟩, ⟨3, 180, 30, 17900/3, 90, 990, 30, 40, 1008⟩,
     ⟨6, 1, 30, 17900/3, 90, 990, 30, 40, 1008⟩], ⟨3, 180, 30, 17900/3, 90, 990, 30, 40, 1008⟩, rfl, rfl, by decide +kernel,
    by simp, rfl⟩

/-- The speed column times `δ` is the distance to the next record; the last record repeats the one before. -/
theorem motion_spec (h : interpolate leg kind obs δ = .ok recs) {i : ℕ} {r s : Rec} (hr : recs[i]? = some r)
    (hs : recs[i + 1]? = some s) : r.bearing = (leg (r.lon, r.lat) (s.lon, s.lat)).1 ∧
      r.speed = (leg (r.lon, r.lat) (s.lon, s.lat)).2 / δ := by
  obtain ⟨ts, xs, ys, ps, ws, es, rs, p⟩ := interpolate_parts h
  obtain ⟨-, g2, g3, g4, -⟩ := p.get hr
  obtain ⟨-, g2', g3', -⟩ := p.get hs
  have z1 : (xs.zip ys)[i]? = some (r.lon, r.lat) := List.getElem?_zip_eq_some.2 ⟨g2, g3⟩
  have z2 : (xs.zip ys)[i + 1]? = some (s.lon, s.lat) := List.getElem?_zip_eq_some.2 ⟨g2', g3'⟩
  have hl := legs_get leg _ i _ _ z1 z2
  unfold motion at g4
  split at g4
  · rw [List.getElem?_map, List.getElem?_append_left ((List.getElem?_eq_some_iff.1 hl).1), hl, Option.map_some] at g4
    injection g4 with g4
    exact ⟨(congrArg Prod.fst g4).symm, (congrArg Prod.snd g4).symm⟩
  · rename_i hn
    rw [List.getLast?_eq_none_iff] at hn
    rw [hn] at hl
    simp at hl

/-- C94: except on the final leg the forward speed times the time to the next record is the distance to it, and the
bearing is that of the next record. -/
theorem C94_speed_partial (hk : kind.Full) (h : interpolate leg kind obs δ = .ok recs) (hs : ∀ o ∈ obs, o.date.second = 0)
    (hx : HoursSinceFirst obs x) (hinc : Increasing x) {T : ℚ} (hT : x.getLast? = some T) (hδ : 1 / 100 ≤ δ)
    {i : ℕ} {r s : Rec} (hr : recs[i]? = some r) (hs' : recs[i + 1]? = some s) :
    r.bearing = (leg (r.lon, r.lat) (s.lon, s.lat)).1 ∧
    (i + 2 < recs.length → r.speed * (s.time - r.time) = (leg (r.lon, r.lat) (s.lon, s.lat)).2) := by
  obtain ⟨h1, h2⟩ := motion_spec h hr hs'
  refine ⟨h1, ?_⟩
  intro hi
  have h3 := ((C92_times_partial hk h hs hx hinc hT hδ).2.2.2 i r s hr hs').1 hi
  rw [h3, h2, div_mul_cancel₀ _ (by linarith)]

/-- C94 fails on the final leg, when it does not take `δ` hours and the cyclone moves. -/
theorem C94_speed_fails (h : interpolate leg kind obs δ = .ok recs) (hδ : 0 < δ) {i : ℕ} {r s : Rec} (hr : recs[i]? = some r)
    (hs : recs[i + 1]? = some s) (hgap : s.time - r.time ≠ δ) (hd : (leg (r.lon, r.lat) (s.lon, s.lat)).2 ≠ 0) :
    r.speed * (s.time - r.time) ≠ (leg (r.lon, r.lat) (s.lon, s.lat)).2 := by
  obtain ⟨-, h2⟩ := motion_spec h hr hs
  rw [h2]
  intro h3
  apply hgap
  rw [div_mul_eq_mul_div, div_eq_iff hδ.ne'] at h3
  exact mul_left_cancel₀ hd h3

/-- C94: the last record repeats the bearing and speed of the one before. -/
theorem C94_last (hk : kind.Full) (h : interpolate leg kind obs δ = .ok recs) {i : ℕ} {r s : Rec} (hi : i + 2 = recs.length)
    (hr : recs[i]? = some r) (hs : recs[i + 1]? = some s) : s.bearing = r.bearing ∧ s.speed = r.speed := by
  obtain ⟨ts, xs, ys, ps, ws, es, rs, p⟩ := interpolate_parts h
  obtain ⟨-, -, -, g4, -⟩ := p.get hr
  obtain ⟨-, -, -, g4', -⟩ := p.get hs
  have hlen : (xs.zip ys).length = i + 2 := by
    have h1 := positions_length hk p.lons
    have h2 := positions_length hk p.lats
    have h3 := p.length hk
    rw [List.length_zip]
    omega
  have hll := legs_length leg (xs.zip ys)
  unfold motion at g4 g4'
  split at g4
  · rename_i l hl
    rw [List.getLast?_eq_getElem?] at hl
    rw [show (legs leg (xs.zip ys)).length - 1 = i by omega] at hl
    rw [List.getElem?_map, List.getElem?_append_left (by omega), hl, Option.map_some] at g4
    split at g4'
    · rename_i l' hl'
      rw [List.getLast?_eq_getElem?] at hl'
      rw [show (legs leg (xs.zip ys)).length - 1 = i by omega, hl] at hl'
      injection hl' with hl'
      subst hl'
      rw [List.getElem?_map, List.getElem?_append_right (by omega)] at g4'
      rw [show i + 1 - (legs leg (xs.zip ys)).length = 0 by omega] at g4'
      simp only [List.getElem?_cons_zero, Option.map_some] at g4'
      injection g4 with g4
      injection g4' with g4'
      rw [g4] at g4'
      exact ⟨(congrArg Prod.fst g4').symm, (congrArg Prod.snd g4').symm⟩
    · rename_i hn
      rw [List.getLast?_eq_none_iff] at hn
      rw [hn] at hll
      simp only [List.length_nil] at hll
      omega
  · rename_i hn
    rw [List.getLast?_eq_none_iff] at hn
    rw [hn] at hll
    simp only [List.length_nil] at hll
    omega

/-- C94: an interpolated track of a single record has the bearing and the speed of the last observation. -/
theorem C94_single (hk : kind.Full) {r : Rec} (h : interpolate leg kind obs δ = .ok [r]) {o : Obs} (ho : obs.getLast? = some o) :
    r.bearing = o.bearing ∧ r.speed = o.speed := by
  obtain ⟨ts, xs, ys, ps, ws, es, rs, p⟩ := interpolate_parts h
  obtain ⟨-, -, -, g4, -⟩ := p.get (i := 0) (r := r) rfl
  have h3 := p.length hk
  have h1 := positions_length hk p.lons
  have hlen : (xs.zip ys).length ≤ 1 := by
    rw [List.length_zip]
    simp only [List.length_singleton] at h3
    omega
  have hll := legs_length leg (xs.zip ys)
  have hn : legs leg (xs.zip ys) = [] := List.length_eq_zero_iff.1 (by omega)
  unfold motion at g4
  rw [hn] at g4
  simp only [List.getLast?_nil, ho, Option.elim_some, List.getElem?_map] at g4
  obtain ⟨_, -, e⟩ := Option.map_eq_some_iff.1 g4
  exact ⟨(congrArg Prod.fst e).symm, (congrArg Prod.snd e).symm⟩

example : interpolate exLeg .linear (exTrack.take 2) 8 = .ok [⟨6, 151, -10, 20, 90, 980, 35, 40, 1008⟩] := by decide +kernel

end Tcrm.TrackInterp
