import Verif.Props.TrackInterp
/-!
C95 (central pressure of interpolated tracks).
-/
namespace Tcrm.TrackInterp
open Tcrm.Akima (Increasing Covered)

variable {leg : ℚ × ℚ → ℚ × ℚ → ℚ × ℚ} {kind : Kind} {obs : List Obs} {δ : ℚ} {recs : List Rec} {x : List ℚ}

theorem mask_plausible {p : ℚ} (h : Plausible p) : maskPressure p = p := by
  obtain ⟨h1, h2⟩ := h
  unfold maskPressure
  simp only
  rw [if_neg (not_lt.2 h2), if_neg (not_lt.2 h1)]

theorem mask_zero : maskPressure 0 = maxsize := by decide +kernel

/-- Between plausible pressures there are only plausible ones. -/
theorem OnLine.plausible {vt vv : List ℚ} (hv : Increasing vt) (hp : ∀ v ∈ vv, Plausible v) {t v : ℚ} (h : OnLine vt vv t v) :
    Plausible v := by
  obtain ⟨k, a, b, p, q, ka, kb, kp, kq, hat, htb, e⟩ := h
  have hab := (inc_get hv ka kb).2 (Nat.lt_succ_self k)
  obtain ⟨p1, p2⟩ := hp p (List.mem_of_getElem? kp)
  obtain ⟨q1, q2⟩ := hp q (List.mem_of_getElem? kq)
  have hd : 0 < b - a := by linarith
  have e' : v * (b - a) = p * (b - t) + q * (t - a) := by linarith
  constructor
  · refine le_of_mul_le_mul_right (?_ : 700 * (b - a) ≤ v * (b - a)) hd
    have h1 := mul_le_mul_of_nonneg_right p1 (by linarith : 0 ≤ b - t)
    have h2 := mul_le_mul_of_nonneg_right q1 (by linarith : 0 ≤ t - a)
    linarith
  · refine le_of_mul_le_mul_right (?_ : v * (b - a) ≤ 10000000 * (b - a)) hd
    have h1 := mul_le_mul_of_nonneg_right p2 (by linarith : 0 ≤ b - t)
    have h2 := mul_le_mul_of_nonneg_right q2 (by linarith : 0 ≤ t - a)
    linarith

theorem known_valid {col : Obs → ℚ} {vt vv : List ℚ} (h : Known x obs col vt vv) : validOf x obs col = vt.zip vv ∧
    (validOf x obs col).map (·.1) = vt ∧ (validOf x obs col).map (·.2) = vv := by
  obtain ⟨h1, h2⟩ := h
  have : validOf x obs col = vt.zip vv := by rw [h1]; rfl
  refine ⟨this, ?_, ?_⟩
  · rw [this]; exact List.map_fst_zip (by omega)
  · rw [this]; exact List.map_snd_zip (by omega)

theorem known_increasing {col : Obs → ℚ} {vt vv : List ℚ} (h : Known x obs col vt vv) (hx : Increasing x) : Increasing vt := by
  rw [← (known_valid h).2.1]
  unfold validOf
  rw [List.map_map]
  have s1 : (((x.zip obs).filter fun p => decide (p.2.pressure < maxsize)).map
      ((fun p : ℚ × ℚ => p.1) ∘ fun p : ℚ × Obs => (p.1, col p.2))).Sublist ((x.zip obs).map fun p => p.1) :=
    List.Sublist.map _ List.filter_sublist
  have s2 : ((x.zip obs).map fun p => p.1).Sublist x := by
    clear h s1 hx
    induction x generalizing obs with
    | nil => simp
    | cons t x ih =>
      cases obs with
      | nil => simp
      | cons o obs => simpa using ih
  exact List.Pairwise.sublist (s1.trans s2) hx

/-- C95: on a track of four or more observations, two or more of them with a (plausible) pressure, an interpolated record
before the first or after the last known pressure has the mark of a missing value. Any other one is on the straight line
between the two neighbouring known pressures, unless it is the last that is not after the last known pressure: that one
repeats the pressure of the record before. -/
theorem C95_pressure_partial (hk : kind.Full) (h : interpolate leg kind obs δ = .ok recs) (hs : ∀ o ∈ obs, o.date.second = 0)
    (hx : HoursSinceFirst obs x) (hinc : Increasing x) (hδ : 1 / 100 ≤ δ) (h4 : 4 ≤ obs.length) {vt vv : List ℚ}
    (hkn : Known x obs (·.pressure) vt vv) (h2 : 2 ≤ vt.length) (hpl : ∀ v ∈ vv, Plausible v) {a b : ℚ}
    (ha : vt[0]? = some a) (hb : vt.getLast? = some b) {i : ℕ} {r : Rec} (hr : recs[i]? = some r) :
    (r.time < a ∨ b < r.time → r.pressure = 9223372036854775807) ∧
    (∀ s, recs[i + 1]? = some s → a ≤ r.time → s.time ≤ b →
      OnLine vt vv r.time r.pressure ∧
      ((∀ u, recs[i + 2]? = some u → b < u.time) → s.pressure = r.pressure)) := by
  obtain ⟨ts, xs, ys, ps, ws, es, rs, p⟩ := interpolate_parts h
  obtain ⟨T, hT⟩ : ∃ T, x.getLast? = some T := by
    rcases hg : x.getLast? with _ | T
    · rw [List.getLast?_eq_none_iff] at hg
      have := hours_length hx
      rw [hg] at this
      simp at this
      omega
    · exact ⟨T, rfl⟩
  have hex := hours_elapsed hs hx
  have htimes := p.times
  rw [← hex, hT, Option.getD_some] at htimes
  have hts := (newTimes_spec (last_nonneg hx hinc hT) hδ htimes).2.2.1
  have hpres := p.pres
  rw [← hex] at hpres
  obtain ⟨k1, k2, k3⟩ := known_valid hkn
  have hvl : (validOf x obs (·.pressure)).length = vt.length := by rw [← k2, List.length_map]
  have hvi := known_increasing hkn hinc
  obtain ⟨g1, -, -, -, g5, -⟩ := p.get hr
  unfold intensity at hpres
  match hv : validOf x obs (·.pressure), hvl with
  | [], hvl => simp only [List.length_nil] at hvl; omega
  | [_], hvl => simp only [List.length_singleton] at hvl; omega
  | c :: d :: rest, hvl =>
    rw [hv] at hpres k2 k3
    simp only at hpres
    rw [if_neg (by omega)] at hpres
    have ea : c.1 = a := by
      rw [← k2] at ha
      simpa using ha
    have eb : ((d :: rest).getLast (by simp)).1 = b := by
      rw [← k2, List.getLast?_map, List.getLast?_cons_cons, List.getLast?_eq_some_getLast (by simp)] at hb
      simpa using hb
    have hb := between_spec hts hpres g1
    rw [ea, eb, k2, k3] at hb
    obtain ⟨b1, b2, b3⟩ := hb
    rw [List.getElem?_map] at g5
    refine ⟨?_, ?_⟩
    · intro hout
      rw [b1 hout, Option.map_some, mask_zero] at g5
      exact (Option.some.inj g5).symm
    · intro s hs' hat htb
      obtain ⟨g1', -, -, -, g5', -⟩ := p.get hs'
      obtain ⟨w, hw, hlin⟩ := b2 _ g1' hat htb
      have hon := lin_ok hlin hvi h2 hkn.2.symm
      rw [hw, Option.map_some, mask_plausible (hon.plausible hvi hpl)] at g5
      have e := Option.some.inj g5
      rw [e] at hon
      refine ⟨hon, ?_⟩
      intro hend
      have h7 : ∀ t'', ts[i + 2]? = some t'' → b < t'' := by
        intro t'' ht''
        have hu := List.getElem?_eq_getElem (show i + 2 < recs.length by rw [p.length hk]; exact lt_of_getElem? ht'')
        have := (p.get hu).1
        rw [ht''] at this
        rw [Option.some.inj this]
        exact hend _ hu
      have h8 := b3 _ g1' hat htb h7
      rw [List.getElem?_map, h8, hw, Option.map_some, mask_plausible (e ▸ hon.plausible hvi hpl)] at g5'
      rw [← Option.some.inj g5', e]

/-- C95: the wind speeds are interpolated in the same way, between the records with a known pressure; outside that
period they are zero. -/
theorem C95_wind_partial (h : interpolate leg kind obs δ = .ok recs) (hs : ∀ o ∈ obs, o.date.second = 0)
    (hx : HoursSinceFirst obs x) (hinc : Increasing x) (hδ : 1 / 100 ≤ δ) (h4 : 4 ≤ obs.length) {vt vv : List ℚ}
    (hkn : Known x obs (·.wind) vt vv) (h2 : 2 ≤ vt.length) {a b : ℚ}
    (ha : vt[0]? = some a) (hb : vt.getLast? = some b) {i : ℕ} {r : Rec} (hr : recs[i]? = some r) :
    (r.time < a ∨ b < r.time → r.wind = 0) ∧
    (∀ s, recs[i + 1]? = some s → a ≤ r.time → s.time ≤ b → OnLine vt vv r.time r.wind) := by
  obtain ⟨ts, xs, ys, ps, ws, es, rs, p⟩ := interpolate_parts h
  obtain ⟨T, hT⟩ : ∃ T, x.getLast? = some T := by
    rcases hg : x.getLast? with _ | T
    · rw [List.getLast?_eq_none_iff] at hg
      have := hours_length hx
      rw [hg] at this
      simp at this
      omega
    · exact ⟨T, rfl⟩
  have hex := hours_elapsed hs hx
  have htimes := p.times
  rw [← hex, hT, Option.getD_some] at htimes
  have hts := (newTimes_spec (last_nonneg hx hinc hT) hδ htimes).2.2.1
  have hw := p.wind
  rw [← hex] at hw
  obtain ⟨k1, k2, k3⟩ := known_valid hkn
  have hvl : (validOf x obs (·.wind)).length = vt.length := by rw [← k2, List.length_map]
  have hvi := known_increasing hkn hinc
  obtain ⟨g1, -, -, -, -, g6, -⟩ := p.get hr
  unfold intensity at hw
  match hv : validOf x obs (·.wind), hvl with
  | [], hvl => simp only [List.length_nil] at hvl; omega
  | [_], hvl => simp only [List.length_singleton] at hvl; omega
  | c :: d :: rest, hvl =>
    rw [hv] at hw k2 k3
    simp only at hw
    rw [if_neg (by omega)] at hw
    have ea : c.1 = a := by
      rw [← k2] at ha
      simpa using ha
    have eb : ((d :: rest).getLast (by simp)).1 = b := by
      rw [← k2, List.getLast?_map, List.getLast?_cons_cons, List.getLast?_eq_some_getLast (by simp)] at hb
      simpa using hb
    have hb := between_spec hts hw g1
    rw [ea, eb, k2, k3] at hb
    obtain ⟨b1, b2, -⟩ := hb
    refine ⟨fun hout => Option.some.inj (g6.symm.trans (b1 hout)), ?_⟩
    intro s hs' hat htb
    obtain ⟨w, hw, hlin⟩ := b2 _ (p.get hs').1 hat htb
    rw [Option.some.inj (g6.symm.trans hw)]
    exact lin_ok hlin hvi h2 hkn.2.symm

/-- The hypotheses of `C95_pressure_partial` are met: the second of the pressures of the track is missing. -/
example : Known [0, 6, 12, 18] (exTrack.set 1 ⟨⟨730000, 6, 0, 0⟩, 151, -10, 20, 90, maxsize, 35, 40, 1008⟩) (·.pressure)
    [0, 12, 18] [990, 970, 990] := by
  unfold Known
  decide +kernel

/-- C95 fails: at the time of the last observation the interpolated track has not the observed pressure. -/
theorem C95_last_fails : ∃ (obs : List Obs) (x : List ℚ) (recs : List Rec) (r : Rec) (o : Obs),
    interpolate exLeg .linear obs 6 = .ok recs ∧ HoursSinceFirst obs x ∧ recs.getLast? = some r ∧ obs.getLast? = some o ∧
    x.getLast? = some r.time ∧ o.pressure = 990 ∧ r.pressure = 970 :=
  ⟨exTrack, [0, 6, 12, 18],
    [⟨0, 150, -10, 50/3, 90, 990, 30, 40, 1008⟩, ⟨6, 151, -10, 50/3, 90, 980, 35, 40, 1008⟩,
     ⟨12, 152, -10, 50/3, 180, 970, 40, 30, 1008⟩, ⟨18, 152, -11, 50/3, 180, 970, 40, 40, 1008⟩],
    ⟨18, 152, -11, 50/3, 180, 970, 40, 40, 1008⟩, _, by decide +kernel, exTrack_hours, rfl, rfl, rfl, rfl, rfl⟩

/-- C95: on a track of two or three observations with plausible pressures every interpolated pressure is on the straight
line between the neighbouring ones. -/
theorem C95_few (h : interpolate leg kind obs δ = .ok recs) (hs : ∀ o ∈ obs, o.date.second = 0)
    (hx : HoursSinceFirst obs x) (hinc : Increasing x) (h2 : 2 ≤ obs.length) (h3 : obs.length ≤ 3)
    (hpl : ∀ o ∈ obs, Plausible o.pressure) {r : Rec} (hr : r ∈ recs) :
    OnLine x (obs.map (·.pressure)) r.time r.pressure := by
  obtain ⟨ts, xs, ys, ps, ws, es, rs, p⟩ := interpolate_parts h
  obtain ⟨i, hi⟩ := List.getElem?_of_mem hr
  obtain ⟨g1, -, -, -, g5, -⟩ := p.get hi
  have hl := hours_length hx
  have hpres := p.pres
  rw [← hours_elapsed hs hx] at hpres
  have hv := zip_pressure_valid (x := x) (obs := obs) (fun o ho => lt_of_le_of_lt (hpl o ho).2 (by decide +kernel)) (·.pressure) hl
  have hvl : (validOf x obs (·.pressure)).length = obs.length := by rw [hv]; simp [hl]
  unfold intensity at hpres
  match hv' : validOf x obs (·.pressure), hvl with
  | [], hvl => simp only [List.length_nil] at hvl; omega
  | [_], hvl => simp only [List.length_singleton] at hvl; omega
  | c :: d :: rest, hvl =>
    rw [hv'] at hpres
    simp only at hpres
    rw [if_pos h3] at hpres
    obtain ⟨w, hw, hlin⟩ := (linAll_ok hpres).2 i _ g1
    have hon := lin_ok hlin hinc (by omega) (by simp [hl])
    rw [List.getElem?_map, hw, Option.map_some, mask_plausible (hon.plausible hinc (by
      intro v hv
      obtain ⟨o, ho, rfl⟩ := List.mem_map.1 hv
      exact hpl o ho))] at g5
    rw [← Option.some.inj g5]
    exact hon

example : (2 ≤ (exTrack.take 3).length ∧ (exTrack.take 3).length ≤ 3) ∧ ∀ o ∈ exTrack.take 3, Plausible o.pressure := by
  unfold Plausible
  decide +kernel

/-- C95: if exactly one observation has a pressure (a plausible one) all interpolated records have it; if none has, all
are marked missing. -/
theorem C95_one_none (h : interpolate leg kind obs δ = .ok recs) (hs : ∀ o ∈ obs, o.date.second = 0)
    (hx : HoursSinceFirst obs x) {vt vv : List ℚ} (hkn : Known x obs (·.pressure) vt vv) {r : Rec} (hr : r ∈ recs) :
    (∀ v, vv = [v] → Plausible v → r.pressure = v) ∧ (vv = [] → r.pressure = 9223372036854775807) := by
  obtain ⟨ts, xs, ys, ps, ws, es, rs, p⟩ := interpolate_parts h
  obtain ⟨i, hi⟩ := List.getElem?_of_mem hr
  obtain ⟨g1, -, -, -, g5, -⟩ := p.get hi
  have hpres := p.pres
  rw [← hours_elapsed hs hx] at hpres
  obtain ⟨k1, k2, k3⟩ := known_valid hkn
  unfold intensity at hpres
  rw [List.getElem?_map] at g5
  constructor
  · rintro v rfl hp
    match hv' : validOf x obs (·.pressure), k3 with
    | [c], k3 =>
      rw [hv'] at hpres
      simp only [List.map_cons, List.map_nil, List.cons.injEq, and_true] at k3
      injection hpres with hpres
      rw [← hpres, List.getElem?_map, g1, k3] at g5
      simp only [Option.map_some, mask_plausible hp, Option.some.injEq] at g5
      exact g5.symm
    | c :: d :: rest, k3 => simp at k3
  · rintro rfl
    match hv' : validOf x obs (·.pressure), k3 with
    | [], _ =>
      rw [hv'] at hpres
      injection hpres with hpres
      rw [← hpres, List.getElem?_map, g1] at g5
      simp only [Option.map_some, mask_zero, Option.some.injEq] at g5
      exact g5.symm

/-- The hypotheses of `C95_one_none` are met. -/
example : Known [0, 6] [⟨⟨730000, 0, 0, 0⟩, 150, -10, 20, 90, maxsize, 30, 40, 1008⟩,
    ⟨⟨730000, 6, 0, 0⟩, 151, -10, 20, 90, 980, 35, 40, 1008⟩] (·.pressure) [6] [980] := by
  unfold Known
  decide +kernel

/-- C95: if exactly one observation has a pressure all interpolated records have the wind speed of that observation; if
none has, all have wind speed zero. -/
theorem C95_wind_one_none (h : interpolate leg kind obs δ = .ok recs) (hs : ∀ o ∈ obs, o.date.second = 0)
    (hx : HoursSinceFirst obs x) {vt vv : List ℚ} (hkn : Known x obs (·.wind) vt vv) {r : Rec} (hr : r ∈ recs) :
    (∀ v, vv = [v] → r.wind = v) ∧ (vv = [] → r.wind = 0) := by
  obtain ⟨ts, xs, ys, ps, ws, es, rs, p⟩ := interpolate_parts h
  obtain ⟨i, hi⟩ := List.getElem?_of_mem hr
  obtain ⟨g1, -, -, -, -, g6, -⟩ := p.get hi
  have hw := p.wind
  rw [← hours_elapsed hs hx] at hw
  obtain ⟨k1, k2, k3⟩ := known_valid hkn
  unfold intensity at hw
  constructor
  · rintro v rfl
    match hv' : validOf x obs (·.wind), k3 with
    | [c], k3 =>
      rw [hv'] at hw
      simp only [List.map_cons, List.map_nil, List.cons.injEq, and_true] at k3
      injection hw with hw
      rw [← hw, List.getElem?_map, g1, k3] at g6
      simp only [Option.map_some, Option.some.injEq] at g6
      exact g6.symm
    | c :: d :: rest, k3 => simp at k3
  · rintro rfl
    match hv' : validOf x obs (·.wind), k3 with
    | [], _ =>
      rw [hv'] at hw
      injection hw with hw
      rw [← hw, List.getElem?_map, g1] at g6
      simp only [Option.map_some, Option.some.injEq] at g6
      exact g6.symm

/-- The hypotheses of `C95_wind_one_none` are met, without and with a known pressure. -/
example : Known [0, 6] [⟨⟨730000, 0, 0, 0⟩, 150, -10, 20, 90, maxsize, 30, 40, 1008⟩,
      ⟨⟨730000, 6, 0, 0⟩, 151, -10, 20, 90, maxsize, 35, 40, 1008⟩] (·.wind) [] [] ∧
    Known [0, 6] [⟨⟨730000, 0, 0, 0⟩, 150, -10, 20, 90, maxsize, 30, 40, 1008⟩,
      ⟨⟨730000, 6, 0, 0⟩, 151, -10, 20, 90, 980, 35, 40, 1008⟩] (·.wind) [6] [35] := by
  unfold Known
  decide +kernel

/-- C95: on a track of two or three observations, two or more of them with a pressure, every interpolated wind speed is on
the straight line between the neighbouring observed ones. -/
theorem C95_wind_few (h : interpolate leg kind obs δ = .ok recs) (hs : ∀ o ∈ obs, o.date.second = 0)
    (hx : HoursSinceFirst obs x) (hinc : Increasing x) (h3 : obs.length ≤ 3) {vt vv : List ℚ}
    (hkn : Known x obs (·.wind) vt vv) (h2 : 2 ≤ vt.length) {r : Rec} (hr : r ∈ recs) :
    OnLine x (obs.map (·.wind)) r.time r.wind := by
  obtain ⟨ts, xs, ys, ps, ws, es, rs, p⟩ := interpolate_parts h
  obtain ⟨i, hi⟩ := List.getElem?_of_mem hr
  obtain ⟨g1, -, -, -, -, g6, -⟩ := p.get hi
  have hl := hours_length hx
  have hw := p.wind
  rw [← hours_elapsed hs hx] at hw
  obtain ⟨k1, k2, k3⟩ := known_valid hkn
  have hvl : (validOf x obs (·.wind)).length = vt.length := by rw [← k2, List.length_map]
  have hle : (validOf x obs (·.wind)).length ≤ x.length := by
    unfold validOf
    rw [List.length_map]
    refine (List.length_filter_le _ _).trans ?_
    rw [List.length_zip]
    exact min_le_left _ _
  unfold intensity at hw
  match hv' : validOf x obs (·.wind), hvl with
  | [], hvl => simp only [List.length_nil] at hvl; omega
  | [_], hvl => simp only [List.length_singleton] at hvl; omega
  | c :: d :: rest, hvl =>
    rw [hv'] at hw
    simp only at hw
    rw [if_pos h3] at hw
    obtain ⟨w, hw', hlin⟩ := (linAll_ok hw).2 i _ g1
    rw [Option.some.inj (g6.symm.trans hw')]
    exact lin_ok hlin hinc (by rw [hv'] at hle; simp only [List.length_cons] at hle; omega) (by simp [hl])

/-- C95 fails on a track of three observations: between the two known pressures the interpolated ones are marked missing. -/
theorem C95_few_fails : ∃ (obs : List Obs) (recs : List Rec) (r : Rec), interpolate exLeg .linear obs 6 = .ok recs ∧
    HoursSinceFirst obs [0, 6, 12] ∧ Known [0, 6, 12] obs (·.pressure) [0, 12] [990, 970] ∧ recs[1]? = some r ∧ r.time = 6 ∧
    r.pressure = 9223372036854775807 :=
  ⟨(exTrack.set 1 ⟨⟨730000, 6, 0, 0⟩, 151, -10, 20, 90, maxsize, 35, 40, 1008⟩).take 3,
    [⟨0, 150, -10, 50/3, 90, 990, 30, 40, 1008⟩, ⟨6, 151, -10, 50/3, 90, 9223372036854775807, 35, 40, 1008⟩,
     ⟨12, 152, -10, 50/3, 90, 970, 40, 30, 1008⟩],
    ⟨6, 151, -10, 50/3, 90, 9223372036854775807, 35, 40, 1008⟩, by decide +kernel,
    ⟨_, _, rfl, by decide +kernel⟩, by unfold Known; decide +kernel, rfl, rfl, rfl⟩

end Tcrm.TrackInterp
