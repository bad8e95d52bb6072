import Verif.Model.Humidity
import Verif.Props.Units
import Mathlib.Analysis.Complex.ExponentialBounds
import Mathlib.Topology.MetricSpace.Pseudo.Defs
import Mathlib.Topology.UniformSpace.HeineCantor
import Mathlib.Topology.Order.Compact
import Mathlib.Analysis.SpecialFunctions.Pow.Continuity
/-!
C43: humidity. C73: wet bulb temperatures.
-/
namespace Tcrm.Humidity
open Tcrm.Units (convert)
open Real

theorem to_hPa (x : ℝ) : convert x "kPa" "hPa" = x * 10 := by
  rw [Units.convert_of (f := (10, 0)) (by decide) (by decide) (by decide +kernel)]
  rw [show Units.pre "kPa" "hPa" = 0 by decide, show Units.post "kPa" "hPa" = 0 by decide]
  norm_num

theorem from_hPa (x : ℝ) : convert x "hPa" "kPa" = x / 10 := by
  rw [Units.convert_of (f := (0.1, 0)) (by decide) (by decide) (by decide +kernel)]
  rw [show Units.pre "hPa" "kPa" = 0 by decide, show Units.post "hPa" "kPa" = 0 by decide]
  norm_num; ring

theorem vapPrToRH_eq (vp sat : ℝ) : vapPrToRH vp sat = if sat = 0 then 100 else max 0 (min 100 (vp / sat * 100)) := by
  unfold vapPrToRH
  by_cases h : sat = 0
  · simp [h]
  · simp only [if_neg h]
    rcases lt_or_ge 100 (vp / sat * 100) with h1 | h1
    · rw [if_pos h1, min_eq_left h1.le]; norm_num
    · rw [if_neg (not_lt.2 h1), min_eq_right h1]
      rcases lt_or_ge (vp / sat * 100) 0 with h2 | h2
      · rw [if_pos h2, max_eq_left h2.le]
      · rw [if_neg (not_lt.2 h2), max_eq_right h2]

/-- C43: relative humidity from vapour pressures, or from dry and wet bulb temperatures, is in [0, 100]; it is
the percentage whenever the vapour pressure is between 0 and the saturation vapour pressure. -/
theorem C43_rh_range (vp sat : ℝ) (db wb elev : ℝ) :
    (0 ≤ vapPrToRH vp sat ∧ vapPrToRH vp sat ≤ 100) ∧
    (0 ≤ wetBulbToRH db wb elev ∧ wetBulbToRH db wb elev ≤ 100) ∧
    (0 ≤ vp → vp ≤ sat → 0 < sat → vapPrToRH vp sat = 100 * vp / sat) := by
  have h : ∀ vp sat, 0 ≤ vapPrToRH vp sat ∧ vapPrToRH vp sat ≤ 100 := by
    intro vp sat
    rw [vapPrToRH_eq]
    split_ifs
    · norm_num
    · exact ⟨le_max_left _ _, max_le (by norm_num) (min_le_left _ _)⟩
  refine ⟨h _ _, h _ _, fun h1 h2 h3 => ?_⟩
  rw [vapPrToRH_eq, if_neg h3.ne']
  have : vp / sat ≤ 1 := by rwa [div_le_one h3]
  have : 0 ≤ vp / sat := by positivity
  rw [min_eq_right (by linarith), max_eq_right (by linarith)]
  ring

/-- C43: air pressure is that of sea level up to elevation 0 and falls with elevation above. -/
theorem C43_air_pressure (a b : ℝ) :
    (a ≤ 0 → elevToAirPr a "kPa" = 101.325) ∧ (0 ≤ a → a < b → elevToAirPr b "kPa" < elevToAirPr a "kPa") ∧
      0 < elevToAirPr a "kPa" := by
  have e (x : ℝ) : elevToAirPr x "kPa" = if x > 0 then 101.325 * Real.exp (-0.0001184 * x) else 101.325 := by
    unfold elevToAirPr; rw [Units.C42_same]
  refine ⟨fun h => ?_, fun h h' => ?_, ?_⟩
  · rw [e, if_neg (by linarith)]
  · rw [e, e, if_pos (by linarith)]
    split_ifs with h0
    · have := Real.exp_lt_exp.2 (show -0.0001184 * b < -0.0001184 * a by linarith)
      linarith
    · have := Real.exp_lt_exp.2 (show -0.0001184 * b < 0 by linarith)
      rw [Real.exp_zero] at this
      linarith
  · rw [e]
    split_ifs
    · positivity
    · norm_num

theorem magnus_lt {a b : ℝ} (ha : -237.3 < a) (h : a < b) : magnus a < magnus b := by
  unfold magnus
  have : 7.5 * a / (237.3 + a) < 7.5 * b / (237.3 + b) := by
    rw [div_lt_div_iff₀ (by linarith) (by linarith)]
    nlinarith
  have := rpow_lt_rpow_of_exponent_lt (x := 10) (by norm_num) this
  linarith

theorem magnus_pos (a : ℝ) : 0 < magnus a := by unfold magnus; positivity

/-- C43: relative humidity from dry bulb and dew point: in [0, 100] when there is a value, and there is none
exactly when the dew point is above the air temperature. -/
theorem C43_dew_point_rh (dry dew : ℝ) (h1 : -237.3 < dry) (h2 : -237.3 < dew) :
    (∀ rh, dewPointToRH dry dew = some rh → 0 ≤ rh ∧ rh ≤ 100) ∧ (dewPointToRH dry dew = none ↔ dry < dew) := by
  unfold dewPointToRH
  have p1 := magnus_pos dry
  have p2 := magnus_pos dew
  constructor
  · intro rh h
    simp only at h
    split_ifs at h with hc
    cases h
    push Not at hc
    exact ⟨hc.2, hc.1⟩
  · have nn : ¬magnus dew / magnus dry * 100 < 0 := not_lt.2 (by positivity)
    have e : (magnus dew / magnus dry * 100 > 100) ↔ magnus dry < magnus dew := by
      rw [gt_iff_lt, show (100 : ℝ) < magnus dew / magnus dry * 100 ↔ 1 < magnus dew / magnus dry by
        constructor <;> intro h <;> linarith, one_lt_div p1]
    simp only [nn, or_false, e]
    rcases lt_trichotomy dry dew with h | h | h
    · simp [h, magnus_lt h1 h]
    · simp [h]
    · simp [h.le, (magnus_lt h2 h).le]

theorem curve_eq {t : ℝ} (h : t + 237.3 ≠ 0) :
    (16.78 * t - 116.9) / (t + 237.3) = 16.78 - 4098.794 / (t + 237.3) := by
  field_simp; ring

theorem sat_lt {a b : ℝ} (ha : -237.3 < a) (h : a < b) :
    exp ((16.78 * a - 116.9) / (a + 237.3)) < exp ((16.78 * b - 116.9) / (b + 237.3)) := by
  rw [exp_lt_exp, curve_eq (by linarith), curve_eq (by linarith)]
  have : (4098.794 : ℝ) / (b + 237.3) < 4098.794 / (a + 237.3) :=
    div_lt_div_of_pos_left (by norm_num) (by linarith) (by linarith)
  linarith

/-- C43: dew point to vapour pressure and back. -/
theorem C43_dew_point_round_trip (t : ℝ) (h : t ≠ -237.3) :
    vapPrToDewPoint (dewPointToVapPr t "hPa") "hPa" = t ∧ vapPrToDewPoint (dewPointToVapPr t "kPa") "kPa" = t := by
  have h' : t + 237.3 ≠ 0 := fun e => h (by linarith)
  have key : (116.9 + 237.3 * ((16.78 * t - 116.9) / (t + 237.3))) / (16.78 - (16.78 * t - 116.9) / (t + 237.3)) = t := by
    rw [div_eq_iff]
    · field_simp; ring
    · rw [curve_eq h', sub_sub_cancel]
      exact div_ne_zero (by norm_num) h'
  unfold vapPrToDewPoint dewPointToVapPr
  rw [to_hPa, from_hPa, mul_div_assoc, div_self (by norm_num), mul_one, Units.C42_same, log_exp, Units.C42_same, log_exp]
  exact ⟨key, key⟩

/-- C43: vapour pressure to mixing ratio and back, and vapour pressure to specific humidity to mixing ratio. -/
theorem C43_round_trips (e p : ℝ) (h0 : p ≠ 0) (h : e ≠ p) :
    mixRatToVapPr (vapPrToMixRat e p) p = e ∧
    spHumToMixRat (vapPrToSpHum e p) "kgkg" = vapPrToMixRat e p ∧
    spHumToMixRat (1000 * vapPrToSpHum e p) "gkg" = vapPrToMixRat e p := by
  have h1 : p - e ≠ 0 := sub_ne_zero.2 (Ne.symm h)
  have c : ∀ q : ℝ, convert (1000 * q) "gkg" "kgkg" = q := by
    intro q
    rw [Units.convert_of (f := (0.001, 0)) (by decide) (by decide) (by decide +kernel)]
    rw [show Units.pre "gkg" "kgkg" = 0 by decide, show Units.post "gkg" "kgkg" = 0 by decide]
    norm_num; ring
  have s : eps * (eps * e / p) / (eps - eps * e / p) = eps * e / (p - e) := by
    have he : eps ≠ 0 := by unfold eps; norm_num
    have d : eps - eps * e / p = eps * (p - e) / p := by field_simp
    rw [d]
    field_simp
  refine ⟨?_, ?_, ?_⟩
  · unfold mixRatToVapPr vapPrToMixRat
    have he : eps ≠ 0 := by unfold eps; norm_num
    have d : eps + eps * e / (p - e) = eps * p / (p - e) := by field_simp; ring
    rw [d]
    field_simp
  · unfold spHumToMixRat vapPrToSpHum vapPrToMixRat
    rw [Units.C42_same, s]
  · unfold spHumToMixRat vapPrToSpHum vapPrToMixRat
    rw [c, s]

example : (1013 : ℝ) ≠ 0 ∧ (20 : ℝ) ≠ 1013 := by norm_num

/-- C43: mixing ratio to vapour pressure and back. -/
theorem C43_round_trip_ratio (r p : ℝ) (h0 : p ≠ 0) (h : 0 ≤ r) :
    vapPrToMixRat (mixRatToVapPr r p) p = r := by
  unfold mixRatToVapPr vapPrToMixRat
  have he : 0 < eps := by unfold eps; norm_num
  have h1 : eps + r ≠ 0 := by positivity
  have d : p - r * p / (eps + r) = eps * p / (eps + r) := by field_simp; ring
  rw [d]
  field_simp

/-- C43: relative humidity to dew point: for a relative humidity in (0, 100] there is a value, at most the air
temperature, and the saturation vapour pressure there is that percentage; above 100 there is none. -/
theorem C43_rh_dew_point (rh dry : ℝ) (h : -237.3 < dry) (hr : 0 < rh)
    (hs : rh / 100 * satVapPr dry "kPa" < exp 16.78) :
    (rh ≤ 100 → ∃ t, rHToDewPoint rh dry = .ok (some t) ∧ t ≤ dry ∧ -237.3 < t ∧
      satVapPr t "kPa" = rh / 100 * satVapPr dry "kPa") ∧ (100 < rh → rHToDewPoint rh dry = .ok none) := by
  unfold rHToDewPoint
  have sp : 0 < satVapPr dry "kPa" := by unfold satVapPr; rw [Units.C42_same]; exact exp_pos _
  have vp : 0 < rh / 100 * satVapPr dry "kPa" := by positivity
  simp only [gt_iff_lt, if_pos vp]
  set v := rh / 100 * satVapPr dry "kPa" with hv
  have l : log v < 16.78 := by rwa [log_lt_iff_lt_exp vp]
  set t := vapPrToDewPoint v "kPa" with ht
  have te : t + 237.3 = 4098.794 / (16.78 - log v) := by
    rw [ht]; unfold vapPrToDewPoint
    rw [Units.C42_same]
    have : (16.78 - log v) ≠ 0 := by linarith
    field_simp
    ring
  have tp : 0 < t + 237.3 := by rw [te]; exact div_pos (by norm_num) (by linarith)
  have ts : satVapPr t "kPa" = v := by
    unfold satVapPr
    rw [Units.C42_same, curve_eq tp.ne', te, div_div_cancel₀ (by norm_num), sub_sub_cancel, exp_log vp]
  have lt_of : t > dry ↔ 100 < rh := by
    constructor
    · intro hlt
      have := sat_lt h hlt
      unfold satVapPr at ts sp hv
      rw [Units.C42_same] at ts sp hv
      rw [ts, hv] at this
      by_contra hn
      nlinarith
    · intro hlt
      by_contra hn
      rcases lt_or_eq_of_le (not_lt.1 hn) with h1 | h1
      · have := sat_lt (by linarith) h1
        unfold satVapPr at ts sp hv
        rw [Units.C42_same] at ts sp hv
        rw [ts, hv] at this
        nlinarith
      · rw [h1, hv] at ts
        nlinarith
  constructor
  · intro hle
    exact ⟨t, by rw [if_neg (by rw [← gt_iff_lt, lt_of]; linarith)], not_lt.1 (by rw [← gt_iff_lt, lt_of]; linarith),
      by linarith, ts⟩
  · intro hlt
    rw [if_pos (lt_of.2 hlt)]

/-- C43: the relative humidity from dry bulb and dew point is the ratio of the vapour pressures given by Magnus' formula
(6.11 hPa at 0 degrees); it is 100 exactly if the dew point is the air temperature. -/
theorem C43_dew_point_value (dry dew : ℝ) (h1 : -237.3 < dry) (h2 : -237.3 < dew) (h : dew ≤ dry) :
    dewPointToRH dry dew = some (100 * (10 : ℝ) ^ (7.5 * dew / (237.3 + dew) - 7.5 * dry / (237.3 + dry))) ∧
    (dewPointToRH dry dew = some 100 ↔ dew = dry) ∧ magnus 0 = 6.11 := by
  have hv : magnus dew / magnus dry * 100 = 100 * (10 : ℝ) ^ (7.5 * dew / (237.3 + dew) - 7.5 * dry / (237.3 + dry)) := by
    unfold magnus
    rw [Real.rpow_sub (by norm_num)]
    have : (10 : ℝ) ^ (7.5 * dry / (237.3 + dry)) ≠ 0 := (Real.rpow_pos_of_pos (by norm_num) _).ne'
    field_simp
  have hn : dewPointToRH dry dew ≠ none := fun e => absurd (((C43_dew_point_rh dry dew h1 h2).2).1 e) (not_lt.2 h)
  have hval : dewPointToRH dry dew = some (magnus dew / magnus dry * 100) := by
    unfold dewPointToRH at hn ⊢
    simp only at hn ⊢
    split
    · next hc => rw [if_pos hc] at hn; exact absurd rfl hn
    · rfl
  refine ⟨by rw [hval, hv], ?_, by unfold magnus; norm_num⟩
  rw [hval, hv, Option.some.injEq]
  constructor
  · intro e
    have e' : (10 : ℝ) ^ (7.5 * dew / (237.3 + dew) - 7.5 * dry / (237.3 + dry)) = 10 ^ (0 : ℝ) := by
      rw [Real.rpow_zero]; linarith
    have := (Real.rpow_right_inj (by norm_num) (by norm_num)).1 e'
    have a1 : (237.3 + dew) ≠ 0 := by linarith
    have a2 : (237.3 + dry) ≠ 0 := by linarith
    rw [sub_eq_zero, div_eq_div_iff a1 a2] at this
    linarith
  · rintro rfl
    simp

/-- C43: the vapour pressure from dry and wet bulb temperatures is that of saturation if the wet bulb shows the air
temperature (or more), and otherwise below saturation at the wet bulb temperature, by 0.00066 (1 + 0.00115 wb) of the air
pressure for each degree of difference. -/
theorem C43_wet_bulb_pressure (db wb elev : ℝ) (h : -237.3 < wb) :
    (db ≤ wb → wetBulbToVapPr db wb elev "kPa" = satVapPr db "kPa") ∧
    (wb < db → wetBulbToVapPr db wb elev "kPa" < satVapPr wb "kPa" ∧
      satVapPr wb "kPa" - wetBulbToVapPr db wb elev "kPa" =
        0.00066 * (1 + 0.00115 * wb) * elevToAirPr elev "kPa" * (db - wb)) := by
  have hp := (C43_air_pressure elev elev).2.2
  unfold wetBulbToVapPr
  simp only [Units.C42_same]
  constructor
  · intro hle
    rcases hle.eq_or_lt with e | e
    · subst e; simp
    · rw [if_pos e]; simp
  · intro hlt
    rw [if_neg (by exact not_lt.2 hlt.le)]
    have : 0 < 0.00066 * (1 + 0.00115 * wb) * elevToAirPr elev "kPa" * (db - wb) := by
      refine mul_pos (mul_pos (mul_pos (by norm_num) (by linarith)) hp) (by linarith)
    exact ⟨by linarith, by ring⟩

/-- C43: dew point from dry and wet bulb temperatures: in saturated air it is the air temperature; otherwise it is below
the wet bulb temperature, and it is the dew point of the vapour pressure. It is in degrees Celsius (not Kelvin, as
documented). -/
theorem C43_wet_bulb_dew_point (db wb elev : ℝ) (h : -237.3 < wb) (h' : -237.3 < db) :
    (db ≤ wb → wetBulbToDewPoint db wb elev = db) ∧
    (wb < db → 0 < wetBulbToVapPr db wb elev "kPa" → wetBulbToDewPoint db wb elev < wb ∧
      dewPointToVapPr (wetBulbToDewPoint db wb elev) "kPa" = wetBulbToVapPr db wb elev "kPa") := by
  obtain ⟨h1, h2⟩ := C43_wet_bulb_pressure db wb elev h
  unfold wetBulbToDewPoint
  refine ⟨fun hle => ?_, fun hlt hv => ?_⟩
  · rw [h1 hle]
    exact (C43_dew_point_round_trip db h'.ne').2
  · have hs := (h2 hlt).1
    generalize wetBulbToVapPr db wb elev "kPa" = v at hv hs
    have hs' : v < exp ((16.78 * wb - 116.9) / (wb + 237.3)) := by
      unfold satVapPr at hs
      rwa [Units.C42_same] at hs
    have hL : log v < 16.78 - 4098.794 / (wb + 237.3) := by
      rw [← curve_eq (by linarith), log_lt_iff_lt_exp hv]
      exact hs'
    have hq : (0 : ℝ) < 4098.794 / (wb + 237.3) := div_pos (by norm_num) (by linarith)
    have hd : vapPrToDewPoint v "kPa" = (116.9 + 237.3 * log v) / (16.78 - log v) := by
      unfold vapPrToDewPoint
      rw [Units.C42_same]
    have hpos : 0 < 16.78 - log v := by linarith
    have hsum : vapPrToDewPoint v "kPa" + 237.3 = 4098.794 / (16.78 - log v) := by
      rw [hd]
      field_simp
      ring
    have hgt : 0 < vapPrToDewPoint v "kPa" + 237.3 := by rw [hsum]; exact div_pos (by norm_num) hpos
    have hback : exp ((16.78 * vapPrToDewPoint v "kPa" - 116.9) / (vapPrToDewPoint v "kPa" + 237.3)) = v := by
      rw [curve_eq hgt.ne', hsum, div_div_eq_mul_div, mul_div_assoc, mul_comm, div_mul_cancel₀ _ (by norm_num),
        sub_sub_cancel, exp_log hv]
    refine ⟨?_, by unfold dewPointToVapPr; rw [Units.C42_same]; exact hback⟩
    by_contra hge
    rcases (not_lt.1 hge).eq_or_lt with e | e
    · rw [e, hback] at hs'
      exact lt_irrefl _ hs'
    · have := sat_lt h e
      rw [hback] at this
      linarith

/-- C43: the wet bulb globe temperature rises with the air temperature and with the dew point. -/
theorem C43_globe (dew dew' temp temp' : ℝ) (h : -237.3 < dew) (hd : dew ≤ dew') (ht : temp ≤ temp') :
    wetBulbGlobeTemp dew temp ≤ wetBulbGlobeTemp dew' temp' ∧
    (wetBulbGlobeTemp dew temp = wetBulbGlobeTemp dew' temp' ↔ dew = dew' ∧ temp = temp') := by
  unfold wetBulbGlobeTemp dewPointToVapPr
  simp only [Units.C42_same]
  rcases hd.eq_or_lt with e | e
  · subst e
    refine ⟨by linarith, fun h => ⟨rfl, by linarith⟩, fun h => by rw [h.2]⟩
  · have := sat_lt h e
    refine ⟨by linarith, fun h => by linarith, fun h => absurd h.1 e.ne⟩

/-- At 25 degrees with a wet bulb temperature of 20 degrees there is vapour in the air. -/
example : 0 < wetBulbToVapPr 25 20 0 "kPa" := by
  have a : elevToAirPr 0 "kPa" = 101.325 := by unfold elevToAirPr; rw [Units.C42_same]; norm_num
  unfold wetBulbToVapPr satVapPr
  rw [if_neg (by norm_num), a, Units.C42_same, Units.C42_same]
  have e1 := add_one_le_exp ((16.78 * 20 - 116.9) / (20 + 237.3) : ℝ)
  norm_num at e1 ⊢
  linarith

/-- C43 fails: a relative humidity of 0 raises an unexpected error. -/
theorem C43_dry_air_fails (dry : ℝ) : rHToDewPoint 0 dry = .error .unboundLocal := by
  unfold rHToDewPoint
  simp

/-- C43 fails: relative humidity from dry and wet bulb temperatures compares hectopascals with kilopascals.
Whenever the relative humidity is 10 or more, the answer is 100. -/
theorem C43_wet_bulb_fails (db wb elev : ℝ)
    (h : satVapPr db "hPa" / 10 ≤ wetBulbToVapPr db wb elev "hPa") : wetBulbToRH db wb elev = 100 := by
  unfold wetBulbToRH
  have sp : 0 < satVapPr db "kPa" := by unfold satVapPr; rw [Units.C42_same]; exact exp_pos _
  have e : satVapPr db "hPa" / 10 = satVapPr db "kPa" := by
    unfold satVapPr; rw [Units.C42_same, to_hPa]; ring
  rw [vapPrToRH_eq, if_neg sp.ne']
  rw [e] at h
  have : 1 ≤ wetBulbToVapPr db wb elev "hPa" / satVapPr db "kPa" := by rwa [one_le_div sp]
  rw [min_eq_left (by linarith), max_eq_right (by norm_num)]

/-- At 25 degrees, wet bulb 20 degrees, sea level, the air is not saturated, but the answer is 100. -/
example : wetBulbToVapPr 25 20 0 "hPa" < satVapPr 25 "hPa" ∧ wetBulbToRH 25 20 0 = 100 := by
  have a : elevToAirPr 0 "kPa" = 101.325 := by unfold elevToAirPr; rw [Units.C42_same]; norm_num
  have v : wetBulbToVapPr 25 20 0 "hPa" = (exp ((16.78 * 20 - 116.9) / (20 + 237.3)) - 0.00066 * (1 + 0.00115 * 20) * 101.325 * 5) * 10 := by
    unfold wetBulbToVapPr satVapPr
    rw [if_neg (by norm_num), a, to_hPa, Units.C42_same]
    norm_num
  have e1 := add_one_le_exp ((16.78 * 20 - 116.9) / (20 + 237.3) : ℝ)
  have e2 : exp ((16.78 * 25 - 116.9) / (25 + 237.3) : ℝ) < 9 := by
    have h1 : exp ((16.78 * 25 - 116.9) / (25 + 237.3) : ℝ) < exp 2 := exp_lt_exp.2 (by norm_num)
    have h2 : exp (2 : ℝ) = exp 1 ^ 2 := by rw [← exp_nat_mul]; norm_num
    have h3 := exp_one_lt_d9
    have h4 := exp_pos 1
    norm_num at h3
    nlinarith
  have lt : exp ((16.78 * 20 - 116.9) / (20 + 237.3) : ℝ) < exp ((16.78 * 25 - 116.9) / (25 + 237.3)) :=
    sat_lt (by norm_num) (by norm_num)
  constructor
  · rw [v]
    unfold satVapPr
    rw [to_hPa]
    linarith
  · apply C43_wet_bulb_fails
    rw [v]
    unfold satVapPr
    rw [to_hPa]
    norm_num at e1 e2 ⊢
    linarith

/-- C43 fails: relative humidity from specific humidity has no bounds. -/
theorem C43_specific_fails (tmp prs : ℝ) (hp : 0 < prs) (r : ℝ) : ∃ q, spHumToRH q tmp prs = r := by
  have sp : 0 < satVapPr tmp "hPa" := by unfold satVapPr; rw [to_hPa]; positivity
  have he : 0 < eps := by unfold eps; norm_num
  refine ⟨r / 100 * (eps * satVapPr tmp "hPa" / prs), ?_⟩
  unfold spHumToRH
  field_simp

/-! C73: the search for the wet bulb temperature. -/

theorem search_sound (g : ℝ → ℝ) : ∀ (n : ℕ) (w i : ℝ) (up : Bool) (r : ℝ), wetBulbSearch g n w i up = some r →
    |g r| ≤ 0.05
  | 0, _, _, _, _, h => by simp [wetBulbSearch] at h
  | n + 1, w, i, up, r, h => by
    unfold wetBulbSearch at h
    split_ifs at h with hc
    · cases h; exact hc
    · exact search_sound g n _ _ _ r h

/-- The search ends, in a range. -/
def Ends (g : ℝ → ℝ) (a b : ℝ) (w i : ℝ) (up : Bool) : Prop :=
  ∃ n r, wetBulbSearch g n w i up = some r ∧ a ≤ r ∧ r ≤ b

theorem ends_here {g : ℝ → ℝ} {a b w i : ℝ} {up : Bool} (h : |g w| ≤ 0.05) (h1 : a ≤ w) (h2 : w ≤ b) :
    Ends g a b w i up := ⟨1, w, by unfold wetBulbSearch; rw [if_pos h], h1, h2⟩

theorem ends_up {g : ℝ → ℝ} {a b w i : ℝ} {up : Bool} (h : 0.05 < g w)
    (hn : Ends g a b (w + if up then i else i / 10) (if up then i else i / 10) true) : Ends g a b w i up := by
  obtain ⟨n, r, h1, h2⟩ := hn
  refine ⟨n + 1, r, ?_, h2⟩
  unfold wetBulbSearch
  rw [if_neg (by rw [not_le, abs_of_pos (by linarith)]; exact h)]
  have : ¬g w < 0 := by linarith
  cases up <;> simpa [this] using h1

theorem ends_down {g : ℝ → ℝ} {a b w i : ℝ} {up : Bool} (h : g w < -0.05)
    (hn : Ends g a b (w - if up then i / 10 else i) (if up then i / 10 else i) false) : Ends g a b w i up := by
  obtain ⟨n, r, h1, h2⟩ := hn
  refine ⟨n + 1, r, ?_, h2⟩
  unfold wetBulbSearch
  rw [if_neg (by rw [not_le, abs_of_neg (by linarith)]; linarith)]
  have : g w < 0 := by linarith
  cases up <;> simpa [this, sub_eq_add_neg] using h1

theorem ends_bracket {g : ℝ → ℝ} {a b d : ℝ}
    (hg : ∀ x y, a ≤ x → x ≤ y → y ≤ b → y - x < d → g x - g y ≤ 0.1) :
    ∀ (m : ℕ) (lo s : ℝ), 0 < s → 10 * s < 10 ^ m * d → a ≤ lo → lo + 10 * s ≤ b → 0.05 < g lo → g (lo + 10 * s) < -0.05 →
      Ends g a b (lo + 9 * s) s false ∧ Ends g a b (lo + s) s true := by
  intro m
  induction m with
  | zero =>
    intro lo s hs hm ha hb h1 h2
    have := hg lo (lo + 10 * s) ha (by linarith) hb (by rw [pow_zero] at hm; linarith)
    norm_num at this h1 h2
    linarith
  | succ m ih =>
    intro lo s hs hm ha hb h1 h2
    have sub : ∀ c, lo ≤ c → c + s ≤ lo + 10 * s → 0.05 < g c → g (c + s) < -0.05 →
        Ends g a b (c + s - s / 10) (s / 10) false ∧ Ends g a b (c + s / 10) (s / 10) true := by
      intro c c1 c2 c3 c4
      have := ih c (s / 10) (by positivity) (by rw [pow_succ] at hm; linarith) (by linarith) (by linarith) c3
        (by rw [show c + 10 * (s / 10) = c + s by ring]; exact c4)
      rw [show c + 9 * (s / 10) = c + s - s / 10 by ring] at this
      exact this
    have down : ∀ k : ℕ, k ≤ 9 → g (lo + (k + 1) * s) < -0.05 → Ends g a b (lo + k * s) s false := by
      intro k
      induction k with
      | zero =>
        intro _ hk
        apply ends_up (by simpa using h1)
        have := (sub lo (le_refl _) (by linarith) h1 (by simpa using hk)).2
        simpa using this
      | succ k ihk =>
        intro hk9 hk
        have k9 : ((k : ℝ) + 1) ≤ 9 := by exact_mod_cast hk9
        have kp : (0 : ℝ) ≤ k := by positivity
        have r1 : a ≤ lo + ((k + 1 : ℕ) : ℝ) * s := by push_cast; nlinarith
        have r2 : lo + ((k + 1 : ℕ) : ℝ) * s ≤ b := by push_cast; nlinarith
        by_cases h0 : |g (lo + ((k + 1 : ℕ) : ℝ) * s)| ≤ 0.05
        · exact ends_here h0 r1 r2
        · rcases le_or_gt (g (lo + ((k + 1 : ℕ) : ℝ) * s)) 0 with hs0 | hs0
          · have hneg : g (lo + ((k + 1 : ℕ) : ℝ) * s) < -0.05 := by
              rw [not_le, abs_of_nonpos hs0] at h0; linarith
            apply ends_down hneg
            have := ihk (by omega) (by push_cast at hneg; exact hneg)
            have e : lo + ((k + 1 : ℕ) : ℝ) * s - s = lo + k * s := by push_cast; ring
            rw [← e] at this
            exact this
          · have hpos : 0.05 < g (lo + ((k + 1 : ℕ) : ℝ) * s) := by
              rwa [not_le, abs_of_pos hs0] at h0
            apply ends_up hpos
            have := (sub (lo + ((k + 1 : ℕ) : ℝ) * s) (by push_cast; nlinarith) (by push_cast; nlinarith) hpos
              (by rw [show lo + ((k + 1 : ℕ) : ℝ) * s + s = lo + (((k + 1 : ℕ) : ℝ) + 1) * s by ring]; exact hk)).2
            simpa using this
    have up : ∀ k : ℕ, k ≤ 9 → 0.05 < g (lo + (9 - k) * s) → Ends g a b (lo + (10 - k) * s) s true := by
      intro k
      induction k with
      | zero =>
        intro _ hk
        apply ends_down (by simpa [mul_comm] using h2)
        have := (sub (lo + 9 * s) (by linarith) (by linarith) (by simpa using hk)
          (by rw [show lo + 9 * s + s = lo + 10 * s by ring]; exact h2)).1
        rw [show lo + 9 * s + s - s / 10 = lo + 10 * s - s / 10 by ring] at this
        simpa using this
      | succ k ihk =>
        intro hk9 hk
        have k9 : ((k : ℝ) + 1) ≤ 9 := by exact_mod_cast hk9
        have kp : (0 : ℝ) ≤ k := by positivity
        have e : lo + (10 - ((k + 1 : ℕ) : ℝ)) * s = lo + (9 - k) * s := by push_cast; ring
        rw [e]
        by_cases h0 : |g (lo + (9 - k) * s)| ≤ 0.05
        · exact ends_here h0 (by nlinarith) (by nlinarith)
        · rcases le_or_gt (g (lo + (9 - k) * s)) 0 with hs0 | hs0
          · have hneg : g (lo + (9 - k) * s) < -0.05 := by
              rw [not_le, abs_of_nonpos hs0] at h0; linarith
            apply ends_down hneg
            have := (sub (lo + (9 - ((k + 1 : ℕ) : ℝ)) * s) (by push_cast; nlinarith) (by push_cast; nlinarith) hk
              (by rw [show lo + (9 - ((k + 1 : ℕ) : ℝ)) * s + s = lo + (9 - k) * s by push_cast; ring]; exact hneg)).1
            rw [show lo + (9 - ((k + 1 : ℕ) : ℝ)) * s + s = lo + (9 - k) * s by push_cast; ring] at this
            simpa using this
          · have hpos : 0.05 < g (lo + (9 - k) * s) := by
              rwa [not_le, abs_of_pos hs0] at h0
            apply ends_up hpos
            have := ihk (by omega) hpos
            have e : lo + (9 - (k : ℝ)) * s + s = lo + (10 - k) * s := by ring
            simpa [e] using this
    constructor
    · have := down 9 (le_refl _) (by rw [show lo + (((9 : ℕ) : ℝ) + 1) * s = lo + 10 * s by norm_num]; exact h2)
      simpa using this
    · have := up 9 (le_refl _) (by rw [show lo + (9 - ((9 : ℕ) : ℝ)) * s = lo by norm_num]; exact h1)
      norm_num at this
      exact this

theorem search_ends (g : ℝ → ℝ) (a b : ℝ) (hab : a ≤ b) (hc : ContinuousOn g (Set.Icc a (b + 10)))
    (h0 : 0 ≤ g a) (h1 : ∀ x, b ≤ x → x ≤ b + 10 → g x ≤ 0) : Ends g a (b + 10) a 10 true := by
  obtain ⟨d, hd, hg⟩ : ∃ d > 0, ∀ x y, a ≤ x → x ≤ y → y ≤ b + 10 → y - x < d → g x - g y ≤ 0.1 := by
    have := isCompact_Icc.uniformContinuousOn_of_continuous hc
    rw [Metric.uniformContinuousOn_iff] at this
    obtain ⟨d, hd, h⟩ := this 0.1 (by norm_num)
    refine ⟨d, hd, fun x y hx hxy hy hlt => ?_⟩
    have := h x ⟨hx, by linarith⟩ y ⟨by linarith, hy⟩ (by rw [dist_comm, Real.dist_eq, abs_of_nonneg (by linarith)]; exact hlt)
    rw [Real.dist_eq] at this
    exact le_trans (le_abs_self _) this.le
  have walk : ∀ (n : ℕ) (w : ℝ), b - w < 10 * n → a ≤ w → w ≤ b + 10 → (w = a ∨ (a ≤ w - 10 ∧ 0.05 < g (w - 10))) →
      Ends g a (b + 10) w 10 true := by
    intro n
    induction n with
    | zero =>
      intro w hn ha hb hw
      rw [Nat.cast_zero, mul_zero] at hn
      have gw := h1 w (by linarith) hb
      by_cases hz : |g w| ≤ 0.05
      · exact ends_here hz ha hb
      · rw [not_le, abs_of_nonpos gw] at hz
        rcases hw with rfl | ⟨a1, hw⟩
        · linarith
        · obtain ⟨m, hm⟩ := exists_nat_gt (10 / d)
          have hm' : (10 : ℝ) < 10 ^ m * d := by
            rw [div_lt_iff₀ hd] at hm
            have : (m : ℝ) < 10 ^ m := by exact_mod_cast Nat.lt_pow_self (by norm_num)
            nlinarith
          apply ends_down (by linarith)
          have := (ends_bracket hg m (w - 10) 1 one_pos (by linarith) a1 (by linarith) hw
            (by rw [show w - 10 + 10 * 1 = w by ring]; linarith)).1
          rw [show w - 10 + 9 * 1 = w - 1 by ring] at this
          norm_num
          exact this
    | succ n ih =>
      intro w hn ha hb hw
      by_cases hz : |g w| ≤ 0.05
      · exact ends_here hz ha hb
      · rcases le_or_gt (g w) 0 with gw | gw
        · rw [not_le, abs_of_nonpos gw] at hz
          rcases hw with rfl | ⟨a1, hw⟩
          · linarith
          · obtain ⟨m, hm⟩ := exists_nat_gt (10 / d)
            have hm' : (10 : ℝ) < 10 ^ m * d := by
              rw [div_lt_iff₀ hd] at hm
              have : (m : ℝ) < 10 ^ m := by exact_mod_cast Nat.lt_pow_self (by norm_num)
              nlinarith
            apply ends_down (by linarith)
            have := (ends_bracket hg m (w - 10) 1 one_pos (by linarith) a1 (by linarith) hw
              (by rw [show w - 10 + 10 * 1 = w by ring]; linarith)).1
            rw [show w - 10 + 9 * 1 = w - 1 by ring] at this
            norm_num
            exact this
        · rw [not_le, abs_of_pos gw] at hz
          apply ends_up hz
          have wb : w < b := by
            by_contra hn'
            exact absurd gw (not_lt.2 (h1 w (not_lt.1 hn') hb))
          have := ih (w + 10) (by push_cast at hn; linarith) (by linarith) (by linarith)
            (Or.inr ⟨by linarith, by rw [add_sub_cancel_right]; exact hz⟩)
          simpa using this
  obtain ⟨n, hn⟩ := exists_nat_gt (b - a)
  exact walk n a (by linarith [show (0 : ℝ) ≤ n by positivity]) (le_refl _) (by linarith) (Or.inl rfl)

theorem diff_continuous (t td prs : ℝ) (h : -237.3 < td) (b : ℝ) :
    ContinuousOn (wetBulbDiff t td prs) (Set.Icc td b) := by
  unfold wetBulbDiff satVapPr
  simp only [to_hPa]
  have : ContinuousOn (fun w : ℝ => (16.78 * w - 116.9) / (w + 237.3)) (Set.Icc td b) := by
    apply ContinuousOn.div (by fun_prop) (by fun_prop)
    intro x hx
    have := hx.1
    linarith
  fun_prop

/-- C73: for every dew point not above the air temperature and any air pressure, the search for the wet bulb
temperature ends, with a value not below the dew point and at most ten degrees above the air temperature, for
which the psychrometric equation holds up to 0.05 hPa. -/
theorem C73_wet_bulb (t td prs : ℝ) (h1 : -237.3 < td) (h2 : td ≤ t) (hp : 0 ≤ prs) :
    ∃ n w, wetBulbSearch (wetBulbDiff t td prs) n td 10 true = some w ∧ td ≤ w ∧ w ≤ t + 10 ∧
      |satVapPr td "hPa" - (satVapPr w "hPa" - prs * (t - w) * 0.00066 * (1 + 0.00115 * w))| ≤ 0.05 := by
  have hs : ∀ x, td < x → satVapPr td "hPa" ≤ satVapPr x "hPa" := by
    intro x hx
    unfold satVapPr
    rw [to_hPa, to_hPa]
    linarith [sat_lt h1 hx]
  obtain ⟨n, r, e, a, b⟩ := search_ends (wetBulbDiff t td prs) td t h2 (diff_continuous t td prs h1 _)
    (by
      unfold wetBulbDiff
      have : 0 ≤ prs * (t - td) * 0.00066 * (1 + 0.00115 * td) := by
        have : 0 ≤ t - td := by linarith
        have : 0 ≤ 1 + 0.00115 * td := by linarith
        positivity
      linarith)
    (by
      intro x hx _
      unfold wetBulbDiff
      have s : satVapPr td "hPa" ≤ satVapPr x "hPa" := by
        rcases lt_or_eq_of_le (le_trans h2 hx) with h | h
        · exact hs x h
        · rw [h]
      have : 0 ≤ prs * (x - t) * 0.00066 * (1 + 0.00115 * x) := by
        have : 0 ≤ x - t := by linarith
        have : 0 ≤ 1 + 0.00115 * x := by linarith
        positivity
      nlinarith)
  have := search_sound _ _ _ _ _ _ e
  unfold wetBulbDiff at this
  exact ⟨n, r, e, a, b, this⟩

example : (-237.3 : ℝ) < 15 ∧ (15 : ℝ) ≤ 25 ∧ (0 : ℝ) ≤ 1010 := by norm_num

/-- C43: the mixing ratio of air of a relative humidity is that of its vapour pressure, which comes back from it; the
specific humidity of that air gives its relative humidity; the ratio of the molecular weights of water and dry air is
0.622. -/
theorem C43_relative_humidity (rh tmp prs : ℝ) (h0 : 0 < prs) (h : rh / 100 * satVapPr tmp "hPa" ≠ prs) :
    mixRatToVapPr (rHToMixRat rh tmp prs "C") prs = rh / 100 * satVapPr tmp "hPa" ∧
    spHumToRH (vapPrToSpHum (rh / 100 * satVapPr tmp "hPa") prs) tmp prs = rh ∧
    rHToMixRat rh tmp prs "C" = 0.622 * (rh / 100 * satVapPr tmp "hPa") / (prs - rh / 100 * satVapPr tmp "hPa") := by
  have sp : 0 < satVapPr tmp "hPa" := by unfold satVapPr; rw [to_hPa]; positivity
  have he : 0 < eps := by unfold eps; norm_num
  have e : rHToMixRat rh tmp prs "C" = vapPrToMixRat (rh / 100 * satVapPr tmp "hPa") prs := by
    unfold rHToMixRat; rw [Units.C42_same]
  refine ⟨?_, ?_, ?_⟩
  · rw [e]; exact (C43_round_trips _ _ h0.ne' h).1
  · unfold spHumToRH vapPrToSpHum
    field_simp
  · rw [e]; rfl

example : rHToMixRat 0 20 1000 "C" = 0 := by
  rw [(C43_relative_humidity 0 20 1000 (by norm_num) (by norm_num)).2.2]; norm_num

end Tcrm.Humidity
