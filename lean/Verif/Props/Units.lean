import Verif.Model.Units
import Verif.Spec.Units
import Mathlib.Tactic.Linarith
import Mathlib.Tactic.Ring
import Mathlib.Tactic.NormNum
import Mathlib.Tactic.FieldSimp
import Mathlib.Algebra.Order.Field.Basic
/-!
C42: unit conversion.
-/
namespace Tcrm.Units

/-- C42: converting to the same unit changes nothing. -/
theorem C42_same (x : ℝ) (u : String) : convert x u u = x := if_pos rfl

/-- `none` is within range for unknown pairs and equal units only; entries agree with the sizes. -/
def entryOk (a b : String) (p q : ℚ) : Bool :=
  match lookup (standardName a) b with
  | none => unknown a b || p = q
  | some f => !unknown a b && decide ((f.2 = 0 ∧ |f.1 * q / p - 1| ≤ 9 / 10000) ∨
       (f.2 = 1 ∧ |f.1 * 3.14159265 * q / p - 1| ≤ 1 / 1000000) ∨
       (f.2 = -1 ∧ |f.1 / 3.14159265 * q / p - 1| ≤ 1 / 1000000))

theorem table_ok : ∀ a ∈ names, ∀ b ∈ names, (((unit a).bind fun u => (unit b).map fun v =>
    u.1 ≠ v.1 || a = b || (decide (0 < u.2 ∧ 0 < v.2) && entryOk a b u.2 v.2 && decide (pre (standardName a) b = 0)
      && decide (post (standardName a) b = 0))) = some true) := by
  decide +kernel

theorem unknown_none : ∀ a ∈ names, ∀ b ∈ names, unknown a b = true →
    a ≠ b ∧ lookup (standardName a) b = none ∧ pre (standardName a) b = 0 ∧ post (standardName a) b = 0 := by
  decide +kernel

theorem mem_names {a : String} {u : String × ℚ} (h : unit a = some u) : a ∈ names := by
  unfold unit at h
  by_contra hn
  have : ∀ l : List (String × String × ℚ), a ∉ l.map (·.1) → l.lookup a = none := by
    intro l hl
    rw [List.lookup_eq_none_iff]
    intro p hp
    simp only [List.mem_map, not_exists, not_and] at hl
    have := hl p hp
    exact bne_iff_ne.2 fun e => this e.symm
  rw [this] at h
  · simp at h
  · exact hn

theorem abs_sub_one_le {a e : ℝ} : |a - 1| ≤ e ↔ 1 - e ≤ a ∧ a ≤ 1 + e := by
  rw [abs_le]; constructor <;> rintro ⟨h, g⟩ <;> constructor <;> linarith

/-- The factor is within `1 / 1100` of the quotient of the sizes. -/
theorem scale_right {a b : String} {u v : String × ℚ} (ha : unit a = some u) (hb : unit b = some v) (hk : u.1 = v.1)
    (hn : unknown a b = false) (x : ℝ) : 0 < u.2 ∧ 0 < v.2 ∧
      |convert x a b * v.2 - x * u.2| ≤ |x| * u.2 * (9 / 10000 + 1 / 100000) := by
  have h := table_ok a (mem_names ha) b (mem_names hb)
  have pos : ∀ a ∈ names, ((unit a).map fun u => decide (0 < u.2)) = some true := by decide +kernel
  have pu := pos a (mem_names ha)
  have pv := pos b (mem_names hb)
  simp only [ha, hb, Option.map_some, Option.some.injEq, decide_eq_true_eq] at pu pv
  refine ⟨pu, pv, ?_⟩
  have pu' : (0 : ℝ) < u.2 := by exact_mod_cast pu
  have pv' : (0 : ℝ) < v.2 := by exact_mod_cast pv
  by_cases hab : a = b
  · subst hab
    rw [ha] at hb
    cases hb
    rw [C42_same, sub_self, abs_zero]
    positivity
  simp only [ha, hb, Option.bind_some, Option.map_some, Option.some.injEq, hk, ne_eq, not_true_eq_false,
    decide_false, Bool.false_or, hab, Bool.and_eq_true, decide_eq_true_eq] at h
  obtain ⟨⟨⟨-, h1⟩, h2⟩, h3⟩ := h
  unfold convert
  rw [if_neg hab, h2, h3]
  unfold scale
  unfold entryOk at h1
  rcases hl : lookup (standardName a) b with _ | f
  · rw [hl] at h1
    simp only [hn, Bool.false_or, decide_eq_true_eq] at h1
    simp only [h1, Rat.cast_zero, add_zero, sub_self, abs_zero]
    positivity
  · rw [hl] at h1
    simp only [hn, Bool.not_false, Bool.true_and, decide_eq_true_eq] at h1
    simp only [Rat.cast_zero, add_zero]
    have key : |(f.1 * Real.pi ^ f.2 : ℝ) * v.2 / u.2 - 1| ≤ 9 / 10000 + 1 / 100000 := by
      have p1 := Real.pi_gt_d6
      have p2 := Real.pi_lt_d6
      rcases h1 with ⟨e, h1⟩ | ⟨e, h1⟩ | ⟨e, h1⟩
      · rw [e, zpow_zero, mul_one]
        have : |(f.1 * v.2 / u.2 - 1 : ℝ)| ≤ 9 / 10000 := by
          have := (Rat.cast_le (K := ℝ)).2 h1
          push_cast at this
          exact this
        linarith
      · rw [e, zpow_one]
        have h1' : |(f.1 * 3.14159265 * v.2 / u.2 - 1 : ℝ)| ≤ 1 / 1000000 := by
          have := (Rat.cast_le (K := ℝ)).2 h1
          push_cast at this
          norm_num at this ⊢
          exact this
        rw [abs_sub_one_le] at h1' ⊢
        set c : ℝ := f.1 * v.2 / u.2
        have e1 : (f.1 * 3.14159265 * v.2 / u.2 : ℝ) = c * 3.14159265 := by simp only [c]; ring
        have e2 : (f.1 * Real.pi * v.2 / u.2 : ℝ) = c * Real.pi := by simp only [c]; ring
        rw [e1] at h1'
        rw [e2]
        have c0 : 0 < c := by by_contra hc; norm_num at h1'; nlinarith
        have c1 : c < 1 := by norm_num at h1'; nlinarith
        constructor <;> norm_num at h1' p1 p2 ⊢ <;> nlinarith
      · rw [e]
        have h1' : |(f.1 / 3.14159265 * v.2 / u.2 - 1 : ℝ)| ≤ 1 / 1000000 := by
          have := (Rat.cast_le (K := ℝ)).2 h1
          push_cast at this
          norm_num at this ⊢
          exact this
        rw [abs_sub_one_le] at h1' ⊢
        set c : ℝ := f.1 * v.2 / u.2
        have e1 : (f.1 / 3.14159265 * v.2 / u.2 : ℝ) = c / 3.14159265 := by simp only [c]; ring
        have e2 : (f.1 * Real.pi ^ (-1 : ℤ) * v.2 / u.2 : ℝ) = c / Real.pi := by
          simp only [c, zpow_neg_one]; ring
        rw [e1] at h1'
        rw [e2]
        norm_num at h1' p1 p2
        constructor
        · rw [le_div_iff₀ Real.pi_pos]; norm_num; nlinarith
        · rw [div_le_iff₀ Real.pi_pos]; norm_num; nlinarith
    have e : x * (f.1 * Real.pi ^ f.2) * v.2 - x * u.2 = (x * u.2) * ((f.1 * Real.pi ^ f.2 : ℝ) * v.2 / u.2 - 1) := by
      field_simp
    rw [e, abs_mul, abs_mul, abs_of_pos pu']
    exact mul_le_mul_of_nonneg_left key (by positivity)

/-- C42, partial: between units of one kind which `convert` knows, the result measures the same quantity up
to a thousandth. -/
theorem C42_right_partial {a b : String} {kind : String} {p q : ℚ} (ha : unit a = some (kind, p))
    (hb : unit b = some (kind, q)) (hn : unknown a b = false) (x : ℝ) :
    |convert x a b * q - x * p| ≤ |x * p| / 1000 := by
  obtain ⟨h1, h2, h3⟩ := scale_right ha hb rfl hn x
  have p' : (0 : ℝ) < p := by exact_mod_cast h1
  rw [abs_mul, abs_of_pos p']
  simp only at h3
  have : 0 ≤ |x| * p := by positivity
  linarith

/-- C42, partial: converting there and back gives the value up to two thousandths. -/
theorem C42_round_trip_partial {a b : String} {kind : String} {p q : ℚ} (ha : unit a = some (kind, p))
    (hb : unit b = some (kind, q)) (hn : unknown a b = false) (hn' : unknown b a = false) (x : ℝ) :
    |convert (convert x a b) b a - x| ≤ |x| * (2 / 1000) := by
  obtain ⟨h1, h2, h3⟩ := scale_right ha hb rfl hn x
  obtain ⟨-, -, h4⟩ := scale_right hb ha rfl hn' (convert x a b)
  simp only at h1 h2 h3 h4
  have p' : (0 : ℝ) < p := by exact_mod_cast h1
  have q' : (0 : ℝ) < q := by exact_mod_cast h2
  set y := convert x a b
  set z := convert y b a
  have a1 : |y| * q ≤ |x| * p * (1 + (9 / 10000 + 1 / 100000)) := by
    have : |y * q| - |x * p| ≤ |y * q - x * p| := abs_sub_abs_le_abs_sub _ _
    rw [abs_mul, abs_mul, abs_of_pos p', abs_of_pos q'] at this
    linarith
  have a2 : |z * p - x * p| ≤ |x| * p * (2 / 1000) := by
    have e : z * p - x * p = (z * p - y * q) + (y * q - x * p) := by ring
    have := abs_add_le (z * p - y * q) (y * q - x * p)
    rw [← e] at this
    have : 0 ≤ |x| * p := by positivity
    nlinarith
  rw [← sub_mul, abs_mul, abs_of_pos p'] at a2
  nlinarith

example : unit "kts" = some ("speed", 1852 / 3600) ∧ unit "kph" = some ("speed", 1000 / 3600) ∧
    unknown "kts" "kph" = false ∧ unknown "kph" "kts" = false := by decide +kernel

example : unit "deg" = some ("length", 60 * 1852) ∧ unit "rad" = some ("length", 6366707) ∧
    unknown "deg" "rad" = false ∧ unknown "rad" "deg" = false := by decide +kernel

/-- C42 fails: a conversion which `convert` does not know is not reported; the value comes back as it
was. -/
theorem C42_unknown_fails {a b : String} {u v : String × ℚ} (ha : unit a = some u) (hb : unit b = some v)
    (hn : unknown a b = true) (x : ℝ) : convert x a b = x := by
  obtain ⟨h1, h2, h3, h4⟩ := unknown_none a (mem_names ha) b (mem_names hb) hn
  unfold convert scale
  rw [if_neg h1, h2, h3, h4]
  simp

/-- C42 fails: names which are no units at all are not reported either. -/
theorem C42_no_unit_fails (x : ℝ) (a b : String) (h : lookup (standardName a) b = none) (ha : standardName a ≠ "C")
    (ha' : standardName a ≠ "F") (ha'' : standardName a ≠ "K") : convert x a b = x := by
  unfold convert scale
  rw [h]
  simp [pre, post, ha, ha', ha'']

example : unknown "mps" "kmh" = true ∧ unknown "mi" "nm" = true ∧ unknown "inHg" "Pascals" = true := by
  decide +kernel

example (x : ℝ) : convert x "mps" "kmh" = x :=
  C42_unknown_fails (u := ("speed", 1)) (v := ("speed", 1000 / 3600)) (by decide +kernel) (by decide +kernel)
    (by decide +kernel) x

example (x : ℝ) : convert x "mps" "knots" = x :=
  C42_no_unit_fails x _ _ (by decide +kernel) (by decide +kernel) (by decide +kernel) (by decide +kernel)

/-! Temperatures. -/

theorem convert_of {a b : String} {f : ℚ × ℤ} (h : a ≠ b) (hs : standardName a = a) (hl : lookup a b = some f) (x : ℝ) :
    convert x a b = (x + pre a b) * (f.1 * Real.pi ^ f.2) + post a b := by
  unfold convert scale
  rw [if_neg h, hs, hl]

/-- C42, partial, temperatures: Celsius to Kelvin and back is exact, Celsius to Fahrenheit is exact, and
Fahrenheit to Celsius is within a ten-thousandth of the difference to the freezing point. -/
theorem C42_temperature_partial (x : ℝ) : convert x "C" "K" = x + 273 ∧ convert (convert x "C" "K") "K" "C" = x ∧
    convert x "C" "F" = x * 9 / 5 + 32 ∧ |convert x "F" "C" - (x - 32) * 5 / 9| ≤ |x - 32| / 10000 ∧
    |convert (convert x "C" "F") "F" "C" - x| ≤ |x| / 10000 ∧
    |convert (convert x "F" "C") "C" "F" - x| ≤ |x - 32| / 10000 := by
  have l1 : lookup "C" "K" = some (1, 0) := by decide +kernel
  have l2 : lookup "K" "C" = some (1, 0) := by decide +kernel
  have l3 : lookup "C" "F" = some (1.8, 0) := by decide +kernel
  have l4 : lookup "F" "C" = some (0.5556, 0) := by decide +kernel
  have c1 : ∀ y, convert y "C" "K" = y + 273 := by
    intro y
    rw [convert_of (by decide) (by decide) l1, show pre "C" "K" = 0 by decide, show post "C" "K" = 273 by decide]
    norm_num
  have c2 : ∀ y, convert y "K" "C" = y - 273 := by
    intro y
    rw [convert_of (by decide) (by decide) l2, show pre "K" "C" = 0 by decide, show post "K" "C" = -273 by decide]
    norm_num; ring
  have c3 : ∀ y, convert y "C" "F" = y * 9 / 5 + 32 := by
    intro y
    rw [convert_of (by decide) (by decide) l3, show pre "C" "F" = 0 by decide, show post "C" "F" = 32 by decide]
    norm_num; ring
  have c4 : ∀ y, convert y "F" "C" = (y - 32) * 0.5556 := by
    intro y
    rw [convert_of (by decide) (by decide) l4, show pre "F" "C" = -32 by decide, show post "F" "C" = 0 by decide]
    norm_num; ring
  refine ⟨c1 x, by rw [c1, c2]; ring, c3 x, ?_, ?_, ?_⟩
  · rw [c4, show (x - 32) * 0.5556 - (x - 32) * 5 / 9 = (x - 32) * (0.5556 - 5 / 9) by ring, abs_mul]
    have : |(0.5556 - 5 / 9 : ℝ)| ≤ 1 / 10000 := by norm_num [abs_le]
    have := mul_le_mul_of_nonneg_left this (abs_nonneg (x - 32))
    linarith
  · rw [c3, c4, show (x * 9 / 5 + 32 - 32) * 0.5556 - x = x * (9 / 5 * 0.5556 - 1) by ring, abs_mul]
    have : |(9 / 5 * 0.5556 - 1 : ℝ)| ≤ 1 / 10000 := by norm_num [abs_le]
    have := mul_le_mul_of_nonneg_left this (abs_nonneg x)
    linarith
  · rw [c3, c4, show (x - 32) * 0.5556 * 9 / 5 + 32 - x = (x - 32) * (9 / 5 * 0.5556 - 1) by ring, abs_mul]
    have : |(9 / 5 * 0.5556 - 1 : ℝ)| ≤ 1 / 10000 := by norm_num [abs_le]
    have := mul_le_mul_of_nonneg_left this (abs_nonneg (x - 32))
    linarith

/-- C42 fails: Celsius to Kelvin is always 0.15 too small, and between Fahrenheit and Kelvin nothing
happens. -/
theorem C42_kelvin_fails (x : ℝ) : convert x "C" "K" = (x + 273.15) - 0.15 ∧ convert x "F" "K" = x ∧
    convert x "K" "F" = x := by
  refine ⟨by rw [(C42_temperature_partial x).1]; norm_num; ring, ?_, ?_⟩ <;>
  · unfold convert scale
    rw [if_neg (by decide), show lookup (standardName _) _ = none by decide +kernel]
    simp [pre, post, standardName]

/-- C42 fails: converting an array from Fahrenheit to Celsius changes the caller's array, by 32; no other conversion
does. -/
theorem C42_argument_changed (x : ℝ) (a b : String) : (argumentAfter x a b ≠ x ↔ a = "F" ∧ b = "C") ∧
    argumentAfter x "F" "C" = x - 32 := by
  refine ⟨?_, by simp [argumentAfter, pre, standardName]; ring⟩
  unfold argumentAfter pre standardName
  constructor
  · intro h
    by_contra hn
    apply h
    by_cases h1 : a = "kmh"
    · subst h1; simp
    · by_cases h2 : a = "m/s"
      · subst h2; simp
      · rw [if_neg h1, if_neg h2, if_neg hn]; simp
  · rintro ⟨rfl, rfl⟩
    simp

end Tcrm.Units
