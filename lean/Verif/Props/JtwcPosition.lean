import Verif.Model.JtwcPosition
import Mathlib.Data.List.Basic
import Mathlib.Tactic.Linarith
import Mathlib.Tactic.NormNum
import Mathlib.Tactic.Ring
import Mathlib.Tactic.FieldSimp

/-!
C217: positions of the best track files of the Joint Typhoon Warning Center are read in degrees.
-/
namespace Tcrm.Jtwc

/-- A text that is a number between hemisphere letters: neither its first nor its last character is one of them. -/
def Bare (m : Text) : Prop :=
  (∀ c, m.head? = some c → c ∉ ['N', 'S', 'E', 'W']) ∧ ∀ c, m.getLast? = some c → c ∉ ['N', 'S', 'E', 'W']

/-- Hemisphere letters only. -/
def Letters (a : Text) : Prop := ∀ c ∈ a, c ∈ ['N', 'S', 'E', 'W']

theorem letter_iff (c : Char) : letter c = true ↔ c ∈ ['N', 'S', 'E', 'W'] := by
  simp [letter, or_assoc]

theorem drop_letters {a m : Text} (ha : Letters a) (hm : ∀ c, m.head? = some c → c ∉ ['N', 'S', 'E', 'W']) :
    (a ++ m).dropWhile letter = m := by
  induction a with
  | nil =>
    cases m with
    | nil => rfl
    | cons c m =>
      have h : letter c = false := by
        have := hm c rfl
        rw [← letter_iff] at this
        simpa using this
      simp [List.dropWhile_cons, h]
  | cons c a ih =>
    have h : letter c = true := (letter_iff c).2 (ha c (by simp))
    rw [List.cons_append, List.dropWhile_cons, if_pos h]
    exact ih fun d hd => ha d (by simp [hd])

theorem strip_eq {a m b : Text} (ha : Letters a) (hb : Letters b) (hm : Bare m) (hne : m ≠ []) :
    strip (a ++ m ++ b) = m := by
  unfold strip
  rw [List.append_assoc, drop_letters ha, List.reverse_append, drop_letters, List.reverse_reverse]
  · intro c hc; exact hb c (by simpa using hc)
  · intro c hc
    rw [List.head?_reverse] at hc
    exact hm.2 c hc
  · intro c hc
    apply hm.1 c
    cases m with
    | nil => exact absurd rfl hne
    | cons d m => simpa using hc

/-- C217: a latitude is the tenth of the number in the text, with the sign changed when the text ends with an S. -/
theorem C217_latitude (float : Text → Option ℚ) {a m b : Text} {x : ℚ} (ha : Letters a) (hb : Letters b) (hm : Bare m)
    (hne : m ≠ []) (hx : float m = some x) :
    fmtlat float (a ++ m ++ b) = .ok (if b.getLast? = some 'S' then -(x / 10) else x / 10) := by
  have hs : endsWith (a ++ m ++ b) 'S' = true ↔ b.getLast? = some 'S' := by
    unfold endsWith
    rw [decide_eq_true_iff]
    cases hb' : b.getLast? with
    | some c => simp [List.getLast?_append, hb']
    | none =>
      rw [List.getLast?_eq_none_iff] at hb'
      subst hb'
      simp only [List.append_nil, reduceCtorEq, iff_false]
      intro h
      cases hl : m.getLast? with
      | none => exact hne (List.getLast?_eq_none_iff.1 hl)
      | some c =>
        simp only [List.getLast?_append, hl, Option.some_or, Option.some.injEq] at h
        exact hm.2 c hl (by simp [h])
  unfold fmtlat number
  rw [strip_eq ha hb hm hne, hx]
  by_cases h : b.getLast? = some 'S'
  · rw [if_pos (hs.2 h), if_pos h]; congr 1; ring
  · rw [if_neg (fun e => h (hs.1 e)), if_neg h]

/-- C217: a longitude is the tenth of the number in the text, taken from 360 when the text ends with a W. -/
theorem C217_longitude (float : Text → Option ℚ) {a m b : Text} {x : ℚ} (ha : Letters a) (hb : Letters b) (hm : Bare m)
    (hne : m ≠ []) (hx : float m = some x) :
    fmtlon float (a ++ m ++ b) = .ok (if b.getLast? = some 'W' then 360 - x / 10 else x / 10) := by
  have hs : endsWith (a ++ m ++ b) 'W' = true ↔ b.getLast? = some 'W' := by
    unfold endsWith
    rw [decide_eq_true_iff]
    cases hb' : b.getLast? with
    | some c => simp [List.getLast?_append, hb']
    | none =>
      rw [List.getLast?_eq_none_iff] at hb'
      subst hb'
      simp only [List.append_nil, reduceCtorEq, iff_false]
      intro h
      cases hl : m.getLast? with
      | none => exact hne (List.getLast?_eq_none_iff.1 hl)
      | some c =>
        simp only [List.getLast?_append, hl, Option.some_or, Option.some.injEq] at h
        exact hm.2 c hl (by simp [h])
  unfold fmtlon number
  rw [strip_eq ha hb hm hne, hx]
  by_cases h : b.getLast? = some 'W'
  · rw [if_pos (hs.2 h), if_pos h]; congr 1; ring
  · rw [if_neg (fun e => h (hs.1 e)), if_neg h]

/-- C217: a text whose middle is not a number is refused, for both. -/
theorem C217_refused (float : Text → Option ℚ) {a m b : Text} (ha : Letters a) (hb : Letters b) (hm : Bare m)
    (hne : m ≠ []) (hx : float m = none) :
    fmtlat float (a ++ m ++ b) = .error .valueError ∧ fmtlon float (a ++ m ++ b) = .error .valueError := by
  constructor
  · unfold fmtlat number
    rw [strip_eq ha hb hm hne, hx]
    simp
  · unfold fmtlon number
    rw [strip_eq ha hb hm hne, hx]
    simp

/-- C217: positions of up to 180 degrees east and less than 180 west are read as different longitudes from 0 to 360, and
each is the position east of Greenwich up to full turns. The position 0 west is left out: see
`C217_longitude_fails_at_zero_west`. -/
theorem C217_longitude_partial (float : Text → Option ℚ) {m m' : Text} {x y : ℚ} (hm : Bare m) (hne : m ≠ [])
    (hm' : Bare m') (hne' : m' ≠ []) (hx : float m = some x) (hy : float m' = some y) (hx0 : 0 ≤ x) (hx1 : x ≤ 1800)
    (hy0 : 0 < y) (hy1 : y < 1800) :
    ∃ e w, fmtlon float (m ++ ['E']) = .ok e ∧ fmtlon float (m' ++ ['W']) = .ok w ∧ 0 ≤ e ∧ e ≤ 180 ∧ 180 < w ∧
      w < 360 ∧ e = x / 10 ∧ w - 360 = -(y / 10) := by
  have l1 : Letters ['E'] := by intro c hc; simp at hc; simp [hc]
  have l2 : Letters ['W'] := by intro c hc; simp at hc; simp [hc]
  have l0 : Letters [] := by intro c hc; simp at hc
  have h1 := C217_longitude float l0 l1 hm hne hx
  have h2 := C217_longitude float l0 l2 hm' hne' hy
  simp only [List.nil_append, List.getLast?_singleton, Option.some.injEq, if_true] at h1 h2
  rw [if_neg (by decide)] at h1
  refine ⟨_, _, h1, h2, ?_, ?_, ?_, ?_, rfl, ?_⟩ <;> linarith

/-- C217: the meridian of Greenwich has two longitudes, 0 when written as east and 360 when written as west. -/
theorem C217_longitude_fails_at_zero_west (float : Text → Option ℚ) {m : Text} (hm : Bare m) (hne : m ≠ [])
    (hx : float m = some 0) :
    fmtlon float (m ++ ['E']) = .ok 0 ∧ fmtlon float (m ++ ['W']) = .ok 360 := by
  have l1 : Letters ['E'] := by intro c hc; simp at hc; simp [hc]
  have l2 : Letters ['W'] := by intro c hc; simp at hc; simp [hc]
  have l0 : Letters [] := by intro c hc; simp at hc
  have h1 := C217_longitude float l0 l1 hm hne hx
  have h2 := C217_longitude float l0 l2 hm hne hx
  simp only [List.nil_append, List.getLast?_singleton, Option.some.injEq, if_true] at h1 h2
  rw [if_neg (by decide)] at h1
  rw [h1, h2]
  norm_num

/-- C217: north and south of the same number are opposite, so no position of the southern hemisphere is read as one of
the northern. -/
theorem C217_hemispheres (float : Text → Option ℚ) {m : Text} {x : ℚ} (hm : Bare m) (hne : m ≠ [])
    (hx : float m = some x) :
    ∃ v, fmtlat float (m ++ ['N']) = .ok v ∧ fmtlat float (m ++ ['S']) = .ok (-v) ∧ 10 * v = x := by
  have l1 : Letters ['N'] := by intro c hc; simp at hc; simp [hc]
  have l2 : Letters ['S'] := by intro c hc; simp at hc; simp [hc]
  have l0 : Letters [] := by intro c hc; simp at hc
  have h1 := C217_latitude float l0 l1 hm hne hx
  have h2 := C217_latitude float l0 l2 hm hne hx
  simp only [List.nil_append, List.getLast?_singleton, Option.some.injEq, if_true] at h1 h2
  rw [if_neg (by decide)] at h1
  exact ⟨_, h1, h2, by ring⟩

/-- A reader of a few texts, for the examples. -/
def sample (t : Text) : Option ℚ :=
  if t = "1475".toList then some 1475 else if t = " 85".toList then some 85 else if t = "0".toList then some 0 else none

example : Bare "1475".toList ∧ Bare " 85".toList ∧ Bare "0".toList ∧ Letters "W".toList := by
  simp [Bare, Letters]

example : (fmtlon sample "1475W".toList).toOption = some (2125 / 10) ∧
    (fmtlon sample "1475E".toList).toOption = some (1475 / 10) ∧
    (fmtlat sample " 85S".toList).toOption = some (-(85 / 10)) ∧
    (fmtlat sample " 85N".toList).toOption = some (85 / 10) ∧
    (fmtlon sample "0W".toList).toOption = some 360 ∧
    fmtlat sample "85 S".toList = .error .valueError := by
  decide +kernel

end Tcrm.Jtwc
