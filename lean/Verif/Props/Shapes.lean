import Verif.Model.Shapes
import Mathlib.Tactic.Linarith
import Mathlib.Tactic.NormNum
/-!
C130: tracks in shape files.
-/
namespace Tcrm.Shapes

/-- C130: one point for each observation, at its position, with its record. -/
theorem C130_points (tracks : List (List Fix)) :
    (points tracks).map (·.2) = tracks.flatten ∧ ∀ x ∈ points tracks, x.1 = (x.2.lon, x.2.lat) := by
  constructor
  · simp only [points, List.flatMap_def, List.map_flatten, List.map_map]
    congr 1
    conv_rhs => rw [← List.map_id tracks]
    apply List.map_congr_left
    intro t _
    simp [Function.comp_def]
  · intro x hx
    simp only [points, List.mem_flatMap, List.mem_map] at hx
    obtain ⟨t, _, f, _, rfl⟩ := hx
    rfl

/-- C130: one segment for each observation, in order, with its record. -/
theorem C130_segment_records : ∀ t : List Fix, (segments t).map (·.2) = t
  | [] => rfl
  | [_] => rfl
  | a :: b :: l => by
    simp only [segments, List.map_cons]
    rw [C130_segment_records (b :: l)]

/-- C130 in part: the segment of an observation leads to the next one, unless the longitude drops by more than
180 degrees; that of the last observation is its position. -/
theorem C130_segments_partial : ∀ (t : List Fix) (i : ℕ) (a : Fix), t[i]? = some a →
    (t[i + 1]? = none → (segments t)[i]? = some ([a.pt, a.pt], a)) ∧
    ∀ b, t[i + 1]? = some b → -180 ≤ b.lon - a.lon → (segments t)[i]? = some ([a.pt, b.pt], a)
  | [], i, a, h => by simp at h
  | [x], i, a, h => by
    cases i with
    | zero => simp at h; subst h; simp [segments]
    | succ i => simp at h
  | x :: y :: l, i, a, h => by
    cases i with
    | zero =>
      simp at h
      subst h
      refine ⟨by simp, ?_⟩
      intro b hb hd
      simp at hb
      subst hb
      simp only [segments, List.getElem?_cons_zero]
      rw [if_neg (not_lt.2 hd)]
    | succ i =>
      rw [List.getElem?_cons_succ] at h
      have := C130_segments_partial (y :: l) i a h
      rw [List.getElem?_cons_succ]
      simp only [segments, List.getElem?_cons_succ]
      exact this

/-- C130 in part: a track whose longitude never drops by more than 180 degrees is a single line through all its
positions. -/
theorem C130_lines_partial (t : List Fix)
    (h : ∀ (i : ℕ) (a b : Fix), t[i]? = some a → t[i + 1]? = some b → -180 ≤ b.lon - a.lon) :
    dissolve t = [t.map Fix.pt] := by
  unfold dissolve
  cases hm : (dlon t).min? with
  | none => rfl
  | some m =>
    simp only
    rw [if_neg]
    rw [not_lt]
    have hmem := List.min?_mem hm
    simp only [dlon, List.mem_map] at hmem
    obtain ⟨p, hp, rfl⟩ := hmem
    obtain ⟨i, hi⟩ := List.mem_iff_getElem?.1 hp
    rw [List.getElem?_zip_eq_some] at hi
    exact h i p.1 p.2 hi.1 (by rw [← hi.2, List.getElem?_tail])

/-- C130 fails: a track that crosses Greenwich eastwards loses a position from its line. -/
theorem C130_east_crossing_fails (t : List Fix) (i : ℕ) (a b : Fix) (ha : t[i]? = some a) (hb : t[i + 1]? = some b)
    (h : b.lon - a.lon < -180) : (dissolve t).flatten.length = t.length - 1 := by
  have hmem : b.lon - a.lon ∈ dlon t := by
    simp only [dlon, List.mem_map]
    refine ⟨(a, b), ?_, rfl⟩
    rw [List.mem_iff_getElem?]
    exact ⟨i, by rw [List.getElem?_zip_eq_some]; exact ⟨ha, by rw [List.getElem?_tail]; exact hb⟩⟩
  unfold dissolve
  cases hm : (dlon t).min? with
  | none => rw [List.min?_eq_none_iff] at hm; rw [hm] at hmem; simp at hmem
  | some m =>
    have hle : m ≤ b.lon - a.lon := ((List.min?_eq_some_iff).1 hm).2 _ hmem
    simp only
    rw [if_pos (by linarith)]
    have hidx : (dlon t).idxOf m < (dlon t).length := List.idxOf_lt_length_of_mem (List.min?_mem hm)
    have hlen : (dlon t).length = t.length - 1 := by simp [dlon]
    simp only [List.flatten_cons, List.flatten_nil, List.append_nil, List.length_append, List.length_map,
      List.length_take, List.length_drop]
    omega

/-- C130 fails: a step west over Greenwich is drawn as a line of more than 180 degrees, and an eastward one not
at all. -/
theorem C130_west_crossing_fails (x y x' y' p p' : ℚ) (h : 180 < x' - x) :
    segments [⟨x, y, p⟩, ⟨x', y', p'⟩] = [([(x, y), (x', y')], ⟨x, y, p⟩), ([(x', y'), (x', y')], ⟨x', y', p'⟩)] ∧
    segments [⟨x', y', p'⟩, ⟨x, y, p⟩] = [([(x', y'), (x', y')], ⟨x', y', p'⟩), ([(x, y), (x, y)], ⟨x, y, p⟩)] := by
  constructor
  · simp only [segments, Fix.pt]
    rw [if_neg (by linarith)]
  · simp only [segments, Fix.pt]
    rw [if_pos (by linarith)]

/-- C130: deeper storms have the higher category, by the given limits. -/
theorem C130_category (p : ℚ) : category p ≤ 5 ∧ (5 ≤ category p ↔ p < 930) ∧ (4 ≤ category p ↔ p < 955) ∧
    (3 ≤ category p ↔ p < 970) ∧ (2 ≤ category p ↔ p < 985) ∧ (1 ≤ category p ↔ p < 999) := by
  unfold category
  split_ifs <;> refine ⟨?_, ?_, ?_, ?_, ?_, ?_⟩ <;> first | omega | (constructor <;> intro h <;> first | omega | linarith | (exfalso; omega))

/-- C130 fails: a missing pressure (0 for observed tracks) is of the highest category. -/
theorem C130_missing_pressure_fails : category 0 = 5 := by decide +kernel

example : segments [⟨359, -10, 990⟩, ⟨359 + 1/2, -11, 985⟩, ⟨1, -12, 980⟩] =
    [([(359, -10), (359 + 1/2, -11)], ⟨359, -10, 990⟩), ([(359 + 1/2, -11), (359 + 1/2, -11)], ⟨359 + 1/2, -11, 985⟩),
      ([(1, -12), (1, -12)], ⟨1, -12, 980⟩)] ∧
    dissolve [⟨359, -10, 990⟩, ⟨359 + 1/2, -11, 985⟩, ⟨1, -12, 980⟩] = [[(359, -10)], [(1, -12)]] ∧
    dissolve [⟨120, -10, 990⟩, ⟨119, -11, 985⟩] = [[(120, -10), (119, -11)]] := by decide +kernel

end Tcrm.Shapes
