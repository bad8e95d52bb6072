import Verif.Spec.LoadTrack
import Verif.Props.DataProc
import Mathlib.Data.List.Chain
/-!
C128: loading a file of observed tracks.
-/
namespace Tcrm.LoadTrack
open Tcrm.DataProc Tcrm.Dates

theorem screened_eq (missing : ℚ) (r : Rec) : filterPressure missing r.pressure = screened missing r := by
  unfold filterPressure screened
  by_cases h : r.pressure < 600 ∨ r.pressure > 1100
  · rw [if_pos h, if_neg]
    rintro ⟨h1, h2⟩
    rcases h with h | h <;> linarith
  · rw [if_neg h, if_pos]
    push Not at h
    exact ⟨h.1, h.2⟩

theorem rows_length (missing : ℚ) (recs : List Rec) : (rows missing recs).length = recs.length := by
  simp [rows]

theorem marks_length (recs : List Rec) : (marks recs).length = recs.length := by
  simp [marks, (C38_jump_partial 10 _).1]

theorem marks_zero (recs : List Rec) (r : Rec) (h : recs[0]? = some r) : (marks recs)[0]? = some r.marker := by
  simp only [marks, List.getElem?_map, (C38_jump_partial 10 _).2.1, h, Option.map_some]

theorem marks_succ (recs : List Rec) (i : ℕ) (a b : Rec) (ha : recs[i]? = some a) (hb : recs[i + 1]? = some b)
    (h01 : b.marker = 0 ∨ b.marker = 1) :
    (marks recs)[i + 1]? = some 1 ∧ (b.marker = 1 ∨ Jump a b) ∨
    (marks recs)[i + 1]? = some 0 ∧ b.marker = 0 ∧ ¬Jump a b := by
  obtain ⟨m, h1, h2, h3⟩ := (C38_jump_partial 10 (recs.map fun r => ⟨r.marker, mod360 r.lon, r.lat⟩)).2.2 i
    ⟨a.marker, mod360 a.lon, a.lat⟩ ⟨b.marker, mod360 b.lon, b.lat⟩
    (by rw [List.getElem?_map, ha]; rfl) (by rw [List.getElem?_map, hb]; rfl)
  have hm : (marks recs)[i + 1]? = some m := by
    simp only [marks, List.getElem?_map, h1, Option.map_some]
  by_cases h : m = 1
  · exact Or.inl ⟨by rw [hm, h], h2.1 h⟩
  · have hj : ¬(b.marker = 1 ∨ Jump a b) := fun hj => h (h2.2 hj)
    push Not at hj
    rcases h3 with h3 | h3
    · exact absurd h3 h
    · have hb0 : b.marker = 0 := h01.resolve_right hj.1
      simp only at h3
      exact Or.inr ⟨by rw [hm, h3, hb0], hb0, hj.2⟩

theorem delta_succ (recs : List Rec) (i : ℕ) (a b : Rec) (ha : recs[i]? = some a) (hb : recs[i + 1]? = some b) :
    ((timeDelta (recs.map (·.time)))[i + 1]?).getD 0 = (hours a b : ℚ) := by
  cases recs with
  | nil => simp at ha
  | cons x l =>
    have hz : (((x :: l).map (·.time)).zip (l.map (·.time)))[i]? = some (a.time, b.time) := by
      rw [List.getElem?_zip_eq_some, List.getElem?_map, List.getElem?_map, ha]
      refine ⟨rfl, ?_⟩
      rw [List.getElem?_cons_succ] at hb
      rw [hb]; rfl
    simp only [List.map_cons, timeDelta, List.getElem?_cons_succ, List.getElem?_map]
    rw [List.map_cons] at hz
    rw [hz]
    rfl

theorem col_eq {α : Type} (f : Rec → α) (d : α) (recs : List Rec) (i : ℕ) (r : Rec) (h : recs[i]? = some r) :
    col f d recs i = f r := by
  simp [col, h]

/-- The row of a record that begins a track. -/
theorem row_first (missing : ℚ) (recs : List Rec) (i : ℕ) (r : Rec) (h : recs[i]? = some r)
    (hm : (marks recs)[i]? = some 1) :
    ∃ w, (rows missing recs)[i]? = some w ∧ First missing (r, w) := by
  simp only [rows, List.getElem?_mapIdx, h, Option.map_some]
  refine ⟨_, rfl, ⟨rfl, rfl, screened_eq missing r⟩, ?_, ?_, ?_⟩
  · simp [speedBearing, hm]
  · simp [speedBearing, hm]
  · simp only [windFor, tendency, translation, speedBearing, hm, Option.getD_some]
    rw [if_pos (by norm_num), if_pos (by norm_num), screened_eq]

/-- The row of any other record. -/
theorem row_next (missing : ℚ) (recs : List Rec) (i : ℕ) (a b : Rec) (v : Row) (ha : recs[i]? = some a)
    (hb : recs[i + 1]? = some b) (hm : (marks recs)[i + 1]? = some 0) (h0 : b.marker = 0) (hj : ¬Jump a b) :
    ∃ w, (rows missing recs)[i + 1]? = some w ∧ Follows missing (a, v) (b, w) := by
  simp only [rows, List.getElem?_mapIdx, hb, Option.map_some]
  have hd := delta_succ recs i a b ha hb
  have hs : ∀ ms : ℝ, speedBearing ms (fun i => ((marks recs)[i]?).getD 0) (fun i => (col (·.lat) 0 recs i : ℚ))
      (fun i => (col (fun r => mod360 r.lon) 0 recs i : ℚ))
      (fun i => ((timeDelta (recs.map (·.time)))[i]?).getD 0) (i + 1) =
      (if hours a b = 0 then ms else if pace a b < 0 then ms else if 200 < pace a b then ms else pace a b,
        (leg a b).1) := by
    intro ms
    simp only [speedBearing, hm, hd, Option.getD_some, Nat.add_sub_cancel, col_eq _ _ recs i a ha,
      col_eq _ _ recs (i + 1) b hb, Nat.add_eq_zero_iff, one_ne_zero, and_false, if_false, not_true, ne_eq,
      pace, leg, east, Rat.cast_intCast, Int.cast_eq_zero]
    by_cases h : hours a b = 0
    · rw [if_pos h, if_pos h]
    · rw [if_neg h, if_neg h]
      congr
  have hp : ∀ ms : ℝ, Plausible a b → (if hours a b = 0 then ms else if pace a b < 0 then ms else
      if 200 < pace a b then ms else pace a b) = pace a b := by
    rintro ms ⟨h1, h2, h3⟩
    rw [if_neg h1, if_neg (not_lt.2 h2), if_neg (not_lt.2 h3)]
  have hn : ∀ ms : ℝ, ¬Plausible a b → (if hours a b = 0 then ms else if pace a b < 0 then ms else
      if 200 < pace a b then ms else pace a b) = ms := by
    intro ms h
    by_cases h1 : hours a b = 0
    · rw [if_pos h1]
    · rw [if_neg h1]
      by_cases h2 : pace a b < 0
      · rw [if_pos h2]
      · rw [if_neg h2]
        by_cases h3 : 200 < pace a b
        · rw [if_pos h3]
        · exact absurd ⟨h1, not_lt.1 h2, not_lt.1 h3⟩ h
  refine ⟨_, rfl, h0, hj, ⟨rfl, rfl, screened_eq missing b⟩, ?_, ?_, ?_, ?_⟩
  · simp only [hs]
  · intro h; simp only [hs]; exact hp _ h
  · intro h; simp only [hs]; exact hn _ h
  · refine ⟨tendency (fun i => ((marks recs)[i]?).getD 0) (col (fun r => filterPressure missing r.pressure) 0 recs)
      (fun i => ((timeDelta (recs.map (·.time)))[i]?).getD 0) (i + 1), ?_, ?_, ?_⟩
    rotate_left
    · intro h
      simp only [translation, hs, hp _ h]
      rw [if_neg, screened_eq]
      · rfl
      · have := h.2.2
        push Not
        nlinarith
    · intro h
      simp only [translation, hs, hn _ h]
      rw [if_pos (by norm_num), screened_eq]
      rfl
    · simp only [Change, tendency, hm, hd, Option.getD_some, Nat.add_sub_cancel, col_eq _ _ recs i a ha,
        col_eq _ _ recs (i + 1) b hb, Nat.add_eq_zero_iff, one_ne_zero, and_false, if_false, not_true, ne_eq,
        Rat.cast_intCast, Int.cast_eq_zero, screened_eq, Rat.cast_sub]
      constructor
      · rintro ⟨h1, h2⟩
        rw [if_neg h1, if_neg (not_lt.2 h2)]
      · intro h
        by_cases h1 : hours a b = 0
        · rw [if_pos h1]
        · rw [if_neg h1, if_pos]
          by_contra h2
          exact h ⟨h1, not_lt.1 h2⟩

/-- Two consecutive records with their marks and rows -/
def Next (missing : ℚ) (x y : ℤ × (Rec × Row)) : Prop :=
  y.1 = 1 ∧ (y.2.1.marker = 1 ∨ Jump x.2.1 y.2.1) ∧ First missing y.2 ∨ y.1 = 0 ∧ Follows missing x.2 y.2

theorem chain (missing : ℚ) (recs : List Rec) (h01 : ∀ r ∈ recs, r.marker = 0 ∨ r.marker = 1) :
    ((marks recs).zip (recs.zip (rows missing recs))).IsChain (Next missing) := by
  rw [List.isChain_iff_getElem]
  intro i hi
  have hl : i + 1 < recs.length := by
    simp only [List.length_zip, marks_length, rows_length, min_self] at hi
    exact hi
  have ha := List.getElem?_eq_getElem (l := recs) (i := i) (by omega)
  have hb := List.getElem?_eq_getElem hl
  simp only [List.getElem_zip]
  have hmk : ∀ (k : ℕ) (hk : k < (marks recs).length) (m : ℤ), (marks recs)[k]? = some m → (marks recs)[k] = m := by
    intro k hk m h
    rw [List.getElem?_eq_getElem hk] at h
    exact Option.some.inj h
  have hrk : ∀ (k : ℕ) (hk : k < (rows missing recs).length) (m : Row), (rows missing recs)[k]? = some m →
      (rows missing recs)[k] = m := by
    intro k hk m h
    rw [List.getElem?_eq_getElem hk] at h
    exact Option.some.inj h
  rcases marks_succ recs i _ _ ha hb (h01 _ (List.getElem_mem hl)) with ⟨h1, h2⟩ | ⟨h1, h2, h3⟩
  · left
    obtain ⟨w, hw, hf⟩ := row_first missing recs (i + 1) _ hb h1
    simp only
    rw [hmk _ _ _ h1, hrk _ _ _ hw]
    exact ⟨rfl, h2, hf⟩
  · right
    obtain ⟨w, hw, hf⟩ := row_next missing recs i _ _ ((rows missing recs)[i]'(by rw [rows_length]; omega)) ha hb h1 h2 h3
    simp only
    rw [hmk _ _ _ h1, hrk _ _ _ hw]
    exact ⟨rfl, hf⟩

theorem firsts (missing : ℚ) (recs : List Rec) (z : ℤ × (Rec × Row))
    (hz : z ∈ (marks recs).zip (recs.zip (rows missing recs))) (h1 : z.1 = 1) : First missing z.2 := by
  obtain ⟨i, hi, rfl⟩ := List.getElem_of_mem hz
  have hl : i < recs.length := by
    simpa only [List.length_zip, marks_length, rows_length, min_self] using hi
  simp only [List.getElem_zip] at h1 ⊢
  obtain ⟨w, hw, hf⟩ := row_first missing recs i _ (List.getElem?_eq_getElem hl)
    (by rw [List.getElem?_eq_getElem (by rw [marks_length]; exact hl), h1])
  rw [List.getElem?_eq_getElem (by rw [rows_length]; exact hl)] at hw
  rw [Option.some.inj hw]
  exact hf

theorem splitTracks_map {α β : Type} (f : α → β) (markers : List ℤ) (l : List α) (ts : List (List α))
    (h : splitTracks markers l = .ok ts) : splitTracks markers (l.map f) = .ok (ts.map fun t => t.map f) := by
  unfold splitTracks at h ⊢
  cases hc : cumsum 0 markers with
  | nil => rw [hc] at h; cases h
  | cons t us =>
    rw [hc] at h
    simp only [Except.ok.injEq] at h ⊢
    rw [← h, List.map_map]
    apply List.map_congr_left
    intro i _
    simp only [Function.comp]
    rw [List.zip_map_right, List.filter_map, List.map_map, List.map_map]
    rfl

/-- C128: a file of records loads into tracks that contain every record once, in order; a track begins at a
start marker or a jump and nowhere else; the first row of a track has no motion, every other one the motion
from the row before it. -/
theorem C128_load (missing : ℚ) (recs : List Rec) (h01 : ∀ r ∈ recs, r.marker = 0 ∨ r.marker = 1)
    (hfirst : ∃ r, recs[0]? = some r ∧ r.marker = 1) :
    ∃ pieces : List (List (Rec × Row)),
      load missing recs = .ok (pieces.map fun p => p.map (·.2)) ∧
      pieces.flatten.map (·.1) = recs ∧
      (∀ p ∈ pieces, ∃ x l, p = x :: l ∧ First missing x ∧ (x :: l).IsChain (Follows missing)) ∧
      pieces.IsChain fun p q => ∀ a ∈ p.getLast?, ∀ b ∈ q.head?, b.1.marker = 1 ∨ Jump a.1 b.1 := by
  obtain ⟨r0, hr0, hm0⟩ := hfirst
  have hmlen : (marks recs).length = (rows missing recs).length := by rw [marks_length, rows_length]
  have hmk01 : ∀ m ∈ marks recs, m = 0 ∨ m = 1 := by
    intro m hm
    obtain ⟨i, hi, rfl⟩ := List.getElem_of_mem hm
    have hi' := List.getElem?_eq_getElem hi
    cases i with
    | zero =>
      rw [marks_zero recs r0 hr0, hm0] at hi'
      exact Or.inr (Option.some.inj hi').symm
    | succ i =>
      have hl : i + 1 < recs.length := by rw [marks_length] at hi; exact hi
      rcases marks_succ recs i _ _ (List.getElem?_eq_getElem (by omega)) (List.getElem?_eq_getElem hl)
        (h01 _ (List.getElem_mem hl)) with ⟨h1, -⟩ | ⟨h1, -⟩
      · rw [h1] at hi'; exact Or.inr (Option.some.inj hi').symm
      · rw [h1] at hi'; exact Or.inl (Option.some.inj hi').symm
  obtain ⟨ts, h1, h2, ps, h3, h4, h5⟩ := C37_split (markers := marks recs) (rows := recs.zip (rows missing recs))
    (by simp [marks_length, rows_length]) hmk01 (by rw [marks_zero recs r0 hr0, hm0])
  have hz2 : (recs.zip (rows missing recs)).map (·.2) = rows missing recs :=
    List.map_snd_zip (by rw [rows_length])
  have hz1 : (recs.zip (rows missing recs)).map (·.1) = recs := List.map_fst_zip (by rw [rows_length])
  have hload := splitTracks_map (·.2) _ _ _ h1
  rw [hz2] at hload
  have hne : [] ∉ ps := by
    intro h
    obtain ⟨x, l, hx, -⟩ := h4 [] h
    cases hx
  have hch := chain missing recs h01
  rw [← h3, List.isChain_flatten hne] at hch
  obtain ⟨hin, hout⟩ := hch
  refine ⟨ts, hload, by rw [h2, hz1], ?_, ?_⟩
  · intro p hp
    rw [h5, List.mem_map] at hp
    obtain ⟨q, hq, rfl⟩ := hp
    obtain ⟨x, l, rfl, hl⟩ := h4 q hq
    refine ⟨x, l.map (·.2), rfl, ?_, ?_⟩
    · exact firsts missing recs (1, x) (by rw [← h3]; exact List.mem_flatten.2 ⟨_, hq, List.mem_cons_self⟩) rfl
    · have hc := hin _ hq
      have : (((1, x) :: l).map (·.2)).IsChain (Follows missing) := by
        rw [List.isChain_map, List.isChain_iff_getElem]
        rw [List.isChain_iff_getElem] at hc
        intro i hi
        rcases hc i hi with ⟨h, -⟩ | ⟨-, h⟩
        · rw [List.getElem_cons_succ] at h
          have hi' : i < l.length := by simpa using hi
          have := hl _ (List.getElem_mem hi')
          omega
        · exact h
      exact this
  · rw [h5, List.isChain_map, List.isChain_iff_getElem]
    rw [List.isChain_iff_getElem] at hout
    intro i hi a ha b hb
    obtain ⟨x, l, hx, hl⟩ := h4 _ (List.getElem_mem (by omega) : ps[i + 1] ∈ ps)
    rw [hx] at hb
    simp only [List.map_cons, List.head?_cons, Option.mem_def, Option.some.injEq] at hb
    subst hb
    rw [List.getLast?_map, Option.mem_def, Option.map_eq_some_iff] at ha
    obtain ⟨a', ha', rfl⟩ := ha
    rcases hout i hi a' ha' (1, x) (by rw [hx]; rfl) with ⟨-, h, -⟩ | ⟨h, -⟩
    · exact h
    · exact absurd h one_ne_zero

/-- Forward speed times the hours since the record before is the distance from it. -/
theorem C128_speed (missing : ℚ) (x y : Rec × Row) (h : Follows missing x y) (hp : Plausible x.1 y.1) :
    y.2.speed * hours x.1 y.1 = (leg x.1 y.1).2 ∧ 0 ≤ y.2.speed ∧ y.2.speed ≤ 200 := by
  rw [h.2.2.2.2.1 hp]
  have : ((hours x.1 y.1 : ℤ) : ℝ) ≠ 0 := by exact_mod_cast hp.1
  exact ⟨by rw [pace, div_mul_cancel₀ _ this], hp.2.1, hp.2.2⟩

/-- A file that meets the hypotheses: two storms, the second of which jumps. -/
example : ∃ recs : List Rec, (∀ r ∈ recs, r.marker = 0 ∨ r.marker = 1) ∧
    (∃ r, recs[0]? = some r ∧ r.marker = 1) ∧ marks recs = [1, 0, 1, 0, 1] :=
  ⟨[⟨1, 0, 120, -15, 990, none⟩, ⟨0, 6, 119, -16, 985, none⟩, ⟨1, 100, 150, -15, 990, none⟩,
    ⟨0, 106, 149, -16, 985, none⟩, ⟨0, 112, 165, -16, 985, none⟩], by decide, ⟨_, rfl, rfl⟩, by decide +kernel⟩

end Tcrm.LoadTrack
