import Verif.Props.DateText
/-!
C168: dates given in separate columns.
-/
namespace Tcrm.DateText
open Tcrm.Dates

/-- The columns of components of dates. -/
def table (missing : Err) (ds : List DateTime) : Data :=
  { missing := missing, date := none, year := some (ds.map (·.year)), month := some (ds.map (·.month)),
    day := some (ds.map (·.day)), hour := some (ds.map (·.hour)), minute := some (ds.map (·.minute)) }

/-- C168: where there is a column of dates, the columns of components do not matter: the dates of the column are read in
the format. -/
theorem C168_date_column {fmt : Text} {f : List Item} (hf : items fmt = some f) (hn : (fields f).Nodup)
    (hy : Item.field .year ∈ f) (h2 : shortYear fmt = false) {ds : List DateTime} {col : List Text}
    (hd : ∀ d ∈ ds, Real d) (hw : List.Forall₂ (fun d t => Written d f t) ds col) (d : Data) (hcol : d.date = some col)
    (indicator : List ℤ) : parseDates d indicator fmt = .ok (ds.map (named f)) := by
  unfold parseDates
  rw [hcol]
  exact C167_column hf hn hy h2 hd hw

/-- C168 fails for track files: the reader of the file raises another error than `parseDates` expects when there is no
column of dates, so a file with any other columns is refused. -/
theorem C168_file_fails (d : Data) (h : d.date = none) (hm : d.missing = .valueError) (indicator : List ℤ) (fmt : Text) :
    parseDates d indicator fmt = .error .valueError := by
  simp [parseDates, h, hm]

theorem assemble_ok (l : List (ℕ × ℕ × ℕ × ℕ × ℕ)) (ds : List DateTime)
    (h : List.Forall₂ (fun p d => datetime p.1 p.2.1 p.2.2.1 p.2.2.2.1 p.2.2.2.2 0 = .ok d) l ds) : assemble l = .ok ds := by
  induction h with
  | nil => rfl
  | @cons p d l ds hp h ih =>
    obtain ⟨y, m, dd, hh, mn⟩ := p
    simp only at hp
    simp only [assemble, hp, ih]

theorem zips {α β γ δ ε : Type} (f1 : DateTime → α) (f2 : DateTime → β) (f3 : DateTime → γ) (f4 : DateTime → δ) (ds : List DateTime) :
    (ds.map f1).zip ((ds.map f2).zip ((ds.map f3).zip (ds.map f4))) = ds.map fun d => (f1 d, f2 d, f3 d, f4 d) := by
  induction ds with
  | nil => rfl
  | cons d ds ih => simp only [List.map_cons, List.zip_cons_cons, ih]

theorem forall₂_self {α β : Type} {R : α → β → Prop} (f : DateTime → α) (g : DateTime → β) {ds : List DateTime}
    (h : ∀ d ∈ ds, R (f d) (g d)) : List.Forall₂ R (ds.map f) (ds.map g) := by
  induction ds with
  | nil => exact .nil
  | cons d ds ih => exact .cons (h d (by simp)) (ih fun d hd => h d (by simp [hd]))

theorem datetime_minute {d : DateTime} (h : Real d) :
    datetime d.year d.month d.day d.hour d.minute 0 = .ok { d with second := 0 } :=
  datetime_ok (d := { d with second := 0 }) (by
    obtain ⟨h1, h2, h3, h4, h5, h6, h7, h8, h9⟩ := h
    exact ⟨h1, h2, h3, h4, h5, h6, h7, h8, by simp⟩)

/-- C168, in part: from a dictionary of columns the dates are read, to the minute. -/
theorem C168_dictionary_partial {ds : List DateTime} (hd : ∀ d ∈ ds, Real d) (indicator : List ℤ) (fmt : Text) :
    parseDates (table .keyError ds) indicator fmt = .ok (ds.map fun d => { d with second := 0 }) := by
  have hz : (ds.map (·.hour)).zip (ds.map (·.minute)) = ds.map fun d => (d.hour, d.minute) := by
    rw [List.zip_map']
  simp only [parseDates, table, if_true, fromColumns, Data.column, clock]
  rw [hz, zips (ε := ℕ)]
  apply assemble_ok
  exact forall₂_self _ _ fun d h => datetime_minute (hd d h)

/-- C168, in part: without a column of minutes the times of day may be given as hhmm, if one of them is 01:00 or later,
or as whole hours. -/
theorem C168_hours_partial {ds : List DateTime} (hd : ∀ d ∈ ds, Real d) (hne : ds ≠ []) (indicator : List ℤ) (fmt : Text) :
    ((∃ d ∈ ds, 1 ≤ d.hour) →
      parseDates { table .keyError ds with hour := some (ds.map fun d => 100 * d.hour + d.minute), minute := none }
        indicator fmt = .ok (ds.map fun d => { d with second := 0 })) ∧
    ((∀ d ∈ ds, d.minute = 0) →
      parseDates { table .keyError ds with minute := none } indicator fmt =
        .ok (ds.map fun d => { d with second := 0 })) := by
  have key {hs : List ℕ} (e : splitHours hs = ds.map fun d => (d.hour, d.minute)) (hn : hs ≠ []) :
      parseDates { table .keyError ds with hour := some hs, minute := none } indicator fmt =
        .ok (ds.map fun d => { d with second := 0 }) := by
    simp only [parseDates, table, if_true, fromColumns, Data.column, clock, if_neg hn]
    rw [e, zips (ε := ℕ)]
    apply assemble_ok
    exact forall₂_self _ _ fun d h => datetime_minute (hd d h)
  constructor
  · rintro ⟨d, hd', h1⟩
    refine key ?_ (by simpa using hne)
    have hd1 : d.hour * 100 ≤ 100 * d.hour + d.minute := by omega
    unfold splitHours
    rw [if_pos ⟨100 * d.hour + d.minute, List.mem_map.2 ⟨d, hd', rfl⟩, by omega⟩, List.map_map]
    apply List.map_congr_left
    intro d h
    have := (hd d h).2.2.2.2.2.2.2.1
    simp only [Function.comp_apply, Prod.mk.injEq]
    omega
  · intro h0
    refine key (hs := ds.map (·.hour)) ?_ (by simpa using hne)
    unfold splitHours
    rw [if_neg, List.map_map]
    · apply List.map_congr_left
      intro d h
      simp [h0 d h]
    · rintro ⟨x, hx, h100⟩
      obtain ⟨d, h, rfl⟩ := List.mem_map.1 hx
      have := (hd d h).2.2.2.2.2.2.1
      omega

/-! ### Files without years -/

/-- The number of a month, counted through the years. -/
def monthNo (d : DateTime) : ℕ := 12 * d.year + d.month

/-- The observations of one storm: in order, with no month left out, and within twelve months. -/
def Storm (d : DateTime) (l : List DateTime) : Prop :=
  (∀ e ∈ d :: l, 1 ≤ e.month ∧ e.month ≤ 12) ∧
  List.IsChain (fun a b => monthNo a ≤ monthNo b ∧ monthNo b ≤ monthNo a + 1) (d :: l) ∧
  ∀ e ∈ l, monthNo e < monthNo d + 12

/-- The dummy years of a storm: those since its first observation, counted from 2000, or from 2001 if it began in
January. -/
def shifted (d : DateTime) (e : DateTime) : ℕ := (if d.month = 1 then 2001 else 2000) + (e.year - d.year)

theorem dummy_rest {d a : DateTime} {l : List DateTime} {y : ℕ} (rest : List (ℤ × ℕ)) (ys : List ℕ)
    (hr : ∀ fill, dummyYears fill rest = .ok ys)
    (hm : ∀ e ∈ a :: l, 1 ≤ e.month ∧ e.month ≤ 12) (hdm : 1 ≤ d.month ∧ d.month ≤ 12)
    (hc : List.IsChain (fun a b => monthNo a ≤ monthNo b ∧ monthNo b ≤ monthNo a + 1) (a :: l))
    (h12 : ∀ e ∈ a :: l, monthNo e < monthNo d + 12) (hda : monthNo d ≤ monthNo a) (hy : y = shifted d a) :
    dummyYears (some y) ((l.map fun e => ((0 : ℤ), e.month)) ++ rest) = .ok (l.map (shifted d) ++ ys) := by
  induction l generalizing a y with
  | nil => simpa using hr (some y)
  | cons b l ih =>
    obtain ⟨⟨c1, c2⟩, hc'⟩ := List.isChain_cons_cons.1 hc
    have ha := hm a (by simp)
    have hb := hm b (by simp)
    have hb12 := h12 b (by simp)
    have ha12 := h12 a (by simp)
    simp only [monthNo] at c1 c2 hb12 ha12 hda
    have key : (if b.month = 1 then some 2001 else if (0 : ℤ) > 0 then some 2000 else some y) = some (shifted d b) := by
      by_cases hb1 : b.month = 1
      · rw [if_pos hb1]
        simp only [shifted, Option.some.injEq]
        by_cases hd1 : d.month = 1
        · rw [if_pos hd1]; omega
        · rw [if_neg hd1]; omega
      · rw [if_neg hb1, if_neg (by simp), hy]
        simp only [shifted, Option.some.injEq]
        have : b.year = a.year := by omega
        rw [this]
    simp only [List.map_cons, List.cons_append, dummyYears, key]
    rw [ih (a := b) (fun e he => hm e (List.mem_cons_of_mem _ he)) hc' (fun e he => h12 e (List.mem_cons_of_mem _ he))
      (by simp only [monthNo]; omega) rfl]

/-- The years that are filled in. -/
theorem dummy_years (storms : List (DateTime × List DateTime)) (h : ∀ s ∈ storms, Storm s.1 s.2) (fill : Option ℕ) :
    dummyYears fill (storms.flatMap fun s => (1, s.1.month) :: s.2.map fun e => (0, e.month)) =
      .ok (storms.flatMap fun s => (s.1 :: s.2).map (shifted s.1)) := by
  induction storms generalizing fill with
  | nil => rfl
  | cons s storms ih =>
    obtain ⟨d, l⟩ := s
    obtain ⟨h1, h2, h3⟩ := h (d, l) (by simp)
    simp only at h1 h2 h3
    have key : (if d.month = 1 then some 2001 else if (1 : ℤ) > 0 then some 2000 else fill) = some (shifted d d) := by
      simp only [shifted]
      split <;> simp
    simp only [List.flatMap_cons, List.cons_append, dummyYears, key, List.map_cons]
    rw [dummy_rest _ _ (fun fill => ih (fun s hs => h s (by simp [hs])) fill) h1 (h1 d (by simp)) h2
      (fun e he => by
        rcases List.mem_cons.1 he with rfl | he
        · omega
        · exact h3 e he) le_rfl rfl]
    simp only [List.map_cons]

/-- The columns of a file without years. -/
def undated (ds : List DateTime) : Data :=
  { missing := .keyError, date := none, year := none, month := some (ds.map (·.month)), day := some (ds.map (·.day)),
    hour := some (ds.map (·.hour)), minute := some (ds.map (·.minute)) }

/-- The markers of the storms of a file: 1 at the first observation of each. -/
def markers (storms : List (DateTime × List DateTime)) : List ℤ := storms.flatMap fun s => 1 :: s.2.map fun _ => 0

/-- C168, in part: in a dictionary without years, the dates of each storm are read with the years counted from 2000, or
from 2001 for a storm that begins in January, if these dates exist. -/
theorem C168_no_years_partial (storms : List (DateTime × List DateTime)) (h : ∀ s ∈ storms, Storm s.1 s.2)
    (hr : ∀ s ∈ storms, ∀ e ∈ s.1 :: s.2, Real { e with year := shifted s.1 e }) (fmt : Text) :
    parseDates (undated (storms.flatMap fun s => s.1 :: s.2)) (markers storms) fmt =
      .ok (storms.flatMap fun s => (s.1 :: s.2).map fun e => { e with year := shifted s.1 e, second := 0 }) := by
  have hz : (markers storms).zip ((storms.flatMap fun s => s.1 :: s.2).map (·.month)) =
      storms.flatMap fun s => (1, s.1.month) :: s.2.map fun e => (0, e.month) := by
    clear h hr
    induction storms with
    | nil => rfl
    | cons s storms ih =>
      have e (l : List DateTime) (r : List ℤ) (r' : List ℕ) :
          ((l.map fun _ => (0 : ℤ)) ++ r).zip (l.map (·.month) ++ r') = (l.map fun e => ((0 : ℤ), e.month)) ++ r.zip r' := by
        induction l with
        | nil => rfl
        | cons a l ih => simp only [List.map_cons, List.cons_append, List.zip_cons_cons, ih]
      simp only [markers, List.flatMap_cons, List.cons_append, List.map_cons, List.map_append, List.zip_cons_cons, e] at ih ⊢
      rw [ih]
  have hzip : ∀ ds : List DateTime, (ds.map (·.hour)).zip (ds.map (·.minute)) = ds.map fun d => (d.hour, d.minute) :=
    fun ds => List.zip_map' ..
  simp only [parseDates, undated, if_true, fromColumns, Data.column, clock]
  rw [hz, dummy_years storms h none]
  simp only [hzip]
  apply assemble_ok
  clear hz h
  induction storms with
  | nil => exact .nil
  | cons s storms ih =>
    have e (l : List DateTime) (ys : List ℕ) (ds : List DateTime) :
        (l.map (shifted s.1) ++ ys).zip (((l ++ ds).map (·.month)).zip (((l ++ ds).map (·.day)).zip
          ((l ++ ds).map fun d => (d.hour, d.minute)))) =
        (l.map fun e => (shifted s.1 e, e.month, e.day, e.hour, e.minute)) ++
          ys.zip ((ds.map (·.month)).zip ((ds.map (·.day)).zip (ds.map fun d => (d.hour, d.minute)))) := by
      induction l with
      | nil => rfl
      | cons a l ih =>
        simp only [List.map_cons, List.cons_append, List.zip_cons_cons, ih]
    rw [List.flatMap_cons, List.flatMap_cons, List.flatMap_cons, e]
    refine List.rel_append (forall₂_self _ _ fun d hd => ?_) (ih fun s' hs => hr s' (by simp [hs]))
    have := datetime_minute (hr s (by simp) d hd)
    exact this

/-- C168 fails for a file without years: the storm of 28 February and 1 March 2001 is a day too long, because the year
2000 it is given has a 29 February. -/
theorem C168_february_fails (h : ℕ) (hh : h < 24) (fmt : Text) :
    let ds : List DateTime := [⟨2001, 2, 28, h, 0, 0⟩, ⟨2001, 3, 1, h, 0, 0⟩]
    (∀ d ∈ ds, Real d) ∧
    parseDates (undated ds) [1, 0] fmt = .ok [⟨2000, 2, 28, h, 0, 0⟩, ⟨2000, 3, 1, h, 0, 0⟩] ∧
    dayOfYear (isLeap 2001) 3 1 = dayOfYear (isLeap 2001) 2 28 + 1 ∧
    dayOfYear (isLeap 2000) 3 1 = dayOfYear (isLeap 2000) 2 28 + 2 := by
  refine ⟨?_, ?_, by decide +kernel, by decide +kernel⟩
  · intro d hd
    simp only [List.mem_cons, List.not_mem_nil, or_false] at hd
    rcases hd with rfl | rfl <;> exact ⟨by simp, by simp, by simp, by simp, by simp, by simp [isLeap, daysInMonth], hh, by simp, by simp⟩
  · have e1 : datetime 2000 2 28 h 0 0 = .ok ⟨2000, 2, 28, h, 0, 0⟩ :=
      datetime_ok (d := ⟨2000, 2, 28, h, 0, 0⟩) ⟨by simp, by simp, by simp, by simp, by simp, by simp [isLeap, daysInMonth], hh, by simp, by simp⟩
    have e2 : datetime 2000 3 1 h 0 0 = .ok ⟨2000, 3, 1, h, 0, 0⟩ :=
      datetime_ok (d := ⟨2000, 3, 1, h, 0, 0⟩) ⟨by simp, by simp, by simp, by simp, by simp, by simp [isLeap, daysInMonth], hh, by simp, by simp⟩
    simp [parseDates, undated, fromColumns, Data.column, dummyYears, clock, assemble, e1, e2]

/-- C168 fails for a file without years: a storm of January and 29 February 2004 is refused. -/
theorem C168_leap_day_fails (h k : ℕ) (hh : h < 24) (hk : k < 24) (fmt : Text) :
    let ds : List DateTime := [⟨2004, 1, 31, h, 0, 0⟩, ⟨2004, 2, 29, k, 0, 0⟩]
    (∀ d ∈ ds, Real d) ∧ parseDates (undated ds) [1, 0] fmt = .error .valueError := by
  refine ⟨?_, ?_⟩
  · intro d hd
    simp only [List.mem_cons, List.not_mem_nil, or_false] at hd
    rcases hd with rfl | rfl
    · exact ⟨by simp, by simp, by simp, by simp, by simp, by simp [isLeap, daysInMonth], hh, by simp, by simp⟩
    · exact ⟨by simp, by simp, by simp, by simp, by simp, by simp [isLeap, daysInMonth], hk, by simp, by simp⟩
  · have e1 : datetime 2001 1 31 h 0 0 = .ok ⟨2001, 1, 31, h, 0, 0⟩ :=
      datetime_ok (d := ⟨2001, 1, 31, h, 0, 0⟩) ⟨by simp, by simp, by simp, by simp, by simp, by simp [isLeap, daysInMonth], hh, by simp, by simp⟩
    have e2 : datetime 2001 2 29 k 0 0 = .error .valueError := by
      unfold datetime
      rw [if_neg]
      rintro ⟨-, -, hv, -⟩
      exact absurd hv (by decide +kernel)
    simp [parseDates, undated, fromColumns, Data.column, dummyYears, clock, assemble, e1, e2]

/-! ### Examples -/

/-- A file without years that meets the conditions. -/
example (fmt : Text) : parseDates (undated [⟨1999, 12, 31, 12, 0, 0⟩, ⟨2000, 1, 1, 0, 0, 0⟩, ⟨2003, 1, 5, 6, 0, 0⟩])
    [1, 0, 1] fmt = .ok [⟨2000, 12, 31, 12, 0, 0⟩, ⟨2001, 1, 1, 0, 0, 0⟩, ⟨2001, 1, 5, 6, 0, 0⟩] :=
  C168_no_years_partial [(⟨1999, 12, 31, 12, 0, 0⟩, [⟨2000, 1, 1, 0, 0, 0⟩]), (⟨2003, 1, 5, 6, 0, 0⟩, [])]
    (by simp [Storm, monthNo]) (by
      intro s hs e he
      simp only [List.mem_cons, List.not_mem_nil, or_false] at hs
      rcases hs with rfl | rfl <;> simp only [List.mem_cons, List.not_mem_nil, or_false] at he
      · rcases he with rfl | rfl <;> (unfold Real; decide +kernel)
      · subst he; unfold Real; decide +kernel) fmt

/-- A storm over the New Year. -/
example : Storm ⟨1999, 12, 30, 0, 0, 0⟩ [⟨1999, 12, 31, 12, 0, 0⟩, ⟨2000, 1, 1, 0, 0, 0⟩] ∧
    dummyYears none [(1, 12), (0, 12), (0, 1)] = .ok [2000, 2000, 2001] := by
  refine ⟨⟨by simp, by simp [monthNo], by simp [monthNo]⟩, rfl⟩

example : parseDates (table .keyError [⟨2011, 2, 2, 12, 30, 0⟩]) [1] defaultFormat = .ok [⟨2011, 2, 2, 12, 30, 0⟩] ∧
    parseDates (table .valueError [⟨2011, 2, 2, 12, 30, 0⟩]) [1] defaultFormat = .error .valueError := ⟨rfl, rfl⟩

end Tcrm.DateText
