import Verif.Model.LocalSeries
import Verif.Props.StationRuns
import Verif.Model.SeriesPlots
/-!
C163: multipliers applied to all the series of a run.
-/
namespace Tcrm.LocalSeries

open Tcrm.Stations (Rec Multipliers applyFactor maxRec minRec FirstMax FirstMin)

/-! ### Specification -/

/-- Column `k` is the first one with this name. -/
def Column (fields : List String) (name : String) (k : ℕ) : Prop :=
  fields[k]? = some name ∧ ∀ j : ℕ, j < k → fields[j]? ≠ some name

/-- The names of the columns with the multipliers, clockwise from north -/
def columnName : Fin 8 → String := ![ "m4_n", "m4_ne", "m4_e", "m4_se", "m4_s", "m4_sw", "m4_w", "m4_nw"]

/-- `m` holds the multipliers of the record: for each direction the number in the column of the direction. -/
def MultOf {V : Type} (num : V → Option ℚ) (fields : List String) (record : List V) (m : Multipliers) : Prop :=
  ∀ d : Fin 8, ∃ (k : ℕ) (v : V), Column fields (columnName d) k ∧ record[k]? = some v ∧ num v = some (m.dir d)

/-- The record is that of station `id`. -/
def Names {V : Type} (text : V → List Char) (fields : List String) (keyName : String) (record : List V)
    (id : List Char) : Prop := ∃ (k : ℕ) (v : V), Column fields keyName k ∧ record[k]? = some v ∧ text v = id

/-! ### Fields -/

theorem fieldIndex_ok {fields : List String} {name : String} {k : ℕ} :
    fieldIndex fields name = .ok k ↔ Column fields name k := by
  unfold fieldIndex Column
  cases h : fields.idxOf? name with
  | none =>
    simp only [reduceCtorEq, false_iff, not_and]
    intro h1
    rw [List.idxOf?_eq_none_iff] at h
    exact absurd (List.mem_of_getElem? h1) h
  | some i =>
    rw [List.idxOf?, List.findIdx?_eq_some_iff_getElem] at h
    obtain ⟨hi, e, hlt⟩ := h
    have e' : fields[i]? = some name := by
      rw [List.getElem?_eq_getElem hi]; simpa using e
    constructor
    · intro hk
      injection hk with hk
      subst hk
      refine ⟨e', fun j hj hc => ?_⟩
      have hjl : j < fields.length := by omega
      have := hlt j hj
      rw [List.getElem?_eq_getElem hjl] at hc
      simp only [Option.some.injEq] at hc
      simp [hc] at this
    · rintro ⟨h1, h2⟩
      rcases lt_trichotomy i k with h | h | h
      · exact absurd e' (h2 i h)
      · rw [h]
      · obtain ⟨hkl, hk⟩ := List.getElem?_eq_some_iff.1 h1
        have := hlt k h
        simp [hk] at this

theorem column_unique {fields : List String} {name : String} {k l : ℕ} (h1 : Column fields name k)
    (h2 : Column fields name l) : k = l := by
  have a := fieldIndex_ok.2 h1
  rw [fieldIndex_ok.2 h2] at a
  injection a with a
  exact a.symm

theorem mapM_ok {E A B : Type} {f : A → Except E B} : ∀ {l : List A} {r : List B},
    l.mapM f = .ok r ↔ List.Forall₂ (fun a b => f a = .ok b) l r
  | [], r => by
    simp only [List.mapM_nil, pure, Except.pure, Except.ok.injEq, List.forall₂_nil_left_iff]
    exact eq_comm
  | a :: l, r => by
    simp only [List.mapM_cons, bind, Except.bind, pure, Except.pure]
    cases h : f a with
    | error e =>
      simp only [reduceCtorEq, false_iff]
      intro hc
      cases hc with
      | cons h1 _ => rw [h] at h1; simp at h1
    | ok b =>
      cases h2 : l.mapM f with
      | error e =>
        simp only [reduceCtorEq, false_iff]
        intro hc
        cases hc with
        | cons _ h4 => rw [mapM_ok.2 h4] at h2; simp at h2
      | ok bs =>
        simp only [Except.ok.injEq]
        constructor
        · rintro rfl
          exact .cons h (mapM_ok.1 h2)
        · intro hc
          cases hc with
          | cons h3 h4 =>
            rw [h] at h3
            rw [mapM_ok.2 h4] at h2
            injection h3 with h3
            injection h2 with h2
            rw [h3, h2]

/-- The numbers read for a record are its multipliers. -/
theorem multipliers_ok {V : Type} {num : V → Option ℚ} {fields : List String} {idx : List ℕ} {record : List V}
    (h : directionFields.mapM (fieldIndex fields) = .ok idx) {m : Multipliers} :
    multipliers num record idx = .ok m ↔ MultOf num fields record m := by
  have hn : ∀ (k : ℕ) (x : ℚ), number num record k = .ok x ↔ ∃ v, record[k]? = some v ∧ num v = some x := by
    intro k x
    unfold number
    cases record[k]? with
    | none => simp
    | some v => cases hv : num v <;> simp [hv]
  have hi := mapM_ok.1 h
  obtain ⟨a0, l0, h0, hi0, e0⟩ := List.forall₂_cons_left_iff.1 hi
  obtain ⟨a1, l1, h1, hi1, e1⟩ := List.forall₂_cons_left_iff.1 hi0
  obtain ⟨a2, l2, h2, hi2, e2⟩ := List.forall₂_cons_left_iff.1 hi1
  obtain ⟨a3, l3, h3, hi3, e3⟩ := List.forall₂_cons_left_iff.1 hi2
  obtain ⟨a4, l4, h4, hi4, e4⟩ := List.forall₂_cons_left_iff.1 hi3
  obtain ⟨a5, l5, h5, hi5, e5⟩ := List.forall₂_cons_left_iff.1 hi4
  obtain ⟨a6, l6, h6, hi6, e6⟩ := List.forall₂_cons_left_iff.1 hi5
  obtain ⟨a7, l7, h7, hi7, e7⟩ := List.forall₂_cons_left_iff.1 hi6
  rw [List.forall₂_nil_left_iff] at hi7
  subst e0 e1 e2 e3 e4 e5 e6 e7 hi7
  rw [fieldIndex_ok] at h0 h1 h2 h3 h4 h5 h6 h7
  have hm : multipliers num record [a0, a1, a2, a3, a4, a5, a6, a7] = .ok m ↔
      [a0, a1, a2, a3, a4, a5, a6, a7].mapM (number num record) = .ok [m.n, m.ne, m.e, m.se, m.s, m.sw, m.w, m.nw] := by
    unfold multipliers
    cases hx : [a0, a1, a2, a3, a4, a5, a6, a7].mapM (number num record) with
    | error e => simp
    | ok l =>
      have hl : l.length = 8 := (mapM_ok.1 hx).length_eq.symm
      obtain ⟨b0, b1, b2, b3, b4, b5, b6, b7, rfl⟩ : ∃ b0 b1 b2 b3 b4 b5 b6 b7, l = [b0, b1, b2, b3, b4, b5, b6, b7] := by
        match l, hl with
        | [b0, b1, b2, b3, b4, b5, b6, b7], _ => exact ⟨_, _, _, _, _, _, _, _, rfl⟩
      cases m
      simp
  rw [hm, mapM_ok]
  simp only [List.forall₂_cons, List.Forall₂.nil, and_true, hn]
  constructor
  · rintro ⟨⟨v0, p0, q0⟩, ⟨v1, p1, q1⟩, ⟨v2, p2, q2⟩, ⟨v3, p3, q3⟩, ⟨v4, p4, q4⟩, ⟨v5, p5, q5⟩, ⟨v6, p6, q6⟩,
      v7, p7, q7⟩ d
    fin_cases d
    · exact ⟨a0, v0, h0, p0, q0⟩
    · exact ⟨a1, v1, h1, p1, q1⟩
    · exact ⟨a2, v2, h2, p2, q2⟩
    · exact ⟨a3, v3, h3, p3, q3⟩
    · exact ⟨a4, v4, h4, p4, q4⟩
    · exact ⟨a5, v5, h5, p5, q5⟩
    · exact ⟨a6, v6, h6, p6, q6⟩
    · exact ⟨a7, v7, h7, p7, q7⟩
  · intro hM
    have key : ∀ (d : Fin 8) (a : ℕ), Column fields (columnName d) a → ∃ v, record[a]? = some v ∧ num v = some (m.dir d) := by
      intro d a ha
      obtain ⟨k, v, hk, hv, hx⟩ := hM d
      rw [column_unique hk ha] at hv
      exact ⟨v, hv, hx⟩
    exact ⟨key 0 a0 h0, key 1 a1 h1, key 2 a2 h2, key 3 a3 h3, key 4 a4 h4, key 5 a5 h5, key 6 a6 h6, key 7 a7 h7⟩

theorem multOf_unique {V : Type} {num : V → Option ℚ} {fields : List String} {record : List V} {m m' : Multipliers}
    (h : MultOf num fields record m) (h' : MultOf num fields record m') : m = m' := by
  have hd : ∀ d, m.dir d = m'.dir d := by
    intro d
    obtain ⟨k, v, a, b, c⟩ := h d
    obtain ⟨k', v', a', b', c'⟩ := h' d
    rw [column_unique a' a, b] at b'
    injection b' with b'
    rw [← b', c] at c'
    injection c'
  have h0 := hd 0
  have h1 := hd 1
  have h2 := hd 2
  have h3 := hd 3
  have h4 := hd 4
  have h5 := hd 5
  have h6 := hd 6
  have h7 := hd 7
  cases m
  cases m'
  simp only [Stations.Multipliers.dir, Matrix.cons_val] at h0 h1 h2 h3 h4 h5 h6 h7
  simp_all

/-! ### Paths -/

theorem input_ne_output (a b : List Char) : inputFile a ≠ outputFile b := by
  simp [inputFile, outputFile]

theorem output_inj {a b : List Char} (h : outputFile a = outputFile b) : a = b := by
  simpa [outputFile] using h

/-- C163: the series read for a station is the file which the calculation of the wind fields writes for it, and what is
written goes to a file of the same name in a directory of its own. -/
theorem C163_files (id : List Char) : inputFile id = SeriesPlots.fileName id ∧
    outputFile id = "local/".toList ++ SeriesPlots.fileName id := by
  constructor <;> simp [inputFile, outputFile, SeriesPlots.fileName]

/-! ### The loop -/

section
variable {V : Type} (dir : ℚ → ℚ → ℚ) (text : V → List Char) (num : V → Option ℚ)

/-- What the loop writes to a path, from the series there were at the start (`inp`). -/
def written (key : ℕ) (idx : List ℕ) (inp : List Char → Option (List (Rec ℚ))) :
    List (List V) → List Char → Option (List (Rec ℚ))
  | [], _ => none
  | r :: rest, p => match written key idx inp rest p with
    | some l => some l
    | none => match r[key]? with
      | none => none
      | some v => match inp (text v) with
        | none => none
        | some rows => match multipliers num r idx with
          | .error _ => none
          | .ok m => if p = outputFile (text v) then some (rows.map (localise dir m)) else none

/-- A record can be handled: it names a station, and if that station has a series it is not empty and the
multipliers are numbers. -/
def Good (key : ℕ) (idx : List ℕ) (inp : List Char → Option (List (Rec ℚ))) (r : List V) : Prop :=
  ∃ v, r[key]? = some v ∧ ∀ rows, inp (text v) = some rows → rows ≠ [] ∧ ∃ m, multipliers num r idx = .ok m

/-- A row of a table: that of the series of the record. -/
def RowOf (key : ℕ) (idx : List ℕ) (inp : List Char → Option (List (Rec ℚ)))
    (P : List (Rec ℚ) → Rec ℚ → Prop) (r : List V) (row : Rec ℚ) : Prop :=
  ∃ v rows m, r[key]? = some v ∧ inp (text v) = some rows ∧ multipliers num r idx = .ok m ∧
    P (rows.map (localise dir m)) row

/-- The record has a series. -/
def hasSeries (key : ℕ) (inp : List Char → Option (List (Rec ℚ))) (r : List V) : Bool :=
  match r[key]? with
  | none => false
  | some v => (inp (text v)).isSome

theorem step_cases (key : ℕ) (idx : List ℕ) (s : List Char → Option (List (Rec ℚ))) (r : List V) :
    (∃ e, step dir text num key idx s r = .error e ∧ ¬Good text num key idx (fun id => s (inputFile id)) r) ∨
    (step dir text num key idx s r = .ok none ∧ hasSeries text key (fun id => s (inputFile id)) r = false ∧
      Good text num key idx (fun id => s (inputFile id)) r) ∨
    ∃ v rows m mx mn, step dir text num key idx s r = .ok (some (fun p => if p = outputFile (text v) then
        some (rows.map (localise dir m)) else s p, mx, mn)) ∧
      r[key]? = some v ∧ s (inputFile (text v)) = some rows ∧ multipliers num r idx = .ok m ∧
      FirstMax (rows.map (localise dir m)) mx ∧ FirstMin (rows.map (localise dir m)) mn ∧
      hasSeries text key (fun id => s (inputFile id)) r = true ∧
      Good text num key idx (fun id => s (inputFile id)) r := by
  unfold step Good hasSeries
  cases hk : r[key]? with
  | none => left; exact ⟨_, rfl, by simp⟩
  | some v =>
    cases hs : s (inputFile (text v)) with
    | none => right; left; simp [hs]
    | some rows =>
      cases hm : multipliers num r idx with
      | error e =>
        left
        refine ⟨e, by simp [hs], ?_⟩
        rintro ⟨w, hw, h⟩
        injection hw with hw
        subst hw
        obtain ⟨-, m, h'⟩ := h rows hs
        cases h'
      | ok m =>
        cases rows with
        | nil =>
          left
          refine ⟨.valueError, by simp [hs, tsmultiply], ?_⟩
          rintro ⟨w, hw, h⟩
          injection hw with hw
          subst hw
          exact (h [] hs).1 rfl
        | cons x l =>
          right; right
          refine ⟨v, x :: l, m, maxRec (localise dir m x) (l.map (localise dir m)),
            minRec (localise dir m x) (l.map (localise dir m)), by simp [hs, tsmultiply], rfl, hs, rfl, ?_, ?_, by simp [hs],
            v, rfl, ?_⟩
          · exact Stations.maxRec_spec _ _
          · exact Stations.minRec_spec _ _
          · intro rows hr
            change s (inputFile (text v)) = some rows at hr
            rw [hs] at hr
            injection hr with hr
            subst hr
            exact ⟨by simp, m, rfl⟩

/-- What holds after the loop. -/
theorem loop_spec (key : ℕ) (idx : List ℕ) : ∀ (recs : List (List V)) (s : List Char → Option (List (Rec ℚ)))
    (mx mn : List (Rec ℚ)),
    (∀ id, (loop dir text num key idx recs s mx mn).1 (inputFile id) = s (inputFile id)) ∧
    ((∃ e, (loop dir text num key idx recs s mx mn).2 = .error e ∧
        ∃ r ∈ recs, ¬Good text num key idx (fun id => s (inputFile id)) r) ∨
      ∃ X N, (loop dir text num key idx recs s mx mn).2 = .ok (mx ++ X, mn ++ N) ∧
        (∀ r ∈ recs, Good text num key idx (fun id => s (inputFile id)) r) ∧
        (∀ p, (loop dir text num key idx recs s mx mn).1 p =
          (written dir text num key idx (fun id => s (inputFile id)) recs p).or (s p)) ∧
        List.Forall₂ (RowOf dir text num key idx (fun id => s (inputFile id)) FirstMax)
          (recs.filter (hasSeries text key (fun id => s (inputFile id)))) X ∧
        List.Forall₂ (RowOf dir text num key idx (fun id => s (inputFile id)) FirstMin)
          (recs.filter (hasSeries text key (fun id => s (inputFile id)))) N)
  | [], s, mx, mn => by
    refine ⟨fun id => rfl, .inr ⟨[], [], by simp [loop], by simp, fun p => by simp [loop, written], ?_, ?_⟩⟩ <;> simp
  | r :: recs, s, mx, mn => by
    rcases step_cases dir text num key idx s r with ⟨e, he, hg⟩ | ⟨he, hf, hg⟩ | ⟨v, rows, m, x, n, he, hv, hr, hm, hx, hn, hf, hg⟩
    · simp only [loop, he]
      exact ⟨fun _ => trivial, .inl ⟨e, rfl, r, by simp, hg⟩⟩
    · simp only [loop, he]
      obtain ⟨h1, h2⟩ := loop_spec key idx recs s mx mn
      refine ⟨h1, ?_⟩
      rcases h2 with ⟨e, h3, r', hr', hg'⟩ | ⟨X, N, h3, h4, h5, h6, h7⟩
      · exact .inl ⟨e, h3, r', by simp [hr'], hg'⟩
      · refine .inr ⟨X, N, h3, ?_, ?_, ?_, ?_⟩
        · intro r' hr'
          rcases List.mem_cons.1 hr' with rfl | hr'
          · exact hg
          · exact h4 r' hr'
        · intro p
          rw [h5 p]
          congr 1
          simp only [written]
          cases written dir text num key idx (fun id => s (inputFile id)) recs p with
          | some l => rfl
          | none =>
            unfold hasSeries at hf
            cases hk : r[key]? with
            | none => rfl
            | some v =>
              rw [hk] at hf
              simp only [Option.isSome_eq_false_iff, Option.isNone_iff_eq_none] at hf
              simp [hf]
        · rwa [List.filter_cons_of_neg (by simp [hf])]
        · rwa [List.filter_cons_of_neg (by simp [hf])]
    · simp only [loop, he]
      have hinp : (fun id => (fun p => if p = outputFile (text v) then some (rows.map (localise dir m)) else s p)
          (inputFile id)) = fun id => s (inputFile id) := by
        funext id
        simp [input_ne_output]
      obtain ⟨h1, h2⟩ := loop_spec key idx recs
        (fun p => if p = outputFile (text v) then some (rows.map (localise dir m)) else s p) (mx ++ [x]) (mn ++ [n])
      rw [hinp] at h2
      refine ⟨fun id => ?_, ?_⟩
      · rw [h1 id]
        simp [input_ne_output]
      rcases h2 with ⟨e, h3, r', hr', hg'⟩ | ⟨X, N, h3, h4, h5, h6, h7⟩
      · exact .inl ⟨e, h3, r', by simp [hr'], hg'⟩
      · refine .inr ⟨x :: X, n :: N, by rw [h3]; simp, ?_, ?_, ?_, ?_⟩
        · intro r' hr'
          rcases List.mem_cons.1 hr' with rfl | hr'
          · exact hg
          · exact h4 r' hr'
        · intro p
          rw [h5 p]
          simp only [written]
          cases written dir text num key idx (fun id => s (inputFile id)) recs p with
          | some l => rfl
          | none =>
            simp only [hv, hr, hm]
            by_cases hp : p = outputFile (text v) <;> simp [hp]
        · rw [List.filter_cons_of_pos hf]
          exact .cons ⟨v, rows, m, hv, hr, hm, hx⟩ h6
        · rw [List.filter_cons_of_pos hf]
          exact .cons ⟨v, rows, m, hv, hr, hm, hn⟩ h7

/-- The run from the loop -/
theorem process_cases (sf : Shape V) (keyName : String) (f : Files) :
    (∃ e, processTimeseries dir text num sf keyName f = (f, some e) ∧
      ((¬∃ k, Column sf.fields keyName k) ∨ ∃ d, ¬∃ k, Column sf.fields (columnName d) k)) ∨
    ∃ key idx, Column sf.fields keyName key ∧ (∀ d, ∃ k, Column sf.fields (columnName d) k) ∧
      directionFields.mapM (fieldIndex sf.fields) = .ok idx ∧
      processTimeseries dir text num sf keyName f =
        match loop dir text num key idx sf.records f.series [] [] with
        | (series, .error e) => ({ f with series := series }, some e)
        | (series, .ok (mx, mn)) => (⟨series, some mx, some mn⟩, none) := by
  unfold processTimeseries
  cases hk : fieldIndex sf.fields keyName with
  | error e =>
    left
    refine ⟨e, rfl, .inl ?_⟩
    rintro ⟨k, h⟩
    rw [fieldIndex_ok.2 h] at hk
    cases hk
  | ok key =>
    have hk' := fieldIndex_ok.1 hk
    cases hd : directionFields.mapM (fieldIndex sf.fields) with
    | error e =>
      left
      refine ⟨e, rfl, .inr ?_⟩
      by_contra hc
      push Not at hc
      choose g hg using hc
      have : directionFields.mapM (fieldIndex sf.fields) = .ok [g 0, g 1, g 2, g 3, g 4, g 5, g 6, g 7] := by
        rw [mapM_ok]
        simp only [directionFields, List.forall₂_cons, List.Forall₂.nil, and_true, fieldIndex_ok]
        exact ⟨hg 0, hg 1, hg 2, hg 3, hg 4, hg 5, hg 6, hg 7⟩
      rw [this] at hd
      cases hd
    | ok idx =>
      right
      refine ⟨key, idx, hk', ?_, rfl, rfl⟩
      have hi := mapM_ok.1 hd
      obtain ⟨a0, l0, h0, hi0, e0⟩ := List.forall₂_cons_left_iff.1 hi
      obtain ⟨a1, l1, h1, hi1, e1⟩ := List.forall₂_cons_left_iff.1 hi0
      obtain ⟨a2, l2, h2, hi2, e2⟩ := List.forall₂_cons_left_iff.1 hi1
      obtain ⟨a3, l3, h3, hi3, e3⟩ := List.forall₂_cons_left_iff.1 hi2
      obtain ⟨a4, l4, h4, hi4, e4⟩ := List.forall₂_cons_left_iff.1 hi3
      obtain ⟨a5, l5, h5, hi5, e5⟩ := List.forall₂_cons_left_iff.1 hi4
      obtain ⟨a6, l6, h6, hi6, e6⟩ := List.forall₂_cons_left_iff.1 hi5
      obtain ⟨a7, l7, h7, hi7, e7⟩ := List.forall₂_cons_left_iff.1 hi6
      rw [fieldIndex_ok] at h0 h1 h2 h3 h4 h5 h6 h7
      intro d
      fin_cases d
      exacts [⟨a0, h0⟩, ⟨a1, h1⟩, ⟨a2, h2⟩, ⟨a3, h3⟩, ⟨a4, h4⟩, ⟨a5, h5⟩, ⟨a6, h6⟩, ⟨a7, h7⟩]

variable {dir text num}

theorem names_iff {fields : List String} {keyName : String} {key : ℕ} (hk : Column fields keyName key) {r : List V}
    {id : List Char} : Names text fields keyName r id ↔ ∃ v, r[key]? = some v ∧ text v = id := by
  constructor
  · rintro ⟨k, v, h, h1, h2⟩
    rw [column_unique h hk] at h1
    exact ⟨v, h1, h2⟩
  · rintro ⟨v, h1, h2⟩
    exact ⟨key, v, hk, h1, h2⟩

theorem good_iff {sf : Shape V} {keyName : String} {key : ℕ} {idx : List ℕ} (hk : Column sf.fields keyName key)
    (hd : directionFields.mapM (fieldIndex sf.fields) = .ok idx) {inp : List Char → Option (List (Rec ℚ))} {r : List V} :
    Good text num key idx inp r ↔ ∃ id, Names text sf.fields keyName r id ∧
      ∀ rows, inp id = some rows → rows ≠ [] ∧ ∃ m, MultOf num sf.fields r m := by
  unfold Good
  constructor
  · rintro ⟨v, h1, h2⟩
    refine ⟨text v, (names_iff hk).2 ⟨v, h1, rfl⟩, fun rows hr => ?_⟩
    obtain ⟨h3, m, hm⟩ := h2 rows hr
    exact ⟨h3, m, (multipliers_ok hd).1 hm⟩
  · rintro ⟨id, h1, h2⟩
    obtain ⟨v, h3, rfl⟩ := (names_iff hk).1 h1
    refine ⟨v, h3, fun rows hr => ?_⟩
    obtain ⟨h4, m, hm⟩ := h2 rows hr
    exact ⟨h4, m, (multipliers_ok hd).2 hm⟩

/-! ### The properties -/

/-- C163: the run ends without an error exactly if the file of stations has the field of the identifiers and the eight
fields of the multipliers, and every record whose station has a series has multipliers that are numbers and a series with
a record. -/
theorem C163_completes (sf : Shape V) (keyName : String) (f : Files) :
    (processTimeseries dir text num sf keyName f).2 = none ↔
      (∃ k, Column sf.fields keyName k) ∧ (∀ d, ∃ k, Column sf.fields (columnName d) k) ∧
      ∀ r ∈ sf.records, ∃ id, Names text sf.fields keyName r id ∧
        ∀ rows, f.series (inputFile id) = some rows → rows ≠ [] ∧ ∃ m, MultOf num sf.fields r m := by
  rcases process_cases dir text num sf keyName f with ⟨e, h, hc⟩ | ⟨key, idx, hk, hd, hi, h⟩
  · rw [h]
    simp only [reduceCtorEq, false_iff, not_and]
    intro h1 h2
    rcases hc with hc | ⟨d, hc⟩
    · exact absurd h1 hc
    · exact absurd (h2 d) hc
  · rw [h]
    obtain ⟨-, ⟨e, h1, r, hr, hg⟩ | ⟨X, N, h1, h2, -⟩⟩ := loop_spec dir text num key idx sf.records f.series [] []
    · generalize loop dir text num key idx sf.records f.series [] [] = L at h1
      obtain ⟨s, a⟩ := L
      simp only at h1
      subst h1
      simp only [reduceCtorEq, false_iff, not_and]
      intro _ _ hc
      exact hg ((good_iff hk hi).2 (hc r hr))
    · generalize loop dir text num key idx sf.records f.series [] [] = L at h1
      obtain ⟨s, a⟩ := L
      simp only at h1
      subst h1
      simp only [true_iff]
      exact ⟨⟨key, hk⟩, hd, fun r hr => (good_iff hk hi).1 (h2 r hr)⟩

/-- What a completed run has done. -/
theorem completed {sf : Shape V} {keyName : String} {f g : Files}
    (h : processTimeseries dir text num sf keyName f = (g, none)) :
    ∃ key idx X N, Column sf.fields keyName key ∧ directionFields.mapM (fieldIndex sf.fields) = .ok idx ∧
      g.maxima = some X ∧ g.minima = some N ∧
      (∀ p, g.series p = (written dir text num key idx (fun id => f.series (inputFile id)) sf.records p).or (f.series p)) ∧
      List.Forall₂ (RowOf dir text num key idx (fun id => f.series (inputFile id)) FirstMax)
          (sf.records.filter (hasSeries text key (fun id => f.series (inputFile id)))) X ∧
      List.Forall₂ (RowOf dir text num key idx (fun id => f.series (inputFile id)) FirstMin)
          (sf.records.filter (hasSeries text key (fun id => f.series (inputFile id)))) N ∧
      ∀ r ∈ sf.records, Good text num key idx (fun id => f.series (inputFile id)) r := by
  rcases process_cases dir text num sf keyName f with ⟨e, h', -⟩ | ⟨key, idx, hk, hd, hi, h'⟩
  · rw [h'] at h
    cases h
  · obtain ⟨-, ⟨e, h1, -⟩ | ⟨X, N, h1, h2, h3, h4, h5⟩⟩ := loop_spec dir text num key idx sf.records f.series [] []
    · rw [h'] at h
      generalize loop dir text num key idx sf.records f.series [] [] = L at h h1
      obtain ⟨s, a⟩ := L
      simp only at h1
      subst h1
      cases h
    · rw [h'] at h
      generalize loop dir text num key idx sf.records f.series [] [] = L at h h1 h3
      obtain ⟨s, a⟩ := L
      simp only at h1 h3
      subst h1
      cases h
      exact ⟨key, idx, X, N, hk, hi, by simp, by simp, h3, h4, h5, h2⟩

theorem written_last {key : ℕ} {idx : List ℕ} {inp : List Char → Option (List (Rec ℚ))} {r : List V} {v : V}
    {rows : List (Rec ℚ)} {m : Multipliers} (hv : r[key]? = some v) (hr : inp (text v) = some rows)
    (hm : multipliers num r idx = .ok m) {post : List (List V)}
    (hp : ∀ r' ∈ post, ∀ v', r'[key]? = some v' → text v' ≠ text v) : ∀ pre : List (List V),
    written dir text num key idx inp (pre ++ r :: post) (outputFile (text v)) = some (rows.map (localise dir m))
  | [] => by
    have hn : ∀ post : List (List V), (∀ r' ∈ post, ∀ v', r'[key]? = some v' → text v' ≠ text v) →
        written dir text num key idx inp post (outputFile (text v)) = none := by
      intro post
      induction post with
      | nil => intro _; rfl
      | cons a l ih =>
        intro h
        simp only [written, ih fun r' hr' => h r' (by simp [hr'])]
        split
        · rfl
        next w hw =>
          split
          · rfl
          · split
            · rfl
            · rw [if_neg]
              intro hc
              exact h a (by simp) w hw (output_inj hc).symm
    simp only [List.nil_append, written, hn post hp, hv, hr, hm]
    simp
  | a :: pre => by
    simp only [List.cons_append, written, written_last hv hr hm hp pre]

theorem written_mem {key : ℕ} {idx : List ℕ} {inp : List Char → Option (List (Rec ℚ))} {p : List Char} :
    ∀ {recs : List (List V)} {l : List (Rec ℚ)}, written dir text num key idx inp recs p = some l →
      ∃ r ∈ recs, ∃ v rows, r[key]? = some v ∧ inp (text v) = some rows ∧ p = outputFile (text v)
  | [], l, h => by simp [written] at h
  | r :: recs, l, h => by
    simp only [written] at h
    split at h
    next l' hl' =>
      obtain ⟨r', h1, h2⟩ := written_mem hl'
      exact ⟨r', by simp [h1], h2⟩
    · split at h
      · cases h
      next v hv =>
        split at h
        · cases h
        next rows hr =>
          split at h
          · cases h
          · split at h
            next hp => exact ⟨r, by simp, v, rows, hv, hr, hp⟩
            · cases h

/-- C163: after a completed run there is a local series for every station that has a record and a series: each record of
the series with the multipliers applied, in order.  If the file of stations has several records of the station, the
multipliers are those of the last one. -/
theorem C163_series {sf : Shape V} {keyName : String} {f g : Files}
    (h : processTimeseries dir text num sf keyName f = (g, none)) {pre post : List (List V)} {r : List V}
    (hrec : sf.records = pre ++ r :: post) {id : List Char} (hid : Names text sf.fields keyName r id)
    (hlast : ∀ r' ∈ post, ¬Names text sf.fields keyName r' id) {rows : List (Rec ℚ)}
    (hrows : f.series (inputFile id) = some rows) :
    ∃ m, MultOf num sf.fields r m ∧ g.series (outputFile id) = some (rows.map (localise dir m)) := by
  obtain ⟨key, idx, X, N, hk, hi, -, -, hs, -, -, hg⟩ := completed h
  obtain ⟨v, hv, rfl⟩ := (names_iff hk).1 hid
  obtain ⟨w, hw, hm⟩ := hg r (by simp [hrec])
  rw [hv] at hw
  injection hw with hw
  subst hw
  obtain ⟨-, m, hm⟩ := hm rows hrows
  refine ⟨m, (multipliers_ok hi).1 hm, ?_⟩
  rw [hs, hrec, written_last (inp := fun id => f.series (inputFile id)) hv hrows hm]
  · rfl
  · intro r' hr' v' hv' hc
    exact hlast r' hr' ((names_iff hk).2 ⟨v', hv', hc⟩)

/-- C163: a record of a local series has the time, place, components and pressure of the original; the gust is the
original one times the factor for the direction the components give (C89). -/
theorem C163_record (m : Multipliers) (r : Rec ℚ) :
    (localise dir m r).id = r.id ∧ (localise dir m r).time = r.time ∧ (localise dir m r).lon = r.lon ∧
    (localise dir m r).lat = r.lat ∧ (localise dir m r).uu = r.uu ∧ (localise dir m r).vv = r.vv ∧
    (localise dir m r).pressure = r.pressure ∧
    (localise dir m r).speed = r.speed * Stations.factor m (dir r.uu r.vv) ∧
    (localise dir m r).bearing = if r.speed * Stations.factor m (dir r.uu r.vv) = 0 then 0 else dir r.uu r.vv :=
  ⟨rfl, rfl, rfl, rfl, rfl, rfl, rfl, rfl, rfl⟩

open Classical in
/-- C163: the tables of a completed run have one row for each record whose station has a series, in the order of the
records: the first record of the local series with the largest gust, and the first with the lowest pressure. -/
theorem C163_tables {sf : Shape V} {keyName : String} {f g : Files}
    (h : processTimeseries dir text num sf keyName f = (g, none)) :
    ∃ X N, g.maxima = some X ∧ g.minima = some N ∧
      List.Forall₂ (fun r row => ∃ id rows m, Names text sf.fields keyName r id ∧ f.series (inputFile id) = some rows ∧
        MultOf num sf.fields r m ∧ FirstMax (rows.map (localise dir m)) row)
        (sf.records.filter fun r => ∃ id rows, Names text sf.fields keyName r id ∧ f.series (inputFile id) = some rows) X ∧
      List.Forall₂ (fun r row => ∃ id rows m, Names text sf.fields keyName r id ∧ f.series (inputFile id) = some rows ∧
        MultOf num sf.fields r m ∧ FirstMin (rows.map (localise dir m)) row)
        (sf.records.filter fun r => ∃ id rows, Names text sf.fields keyName r id ∧ f.series (inputFile id) = some rows) N := by
  obtain ⟨key, idx, X, N, hk, hi, hX, hN, -, h4, h5, -⟩ := completed h
  have hfil : (fun r : List V => decide (∃ id rows, Names text sf.fields keyName r id ∧ f.series (inputFile id) = some rows))
      = hasSeries text key (fun id => f.series (inputFile id)) := by
    funext r
    rw [Bool.eq_iff_iff]
    simp only [decide_eq_true_eq, names_iff hk]
    unfold hasSeries
    constructor
    · rintro ⟨id, rows, ⟨v, hv, rfl⟩, hr⟩
      simp [hv, hr]
    · intro hh
      cases hv : r[key]? with
      | none => simp [hv] at hh
      | some v =>
        simp only [hv] at hh
        obtain ⟨rows, hr⟩ := Option.isSome_iff_exists.1 hh
        exact ⟨text v, rows, ⟨v, rfl, rfl⟩, hr⟩
  rw [hfil]
  refine ⟨X, N, hX, hN, h4.imp ?_, h5.imp ?_⟩
  · rintro r row ⟨v, rows, m, a, b, c, d⟩
    exact ⟨text v, rows, m, (names_iff hk).2 ⟨v, a, rfl⟩, b, (multipliers_ok hi).1 c, d⟩
  · rintro r row ⟨v, rows, m, a, b, c, d⟩
    exact ⟨text v, rows, m, (names_iff hk).2 ⟨v, a, rfl⟩, b, (multipliers_ok hi).1 c, d⟩

/-- C163: the original series are left as they are, whether or not the run completes. -/
theorem C163_input_kept (sf : Shape V) (keyName : String) (f : Files) (id : List Char) :
    (processTimeseries dir text num sf keyName f).1.series (inputFile id) = f.series (inputFile id) := by
  rcases process_cases dir text num sf keyName f with ⟨e, h, -⟩ | ⟨key, idx, hk, hd, hi, h⟩
  · rw [h]
  · rw [h]
    have h1 := (loop_spec dir text num key idx sf.records f.series [] []).1 id
    generalize loop dir text num key idx sf.records f.series [] [] = L at h1 ⊢
    obtain ⟨s, a | a⟩ := L
    · exact h1
    · exact h1

/-- C163: a completed run changes no other files; in particular a series of a station that has no record in the file of
stations does not get a local series, without an error. -/
theorem C163_others_kept {sf : Shape V} {keyName : String} {f g : Files}
    (h : processTimeseries dir text num sf keyName f = (g, none)) {p : List Char}
    (hp : ∀ r ∈ sf.records, ∀ id, Names text sf.fields keyName r id → p ≠ outputFile id) : g.series p = f.series p := by
  obtain ⟨key, idx, X, N, hk, hi, -, -, hs, -⟩ := completed h
  rw [hs]
  cases hw : written dir text num key idx (fun id => f.series (inputFile id)) sf.records p with
  | none => rfl
  | some l =>
    obtain ⟨r, h1, v, rows, h2, -, h4⟩ := written_mem hw
    exact absurd h4 (hp r h1 _ ((names_iff hk).2 ⟨v, h2, rfl⟩))

/-- C163: a run that ends with an error leaves the tables as they were. -/
theorem C163_error (sf : Shape V) (keyName : String) (f : Files) {g : Files} {e : Err}
    (h : processTimeseries dir text num sf keyName f = (g, some e)) : g.maxima = f.maxima ∧ g.minima = f.minima := by
  rcases process_cases dir text num sf keyName f with ⟨e, h', -⟩ | ⟨key, idx, hk, hd, hi, h'⟩
  · rw [h'] at h
    cases h
    exact ⟨rfl, rfl⟩
  · rw [h'] at h
    generalize loop dir text num key idx sf.records f.series [] [] = L at h
    obtain ⟨s, a | a⟩ := L
    · cases h
      exact ⟨rfl, rfl⟩
    · cases h

theorem step_congr {key : ℕ} {idx : List ℕ} {s t : List Char → Option (List (Rec ℚ))}
    (h : ∀ id, s (inputFile id) = t (inputFile id)) (r : List V) :
    (step dir text num key idx s r).map (Option.map Prod.snd) = (step dir text num key idx t r).map (Option.map Prod.snd) := by
  unfold step
  cases r[key]? with
  | none => rfl
  | some v =>
    simp only [h]
    cases t (inputFile (text v)) with
    | none => rfl
    | some rows =>
      cases multipliers num r idx with
      | error e => rfl
      | ok m =>
        cases hh : tsmultiply dir m rows with
        | error e => simp [hh, Except.map]
        | ok a => simp [hh, Except.map]

theorem loop_congr {key : ℕ} {idx : List ℕ} : ∀ (recs : List (List V)) {s t : List Char → Option (List (Rec ℚ))}
    (_ : ∀ id, s (inputFile id) = t (inputFile id)) (mx mn : List (Rec ℚ)),
    (loop dir text num key idx recs s mx mn).2 = (loop dir text num key idx recs t mx mn).2
  | [], s, t, h, mx, mn => rfl
  | r :: recs, s, t, h, mx, mn => by
    have hc := step_congr (dir := dir) (text := text) (num := num) (key := key) (idx := idx) h r
    have ks := step_cases dir text num key idx s r
    have kt := step_cases dir text num key idx t r
    rcases ks with ⟨e, he, -⟩ | ⟨he, -⟩ | ⟨v, rows, m, x, n, he, -⟩ <;>
    rcases kt with ⟨e', he', -⟩ | ⟨he', -⟩ | ⟨v', rows', m', x', n', he', -⟩ <;>
    simp only [he, he', Except.map, Option.map, Except.error.injEq, Except.ok.injEq, Option.some.injEq, reduceCtorEq,
      Prod.mk.injEq] at hc <;> simp only [loop, he, he']
    · rw [hc]
    · exact loop_congr recs h _ _
    · rw [hc.1, hc.2]
      exact loop_congr recs (fun id => by simp [input_ne_output, h]) _ _

/-- C163: running it again changes nothing. -/
theorem C163_again {sf : Shape V} {keyName : String} {f g : Files}
    (h : processTimeseries dir text num sf keyName f = (g, none)) :
    processTimeseries dir text num sf keyName g = (g, none) := by
  have hin : ∀ id, g.series (inputFile id) = f.series (inputFile id) := by
    intro id
    have := C163_input_kept (dir := dir) (text := text) (num := num) sf keyName f id
    rwa [h] at this
  have hin' : (fun id => g.series (inputFile id)) = fun id => f.series (inputFile id) := funext hin
  rcases process_cases dir text num sf keyName f with ⟨e, h', -⟩ | ⟨key, idx, hk, hd, hi, h'⟩
  · rw [h'] at h
    cases h
  rcases process_cases dir text num sf keyName g with ⟨e, h'', hc⟩ | ⟨key', idx', hk', hd', hi', h''⟩
  · rcases hc with hc | ⟨d, hc⟩
    · exact absurd ⟨key, hk⟩ hc
    · exact absurd (hd d) hc
  obtain rfl := column_unique hk hk'
  rw [hi] at hi'
  injection hi' with hi'
  subst hi'
  have e2 := loop_congr (dir := dir) (text := text) (num := num) (key := key) (idx := idx) sf.records hin [] []
  obtain ⟨-, ⟨e, h1, -⟩ | ⟨X, N, h1, h2, h3, h4, h5⟩⟩ := loop_spec dir text num key idx sf.records f.series [] []
  · rw [h'] at h
    generalize loop dir text num key idx sf.records f.series [] [] = L at h h1
    obtain ⟨s, a⟩ := L
    simp only at h1
    subst h1
    cases h
  obtain ⟨-, ⟨e, g1, -⟩ | ⟨X', N', g1, g2, g3, g4, g5⟩⟩ := loop_spec dir text num key idx sf.records g.series [] []
  · rw [e2, h1] at g1
    cases g1
  rw [hin'] at g3
  rw [h'] at h
  rw [h'']
  generalize loop dir text num key idx sf.records f.series [] [] = L at h h1 h3 e2
  obtain ⟨s, a⟩ := L
  simp only at h1 h3 e2
  subst h1
  cases h
  generalize hL : loop dir text num key idx sf.records s [] [] = L' at e2 g3
  obtain ⟨s', a'⟩ := L'
  simp only at e2 g3
  subst e2
  have hs : s' = s := by
    funext p
    rw [g3 p, h3 p]
    cases written dir text num key idx (fun id => f.series (inputFile id)) sf.records p <;> rfl
  rw [hs]

end

/-! ### Examples -/

/-- A value of the example: a number or none, and a text -/
abbrev ExV := Option ℚ × List Char

/-- A station file with the identifiers in the field `WMO` and equal multipliers -/
def exShape (recs : List (List Char × Option ℚ)) : Shape ExV :=
  ⟨["WMO", "m4_n", "m4_ne", "m4_e", "m4_se", "m4_s", "m4_sw", "m4_w", "m4_nw"],
    recs.map fun r => (none, r.1) :: List.replicate 8 (r.2, [])⟩

/-- Series of two stations -/
def exFiles : Files :=
  ⟨fun p => if p = inputFile ['a'] then some [⟨['a'], 0, 1, 2, 10, -1, 0, 90, 990⟩, ⟨['a'], 1, 1, 2, 20, -1, 0, 90, 980⟩]
    else if p = inputFile ['b'] then some [⟨['b'], 0, 3, 4, 30, -1, 0, 90, 970⟩] else none, none, none⟩

/-- The direction of the example -/
def exDir : ℚ → ℚ → ℚ := fun _ _ => 90

/-- Both stations have a record: local series, and a row of each table for both. -/
example :
    let g := processTimeseries exDir Prod.snd Prod.fst (exShape [(['a'], some 2), (['b'], some 3)]) "WMO" exFiles
    g.2 = none ∧
    g.1.series (outputFile ['a']) = some [⟨['a'], 0, 1, 2, 20, -1, 0, 90, 990⟩, ⟨['a'], 1, 1, 2, 40, -1, 0, 90, 980⟩] ∧
    g.1.series (outputFile ['b']) = some [⟨['b'], 0, 3, 4, 90, -1, 0, 90, 970⟩] ∧
    g.1.maxima = some [⟨['a'], 1, 1, 2, 40, -1, 0, 90, 980⟩, ⟨['b'], 0, 3, 4, 90, -1, 0, 90, 970⟩] ∧
    g.1.minima = g.1.maxima := by decide +kernel

/-- C163 does not hold for a station that is in the file of the section `Timeseries`, from which the series are
collected, but not in that of the section `Input`, from which the multipliers are taken: the run completes, and the
station has no local series and no row. -/
theorem C163_left_out_fails :
    let g := processTimeseries exDir Prod.snd Prod.fst (exShape [(['b'], some 3)]) "WMO" exFiles
    g.2 = none ∧ (exFiles.series (inputFile ['a'])).isSome ∧ g.1.series (outputFile ['a']) = none ∧
    g.1.maxima = some [⟨['b'], 0, 3, 4, 90, -1, 0, 90, 970⟩] := by decide +kernel

/-- C163 does not hold for two records of a station: there are two rows for it in each table, the first of them with a
gust that is not in its local series. -/
theorem C163_repeated_fails :
    let g := processTimeseries exDir Prod.snd Prod.fst (exShape [(['b'], some 3), (['b'], some 2)]) "WMO" exFiles
    g.2 = none ∧ g.1.series (outputFile ['b']) = some [⟨['b'], 0, 3, 4, 60, -1, 0, 90, 970⟩] ∧
    g.1.maxima = some [⟨['b'], 0, 3, 4, 90, -1, 0, 90, 970⟩, ⟨['b'], 0, 3, 4, 60, -1, 0, 90, 970⟩] := by decide +kernel

/-- C163 does not hold for a record without numbers: the run ends there, the stations before have a local series and
those after do not, and there are no tables. -/
theorem C163_stopped_fails :
    let g := processTimeseries exDir Prod.snd Prod.fst (exShape [(['a'], some 2), (['b'], none)]) "WMO" exFiles
    g.2 = some .valueError ∧ (g.1.series (outputFile ['a'])).isSome ∧ g.1.series (outputFile ['b']) = none ∧
    g.1.maxima = none := by decide +kernel

/-- C163: if the field of the identifiers, or that of one of the multipliers, is not in the file, nothing is written. -/
theorem C163_no_field {V : Type} (dir : ℚ → ℚ → ℚ) (text : V → List Char) (num : V → Option ℚ) (sf : Shape V)
    (keyName : String) (f : Files) (h : keyName ∉ sf.fields ∨ ∃ d, columnName d ∉ sf.fields) :
    ∃ e, processTimeseries dir text num sf keyName f = (f, some e) := by
  rcases process_cases dir text num sf keyName f with ⟨e, h', -⟩ | ⟨key, idx, hk, hd, hi, h'⟩
  · exact ⟨e, h'⟩
  · rcases h with h | ⟨d, h⟩
    · exact absurd (List.mem_of_getElem? hk.1) h
    · obtain ⟨k, hk⟩ := hd d
      exact absurd (List.mem_of_getElem? hk.1) h

end Tcrm.LocalSeries
