import Verif.Model.Places
import Verif.Props.TextFiles
import Mathlib.Data.List.Nodup
import Mathlib.Data.List.Perm.Subperm
/-!
C162: stations and locations are those of the location files.
-/
namespace Tcrm.Places

open Tcrm.TextFiles (Text load save Loaded join split)

variable {V : Type} [DecidableEq V]

/-! ### Specification -/

/-- Every feature has a value for every field. -/
def WellFormed (sf : ShapeFile V) : Prop := ∀ f ∈ sf.features, f.record.length = sf.fields.length

/-- Feature `f` has the value `v` in the (first) field called `name`. -/
def HasValue (sf : ShapeFile V) (name : String) (f : Feature V) (v : V) : Prop :=
  ∃ k : ℕ, sf.fields[k]? = some name ∧ (∀ j < k, sf.fields[j]? ≠ some name) ∧ f.record[k]? = some v

/-- The same place on the globe, with the longitude in 0 to 360 -/
def SameLon (lon stored : ℚ) : Prop := 0 ≤ stored ∧ stored < 360 ∧ ∃ k : ℤ, lon = stored + 360 * k

/-! ### Lemmas -/

theorem idxOf?_spec {l : List String} {name : String} (h : name ∈ l) :
    ∃ k, l.idxOf? name = some k ∧ l[k]? = some name ∧ ∀ j < k, l[j]? ≠ some name := by
  induction l with
  | nil => cases h
  | cons a t ih =>
    by_cases e : a = name
    · subst e
      exact ⟨0, by simp [List.idxOf?_cons], rfl, by simp⟩
    · have h' : name ∈ t := by
        rcases List.mem_cons.1 h with rfl | h
        · exact absurd rfl e
        · exact h
      obtain ⟨k, h1, h2, h3⟩ := ih h'
      refine ⟨k + 1, ?_, by simpa using h2, ?_⟩
      · rw [List.idxOf?_cons]
        simp [e, h1]
      · intro j hj
        cases j with
        | zero => simpa using e
        | succ j => simpa using h3 j (by omega)

theorem first_unique {l : List String} {name : String} {j k : ℕ} (hj : l[j]? = some name) (hk : l[k]? = some name)
    (mj : ∀ i < j, l[i]? ≠ some name) (mk : ∀ i < k, l[i]? ≠ some name) : j = k := by
  rcases lt_trichotomy j k with h | h | h
  · exact absurd hj (mk j h)
  · exact h
  · exact absurd hk (mj k h)

theorem idxOf?_none {l : List String} {name : String} (h : name ∉ l) : l.idxOf? name = none := by
  rw [List.idxOf?_eq_none_iff]; exact h

section dict
variable {A B : Type} [DecidableEq A]

theorem put_keys (d : List (A × B)) (k : A) (v : B) :
    (put d k v).map (·.1) = if k ∈ d.map (·.1) then d.map (·.1) else d.map (·.1) ++ [k] := by
  unfold put
  split_ifs with h
  · rw [List.map_map]
    apply List.map_congr_left
    intro e _
    simp only [Function.comp]
    split_ifs with h'
    · exact h'.symm
    · rfl
  · simp

theorem put_nodup {d : List (A × B)} (h : (d.map (·.1)).Nodup) (k : A) (v : B) : ((put d k v).map (·.1)).Nodup := by
  rw [put_keys]
  split_ifs with hk
  · exact h
  · rw [List.nodup_append]
    exact ⟨h, by simp, fun a ha b hb => by simp at hb; subst hb; rintro rfl; exact hk ha⟩

theorem mem_put {d : List (A × B)} {k k' : A} {v v' : B} :
    (k', v') ∈ put d k v ↔ (k' = k ∧ v' = v) ∨ (k' ≠ k ∧ (k', v') ∈ d) := by
  unfold put
  split_ifs with h
  · rw [List.mem_map]
    constructor
    · rintro ⟨e, he, hx⟩
      split_ifs at hx with hk
      · cases hx; exact Or.inl ⟨rfl, rfl⟩
      · cases hx; exact Or.inr ⟨hk, he⟩
    · rintro (⟨rfl, rfl⟩ | ⟨hne, hm⟩)
      · obtain ⟨e, he, hk⟩ := List.mem_map.1 h
        exact ⟨e, he, by rw [if_pos hk]⟩
      · exact ⟨_, hm, by rw [if_neg hne]⟩
  · rw [List.mem_append, List.mem_singleton, Prod.mk.injEq]
    constructor
    · rintro (hm | hm)
      · refine Or.inr ⟨?_, hm⟩
        rintro rfl
        exact h (List.mem_map.2 ⟨_, hm, rfl⟩)
      · exact Or.inl hm
    · rintro (hm | hm)
      · exact Or.inr hm
      · exact Or.inl hm.2

theorem put_new {d : List (A × B)} {k : A} (h : k ∉ d.map (·.1)) (v : B) : put d k v = d ++ [(k, v)] := by
  unfold put; rw [if_neg h]

end dict

/-- Keys all new: the entries in order -/
theorem fill_new (idx : Option ℕ) (fs : List (Feature V)) (i : ℕ) (d : List (Key V × List (ℚ × ℚ)))
    (ks : List (Key V)) (hk : ks.length = fs.length)
    (h : ∀ j f k, fs[j]? = some f → ks[j]? = some k → keyOf idx (i + j) f = .ok k)
    (hn : (d.map (·.1) ++ ks).Nodup) :
    fill idx i fs d = .ok (d ++ ks.zip (fs.map (·.points))) := by
  induction fs generalizing i d ks with
  | nil => simp [fill]
  | cons f fs ih =>
    cases ks with
    | nil => simp at hk
    | cons k ks =>
      have h0 : keyOf idx i f = .ok k := by simpa using h 0 f k rfl rfl
      unfold fill
      simp only [h0]
      have hkd : k ∉ d.map (·.1) := fun hm =>
        (List.nodup_append.1 hn).2.2 k hm k (by simp) rfl
      rw [put_new hkd, ih (i + 1) _ ks (by simpa using hk)]
      · simp
      · intro j f' k' hf hk'
        have := h (j + 1) f' k' (by simpa using hf) (by simpa using hk')
        rw [show i + 1 + j = i + (j + 1) by omega]
        exact this
      · simpa using hn

/-- What the loop leaves: the entry of a key is that of its last feature. -/
theorem fill_spec (idx : Option ℕ) : ∀ (fs : List (Feature V)) (i : ℕ) (d : List (Key V × List (ℚ × ℚ))),
    (∀ j f, fs[j]? = some f → ∃ k, keyOf idx (i + j) f = .ok k) → (d.map (·.1)).Nodup →
    ∃ d', fill idx i fs d = .ok d' ∧ (d'.map (·.1)).Nodup ∧ ∀ k pts, (k, pts) ∈ d' ↔
      (∃ j f, fs[j]? = some f ∧ keyOf idx (i + j) f = .ok k ∧ f.points = pts ∧
        ∀ j' f', j < j' → fs[j']? = some f' → keyOf idx (i + j') f' ≠ .ok k) ∨
      ((k, pts) ∈ d ∧ ∀ j f, fs[j]? = some f → keyOf idx (i + j) f ≠ .ok k)
  | [], i, d, _, hn => ⟨d, rfl, hn, by simp⟩
  | f :: fs, i, d, h, hn => by
    obtain ⟨k0, hk0⟩ := h 0 f rfl
    obtain ⟨d', h1, h2, h3⟩ := fill_spec idx fs (i + 1) (put d k0 f.points)
      (fun j g hg => by
        obtain ⟨k, hk⟩ := h (j + 1) g (by simpa using hg)
        exact ⟨k, by rw [show i + 1 + j = i + (j + 1) by omega]; exact hk⟩) (put_nodup hn _ _)
    refine ⟨d', ?_, h2, ?_⟩
    · unfold fill
      simp only [Nat.add_zero] at hk0
      simp only [hk0, h1]
    · intro k pts
      rw [h3, mem_put]
      have sh : ∀ j, i + 1 + j = i + (j + 1) := fun j => by omega
      constructor
      · rintro (⟨j, g, hg, hk, hp, hl⟩ | ⟨hm, hl⟩)
        · refine Or.inl ⟨j + 1, g, by simpa using hg, by rw [← sh]; exact hk, hp, ?_⟩
          intro j' g' hj hg'
          obtain ⟨j'', rfl⟩ : ∃ j'', j' = j'' + 1 := ⟨j' - 1, by omega⟩
          rw [← sh]
          exact hl j'' g' (by omega) (by simpa using hg')
        · have hl' : ∀ j' g', 0 < j' → (f :: fs)[j']? = some g' → keyOf idx (i + j') g' ≠ .ok k := by
            intro j' g' hj hg'
            obtain ⟨j'', rfl⟩ : ∃ j'', j' = j'' + 1 := ⟨j' - 1, by omega⟩
            rw [← sh]
            exact hl j'' g' (by simpa using hg')
          rcases hm with ⟨rfl, rfl⟩ | ⟨hne, hm⟩
          · exact Or.inl ⟨0, f, rfl, hk0, rfl, hl'⟩
          · refine Or.inr ⟨hm, ?_⟩
            intro j' g' hg'
            cases j' with
            | zero =>
              simp only [List.getElem?_cons_zero, Option.some.injEq] at hg'
              subst hg'
              rw [hk0]
              intro e
              exact hne (Except.ok.inj e).symm
            | succ j' => exact hl' _ g' (by omega) hg'
      · rintro (⟨j, g, hg, hk, hp, hl⟩ | ⟨hm, hl⟩)
        · cases j with
          | zero =>
            simp only [List.getElem?_cons_zero, Option.some.injEq] at hg
            subst hg
            rw [hk0] at hk
            cases hk
            refine Or.inr ⟨Or.inl ⟨rfl, hp.symm⟩, ?_⟩
            intro j' g' hg'
            rw [sh]
            exact hl (j' + 1) g' (by omega) (by simpa using hg')
          | succ j =>
            refine Or.inl ⟨j, g, by simpa using hg, by rw [sh]; exact hk, hp, ?_⟩
            intro j' g' hj hg'
            rw [sh]
            exact hl (j' + 1) g' (by omega) (by simpa using hg')
        · refine Or.inr ⟨Or.inr ⟨?_, hm⟩, ?_⟩
          · rintro rfl
            exact hl 0 f rfl hk0
          · intro j' g' hg'
            rw [sh]
            exact hl (j' + 1) g' (by simpa using hg')

theorem keyIndex_some {sf : ShapeFile V} {name : String} (hne : name ≠ "") (hm : name ∈ sf.fields) :
    ∃ k, keyIndex sf (some name) = some k ∧ sf.fields[k]? = some name ∧ ∀ j < k, sf.fields[j]? ≠ some name := by
  obtain ⟨k, h1, h2, h3⟩ := idxOf?_spec hm
  exact ⟨k, by simp [keyIndex, hne, h1], h2, h3⟩

theorem keyOf_value {sf : ShapeFile V} (hw : WellFormed sf) {name : String} {k : ℕ} (h2 : sf.fields[k]? = some name)
    (h3 : ∀ j < k, sf.fields[j]? ≠ some name) {f : Feature V} (hf : f ∈ sf.features) (i : ℕ) :
    ∃ v, keyOf (some k) i f = .ok (.value v) ∧ HasValue sf name f v := by
  have hk : k < f.record.length := by
    rw [hw f hf]
    obtain ⟨h, -⟩ := List.getElem?_eq_some_iff.1 h2
    exact h
  exact ⟨f.record[k], by simp [keyOf, hk], k, h2, h3, List.getElem?_eq_getElem hk⟩

theorem hasValue_unique {sf : ShapeFile V} {name : String} {f : Feature V} {v w : V} (hv : HasValue sf name f v)
    (hw : HasValue sf name f w) : v = w := by
  obtain ⟨j, h1, h2, h3⟩ := hv
  obtain ⟨k, g1, g2, g3⟩ := hw
  obtain rfl := first_unique h1 g1 h2 g2
  rw [h3] at g3
  exact Option.some.inj g3

/-! ### Vertices of a shape file -/

/-- C162: without a key, the entries are those of the features in order, under their numbers. -/
theorem C162_numbered (sf : ShapeFile V) :
    ∃ d, getVertices sf none = .ok d ∧ d.length = sf.features.length ∧
      ∀ (i : ℕ) (f : Feature V), sf.features[i]? = some f → d[i]? = some (.number i, f.points) := by
  have hf := fill_new (V := V) none sf.features 0 [] ((List.range sf.features.length).map .number) (by simp)
    (by
      intro j f k hf hk
      have hj : j < sf.features.length := (List.getElem?_eq_some_iff.1 hf).1
      simp [hj] at hk
      simp [keyOf, ← hk])
    (by
      simp only [List.map_nil, List.nil_append]
      exact List.Nodup.map (fun a b h => by cases h; rfl) List.nodup_range)
  refine ⟨_, hf, by simp, ?_⟩
  intro i f hi
  have hj : i < sf.features.length := (List.getElem?_eq_some_iff.1 hi).1
  obtain ⟨_, he⟩ := List.getElem?_eq_some_iff.1 hi
  simp [List.getElem?_zip_eq_some, hj, he]

/-- C162: with a key field, there is one entry for each value in that field, holding the points of the last feature
with it. -/
theorem C162_keyed (sf : ShapeFile V) (hw : WellFormed sf) (name : String) (hne : name ≠ "") (hm : name ∈ sf.fields) :
    ∃ d, getVertices sf (some name) = .ok d ∧ (d.map (·.1)).Nodup ∧ ∀ k pts, (k, pts) ∈ d ↔
      ∃ v, k = .value v ∧ ∃ (i : ℕ) (f : Feature V), sf.features[i]? = some f ∧ HasValue sf name f v ∧ f.points = pts ∧
        ∀ (j : ℕ) (g : Feature V), i < j → sf.features[j]? = some g → ¬ HasValue sf name g v := by
  obtain ⟨k0, h1, h2, h3⟩ := keyIndex_some hne hm
  have key : ∀ (i j : ℕ) (f : Feature V), sf.features[j]? = some f → ∀ k, keyOf (some k0) i f = .ok k ↔
      ∃ v, k = .value v ∧ HasValue sf name f v := by
    intro i j f hf k
    obtain ⟨v, hv, hv'⟩ := keyOf_value hw h2 h3 (List.mem_of_getElem? hf) i
    rw [hv]
    constructor
    · intro h; cases h; exact ⟨v, rfl, hv'⟩
    · rintro ⟨w, rfl, hw'⟩; rw [hasValue_unique hv' hw']
  obtain ⟨d, hd, hn, hs⟩ := fill_spec (some k0) sf.features 0 []
    (fun j f hf => by
      obtain ⟨v, hv, -⟩ := keyOf_value hw h2 h3 (List.mem_of_getElem? hf) (0 + j)
      exact ⟨_, hv⟩) (by simp)
  refine ⟨d, by rw [getVertices, h1, hd], hn, ?_⟩
  intro k pts
  rw [hs]
  constructor
  · rintro (⟨j, f, hf, hk, hp, hl⟩ | ⟨h, -⟩)
    · obtain ⟨v, rfl, hv⟩ := (key _ j f hf k).1 hk
      refine ⟨v, rfl, j, f, hf, hv, hp, fun j' g hj hg hv' => ?_⟩
      exact hl j' g hj hg ((key _ j' g hg _).2 ⟨v, rfl, hv'⟩)
    · cases h
  · rintro ⟨v, rfl, j, f, hf, hv, hp, hl⟩
    refine Or.inl ⟨j, f, hf, (key _ j f hf _).2 ⟨v, rfl, hv⟩, hp, fun j' g hj hg hk => ?_⟩
    obtain ⟨w, hw1, hw2⟩ := (key _ j' g hg _).1 hk
    cases hw1
    exact hl j' g hj hg hw2

/-- C162: a key field that is not in the file is ignored; so the entries are numbered though a field was asked for. -/
theorem C162_no_field_fails (sf : ShapeFile V) (name : String) (hm : name ∉ sf.fields) :
    getVertices sf (some name) = getVertices sf none ∧
      ∀ d k pts, getVertices sf (some name) = .ok d → (k, pts) ∈ d → ∃ i, k = .number i := by
  have h0 : getVertices sf (some name) = getVertices sf none := by
    simp [getVertices, keyIndex, idxOf?_none hm]
  refine ⟨h0, fun d k pts hd hk => ?_⟩
  obtain ⟨d', h1, h2, h3⟩ := C162_numbered sf
  rw [h0, h1] at hd
  cases hd
  obtain ⟨i, hi, he⟩ := List.getElem_of_mem hk
  have hi' : i < sf.features.length := by omega
  have := h3 i _ (List.getElem?_eq_getElem hi')
  rw [List.getElem?_eq_getElem hi, he] at this
  simp only [Option.some.injEq, Prod.mk.injEq] at this
  exact ⟨i, this.1⟩

/-- C162: the values of a field, one for each feature, in order; an error exactly if there is no such field. -/
theorem C162_field (sf : ShapeFile V) (hw : WellFormed sf) (name : String) :
    (name ∉ sf.fields → getField sf name = .error .valueError) ∧
    (name ∈ sf.fields → ∃ vs, getField sf name = .ok vs ∧
      List.Forall₂ (fun f v => HasValue sf name f v) sf.features vs) := by
  constructor
  · intro h; simp [getField, idxOf?_none h]
  · intro h
    obtain ⟨k, h1, h2, h3⟩ := idxOf?_spec h
    simp only [getField, h1]
    have : ∀ fs : List (Feature V), (∀ f ∈ fs, f ∈ sf.features) → ∃ vs, (fs.mapM fun f =>
        (match f.record[k]? with | none => .error .indexError | some v => .ok v : Except Err V)) = .ok vs ∧
        List.Forall₂ (fun f v => HasValue sf name f v) fs vs := by
      intro fs
      induction fs with
      | nil => intro _; exact ⟨[], rfl, .nil⟩
      | cons f fs ih =>
        intro hm
        obtain ⟨vs, hv1, hv2⟩ := ih fun g hg => hm g (by simp [hg])
        have hk : k < f.record.length := by
          rw [hw f (hm f (by simp))]
          obtain ⟨h, -⟩ := List.getElem?_eq_some_iff.1 h2
          exact h
        refine ⟨f.record[k] :: vs, ?_, .cons ⟨k, h2, h3, List.getElem?_eq_getElem hk⟩ hv2⟩
        rw [List.mapM_cons, hv1]
        simp [hk, bind, Except.bind, pure, Except.pure]
    exact this sf.features fun f hf => hf

/-! ### Stations -/

theorem mapM_station {I : Type} : ∀ (d : List (I × List (ℚ × ℚ))), (∀ e ∈ d, e.2 ≠ []) →
    ∃ ss, d.mapM station = .ok ss ∧ List.Forall₂ (fun e s => ∃ p t, e.2 = p :: t ∧ s.id = e.1 ∧ s.lat = p.2 ∧
      s.lon = if p.1 < 0 then p.1 + 360 else p.1) d ss
  | [], _ => ⟨[], rfl, .nil⟩
  | e :: d, h => by
    obtain ⟨ss, h1, h2⟩ := mapM_station d fun e he => h e (by simp [he])
    obtain ⟨id, pts⟩ := e
    cases pts with
    | nil => exact absurd rfl (h (id, []) (by simp))
    | cons p t =>
      refine ⟨⟨id, if p.1 < 0 then p.1 + 360 else p.1, p.2⟩ :: ss, ?_, .cons ⟨p, t, rfl, rfl, rfl, rfl⟩ h2⟩
      rw [List.mapM_cons, h1]
      rfl

theorem mapM_station_error {I : Type} : ∀ (d : List (I × List (ℚ × ℚ))), (∃ e ∈ d, e.2 = []) →
    d.mapM station = .error .indexError
  | [], h => by obtain ⟨e, he, -⟩ := h; cases he
  | e :: d, h => by
    rw [List.mapM_cons]
    obtain ⟨id, pts⟩ := e
    cases pts with
    | nil => rfl
    | cons p t =>
      have : ∃ e ∈ d, e.2 = [] := by
        obtain ⟨e, he, h0⟩ := h
        rcases List.mem_cons.1 he with rfl | he
        · cases h0
        · exact ⟨e, he, h0⟩
      rw [mapM_station_error d this]
      rfl

/-- C162 (part): if the identifiers are distinct and every shape has a point, there is one station for each feature, in
order, at its first point (longitudes east of Greenwich) and under its identifier. -/
theorem C162_stations_partial (sf : ShapeFile V) (hw : WellFormed sf) (name : String) (hne : name ≠ "")
    (hm : name ∈ sf.fields) (ids : List V) (hi : List.Forall₂ (fun f v => HasValue sf name f v) sf.features ids)
    (hd : ids.Nodup) (hp : ∀ f ∈ sf.features, f.points ≠ []) :
    ∃ ss, shapeStations sf (some name) = .ok ss ∧ ss.length = sf.features.length ∧
      ∀ (i : ℕ) (f : Feature V) (v : V), sf.features[i]? = some f → ids[i]? = some v →
        ∃ s p t, ss[i]? = some s ∧ f.points = p :: t ∧ s.id = .value v ∧ s.lat = p.2 ∧
          (-360 ≤ p.1 → p.1 < 360 → SameLon p.1 s.lon) := by
  obtain ⟨k0, h1, h2, h3⟩ := keyIndex_some hne hm
  have hlen := hi.length_eq
  have hfill := fill_new (some k0) sf.features 0 [] (ids.map .value) (by simp [hlen])
    (by
      intro j f k hf hk
      simp only [List.getElem?_map, Option.map_eq_some_iff] at hk
      obtain ⟨v, hv, rfl⟩ := hk
      obtain ⟨w, hw1, hw2⟩ := keyOf_value hw h2 h3 (List.mem_of_getElem? hf) (0 + j)
      have hv' : HasValue sf name f v := by
        obtain ⟨hjf, rfl⟩ := List.getElem?_eq_some_iff.1 hf
        obtain ⟨hjv, rfl⟩ := List.getElem?_eq_some_iff.1 hv
        exact (List.forall₂_iff_get.1 hi).2 j hjf hjv
      rw [hw1, hasValue_unique hw2 hv'])
    (by
      simp only [List.map_nil, List.nil_append]
      exact List.Nodup.map (fun a b h => by cases h; rfl) hd)
  simp only [List.nil_append] at hfill
  obtain ⟨ss, g1, g2⟩ := mapM_station ((ids.map Key.value).zip (sf.features.map (·.points))) (by
    rintro ⟨k, pts⟩ he
    have := (List.of_mem_zip he).2
    obtain ⟨f, hf, rfl⟩ := List.mem_map.1 this
    exact hp f hf)
  refine ⟨ss, by rw [shapeStations, getVertices, h1, hfill]; exact g1, ?_, ?_⟩
  · rw [← g2.length_eq]; simp [hlen]
  · intro i f v hf hv
    obtain ⟨hif, rfl⟩ := List.getElem?_eq_some_iff.1 hf
    obtain ⟨hiv, rfl⟩ := List.getElem?_eq_some_iff.1 hv
    have his : i < ss.length := by rw [← g2.length_eq]; simp; omega
    have := (List.forall₂_iff_get.1 g2).2 i (by simp; omega) his
    simp only [List.get_eq_getElem, List.getElem_zip, List.getElem_map] at this
    obtain ⟨p, t, e1, e2, e3, e4⟩ := this
    refine ⟨ss[i], p, t, List.getElem?_eq_getElem his, e1, e2, e3, fun hlo hhi => ?_⟩
    rw [e4]
    split_ifs with hneg
    · exact ⟨by linarith, by linarith, -1, by push_cast; ring⟩
    · exact ⟨by linarith, hhi, 0, by push_cast; ring⟩

/-- C162 (the failure): of features with the same identifier, only the last gives a station; no station is at the place
of the others. -/
theorem C162_same_id_fails (sf : ShapeFile V) (hw : WellFormed sf) (name : String) (hne : name ≠ "")
    (hm : name ∈ sf.fields) (i j : ℕ) (hij : i < j) (f g : Feature V) (hf : sf.features[i]? = some f)
    (hg : sf.features[j]? = some g) (v : V) (hfv : HasValue sf name f v) (hgv : HasValue sf name g v)
    (ss : List (Station (Key V))) (hs : shapeStations sf (some name) = .ok ss) :
    ss.length < sf.features.length ∧
    ∀ s ∈ ss, s.id = .value v → ∃ (l : ℕ) (h : Feature V) (p : ℚ × ℚ), i < l ∧ sf.features[l]? = some h ∧
      HasValue sf name h v ∧ h.points.head? = some p ∧ s.lat = p.2 ∧ s.lon = if p.1 < 0 then p.1 + 360 else p.1 := by
  obtain ⟨d, h1, h2, h3⟩ := C162_keyed sf hw name hne hm
  have hd : ∀ e ∈ d, e.2 ≠ [] := by
    by_contra hcon
    push Not at hcon
    have := mapM_station_error d hcon
    rw [shapeStations, h1] at hs
    simp only at hs
    rw [this] at hs
    cases hs
  obtain ⟨ss', g1, g2⟩ := mapM_station d hd
  have : ss' = ss := by
    rw [shapeStations, h1] at hs
    simp only at hs
    rw [g1] at hs
    exact Except.ok.inj hs
  subst this
  constructor
  · rw [← g2.length_eq]
    -- choose for each entry the place of its feature
    have hplace : ∀ e ∈ d, ∃ l : ℕ, l < sf.features.length ∧ l ≠ i ∧ ∀ w : V, e.1 = .value w →
        ∃ h, sf.features[l]? = some h ∧ HasValue sf name h w := by
      rintro ⟨k, pts⟩ he
      obtain ⟨w, rfl, l, h, hl, hlw, hp, hlast⟩ := (h3 k pts).1 he
      refine ⟨l, (List.getElem?_eq_some_iff.1 hl).1, ?_, ?_⟩
      · rintro rfl
        rw [hf] at hl
        cases hl
        obtain rfl := hasValue_unique hfv hlw
        exact hlast j g hij hg hgv
      · intro w' e
        cases e
        exact ⟨h, hl, hlw⟩
    choose! place hp1 hp2 hp3 using hplace
    have hinj : ∀ e ∈ d, ∀ e' ∈ d, place e = place e' → e = e' := by
      rintro ⟨k, pts⟩ he ⟨k', pts'⟩ he' heq
      obtain ⟨w, rfl, -⟩ := (h3 k pts).1 he
      obtain ⟨w', rfl, -⟩ := (h3 k' pts').1 he'
      obtain ⟨h, a1, a2⟩ := hp3 _ he w rfl
      obtain ⟨h', b1, b2⟩ := hp3 _ he' w' rfl
      rw [heq, b1] at a1
      cases a1
      obtain rfl := hasValue_unique a2 b2
      have := List.inj_on_of_nodup_map h2 he he' rfl
      exact this
    have hdn : d.Nodup := List.Nodup.of_map _ h2
    have hnd : (d.map place).Nodup := List.Nodup.map_on hinj hdn
    have hsub : (i :: d.map place).Subperm (List.range sf.features.length) := by
      apply List.Nodup.subperm
      · rw [List.nodup_cons]
        refine ⟨?_, hnd⟩
        intro hc
        obtain ⟨e, he, hpe⟩ := List.mem_map.1 hc
        exact hp2 e he hpe
      · intro l hl
        rw [List.mem_range]
        rcases List.mem_cons.1 hl with rfl | hl
        · exact (List.getElem?_eq_some_iff.1 hf).1
        · obtain ⟨e, he, rfl⟩ := List.mem_map.1 hl
          exact hp1 e he
    have := hsub.length_le
    simp at this
    omega
  · intro s hs' hid
    obtain ⟨n, hn, rfl⟩ := List.getElem_of_mem hs'
    have hnd : n < d.length := by rw [g2.length_eq]; exact hn
    obtain ⟨p, t, e1, e2, e3, e4⟩ := (List.forall₂_iff_get.1 g2).2 n hnd hn
    simp only [List.get_eq_getElem] at e1 e2 e3 e4
    have hmem : (Key.value v, d[n].2) ∈ d := by
      rw [← hid, e2]
      exact List.getElem_mem hnd
    obtain ⟨w, hw1, l, h, hl, hlw, hp, hlast⟩ := (h3 _ _).1 hmem
    cases hw1
    refine ⟨l, h, p, ?_, hl, hlw, by rw [hp, e1]; rfl, e3, e4⟩
    by_contra hle
    rcases lt_or_eq_of_le (not_lt.1 hle) with hlt | rfl
    · exact hlast i f hlt hf hfv
    · exact hlast j g hij hg hgv

/-! ### The database of locations -/

theorem insertRows_spec : ∀ (rows table : List (Row V)), (∀ (i : ℕ) (r : Row V), table[i]? = some r → r.locId = i + 1) →
    ∃ new, insertRows table rows = table ++ new ∧
      List.Forall₂ (fun r r' => r' = { r with locId := r'.locId }) rows new ∧
      ∀ (i : ℕ) (r : Row V), (table ++ new)[i]? = some r → r.locId = i + 1
  | [], table, h => ⟨[], by simp [insertRows], .nil, by simpa using h⟩
  | r :: rows, table, h => by
    have hnext : nextId table = table.length + 1 := by
      have : ∀ l : List (Row V), ∀ n, (∀ (i : ℕ) (r : Row V), l[i]? = some r → r.locId = n + i + 1) → l ≠ [] →
          (l.map (·.locId)).foldr max 0 = n + l.length := by
        intro l
        induction l with
        | nil => intro n _ h; exact absurd rfl h
        | cons a l ih =>
          intro n h _
          have ha := h 0 a rfl
          by_cases hl : l = []
          · subst hl; simp [ha]
          · have := ih (n + 1) (fun i r hr => by
              have := h (i + 1) r (by simpa using hr)
              omega) hl
            simp only [List.map_cons, List.foldr_cons, this, ha, List.length_cons]
            omega
      unfold nextId
      by_cases ht : table = []
      · subst ht; rfl
      · rw [this table 0 (fun i r hr => by rw [h i r hr]; omega) ht]; omega
    obtain ⟨new, h1, h2, h3⟩ := insertRows_spec rows (table ++ [{ r with locId := nextId table }]) (by
      intro i q hq
      rw [List.getElem?_append] at hq
      split_ifs at hq with hi
      · exact h i q hq
      · rw [List.getElem?_singleton] at hq
        split_ifs at hq with h0
        cases hq
        simp only [hnext]
        omega)
    refine ⟨{ r with locId := nextId table } :: new, ?_, .cons rfl h2, ?_⟩
    · rw [insertRows, h1]; simp
    · intro i q hq
      exact h3 i q (by simpa using hq)

/-- What the location table holds of a feature -/
structure Describes (text : V → String) (source : String) (f : Feature V) (row : Row V) : Prop where
  code : (f.record[0]?).map text = some row.code
  comment : f.record[1]? = some row.comment
  name : f.record[2]? = some row.name
  country : f.record[4]? = some row.country
  elev : f.record[7]? = some row.elev
  source : row.source = source
  type : row.type = "AWS"
  place : ∃ p, f.points.head? = some p ∧ row.lat = p.2 ∧ SameLon p.1 row.lon

theorem storedLon_same (lon : ℚ) : SameLon lon (Database.storedLon lon) := by
  unfold Database.storedLon
  have h1 := Int.floor_le (lon / 360)
  have h2 := Int.lt_floor_add_one (lon / 360)
  rw [le_div_iff₀ (by norm_num)] at h1
  rw [div_lt_iff₀ (by norm_num)] at h2
  exact ⟨by linarith, by linarith, ⌊lon / 360⌋, by ring⟩

/-- A point that is taken to be a longitude and a latitude -/
def Geographic (p : ℚ × ℚ) : Prop := -721 ≤ p.1 ∧ p.1 ≤ 721 ∧ -91 ≤ p.2 ∧ p.2 ≤ 91

open Classical in
theorem check_spec (vs : List (Key V × List (ℚ × ℚ))) (hp : ∀ e ∈ vs, e.2 ≠ []) :
    check vs = if vs ≠ [] ∧ (∀ e ∈ vs, ∀ p, e.2.head? = some p → Geographic p) then .ok () else .error .valueError := by
  have h0 : ∀ vs : List (Key V × List (ℚ × ℚ)), (∀ e ∈ vs, e.2 ≠ []) → ∃ ps, (vs.mapM fun e => firstPoint e.2) = .ok ps ∧
      List.Forall₂ (fun e p => e.2.head? = some p) vs ps := by
    intro vs
    induction vs with
    | nil => intro _; exact ⟨[], rfl, .nil⟩
    | cons e vs ih =>
      intro h
      obtain ⟨ps, h1, h2⟩ := ih fun e he => h e (by simp [he])
      obtain ⟨k, pts⟩ := e
      cases pts with
      | nil => exact absurd rfl (h (k, []) (by simp))
      | cons p t =>
        refine ⟨p :: ps, ?_, .cons rfl h2⟩
        rw [List.mapM_cons, h1]
        rfl
  obtain ⟨ps, h1, h2⟩ := h0 vs hp
  unfold check
  rw [h1]
  simp only
  have hnil : ps = [] ↔ vs = [] := by
    rw [← List.length_eq_zero_iff, ← List.length_eq_zero_iff, h2.length_eq]
  by_cases hv : vs = []
  · rw [if_pos (hnil.2 hv), if_neg (by simp [hv])]
  · rw [if_neg (fun h => hv (hnil.1 h))]
    have hany : (ps.any fun p => decide (721 < p.1 ∨ p.1 < -721 ∨ 91 < p.2 ∨ p.2 < -91)) = true ↔
        ¬ ∀ e ∈ vs, ∀ p, e.2.head? = some p → Geographic p := by
      clear h1 hnil hv hp
      induction h2 with
      | nil => simp
      | @cons e p vs ps hep _ ih =>
        rw [List.any_cons, Bool.or_eq_true, ih, decide_eq_true_eq]
        simp only [List.forall_mem_cons, not_and_or]
        apply or_congr _ Iff.rfl
        constructor
        · intro hx hall
          obtain ⟨a, b, c, d⟩ := hall p hep
          rcases hx with hx | hx | hx | hx <;> linarith
        · intro hx
          push Not at hx
          obtain ⟨q, hq, hg⟩ := hx
          rw [hep] at hq
          cases hq
          by_contra hc
          push Not at hc
          exact hg ⟨hc.2.1, hc.1, hc.2.2.2, hc.2.2.1⟩
    by_cases hg : ∀ e ∈ vs, ∀ p, e.2.head? = some p → Geographic p
    · rw [if_neg (fun h => hany.1 h hg), if_pos ⟨hv, hg⟩]
    · rw [if_pos (hany.2 hg), if_neg (fun h => hg h.2)]

/-- C162: the table built from a location file has one row for each feature, in order, numbered from 1, with its columns
and its place; it is refused exactly if the file has no features or a point that cannot be a longitude and latitude. -/
theorem C162_locations (text : V → String) (source : String) (sf : ShapeFile V)
    (hr : ∀ f ∈ sf.features, 8 ≤ f.record.length) (hp : ∀ f ∈ sf.features, f.points ≠ []) :
    ((sf.features ≠ [] ∧ ∀ f ∈ sf.features, ∀ p, f.points.head? = some p → Geographic p) →
      ∃ table, ensureLocations text source sf none = .ok table ∧
        List.Forall₂ (Describes text source) sf.features table ∧
        ∀ (i : ℕ) (r : Row V), table[i]? = some r → r.locId = i + 1) ∧
    (¬ (sf.features ≠ [] ∧ ∀ f ∈ sf.features, ∀ p, f.points.head? = some p → Geographic p) →
      ensureLocations text source sf none = .error .valueError) := by
  obtain ⟨d, hd1, hd2, hd3⟩ := C162_numbered sf
  have hd : d.map (·.2) = sf.features.map (·.points) := by
    apply List.ext_getElem? 
    intro i
    by_cases hi : i < sf.features.length
    · have := hd3 i _ (List.getElem?_eq_getElem hi)
      simp [List.getElem?_map, this, hi]
    · rw [List.getElem?_eq_none (by simp; omega), List.getElem?_eq_none (by simp; omega)]
  have hmem : ∀ pts, (∃ e ∈ d, e.2 = pts) ↔ ∃ f ∈ sf.features, f.points = pts := by
    intro pts
    rw [← List.mem_map, hd, List.mem_map]
  have hdp : ∀ e ∈ d, e.2 ≠ [] := by
    intro e he h0
    obtain ⟨f, hf, hf0⟩ := (hmem []).1 ⟨e, he, h0⟩
    exact hp f hf hf0
  have hcond : (d ≠ [] ∧ ∀ e ∈ d, ∀ p, e.2.head? = some p → Geographic p) ↔
      (sf.features ≠ [] ∧ ∀ f ∈ sf.features, ∀ p, f.points.head? = some p → Geographic p) := by
    have e1 : d ≠ [] ↔ sf.features ≠ [] := by
      rw [← List.length_pos_iff, ← List.length_pos_iff, hd2]
    rw [e1]
    apply and_congr_right
    intro _
    constructor
    · intro h f hf p hpp
      obtain ⟨e, he, hep⟩ := (hmem f.points).2 ⟨f, hf, rfl⟩
      exact h e he p (by rw [hep]; exact hpp)
    · intro h e he p hpp
      obtain ⟨f, hf, hfp⟩ := (hmem e.2).1 ⟨e, he, rfl⟩
      exact h f hf p (by rw [hfp]; exact hpp)
  have hread : readShapeFile sf = .ok (d, sf.features.map (·.record)) := by
    simp [readShapeFile, hd1]
  simp only [ensureLocations, buildLocations, hread, check_spec d hdp]
  constructor
  · intro h
    rw [if_pos (hcond.2 h)]
    simp only
    have hent : ∀ (d : List (Key V × List (ℚ × ℚ))) (fs : List (Feature V)), d.map (·.2) = fs.map (·.points) →
        (∀ f ∈ fs, 8 ≤ f.record.length) → (∀ f ∈ fs, f.points ≠ []) →
        ∃ rows, ((d.zip (fs.map (·.record))).mapM fun x => entry text source "AWS" x.1.2 x.2) = .ok rows ∧
          List.Forall₂ (Describes text source) fs rows := by
      intro d fs
      induction fs generalizing d with
      | nil => intro h _ _; exact ⟨[], by simp [pure, Except.pure], .nil⟩
      | cons f fs ih =>
        intro h hr hp
        cases d with
        | nil => simp at h
        | cons e d =>
          simp only [List.map_cons, List.cons.injEq] at h
          obtain ⟨rows, q1, q2⟩ := ih d h.2 (fun f hf => hr f (by simp [hf])) (fun f hf => hp f (by simp [hf]))
          have h8 := hr f (by simp)
          have hpf := hp f (by simp)
          obtain ⟨p, t, hpt⟩ : ∃ p t, f.points = p :: t := by
            cases hq : f.points with
            | nil => exact absurd hq hpf
            | cons p t => exact ⟨p, t, rfl⟩
          have g0 : f.record[0]? = some f.record[0] := List.getElem?_eq_getElem (by omega)
          have g1 : f.record[1]? = some f.record[1] := List.getElem?_eq_getElem (by omega)
          have g2 : f.record[2]? = some f.record[2] := List.getElem?_eq_getElem (by omega)
          have g4 : f.record[4]? = some f.record[4] := List.getElem?_eq_getElem (by omega)
          have g7 : f.record[7]? = some f.record[7] := List.getElem?_eq_getElem (by omega)
          have hen : entry text source "AWS" e.2 f.record = .ok ⟨0, text f.record[0], f.record[2], "AWS",
              Database.storedLon p.1, p.2, f.record[7], f.record[4], source, f.record[1]⟩ := by
            simp only [entry, h.1, hpt, g0, g1, g2, g4, g7]
          refine ⟨(⟨0, text f.record[0], f.record[2], "AWS", Database.storedLon p.1, p.2, f.record[7], f.record[4],
            source, f.record[1]⟩ : Row V) :: rows, ?_, .cons ⟨?_, ?_, ?_, ?_, ?_, ?_, rfl, ?_⟩ q2⟩
          · simp only [List.map_cons, List.zip_cons_cons, List.mapM_cons, hen, q1]
            rfl
          · rw [g0]; rfl
          · exact g1
          · exact g2
          · exact g4
          · exact g7
          · rfl
          · exact ⟨p, by rw [hpt]; rfl, rfl, storedLon_same p.1⟩
    obtain ⟨rows, q1, q2⟩ := hent d sf.features hd hr hp
    rw [q1]
    simp only
    obtain ⟨new, n1, n2, n3⟩ := insertRows_spec rows [] (by simp)
    refine ⟨new, by rw [n1]; rfl, ?_, by simpa using n3⟩
    clear n1 n3 q1 hread hd hmem hcond
    have gen : ∀ {fs : List (Feature V)} {rows new : List (Row V)}, List.Forall₂ (Describes text source) fs rows →
        List.Forall₂ (fun r r' => r' = { r with locId := r'.locId }) rows new →
        List.Forall₂ (Describes text source) fs new := by
      intro fs rows new h1
      induction h1 generalizing new with
      | nil => intro h2; cases h2; exact .nil
      | cons a _ ih =>
        intro h2
        cases h2 with
        | cons b h2 =>
          refine .cons ?_ (ih h2)
          rw [b]
          exact ⟨a.code, a.comment, a.name, a.country, a.elev, a.source, a.type, a.place⟩
    exact gen q2 n2
  · intro h
    rw [if_neg (fun h' => h (hcond.1 h'))]

/-- C162 (the failure): once there is a database of locations, the configured location file has no effect. -/
theorem C162_later_file_fails (text : V → String) (source : String) (sf : ShapeFile V) (table : List (Row V)) :
    ensureLocations text source sf (some table) = .ok table := rfl

/-! ### Stations in a text file -/

/-- A word of a text file -/
def Word (t : Text) : Prop := t ≠ [] ∧ ∀ c ∈ t, c ≠ ' ' ∧ c ≠ '\n' ∧ c ≠ '\r' ∧ c ≠ ',' ∧ c ≠ '%'

/-- C162 (part): a text file of at least two lines of at least three words each gives one station for each line, in
order: the numbers in its first three columns. -/
theorem C162_csv_partial (lines : List (List Text)) (c : ℕ) (hc : 3 ≤ c) (h2 : 2 ≤ lines.length)
    (hl : ∀ l ∈ lines, l.length = c ∧ ∀ t ∈ l, Word t) :
    ∃ ss, csvStations (save [] lines) = .ok ss ∧ List.Forall₂ (fun l s =>
      l[0]?.map TextFiles.number = some s.1 ∧ l[1]?.map TextFiles.number = some s.2.1 ∧
      l[2]?.map TextFiles.number = some s.2.2) lines ss := by
  have hload := TextFiles.load_save (header := []) (by simp) (rows := lines)
    (vals := lines.map (·.map TextFiles.number)) (by rintro rfl; simp at h2) (c := c) (by omega) (fun r hr => (hl r hr).1)
    (by
      rw [List.forall₂_map_right_iff, List.forall₂_same]
      intro l hm
      refine ⟨l, ?_, rfl⟩
      rw [List.forall₂_same]
      intro t ht
      obtain ⟨a, b⟩ := (hl l hm).2 t ht
      exact ⟨⟨0, by simp⟩, a, b⟩)
  have htab : TextFiles.squeeze (lines.map (·.map TextFiles.number)) = .table (lines.map (·.map TextFiles.number)) := by
    match lines, h2, hl with
    | a :: b :: l, _, hl =>
      simp only [List.map_cons]
      rw [TextFiles.squeeze_two, if_neg]
      have := (hl a (by simp)).1
      simp only [List.all_cons, List.length_map, this, Bool.and_eq_true, decide_eq_true_eq, not_and]
      intro h
      omega
  unfold csvStations
  rw [hload, htab]
  simp only
  clear hload htab h2
  induction lines with
  | nil => exact ⟨[], rfl, .nil⟩
  | cons l lines ih =>
    obtain ⟨ss, h1, h3⟩ := ih fun l hm => hl l (by simp [hm])
    have h0 := (hl l (by simp)).1
    match l, h0 with
    | [], h0 => simp at h0; omega
    | [_], h0 => simp at h0; omega
    | [_, _], h0 => simp at h0; omega
    | w1 :: w2 :: w3 :: l, _ =>
      refine ⟨(TextFiles.number w1, TextFiles.number w2, TextFiles.number w3) :: ss, ?_, .cons ⟨rfl, rfl, rfl⟩ h3⟩
      rw [List.map_cons, List.mapM_cons, h1]
      rfl

/-- C162 (the failure): a station file of a single line gives an IndexError, whatever is in it. -/
theorem C162_one_line_fails (line : Text) (hn : '\n' ∉ line) :
    csvStations line = .error .indexError ∧ csvStations (line ++ ['\n']) = .error .indexError := by
  have key : ∀ t : Text, ((split '\n' t).map TextFiles.fields).filter (· ≠ []) =
      ([line].map TextFiles.fields).filter (· ≠ []) → csvStations t = .error .indexError := by
    intro t h
    unfold csvStations TextFiles.load
    simp only [h]
    by_cases h0 : TextFiles.fields line = []
    · simp [h0]
    · simp only [List.map_cons, List.map_nil, ne_eq, h0, not_false_eq_true, decide_true, List.filter_cons_of_pos,
        List.filter_nil, List.all_nil, if_true]
      match hm : (TextFiles.fields line).map TextFiles.number with
      | [] => rfl
      | [x] => rfl
      | x :: y :: l => rfl
  refine ⟨key _ (by rw [TextFiles.split_self hn]), key _ ?_⟩
  rw [TextFiles.split_cons hn]
  have : TextFiles.fields [] = [] := by decide
  by_cases h0 : TextFiles.fields line = [] <;> simp [split, this, h0]

/-- A word that is not a number: it begins with a letter that begins no number. -/
def Named (t : Text) : Prop := ∃ c l, t = c :: l ∧ c.isAlpha = true ∧ c ∉ ['i', 'I', 'n', 'N']

theorem number_named {t : Text} (hw : Word t) (h : Named t) : TextFiles.number t = none := by
  obtain ⟨c, l, rfl, ha, -⟩ := h
  unfold TextFiles.number
  rw [TextFiles.strip_core hw.1 hw.2]
  have hd : c ≠ '-' := by rintro rfl; revert ha; decide
  have hdig : c.isDigit = false := by
    by_contra hcon
    simp only [Bool.not_eq_false] at hcon
    simp only [Char.isAlpha, Char.isUpper, Char.isLower, Char.isDigit, Bool.or_eq_true, Bool.and_eq_true,
      decide_eq_true_eq] at ha hcon
    rcases ha with ⟨h1, h2⟩ | ⟨h1, h2⟩
    · have := hcon.2
      exact absurd (UInt32.le_trans h1 this) (by decide)
    · have := hcon.2
      exact absurd (UInt32.le_trans h1 this) (by decide)
  have hdot : c ≠ '.' := by rintro rfl; revert ha; decide
  split
  · rename_i s heq
    cases heq
    exact absurd rfl hd
  · unfold TextFiles.unsigned
    have hs : ∃ h t, split '.' (c :: l) = (c :: h) :: t := by
      unfold split
      rw [if_neg hdot]
      split
      · exact ⟨[], [], rfl⟩
      · rename_i h t _
        exact ⟨h, t, rfl⟩
    obtain ⟨h, t, hs⟩ := hs
    rw [hs]
    match t with
    | [] => simp [hdig]
    | [b] => simp [hdig]
    | _ :: _ :: _ => rfl

/-- C162 (the failure): stations with names in a text file lose them, so that all have the same identifier. -/
theorem C162_names_fails (lines : List (List Text)) (c : ℕ) (hc : 3 ≤ c) (h2 : 2 ≤ lines.length)
    (hl : ∀ l ∈ lines, l.length = c ∧ ∀ t ∈ l, Word t) (hn : ∀ l ∈ lines, ∀ t, l[0]? = some t → Named t) :
    ∃ ss, csvStations (save [] lines) = .ok ss ∧ ss.length = lines.length ∧ ∀ s ∈ ss, s.1 = none := by
  obtain ⟨ss, h1, h3⟩ := C162_csv_partial lines c hc h2 hl
  refine ⟨ss, h1, h3.length_eq.symm, ?_⟩
  intro s hs
  obtain ⟨i, hi, rfl⟩ := List.getElem_of_mem hs
  have hil : i < lines.length := by rw [h3.length_eq]; exact hi
  have h := ((List.forall₂_iff_get.1 h3).2 i hil hi).1
  simp only [List.get_eq_getElem] at h
  have hm := List.getElem_mem hil
  have h0 : 0 < lines[i].length := by rw [(hl _ hm).1]; omega
  have e : lines[i][0]? = some lines[i][0] := List.getElem?_eq_getElem h0
  rw [e] at h
  simp only [Option.map_some, Option.some.injEq] at h
  rw [← h]
  exact number_named ((hl _ hm).2 _ (List.getElem_mem h0)) (hn _ hm _ e)

/-! ### Examples -/

/-- Two stations, one west of Greenwich -/
def exFile : ShapeFile String := ⟨["WMO", "Place"], [⟨["94120", "Darwin"], [(131, -12)]⟩, ⟨["91285", "Hilo"], [(-155, 20)]⟩]⟩

example : WellFormed exFile ∧ HasValue exFile "WMO" ⟨["94120", "Darwin"], [(131, -12)]⟩ "94120" :=
  ⟨by intro f hf; simp [exFile] at hf; rcases hf with rfl | rfl <;> rfl, 0, rfl, by simp, rfl⟩

example : (shapeStations exFile (some "WMO")).toOption =
    some [⟨.value "94120", 131, -12⟩, ⟨.value "91285", 205, 20⟩] := by decide +kernel

/-- With an identifier that occurs twice there is one station. -/
example : (shapeStations (⟨["WMO"], [⟨["1"], [(131, -12)]⟩, ⟨["1"], [(140, -15)]⟩]⟩ : ShapeFile String) (some "WMO")).toOption =
    some [⟨.value "1", 140, -15⟩] := by decide +kernel

/-- A location file in projected coordinates is refused, one in degrees is not. -/
example : (buildLocations id "f" (⟨[], [⟨["a", "b", "c", "d", "e", "f", "g", "h"], [(5000, 300)]⟩]⟩ : ShapeFile String) []).toOption
      = none ∧
    (buildLocations id "f" (⟨[], [⟨["a", "b", "c", "d", "e", "f", "g", "h"], [(-10, 30)]⟩]⟩ : ShapeFile String) []).toOption =
      some [⟨1, "a", "c", "AWS", 350, 30, "h", "e", "f", "b"⟩] := by decide +kernel

example : (csvStations "1,130,-12\n2,131,-13\n".toList).toOption =
      some [(some 1, some 130, some (-12)), (some 2, some 131, some (-13))] ∧
    (csvStations "Darwin,130,-12\nHilo,131,-13\n".toList).toOption =
      some [(none, some 130, some (-12)), (none, some 131, some (-13))] ∧
    (csvStations "1,130,-12\n".toList).toOption = none := by decide +kernel

end Tcrm.Places
