import Verif.Spec.Event
import Verif.Lemmas.GustFiles
import Verif.Props.WindRun
/-!
C138: the map of an event simulation shows the wind field of the event.
-/
namespace Tcrm.Event

open Tcrm.Windfield Tcrm.WindRun

theorem crop_none (f : File) : Shows none f (crop none f) := by
  refine ⟨by simp [crop], by simp [crop], by simp [crop], by simp [crop], ?_⟩
  intro j i row v hj hi
  simp only [crop, List.getElem?_map, Option.map_eq_some_iff] at hj
  obtain ⟨j', hj', rfl⟩ := hj
  simp only [List.getElem?_map, Option.map_eq_some_iff] at hi
  obtain ⟨i', hi', rfl⟩ := hi
  obtain ⟨hjl, ej⟩ := List.getElem?_eq_some_iff.1 hj'
  obtain ⟨hil, ei⟩ := List.getElem?_eq_some_iff.1 hi'
  simp only [List.length_range, List.getElem_range] at hjl ej hil ei
  subst ej ei
  exact ⟨j, i, f.lats[j], f.lons[i], by simp [hjl], by simp [hil], by simp [crop, hjl], by simp [crop, hil], rfl⟩

theorem getD_of_lt {α : Type} {l : List α} {i : ℕ} (h : i < l.length) (d : α) : l[i]? = some (l.getD i d) := by
  simp [h]

theorem mem_pick {l : List ℤ} {p : ℤ → Bool} (x : ℤ) :
    x ∈ ((List.range l.length).filter fun i => p (l.getD i 0)).map (fun i => l.getD i 0) ↔ x ∈ l ∧ p x = true := by
  simp only [List.mem_map, List.mem_filter, List.mem_range]
  constructor
  · rintro ⟨i, ⟨hi, hp⟩, rfl⟩
    refine ⟨?_, hp⟩
    have e : l.getD i 0 = l[i] := by simp [hi]
    rw [e]; exact List.getElem_mem hi
  · rintro ⟨hx, hp⟩
    obtain ⟨i, hi, rfl⟩ := List.getElem_of_mem hx
    have e : l.getD i 0 = l[i] := by simp [hi]
    exact ⟨i, ⟨hi, by rw [e]; exact hp⟩, e⟩

theorem crop_some (gl : Limits) (f : File) : Shows (some gl) f (crop (some gl) f) := by
  refine ⟨?_, ?_, by simp [crop], ?_, ?_⟩
  · intro x
    have := mem_pick (l := f.lons) (p := fun x : ℤ => decide (gl.xMin ≤ (x : ℚ) / 100) && decide ((x : ℚ) / 100 ≤ gl.xMax)) x
    simpa only [crop, Within, Option.some.injEq, forall_eq', Bool.and_eq_true, decide_eq_true_eq] using this
  · intro x
    have := mem_pick (l := f.lats) (p := fun x : ℤ => decide (gl.yMin ≤ (x : ℚ) / 100) && decide ((x : ℚ) / 100 ≤ gl.yMax)) x
    simpa only [crop, Within, Option.some.injEq, forall_eq', Bool.and_eq_true, decide_eq_true_eq] using this
  · intro row hrow
    simp only [crop, List.mem_map] at hrow
    obtain ⟨j, -, rfl⟩ := hrow
    simp [crop]
  · intro j i row v hj hi
    simp only [crop, List.getElem?_map, Option.map_eq_some_iff] at hj
    obtain ⟨j', hj', rfl⟩ := hj
    simp only [List.getElem?_map, Option.map_eq_some_iff] at hi
    obtain ⟨i', hi', rfl⟩ := hi
    have hjm := List.mem_of_getElem? hj'
    have him := List.mem_of_getElem? hi'
    rw [List.mem_filter, List.mem_range] at hjm him
    refine ⟨j', i', f.lats.getD j' 0, f.lons.getD i' 0, getD_of_lt hjm.1 0, getD_of_lt him.1 0, ?_, ?_, rfl⟩
    · simp only [crop, List.getElem?_map, hj', Option.map_some]
    · simp only [crop, List.getElem?_map, hi', Option.map_some]

theorem crop_shows (region : Option Limits) (f : File) : Shows region f (crop region f) := by
  cases region with
  | none => exact crop_none f
  | some gl => exact crop_some gl f

/-- Names of the files written are those of the tracks. -/
theorem dump_names (P : Params) : ∀ (ts : List Track) (gl : Option Limits) (present : List Name)
    {ws : List (Name × File)}, dump P gl present ts = .ok ws → ∀ w ∈ ws, ∃ t ∈ ts, w.1 = GustFiles.gustName t.id
  | [], _, _, ws, h, w, hw => by
    simp only [dump, Except.ok.injEq] at h
    subst h; simp at hw
  | t :: ts, gl, present, ws, h, w, hw => by
    simp only [dump] at h
    split at h
    · obtain ⟨u, hu, e⟩ := dump_names P ts gl present h w hw
      exact ⟨u, List.mem_cons_of_mem _ hu, e⟩
    · split at h
      · exact absurd h (by simp)
      · split at h
        · exact absurd h (by simp)
        · rename_i ws' hws
          rw [Except.ok.injEq] at h
          subst h
          rcases List.mem_cons.1 hw with rfl | hw
          · exact ⟨t, List.mem_cons_self, rfl⟩
          · obtain ⟨u, hu, e⟩ := dump_names P ts _ _ hws w hw
            exact ⟨u, List.mem_cons_of_mem _ hu, e⟩

theorem dash_mem_gustName (id : ℕ × ℕ) : '-' ∈ GustFiles.gustName id := by
  unfold GustFiles.gustName
  exact List.mem_append_left _ (List.mem_append_left _ (List.mem_append_right _ (by decide)))

theorem splitDots_cons {c : Char} (h : c ≠ '.') {s w : Name} {ws : List Name} (hs : splitDots s = w :: ws) :
    splitDots (c :: s) = (c :: w) :: ws := by
  rw [splitDots, if_neg h, hs]

theorem splitDots_append : ∀ {a : Name}, '.' ∉ a → ∀ s, splitDots (a ++ '.' :: s) = a :: splitDots s
  | [], _, s => by simp [splitDots]
  | c :: a, h, s => by
    rw [List.mem_cons, not_or] at h
    exact splitDots_cons (fun e => h.1 e.symm) (splitDots_append h.2 s)

theorem dot_notMem_pad (w n : ℕ) : '.' ∉ GustFiles.pad w n := fun h => by
  have := GustFiles.isDigit_of_mem_pad h
  revert this; decide

/-- The track file of a simulated year -/
def trackFile (year : ℕ) : Name := "tracks.".toList ++ GustFiles.pad 5 year ++ ".nc".toList

theorem mapped_trackFile (year : ℕ) :
    mapped (trackFile year) = some ("gust.".toList ++ GustFiles.pad 5 year ++ ".nc".toList) := by
  have e : trackFile year = "tracks".toList ++ '.' :: (GustFiles.pad 5 year ++ '.' :: "nc".toList) := by
    have e1 : "tracks.".toList = "tracks".toList ++ ['.'] := by decide
    have e2 : ".nc".toList = '.' :: "nc".toList := by decide
    unfold trackFile
    rw [e1, e2, List.append_assoc, List.append_assoc]
    rfl
  have h1 : endsWith (trackFile year) ".nc".toList = true := by
    unfold endsWith trackFile
    rw [List.isSuffixOf_iff_suffix]
    exact List.suffix_append _ _
  unfold mapped
  rw [if_pos h1, e, splitDots_append (by decide), splitDots_append (dot_notMem_pad 5 year)]
  rfl

theorem find_ok {F : Type} [LinearOrder F] {c : Config} {input : Name} {e : F} {tracks : List Track}
    {others : F → List Track} {listing : List F} {old : List (Name × File)} {m : Map} {d : List (Name × File)}
    (h : run c input e tracks others listing old = .ok (m, d)) :
    ∃ ts new name f, Balanced.tracksOfRank (fun f => filterTracks (c.wind.orElse fun _ => c.region) c.params.margin
        (Function.update others e tracks f)) listing 1 0 = some ts ∧
      dump c.params (c.wind.orElse fun _ => c.region) (old.map (·.1)) ts = .ok new ∧ mapped input = some name ∧
      f ∈ old ++ new ∧ f.1 = name ∧ (old ++ new).find? (fun f => f.1 = name) = some f ∧
      m = crop c.region f.2 ∧ d = old ++ new := by
  unfold run at h
  simp only at h
  split at h
  · exact absurd h (by simp)
  · rename_i ts hts
    split at h
    · exact absurd h (by simp)
    · rename_i new hnew
      split at h
      · exact absurd h (by simp)
      · rename_i name hname
        split at h
        · exact absurd h (by simp)
        · rename_i f hf
          split at h
          · exact absurd h (by simp)
          · simp only [Except.ok.injEq, Prod.mk.injEq] at h
            exact ⟨ts, new, name, f, hts, hnew, hname, List.mem_of_find?_eq_some hf,
              by simpa using List.find?_some hf, hf, h.1.symm, h.2.symm⟩

/-- The event is one of a simulated year, taken from its track file: the run never gives a map, whatever the settings, the
tracks and the wind fields already there. -/
theorem C138_simulated_event_fails {F : Type} [LinearOrder F] (c : Config) (year : ℕ) (e : F) (tracks : List Track)
    (others : F → List Track) (listing : List F) (old : List (Name × File))
    (hold : ∀ f ∈ old, ∃ id, f.1 = GustFiles.gustName id) :
    ∃ x, run c (trackFile year) e tracks others listing old = .error x := by
  cases h : run c (trackFile year) e tracks others listing old with
  | error x => exact ⟨x, rfl⟩
  | ok r =>
    obtain ⟨m, d⟩ := r
    obtain ⟨ts, new, name, f, -, hnew, hname, hf, rfl, -⟩ := find_ok h
    rw [mapped_trackFile, Option.some.injEq] at hname
    have : ∃ id, f.1 = GustFiles.gustName id := by
      rcases List.mem_append.1 hf with hf | hf
      · exact hold f hf
      · obtain ⟨t, -, ht⟩ := dump_names _ _ _ _ hnew f hf
        exact ⟨t.id, ht⟩
    obtain ⟨id, hid⟩ := this
    have hd := dash_mem_gustName id
    rw [← hid, ← hname] at hd
    simp only [List.mem_append] at hd
    rcases hd with (hd | hd) | hd
    · exact absurd hd (by decide)
    · exact absurd hd (GustFiles.dash_notMem_pad 5 year)
    · exact absurd hd (by decide)

theorem gustName_one : GustFiles.gustName (1, 1) = "gust.001-00001.nc".toList := by decide +kernel

theorem mapped_other {input : Name} (h : endsWith input ".nc".toList = false) :
    mapped input = some (GustFiles.gustName (1, 1)) := by
  rw [gustName_one]; unfold mapped; rw [if_neg (by rw [h]; exact Bool.false_ne_true)]

theorem tracks_single {F : Type} [LinearOrder F] (load : F → List Track) (e : F) :
    Balanced.tracksOfRank load [e] 1 0 = some (load e) := by
  have : ∀ l : List Track, Balanced.everyNth 1 l = l := by
    intro l
    induction l with
    | nil => simp [Balanced.everyNth]
    | cons x l ih => rw [Balanced.everyNth]; simpa using ih
  simp [Balanced.tracksOfRank, Balanced.loadTracksFromFiles, Balanced.balanced, this]

theorem mem_filterTracks {gl : Option Limits} {m : ℚ} {l : List Track} {t : Track} (h : t ∈ filterTracks gl m l) : t ∈ l := by
  unfold filterTracks at h
  split at h
  · exact (List.mem_filter.1 h).1
  · exact h

/-- A table with no event or several events, or a BoM file of one event: the run in a new directory never gives a map. -/
theorem C138_several_events_fails {F : Type} [LinearOrder F] (c : Config) (input : Name) (e : F) (tracks : List Track)
    (others : F → List Track) (own : List (ℕ × ℕ)) (hnc : endsWith input "nc".toList = false)
    (hn : if endsWith input "xml".toList then tracks.length = 1 else tracks.length ≠ 1)
    (hid : tracks.map (·.id) = identifiers input own tracks.length) :
    ∃ x, run c input e tracks others [e] [] = .error x := by
  cases h : run c input e tracks others [e] [] with
  | error x => exact ⟨x, rfl⟩
  | ok r =>
    obtain ⟨m, d⟩ := r
    obtain ⟨ts, new, name, f, hts, hnew, hname, hf, rfl, -⟩ := find_ok h
    have hnc' : endsWith input ".nc".toList = false := by
      by_contra hc
      rw [Bool.not_eq_false] at hc
      unfold endsWith at hc hnc
      rw [List.isSuffixOf_iff_suffix] at hc
      have : "nc".toList.isSuffixOf input = true := by
        rw [List.isSuffixOf_iff_suffix]
        exact (show "nc".toList <:+ ".nc".toList from ⟨['.'], rfl⟩).trans hc
      rw [this] at hnc; exact absurd hnc (by simp)
    rw [mapped_other hnc', Option.some.injEq] at hname
    rw [tracks_single, Option.some.injEq, Function.update_self] at hts
    rw [List.nil_append] at hf
    obtain ⟨t, ht, e1⟩ := dump_names _ _ _ _ hnew f hf
    rw [← hts] at ht
    have ht' := mem_filterTracks ht
    have e2 : t.id = (1, 1) := GustFiles.C20_names_injective (by rw [← e1, ← hname])
    have hm : ((1, 1) : ℕ × ℕ) ∈ identifiers input own tracks.length := by
      rw [← hid, ← e2]; exact List.mem_map_of_mem ht'
    unfold identifiers at hm
    rw [if_neg (by rw [hnc]; exact Bool.false_ne_true)] at hm
    by_cases hx : endsWith input "xml".toList = true
    · rw [if_pos hx] at hm hn
      rw [hn] at hm
      simp at hm
    · rw [if_neg hx] at hm hn
      simp only [List.mem_map, List.mem_range, Prod.mk.injEq] at hm
      obtain ⟨i, -, -, h2⟩ := hm
      exact absurd h2 hn

/-- A wind field of this name is already there, from an earlier event: the run maps it, whatever the event is. -/
theorem C138_earlier_event_fails {F : Type} [LinearOrder F] (c : Config) (input : Name) (e : F) (tracks : List Track)
    (others : F → List Track) (listing : List F) (f : File)
    (hnc : endsWith input ".nc".toList = false) {m : Map} {d : List (Name × File)}
    (h : run c input e tracks others listing [(GustFiles.gustName (1, 1), f)] = .ok (m, d)) : Shows c.region f m := by
  obtain ⟨ts, new, name, g, -, -, hname, -, -, hfind, rfl, -⟩ := find_ok h
  rw [mapped_other hnc, Option.some.injEq] at hname
  subst hname
  simp only [List.cons_append, List.find?_cons, decide_true, Option.some.injEq] at hfind
  subst hfind
  exact crop_shows _ _

/-- A table of one event within reach of the wind field limits, simulated in a new directory: the wind field of the event is
written under its identifier, and the map, if the grid has cells within the region, shows this wind field within the region. -/
theorem C138_single_event_partial {F : Type} [LinearOrder F] (c : Config) (M r : ℤ) (hM : 0 ≤ M) (hr : 0 < r) (hd : r ∣ 2 * M)
    (hPm : c.params.margin = M / 100) (hPr : c.params.resolution = r / 100) (hPd : c.params.domain = .bounded)
    (input : Name) (e : F) (t : Track) (others : F → List Track) (own : List (ℕ × ℕ))
    (hnc : endsWith input "nc".toList = false) (hxml : endsWith input "xml".toList = false)
    (hid : [t.id] = identifiers input own 1) (gl : Limits)
    (hgl : gl = ((c.wind.orElse fun _ => c.region).getD (autoLimit t)))
    (hmeet : ∀ l, (c.wind.orElse fun _ => c.region) = some l → meets l c.params.margin t = true) :
    ∃ f lons lats, regionalExtremes c.params gl t.env t.steps = .ok (f, lons, lats) ∧
      ((∃ m d, run c input e [t] others [e] [] = .ok (m, d)) ↔
        (∃ x ∈ lons, ∀ l, c.region = some l → Within l.xMin l.xMax x) ∧
        (∃ y ∈ lats, ∀ l, c.region = some l → Within l.yMin l.yMax y)) ∧
      ∀ m d, run c input e [t] others [e] [] = .ok (m, d) →
        Shows c.region (toFile f lons lats) m ∧ d = [(GustFiles.gustName (1, 1), toFile f lons lats)] := by
  have hi : t.id = (1, 1) := by
    unfold identifiers at hid
    rw [if_neg (by rw [hnc]; exact Bool.false_ne_true), if_neg (by rw [hxml]; exact Bool.false_ne_true)] at hid
    simpa using hid
  have hnc' : endsWith input ".nc".toList = false := by
    by_contra hc
    rw [Bool.not_eq_false] at hc
    unfold endsWith at hc hnc
    rw [List.isSuffixOf_iff_suffix] at hc
    have : "nc".toList.isSuffixOf input = true := by
      rw [List.isSuffixOf_iff_suffix]
      exact (show "nc".toList <:+ ".nc".toList from ⟨['.'], rfl⟩).trans hc
    rw [this] at hnc; exact absurd hnc (by simp)
  obtain ⟨f, h, -⟩ := C17_regional_extremes c.params gl M r hM hr hd hPm hPr hPd t.env t.steps
  have hfil : filterTracks (c.wind.orElse fun _ => c.region) c.params.margin [t] = [t] := by
    unfold filterTracks
    split
    · rename_i l hl
      rw [List.filter_eq_self]
      intro s hs
      rw [List.mem_singleton] at hs
      subst hs
      exact hmeet l hl
    · rfl
  have hdump : dump c.params (c.wind.orElse fun _ => c.region) [] [t] = .ok [(GustFiles.gustName t.id,
      toFile f (regionAxis gl.xMin gl.xMax c.params.margin c.params.resolution)
        (regionAxis gl.yMin gl.yMax c.params.margin c.params.resolution))] := by
    simp only [dump, List.not_mem_nil, if_false, ← hgl, h]
  refine ⟨f, _, _, h, ?_⟩
  generalize regionAxis gl.xMin gl.xMax c.params.margin c.params.resolution = lons at *
  generalize regionAxis gl.yMin gl.yMax c.params.margin c.params.resolution = lats at *
  have hrun : run c input e [t] others [e] [] =
      if (crop c.region (toFile f lons lats)).lons = [] ∨ (crop c.region (toFile f lons lats)).lats = [] then .error .emptyMap
      else .ok (crop c.region (toFile f lons lats), [(GustFiles.gustName (1, 1), toFile f lons lats)]) := by
    unfold run
    simp only [tracks_single, Function.update_self, hfil, List.map_nil, hdump, mapped_other hnc', hi, List.nil_append,
      List.find?_cons, decide_true]
  have hs := crop_shows c.region (toFile f lons lats)
  have hx := hs.1
  have hy := hs.2.1
  constructor
  · rw [hrun]
    split_ifs with h0
    · simp only [reduceCtorEq, exists_false, false_iff, not_and_or]
      rcases h0 with h0 | h0
      · left
        rintro ⟨x, hx1, hx2⟩
        have := (hx x).2 ⟨by simpa [toFile] using hx1, hx2⟩
        rw [h0] at this; simp at this
      · right
        rintro ⟨y, hy1, hy2⟩
        have := (hy y).2 ⟨by simpa [toFile] using hy1, hy2⟩
        rw [h0] at this; simp at this
    · rw [not_or] at h0
      refine ⟨fun _ => ?_, fun _ => ⟨_, _, rfl⟩⟩
      obtain ⟨x, hx1⟩ := List.exists_mem_of_ne_nil _ h0.1
      obtain ⟨y, hy1⟩ := List.exists_mem_of_ne_nil _ h0.2
      have ex := (hx x).1 hx1
      have ey := (hy y).1 hy1
      exact ⟨⟨x, by simpa [toFile] using ex.1, ex.2⟩, ⟨y, by simpa [toFile] using ey.1, ey.2⟩⟩
  · intro m d hmd
    rw [hrun] at hmd
    split_ifs at hmd
    simp only [Except.ok.injEq, Prod.mk.injEq] at hmd
    rw [← hmd.1, ← hmd.2]
    exact ⟨hs, rfl⟩

/-- Settings of the examples: a region of 2 by 2 degrees, half a degree of resolution -/
def demo : Config := ⟨some ⟨110, 112, -20, -18⟩, none, ⟨((200 : ℤ) : ℚ) / 100, ((50 : ℤ) : ℚ) / 100, .bounded, fun _ _ => 0⟩⟩

/-- An event of the examples -/
def storm (id : ℕ × ℕ) : Track := ⟨id, [⟨111, -19, fun _ _ => (3, 4, 950)⟩], 1010⟩

-- An event from a table: the hypotheses of `C138_single_event_partial` hold.
example : identifiers "best.csv".toList [] 1 = [(1, 1)] ∧ endsWith "best.csv".toList "nc".toList = false ∧
    endsWith "best.csv".toList "xml".toList = false ∧ meets ⟨110, 112, -20, -18⟩ demo.params.margin (storm (1, 1)) = true ∧
    (50 : ℤ) ∣ 2 * 200 := by
  refine ⟨by decide, by decide, by decide, ?_, by norm_num⟩
  exact C121_near_is_chosen _ _ _ (s := ⟨111, -19, fun _ _ => (3, 4, 950)⟩) (by simp [storm]) (by norm_num [demo])

-- ... and the run gives a map.
example : ∃ m d, run demo "best.csv".toList (0 : ℕ) [storm (1, 1)] (fun _ => []) [0] [] = .ok (m, d) := by
  obtain ⟨f, lons, lats, h, hok, -⟩ := C138_single_event_partial demo 200 50 (by norm_num) (by norm_num) (by norm_num) rfl rfl rfl
    "best.csv".toList (0 : ℕ) (storm (1, 1)) (fun _ => []) [] (by decide) (by decide) (by decide) ⟨110, 112, -20, -18⟩ rfl
    (by
      intro l hl
      have : l = ⟨110, 112, -20, -18⟩ := by simpa [demo] using hl.symm
      subst this
      exact C121_near_is_chosen _ _ _ (s := ⟨111, -19, fun _ _ => (3, 4, 950)⟩) (by simp [storm]) (by norm_num [demo]))
  obtain ⟨f', h', -⟩ := C17_regional_extremes demo.params ⟨110, 112, -20, -18⟩ 200 50 (by norm_num) (by norm_num) (by norm_num)
    rfl rfl rfl (storm (1, 1)).env (storm (1, 1)).steps
  rw [h'] at h
  simp only [Except.ok.injEq, Prod.mk.injEq] at h
  rw [← h.2.1, ← h.2.2] at hok
  refine hok.2 ⟨⟨11100, by decide +kernel, ?_⟩, ⟨-1900, by decide +kernel, ?_⟩⟩ <;>
  · intro l hl
    have : l = ⟨110, 112, -20, -18⟩ := by simpa [demo] using hl.symm
    subst this
    norm_num [Within]

-- The track file of the year 1 of a simulation, and the gust file that it would need.
example : trackFile 1 = "tracks.00001.nc".toList ∧ mapped (trackFile 1) = some "gust.00001.nc".toList ∧
    GustFiles.gustName (4, 1) = "gust.004-00001.nc".toList := by decide +kernel

-- A table of two events, and a BoM file of one event, meet the hypotheses of `C138_several_events_fails`.
example : [storm (1, 2), storm (2, 2)].map (·.id) = identifiers "best.csv".toList [] 2 ∧
    [storm (0, 0)].map (·.id) = identifiers "forecast.xml".toList [] 1 ∧ endsWith "forecast.xml".toList "xml".toList = true := by
  decide +kernel

-- The run after an earlier event gives a map: the hypothesis of `C138_earlier_event_fails` can hold.
example : ∃ m d, run { demo with region := none } "best.csv".toList (0 : ℕ) [storm (1, 1)] (fun _ => []) [0]
    [(GustFiles.gustName (1, 1), ⟨[-1900], [11100], fun _ _ => ⟨7, 0, 0, 0, 0⟩⟩)] = .ok (m, d) := by
  unfold run
  have h : endsWith "best.csv".toList ".nc".toList = false := by decide
  simp only [tracks_single, Function.update_self, demo, filterTracks, List.map_cons, List.map_nil, mapped_other h,
    Option.orElse_eq_orElse, Option.orElse_none, dump, storm, List.mem_singleton, if_true, List.append_nil, List.find?_cons,
    decide_true, crop]
  rw [if_neg (by simp)]
  exact ⟨_, _, rfl⟩

end Tcrm.Event
