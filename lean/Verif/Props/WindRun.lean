import Verif.Model.WindRun
import Verif.Props.Windfield
import Verif.Props.Balanced
import Verif.Props.HazardRun
/-!
C121: each track near the region has its wind field in one file.
C122: the wind at a place takes account of all positions of storms near it.
C123: without a configured region the wind field covers the track.
C124: the hazard comes from the winds of all tracks.
-/
namespace Tcrm.WindRun

open Tcrm.Windfield

/-! ### C121 -/

theorem mem_map_max {A : Type} {l : List A} {f : A → ℚ} {a : A} (ha : a ∈ l) {m : ℚ}
    (h : (l.map f).max? = some m) : f a ≤ m :=
  (List.max?_eq_some_iff.1 h).2 _ (List.mem_map_of_mem ha)

theorem mem_map_min {A : Type} {l : List A} {f : A → ℚ} {a : A} (ha : a ∈ l) {m : ℚ}
    (h : (l.map f).min? = some m) : m ≤ f a :=
  (List.min?_eq_some_iff.1 h).2 _ (List.mem_map_of_mem ha)

theorem max_some {l : List ℚ} (h : l ≠ []) : ∃ m, l.max? = some m := by
  cases l with
  | nil => exact absurd rfl h
  | cons a l => exact ⟨_, List.max?_cons' ..⟩

theorem min_some {l : List ℚ} (h : l ≠ []) : ∃ m, l.min? = some m := by
  cases l with
  | nil => exact absurd rfl h
  | cons a l => exact ⟨_, List.min?_cons' ..⟩

/-- C121: a track with a position in the region or its margin is chosen. -/
theorem C121_near_is_chosen (gl : Limits) (margin : ℚ) (t : Track) {s : TimeStep} (hs : s ∈ t.steps)
    (h : gl.xMin - margin ≤ s.lon ∧ s.lon ≤ gl.xMax + margin ∧ gl.yMin - margin ≤ s.lat ∧
      s.lat ≤ gl.yMax + margin) : meets gl margin t = true := by
  have hne : t.steps ≠ [] := List.ne_nil_of_mem hs
  obtain ⟨e, he⟩ := max_some (l := t.steps.map (·.lon)) (by simpa using hne)
  obtain ⟨w, hw⟩ := min_some (l := t.steps.map (·.lon)) (by simpa using hne)
  obtain ⟨n, hn⟩ := max_some (l := t.steps.map (·.lat)) (by simpa using hne)
  obtain ⟨u, hu⟩ := min_some (l := t.steps.map (·.lat)) (by simpa using hne)
  have h1 := mem_map_max hs he
  have h2 := mem_map_min hs hw
  have h3 := mem_map_max hs hn
  have h4 := mem_map_min hs hu
  simp only [meets, he, hw, hn, hu, Bool.and_eq_true, decide_eq_true_eq]
  exact ⟨⟨⟨h.1.trans h1, h2.trans h.2.1⟩, h.2.2.1.trans h3⟩, h4.trans h.2.2.2⟩

/-- C121: a track that is not chosen has no wind in the region: its wind field would be zero
everywhere. -/
theorem C121_others_have_no_wind (P : Params) (gl : Limits) (hr : pyInt (100 * P.resolution) ≠ 0)
    (hm : 0 ≤ P.margin) (t : Track) (h : meets gl P.margin t = false) :
    ∃ f lons lats, regionalExtremes P gl t.env t.steps = .ok (f, lons, lats) ∧
      ∀ j i, f j i = ⟨0, 0, 0, 0, t.env⟩ := by
  have e : t.steps.filter (Windfield.inRegion gl) = [] := by
    rw [List.filter_eq_nil_iff]
    intro s hs hin
    simp only [Windfield.inRegion, decide_eq_true_eq] at hin
    rw [C121_near_is_chosen gl P.margin t hs (by constructor <;> [linarith; constructor <;> [linarith; constructor <;> linarith]])] at h
    cases h
  refine ⟨_, _, _, by rw [regionalExtremes, if_neg hr, e]; rfl, fun _ _ => rfl⟩

/-- The files written for tracks with distinct identifiers in a given domain. -/
theorem dump_eq (P : Params) (gl : Limits) (F : Track → (ℕ → ℕ → Cell) × List ℤ × List ℤ)
    (hF : ∀ t, regionalExtremes P gl t.env t.steps = .ok (F t)) (ts : List Track)
    (present : List GustFiles.Name) (hn : (ts.map (·.id)).Nodup)
    (hp : ∀ t ∈ ts, GustFiles.gustName t.id ∉ present) :
    dump P (some gl) present ts =
      .ok (ts.map fun t => (GustFiles.gustName t.id, toFile (F t).1 (F t).2.1 (F t).2.2)) := by
  induction ts generalizing present with
  | nil => rfl
  | cons t ts ih =>
    rw [List.map_cons, List.nodup_cons] at hn
    rw [dump, if_neg (hp t (by simp))]
    simp only [Option.getD_some, hF t]
    rw [ih _ hn.2]
    · rfl
    · intro t' ht' hmem
      rcases List.mem_cons.1 hmem with h | h
      · exact hn.1 (List.mem_map.2 ⟨t', ht', GustFiles.C20_names_injective h⟩)
      · exact hp t' (List.mem_cons_of_mem _ ht') h

/-- C121: with a region configured, whatever the number of processes and the order in which each of them
lists the track files, no process fails, and the files written by all of them are, for each chosen
track of each track file, one file with its name and its wind field. -/
theorem C121_files {F : Type} [LinearOrder F] (P : Params) (gl : Limits) (M r : ℤ) (hM : 0 ≤ M) (hr : 0 < r)
    (hd : r ∣ 2 * M) (hPm : P.margin = M / 100) (hPr : P.resolution = r / 100) (hPd : P.domain = .bounded)
    (content : F → List Track) (files : List F) (hf : files ≠ [])
    (hid : ((files.flatMap content).map (·.id)).Nodup)
    (n : ℕ) (hn : 0 < n) (listing : ℕ → List F) (hl : ∀ p, (listing p).Perm files) :
    ∃ (field : Track → ℕ → ℕ → Cell) (written : ℕ → List (GustFiles.Name × File)),
      (∀ t, regionalExtremes P gl t.env t.steps = .ok (field t,
        regionAxis gl.xMin gl.xMax P.margin P.resolution,
        regionAxis gl.yMin gl.yMax P.margin P.resolution)) ∧
      (∀ p < n, rank P (some gl) content (listing p) n p = some (.ok (written p))) ∧
      ((List.range n).flatMap written).Perm (((files.flatMap content).filter (meets gl P.margin)).map fun t =>
        (GustFiles.gustName t.id, toFile (field t) (regionAxis gl.xMin gl.xMax P.margin P.resolution)
          (regionAxis gl.yMin gl.yMax P.margin P.resolution))) := by
  have hfield : ∀ t : Track, ∃ f, regionalExtremes P gl t.env t.steps = .ok (f,
      regionAxis gl.xMin gl.xMax P.margin P.resolution, regionAxis gl.yMin gl.yMax P.margin P.resolution) :=
    fun t => by
      obtain ⟨f, h, -⟩ := C17_regional_extremes P gl M r hM hr hd hPm hPr hPd t.env t.steps
      exact ⟨f, h⟩
  choose field hfield using hfield
  obtain ⟨work, hw, hperm⟩ := (Balanced.C03_tracks_shared
    (fun f => filterTracks (some gl) P.margin (content f)) n hn files listing hl).2 hf
  have hall : files.flatMap (fun f => filterTracks (some gl) P.margin (content f)) =
      (files.flatMap content).filter (meets gl P.margin) := by
    rw [List.filter_flatMap]
    rfl
  rw [hall] at hperm
  have hsub : ∀ p < n, ((work p).map (·.id)).Nodup := by
    intro p hp
    have h1 : (((List.range n).flatMap work).map (·.id)).Nodup := by
      refine (hperm.map _).nodup_iff.2 ?_
      exact hid.sublist (List.Sublist.map _ List.filter_sublist)
    refine h1.sublist (List.Sublist.map _ ?_)
    rw [List.flatMap_def]
    exact List.sublist_flatten_of_mem (List.mem_map_of_mem (List.mem_range.2 hp))
  refine ⟨field, fun p => (work p).map fun t => (GustFiles.gustName t.id, toFile (field t)
    (regionAxis gl.xMin gl.xMax P.margin P.resolution) (regionAxis gl.yMin gl.yMax P.margin P.resolution)),
    hfield, ?_, ?_⟩
  · intro p hp
    rw [rank, hw p, Option.map_some]
    have := dump_eq P gl (fun t => (field t, regionAxis gl.xMin gl.xMax P.margin P.resolution,
      regionAxis gl.yMin gl.yMax P.margin P.resolution)) hfield (work p) [] (hsub p hp) (by simp)
    exact congrArg some this
  · rw [← List.map_flatMap]
    exact hperm.map _

/-- C121: a file has the longitudes and the latitudes of the grid, and its row at a latitude is the row of
the field at that latitude. -/
theorem C121_file_rows (f : ℕ → ℕ → Cell) (lons lats : List ℤ) :
    (toFile f lons lats).lons = lons ∧ (toFile f lons lats).lats.Perm lats ∧
    ∀ (j : ℕ) (y : ℤ), (toFile f lons lats).lats[j]? = some y → ∃ j' : ℕ, lats[j']? = some y ∧
      ∀ i, (toFile f lons lats).field j i = f j' i := by
  refine ⟨rfl, List.reverse_perm _, ?_⟩
  intro j y h
  simp only [toFile] at h ⊢
  have hj := (List.getElem?_eq_some_iff.1 h).1
  rw [List.length_reverse] at hj
  rw [List.getElem?_reverse hj] at h
  exact ⟨_, h, fun _ => rfl⟩

/-- A track north-east of a region of 10 by 10 degrees, within the margin of two degrees. -/
example : meets ⟨100, 110, -20, -10⟩ 2 ⟨(0, 0), [⟨112, -9, fun _ _ => (3, 4, 950)⟩], 1010⟩ = true :=
  C121_near_is_chosen _ _ _ (s := ⟨112, -9, fun _ _ => (3, 4, 950)⟩) (by simp) (by norm_num)

/-- A track farther away. -/
example : meets ⟨100, 110, -20, -10⟩ 2 ⟨(0, 0), [⟨113, -9, fun _ _ => (3, 4, 950)⟩], 1010⟩ = false := by
  decide +kernel

/-! ### C122 -/

/-- C122: a position inside the region counts at every grid point within the margin of it, with the wind
calculated at a point less than a grid step away. (Coordinates of the grid in hundredths, of the wind
in thousandths of a degree.) -/
theorem C122_inside_partial (P : Params) (gl : Limits) (M r : ℤ) (hM : 0 ≤ M) (hr : 0 < r) (hd : r ∣ 2 * M)
    (hPm : P.margin = M / 100) (hPr : P.resolution = r / 100) (hPd : P.domain = .bounded) (t : Track)
    {f : ℕ → ℕ → Cell} {lons lats : List ℤ} (h : regionalExtremes P gl t.env t.steps = .ok (f, lons, lats))
    {s : TimeStep} (hs : s ∈ t.steps)
    (hin : gl.xMin ≤ s.lon ∧ s.lon ≤ gl.xMax ∧ gl.yMin ≤ s.lat ∧ s.lat ≤ gl.yMax)
    (j i : ℕ)
    (hy : |(pyInt (100 * gl.yMin) - M + r * j) - pyInt (100 * s.lat)| ≤ M)
    (hx : |(pyInt (100 * gl.xMin) - M + r * i) - pyInt (100 * s.lon)| ≤ M) :
    ∃ y x : ℤ, |10 * (pyInt (100 * gl.yMin) - M + r * j) - y| < 10 * r ∧
      |10 * (pyInt (100 * gl.xMin) - M + r * i) - x| < 10 * r ∧ speed (s.wind y x) ≤ (f j i).gust ∧
      (f j i).pressure ≤ (s.wind y x).2.2 := by
  obtain ⟨f', hf', hex⟩ := C17_regional_extremes P gl M r hM hr hd hPm hPr hPd t.env t.steps
  rw [h] at hf'
  simp only [Except.ok.injEq, Prod.mk.injEq] at hf'
  obtain ⟨rfl, -, -⟩ := hf'
  obtain ⟨y1, y2⟩ := (C18_reach s.lat gl.yMin M r hr hd j).1 hy
  obtain ⟨x1, x2⟩ := (C18_reach s.lon gl.xMin M r hr hd i).1 hx
  have hc : contribution gl M r j i s = some (s.wind
      (pyInt (1000 * s.lat) - 10 * M + 10 * r * ((j : ℤ) - firstIndex s.lat gl.yMin r))
      (pyInt (1000 * s.lon) - 10 * M + 10 * r * ((i : ℤ) - firstIndex s.lon gl.xMin r))) := by
    unfold contribution
    simp only
    rw [if_pos]
    exact ⟨by simpa [Windfield.inRegion] using hin, y1, y2, x1, x2⟩
  have hmem := List.mem_filterMap.2 ⟨s, hs, hc⟩
  refine ⟨_, _, ?_, ?_, (hex j i).upper _ hmem, (hex j i).lower.2 _ hmem⟩
  · have := C18_displacement s.lat gl.yMin M r hr ((j : ℤ) - firstIndex s.lat gl.yMin r)
    rwa [show firstIndex s.lat gl.yMin r + ((j : ℤ) - firstIndex s.lat gl.yMin r) = j by ring] at this
  · have := C18_displacement s.lon gl.xMin M r hr ((i : ℤ) - firstIndex s.lon gl.xMin r)
    rwa [show firstIndex s.lon gl.xMin r + ((i : ℤ) - firstIndex s.lon gl.xMin r) = i by ring] at this

/-- C122 (the failure): positions outside the region do not count, however near: a storm that stays any
distance `d` east of the region, whatever its winds, leaves a wind field of zero, although its track is
chosen if `d` is within the margin. -/
theorem C122_outside_fails (P : Params) (gl : Limits) (hr : pyInt (100 * P.resolution) ≠ 0) (d : ℚ)
    (hd : 0 < d) (hdm : d ≤ P.margin) (hx : gl.xMin ≤ gl.xMax) (hy : gl.yMin ≤ gl.yMax)
    (wind : ℤ → ℤ → ℝ × ℝ × ℝ) (env : ℝ) (id : ℕ × ℕ) :
    let t : Track := ⟨id, [⟨gl.xMax + d, gl.yMin, wind⟩], env⟩
    meets gl P.margin t = true ∧
    ∃ f lons lats, regionalExtremes P gl t.env t.steps = .ok (f, lons, lats) ∧ ∀ j i, (f j i).gust = 0 := by
  intro t
  constructor
  · refine C121_near_is_chosen gl P.margin t (s := ⟨gl.xMax + d, gl.yMin, wind⟩) (by simp [t]) ?_
    simp only
    constructor <;> [linarith; constructor <;> [linarith; constructor <;> linarith]]
  · have e : t.steps.filter (Windfield.inRegion gl) = [] := by
      simp only [t, List.filter_eq_nil_iff, List.mem_singleton]
      rintro s rfl
      simp only [Windfield.inRegion, decide_eq_true_eq]
      rintro ⟨-, h, -⟩
      linarith
    exact ⟨_, _, _, by rw [regionalExtremes, if_neg hr, e]; rfl, fun _ _ => rfl⟩

/-! ### C123 -/

/-- C123: without a configured region, all positions of the first track of a process are in the domain
taken. -/
theorem C123_first_track_partial (t : Track) {s : TimeStep} (hs : s ∈ t.steps) :
    Windfield.inRegion (autoLimit t) s = true := by
  have hne : t.steps ≠ [] := List.ne_nil_of_mem hs
  obtain ⟨e, he⟩ := max_some (l := t.steps.map (·.lon)) (by simpa using hne)
  obtain ⟨w, hw⟩ := min_some (l := t.steps.map (·.lon)) (by simpa using hne)
  obtain ⟨n, hn⟩ := max_some (l := t.steps.map (·.lat)) (by simpa using hne)
  obtain ⟨u, hu⟩ := min_some (l := t.steps.map (·.lat)) (by simpa using hne)
  have h1 := mem_map_max hs he
  have h2 := mem_map_min hs hw
  have h3 := mem_map_max hs hn
  have h4 := mem_map_min hs hu
  simp only [Windfield.inRegion, autoLimit, he, hw, hn, hu, Option.getD_some, decide_eq_true_eq]
  exact ⟨(Int.floor_le w).trans h2, h1.trans (Int.le_ceil e), (Int.floor_le u).trans h4,
    h3.trans (Int.le_ceil n)⟩

/-- C123: the file of a single track without a configured region holds the extremes of all its
positions. -/
theorem C123_single_track_partial (P : Params) (M r : ℤ) (hM : 0 ≤ M) (hr : 0 < r) (hd : r ∣ 2 * M)
    (hPm : P.margin = M / 100) (hPr : P.resolution = r / 100) (hPd : P.domain = .bounded) (t : Track) :
    ∃ f lons lats, dump P none [] [t] = .ok [(GustFiles.gustName t.id, toFile f lons lats)] ∧
      regionalExtremes P (autoLimit t) t.env t.steps = .ok (f, lons, lats) ∧
      t.steps.filter (Windfield.inRegion (autoLimit t)) = t.steps := by
  obtain ⟨f, h, -⟩ := C17_regional_extremes P (autoLimit t) M r hM hr hd hPm hPr hPd t.env t.steps
  refine ⟨f, _, _, ?_, h, List.filter_eq_self.2 fun s hs => C123_first_track_partial t hs⟩
  simp only [dump, List.not_mem_nil, if_false, Option.getD_none, h]

/-- C123 (the failure): the domain of the first track is kept for all others of the process.  A second
track outside it gets a field of zero wind, whatever its winds. -/
theorem C123_second_track_fails (P : Params) (M r : ℤ) (hM : 0 ≤ M) (hr : 0 < r) (hd : r ∣ 2 * M)
    (hPm : P.margin = M / 100) (hPr : P.resolution = r / 100) (hPd : P.domain = .bounded) (t t' : Track)
    (hid : t.id ≠ t'.id) (hout : ∀ s ∈ t'.steps, Windfield.inRegion (autoLimit t) s = false) :
    ∃ file file', dump P none [] [t, t'] = .ok [(GustFiles.gustName t.id, file),
      (GustFiles.gustName t'.id, file')] ∧ ∀ j i, (file'.field j i).gust = 0 := by
  obtain ⟨f, h, -⟩ := C17_regional_extremes P (autoLimit t) M r hM hr hd hPm hPr hPd t.env t.steps
  have hres : pyInt (100 * P.resolution) ≠ 0 := by
    rw [hPr, pyInt_hundredths]; omega
  have e : t'.steps.filter (Windfield.inRegion (autoLimit t)) = [] :=
    List.filter_eq_nil_iff.2 fun s hs => by simp [hout s hs]
  have h' : regionalExtremes P (autoLimit t) t'.env t'.steps = .ok ((fun _ _ => ⟨0, 0, 0, 0, t'.env⟩),
      regionAxis (autoLimit t).xMin (autoLimit t).xMax P.margin P.resolution,
      regionAxis (autoLimit t).yMin (autoLimit t).yMax P.margin P.resolution) := by
    rw [regionalExtremes, if_neg hres, e]; rfl
  have hn : GustFiles.gustName t'.id ≠ GustFiles.gustName t.id := fun e =>
    hid (GustFiles.C20_names_injective e).symm
  let ax := regionAxis (autoLimit t).xMin (autoLimit t).xMax P.margin P.resolution
  let ay := regionAxis (autoLimit t).yMin (autoLimit t).yMax P.margin P.resolution
  refine ⟨toFile f ax ay, toFile (fun _ _ => ⟨0, 0, 0, 0, t'.env⟩) ax ay, ?_, fun _ _ => rfl⟩
  simp only [dump, List.not_mem_nil, if_false, Option.getD_none, h, List.mem_singleton, hn,
    Option.getD_some, h']
  rfl

/-- C123 (the consequence): what is stored for a track depends on the number of processes.  On one
process the file of the second of two tracks has no wind; on two processes it has the winds of the
track. -/
theorem C123_processes_fails : ∃ (P : Params) (t t' : Track) (file file' : File),
    rank P none (fun _ : Fin 1 => [t, t']) [0] 1 0 = some (.ok [(GustFiles.gustName t.id, file),
      (GustFiles.gustName t'.id, file')]) ∧ (∀ j i, (file'.field j i).gust = 0) ∧
    ∃ file'', rank P none (fun _ : Fin 1 => [t, t']) [0] 2 1 = some (.ok [(GustFiles.gustName t'.id, file'')]) ∧
      ∃ j i, 0 < (file''.field j i).gust := by
  let P : Params := ⟨((200 : ℤ) : ℚ) / 100, ((50 : ℤ) : ℚ) / 100, .bounded, fun _ _ => 0⟩
  let t : Track := ⟨(0, 0), [⟨105, -15, fun _ _ => (3, 4, 950)⟩], 1010⟩
  let t' : Track := ⟨(1, 0), [⟨125, -15, fun _ _ => (3, 4, 950)⟩], 1010⟩
  obtain ⟨file, file', h1, h2⟩ := C123_second_track_fails P 200 50 (by norm_num) (by norm_num) (by norm_num) rfl
    rfl rfl t t' (by decide) (by decide +kernel)
  obtain ⟨f, lons, lats, h3, h4, -⟩ := C123_single_track_partial P 200 50 (by norm_num) (by norm_num)
    (by norm_num) rfl rfl rfl t'
  refine ⟨P, t, t', file, file', ?_, h2, toFile f lons lats, ?_, 4, 4, ?_⟩
  rotate_left
  · have : Balanced.balanced [t, t'] 2 1 = [t'] := by simp [Balanced.balanced, Balanced.everyNth]
    rw [← this] at h3
    exact congrArg some h3
  · have hl : lats.length = 9 := by
      obtain ⟨f', h5, -⟩ := C17_regional_extremes P (autoLimit t') 200 50 (by norm_num) (by norm_num)
        (by norm_num) rfl rfl rfl t'.env t'.steps
      rw [h4] at h5
      simp only [Except.ok.injEq, Prod.mk.injEq] at h5
      rw [h5.2.2]
      decide +kernel
    simp only [toFile, hl]
    obtain ⟨y, x, -, -, hg, -⟩ := C122_inside_partial P (autoLimit t') 200 50 (by norm_num) (by norm_num)
      (by norm_num) rfl rfl rfl t' h4 (s := ⟨125, -15, fun _ _ => (3, 4, 950)⟩) (by simp [t'])
      (by decide +kernel) 4 4 (by decide +kernel) (by decide +kernel)
    refine lt_of_lt_of_le ?_ hg
    simp only [speed]
    exact Real.sqrt_pos.2 (by norm_num)
  · have : Balanced.balanced [t, t'] 1 0 = [t, t'] := by simp [Balanced.balanced, Balanced.everyNth]
    rw [← this] at h1
    exact congrArg some h1

/-! ### C124 -/

/-- `v` is the greatest wind speed among the contributions, zero if there are none. -/
def IsGreatestWind (ws : List (ℝ × ℝ × ℝ)) (v : ℝ) : Prop :=
  (∀ w ∈ ws, speed w ≤ v) ∧ (v = 0 ∨ ∃ w ∈ ws, v = speed w)

/-- The rows of a gust file run from north to south: row `j` of the file is row `lats.length - 1 - j`
of the grid. -/
theorem reverse_get (l : List ℤ) (j : ℕ) (h : j < l.length) : l.reverse[j]? = l[l.length - 1 - j]? := by
  rw [List.getElem?_reverse h]

theorem arange_pairwise (lo hi step : ℤ) (hs : 0 < step) : (arange lo hi step).Pairwise (· ≤ ·) := by
  unfold arange
  rw [List.pairwise_map]
  refine List.Pairwise.imp ?_ List.pairwise_lt_range
  intro a b hab
  have : step * (a : ℤ) ≤ step * (b : ℤ) := mul_le_mul_of_nonneg_left (by exact_mod_cast hab.le) hs.le
  omega

theorem regionAxis_pairwise (lo hi margin : ℚ) (r : ℤ) (hr : 0 < r) :
    (regionAxis lo hi margin (r / 100)).Pairwise (· ≤ ·) := by
  unfold regionAxis
  simp only [pyInt_hundredths]
  exact arange_pairwise _ _ _ hr

theorem axis_milli (l : List ℤ) (h : l.Pairwise (· ≤ ·)) :
    Tiles.IsAxis (l.map (10 * ·)) ∧ Tiles.IsAxis (l.reverse.map (10 * ·)) := by
  constructor
  · left
    rw [List.pairwise_map]
    exact h.imp fun h => by omega
  · right
    rw [List.pairwise_map, List.pairwise_reverse]
    exact h.imp fun h => by omega

/-- C124: from the tracks to the hazard, when the gusts are rounded as they are stored (32-bit numbers in the files;
`rd` is any rounding that preserves order and 0).  After the wind-field stage on any number of processes, and the
hazard stage (annual maxima) on any number of workers in any schedule, with files that are no gust files
beside the wind fields: the latitudes and longitudes saved are grid points (exactly those requested, by
C116); and the levels saved there are those fitted to the list that has, for each year, the rounded greatest wind that any position of
any track of that year, of all the tracks simulated, brought to that grid point. -/
theorem C124_tracks_to_hazard_stored {F : Type} [LinearOrder F] (rd : ℝ → ℝ) (hrd : Monotone rd) (hrd0 : rd 0 = 0)
    (P : Params) (gl : Limits) (M r : ℤ) (hM : 0 ≤ M)
    (hr : 0 < r) (hd : r ∣ 2 * M) (hPm : P.margin = M / 100) (hPr : P.resolution = r / 100)
    (hPd : P.domain = .bounded) (content : F → List Track) (files : List F) (hf : files ≠ [])
    (hid : ((files.flatMap content).map (·.id)).Nodup)
    -- the wind-field stage
    (n : ℕ) (hn : 0 < n) (listing : ℕ → List F) (hl : ∀ p, (listing p).Perm files)
    (written : ℕ → List (GustFiles.Name × File))
    (hw : ∀ p < n, rank P (some gl) content (listing p) n p = some (.ok (written p)))
    -- the directory found by the hazard stage
    (dir others : List (GustFiles.Name × Option (ℕ → ℕ → ℝ)))
    (hdir : dir.Perm ((((List.range n).flatMap written).map fun w =>
      (w.1, some fun j i => rd (w.2.field j i).gust)) ++ others))
    (ho : ∀ f ∈ others, ∀ year, GustFiles.fnmatch (GustFiles.yearPattern year) f.1 = false)
    -- the hazard stage, with the axes of one of the files
    (w : GustFiles.Name × File) (hwm : w ∈ (List.range n).flatMap written)
    (lib : HazardRun.Lib) (S : HazardRun.Settings) (hS : S.evd = "GEV") (xLo xHi yLo yHi : ℤ) (xstep ystep : ℕ)
    (g : Tiles.Grid)
    (hg : Tiles.mkGrid (w.2.lons.map (10 * ·)) (w.2.lats.map (10 * ·)) xLo xHi yLo yHi xstep ystep = .ok g)
    (tiles : List Tiles.Limits) (ht : Tiles.getTiles g = some tiles) (zero : Except Evd.Err Evd.Fit)
    (m : ℕ) (hm : 0 < m) (k : ℕ) (s : Dispatch.State Tiles.Limits (Int → Int → Except Evd.Err Evd.Fit) m)
    (h : Dispatch.ReachIn Dispatch.hazardTags tiles (HazardRun.tile lib S dir) k s) (hdone : s.phase = .done) :
    let lat := HazardRun.extent w.2.lats g.jmin g.jmax
    let lon := HazardRun.extent w.2.lons g.imin g.imax
    ∀ a b : ℕ, a < lat.length → b < lon.length → ∃ j i : ℕ,
      lat[a]? = (regionAxis gl.yMin gl.yMax P.margin P.resolution)[j]? ∧
      lon[b]? = (regionAxis gl.xMin gl.xMax P.margin P.resolution)[i]? ∧
      ∃ record : List ℝ, record.length = S.numSim ∧
        (∀ (year : ℕ) (v : ℝ), record[year]? = some v →
          ∃ u : ℝ, v = rd u ∧ IsGreatestWind (((files.flatMap content).filter fun t => t.id.2 = year).flatMap fun t =>
            t.steps.filterMap (contribution gl M r j i)) u) ∧
        Hazard.storeAll g.imin g.jmin zero s.written a b =
          Evd.gevCell record S.years S.minRecords S.yrsPerSim := by
  intro lat lon a b ha hb
  obtain ⟨field, written', hfield, hw', hperm⟩ :=
    C121_files P gl M r hM hr hd hPm hPr hPd content files hf hid n hn listing hl
  have ew : (List.range n).flatMap written = (List.range n).flatMap written' := by
    rw [List.flatMap_def, List.flatMap_def]
    congr 1
    apply List.map_congr_left
    intro p hp
    have h1 := hw p (List.mem_range.1 hp)
    have h2 := hw' p (List.mem_range.1 hp)
    rw [h1] at h2
    simpa using h2
  have hax : w.2.lons = regionAxis gl.xMin gl.xMax P.margin P.resolution ∧
      w.2.lats = (regionAxis gl.yMin gl.yMax P.margin P.resolution).reverse := by
    rw [ew] at hwm
    obtain ⟨t, -, e⟩ := List.mem_map.1 (hperm.mem_iff.1 hwm)
    rw [← e]
    exact ⟨rfl, rfl⟩
  simp only [lat, lon, hax.1, hax.2] at ha hb ⊢
  rw [hax.1, hax.2] at hg
  set lats := regionAxis gl.yMin gl.yMax P.margin P.resolution with hlats
  set lons := regionAxis gl.xMin gl.xMax P.margin P.resolution with hlons
  set all := files.flatMap content with hall
  set events : List ((ℕ × ℕ) × (ℕ → ℕ → ℝ)) := (all.filter (meets gl P.margin)).map fun t =>
    (t.id, fun j i => rd (field t (lats.length - 1 - j) i).gust) with hev
  have hisdir : HazardRun.IsDirectory events dir := by
    refine ⟨others, hdir.trans (List.Perm.append_right _ ?_), ho⟩
    rw [ew]
    refine (hperm.map _).trans (List.Perm.of_eq ?_)
    rw [hev, List.map_map, List.map_map]
    rfl
  have hlat := (axis_milli lats (by rw [hlats, hPr]; exact regionAxis_pairwise _ _ _ _ hr)).2
  have hlon := (axis_milli lons (by rw [hlons, hPr]; exact regionAxis_pairwise _ _ _ _ hr)).1
  obtain ⟨i, j, hreq, e1, e2, record, ⟨hlen, hmax⟩, hval⟩ :=
    (HazardRun.C116_value events dir hisdir lib S hS lons lats.reverse (10 * ·) xLo xHi yLo yHi xstep ystep hlon hlat g
      hg tiles ht zero m hm k s h hdone).2 a b ha hb
  have hj : j < lats.length := by
    obtain ⟨y, hy, -⟩ := hreq.2
    have := (List.getElem?_eq_some_iff.1 hy).1
    simpa using this
  refine ⟨lats.length - 1 - j, i, by rw [← reverse_get _ _ hj]; exact e1, e2, record, hlen, ?_, hval⟩
  intro year v hv
  obtain ⟨h0, h1⟩ := hmax year v hv
  have hex : ∀ t : Track, Extreme P.dir t.env (t.steps.filterMap (contribution gl M r (lats.length - 1 - j) i))
      (field t (lats.length - 1 - j) i) := by
    intro t
    obtain ⟨f', hf', hx⟩ := C17_regional_extremes P gl M r hM hr hd hPm hPr hPd t.env t.steps
    rw [hfield t] at hf'
    simp only [Except.ok.injEq, Prod.mk.injEq] at hf'
    obtain ⟨e, -, -⟩ := hf'
    rw [e]
    exact hx _ _
  have hnone : ∀ t : Track, meets gl P.margin t = false →
      t.steps.filterMap (contribution gl M r (lats.length - 1 - j) i) = [] := by
    intro t hmt
    rw [List.filterMap_eq_nil_iff]
    intro st hst
    by_contra hne
    have hin : Windfield.inRegion gl st = true := by
      unfold contribution at hne
      simp only at hne
      split at hne
      · next h => exact h.1
      · exact absurd rfl hne
    simp only [Windfield.inRegion, decide_eq_true_eq] at hin
    have hm0 : 0 ≤ P.margin := by rw [hPm]; positivity
    rw [C121_near_is_chosen gl P.margin t hst (by
      constructor <;> [linarith; constructor <;> [linarith; constructor <;> linarith]])] at hmt
    cases hmt
  have hhere : ((events.filter fun e => e.1.2 = year).map fun e => e.2 j i) =
      (((all.filter (meets gl P.margin)).filter fun t => t.id.2 = year).map fun t =>
        rd (field t (lats.length - 1 - j) i).gust) := by
    rw [hev, List.filter_map, List.map_map]
    rfl
  simp only [hhere] at h0 h1
  by_cases hempty : (all.filter (meets gl P.margin)).filter (fun t => t.id.2 = year) = []
  · have hv0 : v = 0 := h0 (by rw [hempty]; rfl)
    refine ⟨0, by rw [hv0, hrd0], ?_, Or.inl rfl⟩
    intro w hwm
    exfalso
    obtain ⟨t, htm, hwt⟩ := List.mem_flatMap.1 hwm
    obtain ⟨ht1, ht2⟩ := List.mem_filter.1 htm
    by_cases hmt : meets gl P.margin t = true
    · have : t ∈ (all.filter (meets gl P.margin)).filter (fun t => t.id.2 = year) :=
        List.mem_filter.2 ⟨List.mem_filter.2 ⟨ht1, hmt⟩, ht2⟩
      rw [hempty] at this
      cases this
    · rw [hnone t (by simpa using hmt)] at hwt
      cases hwt
  · have hmx := h1 (by simpa using hempty)
    obtain ⟨hmem, hub⟩ := hmx
    classical
    obtain ⟨t₀, htm₀, hmax₀⟩ := ((all.filter (meets gl P.margin)).filter (fun t => t.id.2 = year)).toFinset.exists_max_image
      (fun t => (field t (lats.length - 1 - j) i).gust) (by
        obtain ⟨t, ht⟩ := List.exists_mem_of_ne_nil _ hempty
        exact ⟨t, List.mem_toFinset.2 ht⟩)
    rw [List.mem_toFinset] at htm₀
    refine ⟨(field t₀ (lats.length - 1 - j) i).gust, le_antisymm ?_ (hub _ (List.mem_map.2 ⟨t₀, htm₀, rfl⟩)), ?_, ?_⟩
    · obtain ⟨t, htm, hvt⟩ := List.mem_map.1 hmem
      rw [← hvt]
      exact hrd (hmax₀ t (List.mem_toFinset.2 htm))
    · intro w hwm
      obtain ⟨t, htm, hwt⟩ := List.mem_flatMap.1 hwm
      obtain ⟨ht1, ht2⟩ := List.mem_filter.1 htm
      by_cases hmt : meets gl P.margin t = true
      · exact ((hex t).upper w hwt).trans (hmax₀ t (List.mem_toFinset.2
          (List.mem_filter.2 ⟨List.mem_filter.2 ⟨ht1, hmt⟩, ht2⟩)))
      · rw [hnone t (by simpa using hmt)] at hwt
        cases hwt
    · obtain ⟨ht1, ht2⟩ := List.mem_filter.1 htm₀
      have ht1 := (List.mem_filter.1 ht1).1
      rcases (hex t₀).attained with ⟨hz, -⟩ | ⟨pre, w, post, hws, -, -, hgw, -⟩
      · left; exact hz
      · right
        refine ⟨w, List.mem_flatMap.2 ⟨t₀, List.mem_filter.2 ⟨ht1, ht2⟩, ?_⟩, hgw⟩
        rw [hws]; simp

/-- C124: from the tracks to the hazard.  After the wind-field stage on any number of processes, and the
hazard stage (annual maxima) on any number of workers in any schedule, with files that are no gust files
beside the wind fields: the latitudes and longitudes saved are grid points (exactly those requested, by
C116); and the levels saved there are those fitted to the list that has, for each year, the greatest wind that any position of
any track of that year, of all the tracks simulated, brought to that grid point. -/
theorem C124_tracks_to_hazard {F : Type} [LinearOrder F] (P : Params) (gl : Limits) (M r : ℤ) (hM : 0 ≤ M)
    (hr : 0 < r) (hd : r ∣ 2 * M) (hPm : P.margin = M / 100) (hPr : P.resolution = r / 100)
    (hPd : P.domain = .bounded) (content : F → List Track) (files : List F) (hf : files ≠ [])
    (hid : ((files.flatMap content).map (·.id)).Nodup)
    -- the wind-field stage
    (n : ℕ) (hn : 0 < n) (listing : ℕ → List F) (hl : ∀ p, (listing p).Perm files)
    (written : ℕ → List (GustFiles.Name × File))
    (hw : ∀ p < n, rank P (some gl) content (listing p) n p = some (.ok (written p)))
    -- the directory found by the hazard stage
    (dir others : List (GustFiles.Name × Option (ℕ → ℕ → ℝ)))
    (hdir : dir.Perm ((((List.range n).flatMap written).map fun w =>
      (w.1, some fun j i => (w.2.field j i).gust)) ++ others))
    (ho : ∀ f ∈ others, ∀ year, GustFiles.fnmatch (GustFiles.yearPattern year) f.1 = false)
    -- the hazard stage, with the axes of one of the files
    (w : GustFiles.Name × File) (hwm : w ∈ (List.range n).flatMap written)
    (lib : HazardRun.Lib) (S : HazardRun.Settings) (hS : S.evd = "GEV") (xLo xHi yLo yHi : ℤ) (xstep ystep : ℕ)
    (g : Tiles.Grid)
    (hg : Tiles.mkGrid (w.2.lons.map (10 * ·)) (w.2.lats.map (10 * ·)) xLo xHi yLo yHi xstep ystep = .ok g)
    (tiles : List Tiles.Limits) (ht : Tiles.getTiles g = some tiles) (zero : Except Evd.Err Evd.Fit)
    (m : ℕ) (hm : 0 < m) (k : ℕ) (s : Dispatch.State Tiles.Limits (Int → Int → Except Evd.Err Evd.Fit) m)
    (h : Dispatch.ReachIn Dispatch.hazardTags tiles (HazardRun.tile lib S dir) k s) (hdone : s.phase = .done) :
    let lat := HazardRun.extent w.2.lats g.jmin g.jmax
    let lon := HazardRun.extent w.2.lons g.imin g.imax
    ∀ a b : ℕ, a < lat.length → b < lon.length → ∃ j i : ℕ,
      lat[a]? = (regionAxis gl.yMin gl.yMax P.margin P.resolution)[j]? ∧
      lon[b]? = (regionAxis gl.xMin gl.xMax P.margin P.resolution)[i]? ∧
      ∃ record : List ℝ, record.length = S.numSim ∧
        (∀ (year : ℕ) (v : ℝ), record[year]? = some v →
          IsGreatestWind (((files.flatMap content).filter fun t => t.id.2 = year).flatMap fun t =>
            t.steps.filterMap (contribution gl M r j i)) v) ∧
        Hazard.storeAll g.imin g.jmin zero s.written a b =
          Evd.gevCell record S.years S.minRecords S.yrsPerSim := by
  intro lat lon a b ha hb
  obtain ⟨j, i, e1, e2, record, hlen, hrec, hval⟩ := C124_tracks_to_hazard_stored id monotone_id rfl P gl M r hM hr hd
    hPm hPr hPd content files hf hid n hn listing hl written hw dir others hdir ho w hwm lib S hS xLo xHi yLo yHi xstep
    ystep g hg tiles ht zero m hm k s h hdone a b ha hb
  refine ⟨j, i, e1, e2, record, hlen, fun year v hv => ?_, hval⟩
  obtain ⟨u, rfl, hu⟩ := hrec year v hv
  exact hu

/-- Two track files, two processes for the wind fields, one worker for the hazard: all the assumptions of
`C124_tracks_to_hazard` hold together. -/
example (lib : HazardRun.Lib) (S : HazardRun.Settings) :
    let P : Params := ⟨((100 : ℤ) : ℚ) / 100, ((50 : ℤ) : ℚ) / 100, .bounded, fun _ _ => 0⟩
    let gl : Limits := ⟨100, 101, -20, -19⟩
    let content : Fin 2 → List Track := fun f =>
      [⟨(0, f), [⟨100, -19, fun _ _ => (3, 4, 950)⟩], 1010⟩, ⟨(1, f), [⟨150, -19, fun _ _ => (3, 4, 950)⟩], 1010⟩]
    ∃ (written : ℕ → List (GustFiles.Name × File)) (w : GustFiles.Name × File) (dir : List (GustFiles.Name × Option (ℕ → ℕ → ℝ)))
      (g : Tiles.Grid) (tiles : List Tiles.Limits) (k : ℕ)
      (s : Dispatch.State Tiles.Limits (Int → Int → Except Evd.Err Evd.Fit) 1),
      w ∈ (List.range 2).flatMap written ∧ (∀ p < 2, rank P (some gl) content [1, 0] 2 p = some (.ok (written p))) ∧
      dir.Perm ((((List.range 2).flatMap written).map fun w => (w.1, some fun j i => (w.2.field j i).gust)) ++
        [(GustFiles.evolutionName (0, 0), none)]) ∧
      Tiles.mkGrid (w.2.lons.map (10 * ·)) (w.2.lats.map (10 * ·)) 100000 101000 (-20000) (-19000) 3 3 = .ok g ∧
      Tiles.getTiles g = some tiles ∧
      Dispatch.ReachIn Dispatch.hazardTags tiles (HazardRun.tile lib S dir) k s ∧ s.phase = .done := by
  intro P gl content
  obtain ⟨field, written, -, hw, hperm⟩ := C121_files P gl 100 50 (by norm_num) (by norm_num) (by norm_num) rfl rfl rfl
    content [1, 0] (by simp) (by decide +kernel) 2 (by norm_num) (fun _ => [1, 0]) (fun _ => .refl _)
  let dir : List (GustFiles.Name × Option (ℕ → ℕ → ℝ)) := (((List.range 2).flatMap written).map fun w =>
    (w.1, some fun j i => (w.2.field j i).gust)) ++ [(GustFiles.evolutionName (0, 0), none)]
  have h0 : Dispatch.ReachIn Dispatch.hazardTags [⟨2, 5, 2, 5⟩] (HazardRun.tile lib S dir) 0
    (Dispatch.start : Dispatch.State Tiles.Limits _ 1) := .start
  have h1 := Dispatch.ReachIn.step h0 (Dispatch.Step.initWork _ 0 (by omega) rfl ⟨2, 5, 2, 5⟩ rfl)
  have h3 := Dispatch.ReachIn.step h1 (Dispatch.Step.initDone _ 1 (by omega) rfl)
  have h4 := Dispatch.ReachIn.step h3 (Dispatch.Step.workerTake _ 0 rfl [] [] (by simp) ⟨2, 5, 2, 5⟩ rfl)
  have h5 := Dispatch.ReachIn.step h4 (Dispatch.Step.workerSend _ 0 0 ⟨2, 5, 2, 5⟩ rfl)
  have h6 := Dispatch.ReachIn.step h5 (Dispatch.Step.recvStop _ rfl (Nat.lt_succ_self 0) 0 0 ⟨2, 5, 2, 5⟩ _ [] rfl
    (Nat.lt_irrefl 1))
  have h7 := Dispatch.ReachIn.step h6 (Dispatch.Step.masterDone _ rfl (Nat.lt_irrefl 1))
  let t : Track := ⟨(0, 0), [⟨100, -19, fun _ _ => (3, 4, 950)⟩], 1010⟩
  refine ⟨written, _, dir, ⟨2, 4, 2, 4, Tiles.ceilDiv 3 3 * Tiles.ceilDiv 3 3, Tiles.tileGrid 2 2 3 3 3 3⟩,
    [⟨2, 5, 2, 5⟩], _, _, hperm.mem_iff.2 (List.mem_map.2 ⟨t, by simp [content, t, meets, gl, P]; norm_num, rfl⟩), hw,
    .refl _, ?_, by decide +kernel, h7, rfl⟩
  simp only [toFile]
  rw [show (regionAxis gl.xMin gl.xMax P.margin P.resolution) = [9900, 9950, 10000, 10050, 10100, 10150, 10200]
      by decide +kernel, show (regionAxis gl.yMin gl.yMax P.margin P.resolution) = [-2100, -2050, -2000, -1950,
      -1900, -1850, -1800] by decide +kernel]
  rfl

end Tcrm.WindRun
