import Verif.Lemmas.Rerun
import Verif.Props.GustFiles
import Mathlib.Tactic.ByContra

/-!
C109: every stage finds the files it needs.
C110: a run in a directory used before gives the results of that run alone.
-/

namespace Tcrm.Rerun

/-- An empty directory. -/
def empty : Dir := fun _ => none

/-- C109 (part): from an empty directory, data processing, calibration and the start of the track
generator get through exactly if the output format is `txt`, times are not given as ages, and
radii are in the input if their distribution is to be taken from it.
Missing: nothing is said about other formats, for which the run always fails. -/
theorem C109_model_partial (i : Input) (s : Settings) (run : ℕ) :
    (runOps run (modelRun i s) empty).completed = true ↔
      i.format = .txt ∧ i.age = false ∧ (s.rmwFromInput = true → i.rmax = true) := by
  rw [← over_nil (run := run) empty, completed_iff]
  by_cases h : i.format = .txt ∧ i.age = false
  · obtain ⟨h1, h2, -⟩ := model_outside i s h.1 h.2
    simp only [h1, h2, h, empty, true_and]
    cases s.rmwFromInput <;> cases i.rmax <;> simp
  · have : stops (modelRun i s) = true := model_stops i s (by
      by_cases h1 : i.format = .txt
      · right; simpa [h1] using h
      · exact .inl h1)
    rw [this]
    simp only [Bool.true_eq_false, false_and, false_iff]
    exact fun hh => h ⟨hh.1, hh.2.1⟩

/-- C109 (the failure): with any other output format, for example netCDF, which the program
announces to support, data processing fails whatever the input. -/
theorem C109_format_fails (i : Input) (s : Settings) (run : ℕ) (d : Dir) (h : i.format ≠ .txt) :
    (runOps run (modelRun i s) d).completed = false ∧ (runOps run (modelRun i s) d).dir = d := by
  by_cases hb : (i.age && !i.season) = true
  · simp [modelRun, dataOps, runOps, hb]
  · simp [modelRun, dataOps, runOps, hb, h]

/-- C109 (the failure): with ages instead of dates data processing fails whatever else is in the
input. -/
theorem C109_age_fails (i : Input) (s : Settings) (run : ℕ) (d : Dir) (h : i.age = true) :
    (runOps run (modelRun i s) d).completed = false := by
  have := (completed_iff (run := run) (modelRun i s) [] d).not
  rw [over_nil, model_stops i s (.inr h)] at this
  simpa using this

/-- C109 (part): the plots of the data need, in addition, data of more than one year. -/
theorem C109_plots_partial (i : Input) (run : ℕ) :
    (runOps run (plotRun i) empty).completed = true ↔
      i.format = .txt ∧ i.age = false ∧ i.severalYears = true := by
  rw [← over_nil (run := run) empty, completed_iff]
  obtain ⟨h1, h2⟩ := plot_outside i
  by_cases h : i.format = .txt ∧ i.age = false
  · have : stops (plotRun i) = false := by
      rw [← Bool.not_eq_true, h1]; simp [h]
    rw [this, h2 h.1 h.2]
    cases i.severalYears <;> simp [h, empty]
  · have : stops (plotRun i) = true := h1.mpr (by
      by_cases h1 : i.format = .txt
      · right; simpa [h1] using h
      · exact .inl h1)
    rw [this]
    simp only [Bool.true_eq_false, false_and, false_iff]
    exact fun hh => h ⟨hh.1, hh.2.1⟩

/-- C109: files do not disappear: what gets through from an empty directory gets through in every
directory. -/
theorem C109_any_directory (run : ℕ) (ops : List Op) (d d' : Dir)
    (hd : ∀ f, (d f).isSome = true → (d' f).isSome = true)
    (h : (runOps run ops d).completed = true) : (runOps run ops d').completed = true := by
  induction ops generalizing d d' with
  | nil => rfl
  | cons o r ih =>
    cases o with
    | stop => simp [runOps] at h
    | write fs =>
      refine ih _ _ ?_ h
      intro f
      by_cases e : f ∈ fs
      · simp [e]
      · simpa [e] using hd f
    | optional f => exact ih _ _ hd h
    | need fs =>
      simp only [runOps] at h ⊢
      split at h
      · rename_i hall
        have : (fs.all fun f => (d' f).isSome) = true := by
          rw [List.all_eq_true] at hall ⊢
          exact fun f hf => hd f (hall f hf)
        rw [if_pos this]
        exact ih _ _ hd h
      · simp at h

/-- C109: the generation of tracks by itself, in a directory that is calibrated already, needs exactly these files; the
tracks of the cyclones only if no region is configured, their origins only if no frequency is. -/
theorem C109_generation (s : Settings) (run : ℕ) (d : Dir) :
    (runOps run (trackOps s) d).completed = true ↔
      (s.trackLimit = false → (d .cycloneTracks).isSome) ∧
      (s.frequency = false → (d .originYear).isSome ∧ (d .originLonLat).isSome) ∧
      ∀ f ∈ [F.originPDF, .cdfBearing, .cdfSpeed, .cdfPressure, .cdfDay, .speedStats, .pressureStats, .bearingStats,
        .pressureRateStats], (d f).isSome := by
  obtain ⟨a, b, c⟩ := s
  cases b <;> cases c <;> (simp [trackOps, runOps]; grind)

/-! ### C110 -/

/-- C110 (part): whatever was in the directory before, a run that gets through has read only files
written by itself, but for: the distribution of radii, if it is not to be taken from the input
(left by an earlier run where it was), and the radii themselves, if they are wanted but not in the
input. -/
theorem C110_calibration_partial (i : Input) (s : Settings) (run : ℕ) (d : Dir)
    (h : (runOps run (modelRun i s) d).completed = true) (f : F) (v : ℕ)
    (hu : (f, v) ∈ (runOps run (modelRun i s) d).used) :
    v = run ∨ (f = .cdfRmax ∧ s.rmwFromInput = false ∧ d .cdfRmax = some v) ∨
      (f = .initRmax ∧ s.rmwFromInput = true ∧ i.rmax = false ∧ d .initRmax = some v) := by
  rw [← over_nil (run := run) d] at h hu
  have hgood : i.format = .txt ∧ i.age = false := by
    by_contra hcon
    have : stops (modelRun i s) = true := model_stops i s (by
      by_cases h1 : i.format = .txt
      · right; simpa [h1] using hcon
      · exact .inl h1)
    rw [completed_iff, this] at h
    simp at h
  obtain ⟨-, h2, h3⟩ := model_outside i s hgood.1 hgood.2
  rcases used_only _ _ _ _ _ hu with h4 | ⟨h4, h5⟩
  · exact .inl h4
  · rw [h2, h3] at h4
    rcases h4 with ⟨rfl, h6, h7⟩ | ⟨rfl, h6⟩
    · exact .inr (.inr ⟨rfl, h6, h7, h5⟩)
    · exact .inr (.inl ⟨rfl, h6, h5⟩)

/-- C110 (the failure): a distribution of radii left by an earlier run is used, although the
configuration asks for the model of radii. -/
theorem C110_radii_fails (i : Input) (s : Settings) (run old : ℕ) (d : Dir)
    (hf : i.format = .txt) (ha : i.age = false) (hs : s.rmwFromInput = false)
    (hd : d .cdfRmax = some old) :
    (runOps run (modelRun i s) d).completed = true ∧
      (F.cdfRmax, old) ∈ (runOps run (modelRun i s) d).used := by
  obtain ⟨h1, h2, h3⟩ := model_outside i s hf ha
  rw [← over_nil (run := run) d]
  have hc : (runOps run (modelRun i s) (over run [] d)).completed = true := by
    rw [completed_iff]
    refine ⟨h1, fun f hf' => ?_⟩
    have := ((h2 f).mp hf').2.1
    rw [hs] at this
    simp at this
  exact ⟨hc, used_outside _ _ _ _ _ hc (.inr ((h3 _).mpr ⟨rfl, hs⟩)) hd⟩

/-- C110 (the failure): radii of an earlier input are used if the new input has none, where the
run would have failed in an empty directory. -/
theorem C110_input_radii_fails (i : Input) (s : Settings) (run old : ℕ) (d : Dir)
    (hf : i.format = .txt) (ha : i.age = false) (hr : i.rmax = false)
    (hs : s.rmwFromInput = true) (hd : d .initRmax = some old) :
    (runOps run (modelRun i s) empty).completed = false ∧
      (runOps run (modelRun i s) d).completed = true ∧
      (F.initRmax, old) ∈ (runOps run (modelRun i s) d).used := by
  obtain ⟨h1, h2, h3⟩ := model_outside i s hf ha
  have hc : (runOps run (modelRun i s) (over run [] d)).completed = true := by
    rw [completed_iff]
    refine ⟨h1, fun f hf' => ?_⟩
    rw [((h2 f).mp hf').1, hd]
    rfl
  refine ⟨?_, by rw [← over_nil (run := run) d]; exact hc, ?_⟩
  · rw [← Bool.not_eq_true, C109_model_partial]
    rintro ⟨-, -, h⟩
    rw [h hs] at hr
    simp at hr
  · rw [← over_nil (run := run) d]
    exact used_outside _ _ _ _ _ hc (.inl ((h2 _).mpr ⟨rfl, hs, hr⟩)) hd

/-- C110 (the failure): if the data are of one year only, the annual frequencies of an earlier run
are plotted with them. -/
theorem C110_frequency_fails (i : Input) (run old : ℕ) (d : Dir)
    (hf : i.format = .txt) (ha : i.age = false) (hy : i.severalYears = false)
    (hd : d .frequency = some old) :
    (runOps run (plotRun i) d).completed = true ∧
      (F.frequency, old) ∈ (runOps run (plotRun i) d).used := by
  obtain ⟨h1, h2⟩ := plot_outside i
  rw [← over_nil (run := run) d]
  have hs : stops (plotRun i) = false := by
    rw [← Bool.not_eq_true, h1]; simp [hf, ha]
  have hn : needed [] (plotRun i) = [F.frequency] := by simpa [hy] using h2 hf ha
  have hc : (runOps run (plotRun i) (over run [] d)).completed = true := by
    rw [completed_iff]
    refine ⟨hs, fun f hf' => ?_⟩
    rw [hn, List.mem_singleton] at hf'
    rw [hf', hd]
    rfl
  exact ⟨hc, used_outside _ _ _ _ _ hc (.inl (by rw [hn]; simp)) hd⟩

variable {T L D X : Type}

/-- C110: the wind fields are computed for the tracks of the run and for those in files of
earlier runs with more simulations. -/
theorem C110_tracks (N n : ℕ) (hn : n ≤ N) (sims : ℕ → List T) (old : TrackDir T) (t : T) :
    t ∈ tracksFound N (writeTracks n sims old) ↔
      (∃ k < n, t ∈ sims k) ∨ ∃ k ts, n ≤ k ∧ k < N ∧ old k = some ts ∧ t ∈ ts := by
  unfold tracksFound writeTracks
  simp only [List.mem_flatMap, List.mem_range]
  constructor
  · rintro ⟨k, hk, hm⟩
    by_cases h : k < n
    · left; exact ⟨k, h, by simpa [h] using hm⟩
    · right
      rw [if_neg h] at hm
      cases ho : old k with
      | none => simp [ho] at hm
      | some ts => exact ⟨k, ts, by omega, hk, ho, by simpa [ho] using hm⟩
  · rintro (⟨k, hk, hm⟩ | ⟨k, ts, h1, h2, h3, h4⟩)
    · exact ⟨k, by omega, by simpa [hk] using hm⟩
    · exact ⟨k, h2, by simpa [Nat.not_lt.mpr h1, h3] using h4⟩

/-- C110 (part): if no file of a higher number is left over, the tracks are those of the run, in
order. -/
theorem C110_tracks_partial (N n : ℕ) (hn : n ≤ N) (sims : ℕ → List T) (old : TrackDir T)
    (h : ∀ k, n ≤ k → old k = none) :
    tracksFound N (writeTracks n sims old) = (List.range n).flatMap sims := by
  obtain ⟨m, rfl⟩ := Nat.exists_eq_add_of_le hn
  unfold tracksFound writeTracks
  rw [List.range_add, List.flatMap_append]
  have h1 : (List.range n).flatMap (fun k => (if k < n then some (sims k) else old k).getD []) =
      (List.range n).flatMap sims := by
    apply List.flatMap_congr
    intro k hk
    rw [if_pos (List.mem_range.mp hk)]
    rfl
  have h2 : ((List.range m).map (n + ·)).flatMap
      (fun k => (if k < n then some (sims k) else old k).getD []) = [] := by
    rw [List.flatMap_eq_nil_iff]
    intro k hk
    obtain ⟨j, -, rfl⟩ := List.mem_map.mp hk
    rw [if_neg (by omega), h _ (by omega)]
    rfl
  rw [h1, h2, List.append_nil]

/-- C110 (the failure): a wind field that is in the directory is never replaced: for every track
whose number and year occurred before, the wind field of the earlier run is kept, whatever the new
tracks and settings are. -/
theorem C110_winds_fail (S : GustFiles.Stage T L D X) (N : ℕ) (td : TrackDir T) (lim : Option L)
    (d : GustFiles.Disk D X) (t : T)
    (hc : GustFiles.complete S (d.files (GustFiles.gustName (S.id t))) = true) :
    (windStage S N td lim d).files (GustFiles.gustName (S.id t)) =
      d.files (GustFiles.gustName (S.id t)) :=
  GustFiles.C22_finished_not_rewritten S (tracksFound N td) lim d _ hc _
    (GustFiles.runFinal_mem S _ lim d)

/-- C110 (part): if the directory of wind fields is empty, and no track file of a higher number is
left over, every track of the run gets its own wind field, and there are no others. -/
theorem C110_winds_partial {S : GustFiles.Stage T L D X} (hS : GustFiles.Faithful S) (N n : ℕ)
    (hn : n ≤ N) (sims : ℕ → List T) (old : TrackDir T) (h : ∀ k, n ≤ k → old k = none) (l : L)
    (d : GustFiles.Disk D X) (hd : ∀ m, d.files m = none)
    (hid : ∀ t ∈ (List.range n).flatMap sims, ∀ t' ∈ (List.range n).flatMap sims,
      S.id t = S.id t' → t = t') (name : GustFiles.Name) :
    (∀ t ∈ (List.range n).flatMap sims, GustFiles.gustName (S.id t) = name →
      (windStage S N (writeTracks n sims old) (some l) d).files name =
        some (GustFiles.fullFile (S.result l t))) ∧
    ((∀ t ∈ (List.range n).flatMap sims, GustFiles.gustName (S.id t) ≠ name) →
      (windStage S N (writeTracks n sims old) (some l) d).files name = none) := by
  unfold windStage
  rw [C110_tracks_partial N n hn sims old h]
  have := GustFiles.C22_restart_partial hS (ts := (List.range n).flatMap sims) (l := l) (d₀ := d)
    (d := d) hid (fun t _ hc => by rw [hd] at hc; simp [GustFiles.complete] at hc) .start name
  refine ⟨this.1, fun hh => ?_⟩
  rw [this.2 hh, hd]

/-! ### Examples -/

/-- Best track data with dates, seasons and radii. -/
def bestTrack : Input := ⟨.txt, false, true, true, true⟩

/-- Radii from the model, domain and frequency found from the data. -/
def usual : Settings := ⟨false, false, false⟩

example : (runOps 1 (modelRun bestTrack usual) empty).completed = true := by decide

example : (runOps 1 (modelRun { bestTrack with format := .nc } usual) empty).completed = false := by
  decide

-- First with radii from the input, then without: the second run uses the distribution of the first.
example : (F.cdfRmax, 1) ∈ (runOps 2 (modelRun bestTrack usual)
    (runOps 1 (modelRun bestTrack ⟨true, false, false⟩) empty).dir).used := by decide

example : (runOps 1 (plotRun { bestTrack with severalYears := false }) empty).completed = false := by
  decide

-- Three simulations first, then two: the tracks of the third are still found.
example : tracksFound 5 (writeTracks 2 (fun k => [10 + k]) (writeTracks 3 (fun k => [20 + k])
    fun _ => none)) = [10, 11, 22] := by decide

end Tcrm.Rerun
