import Verif.Model.WindDir
import Verif.Props.HazardRun
/-!
C156: the hazard is calculated on the grid of the wind fields.
-/
namespace Tcrm.WindDir

open Tcrm.GustFiles (Name)
open Tcrm.HazardRun Tcrm.Evd Tcrm.Tiles Tcrm.Hazard Tcrm.Dispatch

variable {A : Type}

/-- C156 (part): with neither of the options, whatever the order of listing, the grid is that of the wind fields. -/
theorem C156_grid_partial (lon lat : List A) (events : List ((ℕ × ℕ) × (ℕ → ℕ → ℝ))) (he : events ≠ [])
    (dir : List (Name × File A)) (h : dir.Perm (written lon lat events false false)) :
    setDomain dir = some (lon, lat.reverse) := by
  cases dir with
  | nil =>
    have := h.length_eq
    simp [written] at this
    exact absurd this.symm (by simpa using he)
  | cons f fs =>
    have : f ∈ written lon lat events false false := h.subset (by simp)
    simp [written] at this
    obtain ⟨a, b, v, -, rfl⟩ := this
    rfl

/-- No file but the wind fields is taken for a wind field of some year. -/
theorem others_no_gusts (lon lat : List A) (events : List ((ℕ × ℕ) × (ℕ → ℕ → ℝ))) (ts m : Bool)
    (f : Name × File A)
    (hf : f ∈ (if ts then events.map fun e => evolutionFile lon lat e.1 else []) ++ (if m then rasters else []))
    (year : ℕ) : GustFiles.fnmatch (GustFiles.yearPattern year) f.1 = false := by
  rw [List.mem_append] at hf
  rcases hf with hf | hf
  · cases ts
    · simp at hf
    · simp only [if_true, List.mem_map] at hf
      obtain ⟨e, -, rfl⟩ := hf
      exact GustFiles.C20_evolution_not_selected year e.1
  · cases m
    · simp at hf
    · simp only [if_true, rasters, List.mem_map, List.mem_cons, List.not_mem_nil, or_false] at hf
      obtain ⟨s, hs, rfl⟩ := hf
      rcases hs with rfl | rfl | rfl | rfl | rfl | rfl <;>
        simp [GustFiles.yearPattern, GustFiles.fnmatch]

/-- C156: with any options, and in any order of listing, the annual maxima are those of the wind fields of the tracks:
the folder is one to which C116 applies. -/
theorem C156_annual_maxima (lon lat : List A) (events : List ((ℕ × ℕ) × (ℕ → ℕ → ℝ))) (ts m : Bool)
    (dir : List (Name × File A)) (h : dir.Perm (written lon lat events ts m)) : IsDirectory events (winds dir) := by
  refine ⟨winds ((if ts then events.map fun e => evolutionFile lon lat e.1 else []) ++
    (if m then rasters else [])), ?_, ?_⟩
  · have := h.map fun f => (f.1, f.2.vmax)
    simpa [winds, written, gustFile, List.append_assoc, Function.comp_def] using this
  · intro f hf year
    simp only [winds, List.mem_map] at hf
    obtain ⟨g, hg, rfl⟩ := hf
    exact others_no_gusts lon lat events ts m g hg year

/-- C156 (the failure): if the wind fields of all time steps are kept, the folder may be listed so that the grid taken
has its latitudes from south to north, the other way round than the wind fields; the hazard calculation then gets
through on every number of processes, and saves with each latitude the levels of another one, as far north of the
middle of the grid as the first is south of it. -/
theorem C156_mirrored_fails (events : List ((ℕ × ℕ) × (ℕ → ℕ → ℝ))) (he : events ≠ []) (lon lat : List A) (m : Bool)
    (milli : A → Int) (hlon : (lon.map milli).Pairwise (· < ·)) (hlat : (lat.map milli).Pairwise (· < ·)) :
    ∃ dir : List (Name × File A), dir.Perm (written lon lat events true m) ∧ setDomain dir = some (lon, lat) ∧
      (∀ e ∈ events, (gustFile lon lat e).2.axes = some (lon, lat.reverse)) ∧
      ∀ (lib : Lib) (S : Settings), S.evd = "GEV" → ∀ (xLo xHi yLo yHi : Int) (xstep ystep : Nat) (g : Grid),
        mkGrid (lon.map milli) (lat.map milli) xLo xHi yLo yHi xstep ystep = .ok g →
        ∀ (tiles : List Limits), getTiles g = some tiles → ∀ (zero : Except Evd.Err Evd.Fit) (n : Nat), 0 < n →
        ∀ (k : Nat) (s : State Limits (Int → Int → Except Evd.Err Evd.Fit) n),
        ReachIn hazardTags tiles (tile lib S (winds dir)) k s → s.phase = .done →
        ∀ a b : ℕ, a < (extent lat g.jmin g.jmax).length → b < (extent lon g.imin g.imax).length →
          ∃ i j y y', (extent lon g.imin g.imax)[b]? = lon[i]? ∧
            -- the latitude saved, and that of the row in the wind fields
            (extent lat g.jmin g.jmax)[a]? = some y ∧ lat[j]? = some y ∧
            lat.reverse[j]? = some y' ∧ lat[lat.length - 1 - j]? = some y' ∧
            (2 * j + 1 ≠ lat.length → milli y ≠ milli y') ∧
            ∃ record, AnnualMaxima events S.numSim j i record ∧
              storeAll g.imin g.jmin zero s.written a b = gevCell record S.years S.minRecords S.yrsPerSim := by
  obtain ⟨e, es, rfl⟩ := List.exists_cons_of_ne_nil he
  obtain ⟨l, hl⟩ : ∃ l, (evolutionFile lon lat e.1 :: l).Perm (written lon lat (e :: es) true m) := by
    have : evolutionFile lon lat e.1 ∈ written lon lat (e :: es) true m := by simp [written]
    obtain ⟨s, t, hst⟩ := List.append_of_mem this
    exact ⟨s ++ t, by rw [hst]; exact List.perm_middle.symm⟩
  refine ⟨evolutionFile lon lat e.1 :: l, hl, rfl, fun _ _ => rfl, ?_⟩
  intro lib S hS xLo xHi yLo yHi xstep ystep g hg tiles ht zero n hn k s h hdone a b ha hb
  obtain ⟨-, hval⟩ := C116_value (e :: es) _ (C156_annual_maxima lon lat _ _ _ _ hl) lib S hS lon lat milli xLo xHi yLo yHi
    xstep ystep (.inl (hlon.imp fun h => h.le)) (.inl (hlat.imp fun h => h.le)) g hg tiles ht zero n hn k s h hdone
  obtain ⟨i, j, hreq, hj, hi, hrec⟩ := hval a b ha hb
  obtain ⟨-, y0, hy0, -⟩ := hreq
  have hjl : j < lat.length := by
    obtain ⟨h, -⟩ := List.getElem?_eq_some_iff.1 hy0
    simpa using h
  have hr : lat.reverse[j]? = lat[lat.length - 1 - j]? := by
    rw [List.getElem?_reverse hjl]
  have hk : lat.length - 1 - j < lat.length := by omega
  refine ⟨i, j, lat[j], lat[lat.length - 1 - j], hi, ?_, List.getElem?_eq_getElem hjl, ?_,
    List.getElem?_eq_getElem hk, ?_, hrec⟩
  · rw [hj, List.getElem?_eq_getElem hjl]
  · rw [hr, List.getElem?_eq_getElem hk]
  · intro hmid heq
    rw [List.pairwise_iff_getElem] at hlat
    rcases lt_or_gt_of_ne (show j ≠ lat.length - 1 - j by omega) with hlt | hlt
    · have := hlat j (lat.length - 1 - j) (by simpa) (by simpa using hk) hlt
      simp at this; omega
    · have := hlat (lat.length - 1 - j) j (by simpa using hk) (by simpa) hlt
      simp at this; omega

/-- C156 (the failure): if multipliers are configured, the folder may be listed so that no grid is found and the stage
fails. -/
theorem C156_raster_fails (lon lat : List A) (events : List ((ℕ × ℕ) × (ℕ → ℕ → ℝ))) (ts : Bool) :
    ∃ dir : List (Name × File A), dir.Perm (written lon lat events ts true) ∧ setDomain dir = none := by
  refine ⟨rasters ++ (events.map (gustFile lon lat) ++
    (if ts then events.map fun e => evolutionFile lon lat e.1 else [])), ?_, rfl⟩
  simp only [written, if_true]
  exact List.perm_append_comm

/-- C156: with any options and any order of listing the grid found is that of the wind fields, or the one with the
latitudes the other way round, or none; the first of these for certain only without the options. -/
theorem C156_grid_cases (lon lat : List A) (events : List ((ℕ × ℕ) × (ℕ → ℕ → ℝ))) (ts m : Bool)
    (dir : List (Name × File A)) (h : dir.Perm (written lon lat events ts m)) :
    setDomain dir = some (lon, lat.reverse) ∨ (ts = true ∧ setDomain dir = some (lon, lat)) ∨
      ((m = true ∨ events = []) ∧ setDomain dir = none) := by
  cases dir with
  | nil =>
    right; right
    refine ⟨.inr ?_, rfl⟩
    have := h.length_eq
    cases events with
    | nil => rfl
    | cons a l => simp [written] at this
  | cons f fs =>
    have : f ∈ written lon lat events ts m := h.subset (by simp)
    simp only [written, List.mem_append, List.mem_map] at this
    rcases this with (⟨e, -, rfl⟩ | hf) | hf
    · exact .inl rfl
    · cases ts
      · simp at hf
      · simp only [if_true, List.mem_map] at hf
        obtain ⟨e, -, rfl⟩ := hf
        exact .inr (.inl ⟨rfl, rfl⟩)
    · cases m
      · simp at hf
      · simp only [if_true, rasters, List.mem_map] at hf
        obtain ⟨s, -, rfl⟩ := hf
        exact .inr (.inr ⟨.inl rfl, rfl⟩)

/-- C156 (the failure): without a configured region each wind field has a grid of its own (C123); the grid taken for the
hazard is that of whichever is listed first, not the extent of all of them. -/
theorem C156_extent_fails (lon₁ lat₁ lon₂ lat₂ : List A) (e₁ e₂ : (ℕ × ℕ) × (ℕ → ℕ → ℝ)) :
    setDomain [gustFile lon₁ lat₁ e₁, gustFile lon₂ lat₂ e₂] = some (lon₁, lat₁.reverse) ∧
      setDomain [gustFile lon₂ lat₂ e₂, gustFile lon₁ lat₁ e₁] = some (lon₂, lat₂.reverse) := ⟨rfl, rfl⟩

/-- Axes of a region, a track, and a grid of it that is requested. -/
example : ∃ g tiles, (([140, 141, 142] : List ℤ).map (1000 * ·)).Pairwise (· < ·) ∧
    (([-20, -19, -18] : List ℤ).map (1000 * ·)).Pairwise (· < ·) ∧
    mkGrid (([140, 141, 142] : List ℤ).map (1000 * ·)) (([-20, -19, -18] : List ℤ).map (1000 * ·)) 140000 142000
      (-20000) (-18000) 100 100 = .ok g ∧ getTiles g = some tiles ∧
    extent ([-20, -19, -18] : List ℤ) g.jmin g.jmax = [-20, -19, -18] :=
  ⟨_, [⟨0, 3, 0, 3⟩], by decide, by decide, rfl, by decide +kernel, by decide +kernel⟩

/-- A folder after a run with one track keeping all time steps. -/
example : setDomain [evolutionFile [140, 141] [-20, -19, -18] (0, 0),
      gustFile [140, 141] [-20, -19, -18] ((0, 0), fun y _ => (y : ℝ))] = some ([140, 141], [-20, -19, -18]) ∧
    setDomain [gustFile [140, 141] [-20, -19, -18] ((0, 0), fun y _ => (y : ℝ)),
      evolutionFile [140, 141] [-20, -19, -18] (0, 0)] = some ([140, 141], [-18, -19, -20]) := ⟨rfl, rfl⟩

end Tcrm.WindDir
