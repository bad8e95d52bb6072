import Verif.Props.WindRun
import Verif.Props.HazardEvents
/-!
C124 for the methods that use the winds of all events.
-/
namespace Tcrm.WindRun

open Tcrm.Windfield

/-- C124, Pareto, power-law and empirical methods: from the tracks to the hazard, when the gusts are rounded as they are
stored. After the wind-field stage on any number of processes, and the hazard stage on any number of workers in any
schedule, with only the gust files in the directory: the levels saved at a grid point are those fitted to the list that
has, for each track whose bounding box meets the region with its margin, the rounded greatest wind that any of its
positions brought to that grid point. A track left out brings no wind to any grid point. -/
theorem C124_tracks_to_hazard_events {F : Type} [LinearOrder F] (rd : ℝ → ℝ)
    (P : Params) (gl : Limits) (M r : ℤ) (hM : 0 ≤ M)
    (hr : 0 < r) (hd : r ∣ 2 * M) (hPm : P.margin = M / 100) (hPr : P.resolution = r / 100)
    (hPd : P.domain = .bounded) (content : F → List Track) (files : List F) (hf : files ≠ [])
    (hid : ((files.flatMap content).map (·.id)).Nodup)
    -- the wind-field stage
    (n : ℕ) (hn : 0 < n) (listing : ℕ → List F) (hl : ∀ p, (listing p).Perm files)
    (written : ℕ → List (GustFiles.Name × File))
    (hw : ∀ p < n, rank P (some gl) content (listing p) n p = some (.ok (written p)))
    -- the directory found by the hazard stage
    (dir : List (GustFiles.Name × Option (ℕ → ℕ → ℝ)))
    (hdir : dir.Perm (((List.range n).flatMap written).map fun w => (w.1, some fun j i => rd (w.2.field j i).gust)))
    -- the hazard stage, with the axes of one of the files
    (w : GustFiles.Name × File) (hwm : w ∈ (List.range n).flatMap written)
    (lib : HazardRun.Lib) (S : HazardRun.Settings) (hS : S.evd = "GPD" ∨ S.evd = "power" ∨ S.evd = "emp")
    (xLo xHi yLo yHi : ℤ) (xstep ystep : ℕ) (g : Tiles.Grid)
    (hg : Tiles.mkGrid (w.2.lons.map (10 * ·)) (w.2.lats.map (10 * ·)) xLo xHi yLo yHi xstep ystep = .ok g)
    (tiles : List Tiles.Limits) (ht : Tiles.getTiles g = some tiles) (zero : Except Evd.Err Evd.Fit)
    (m : ℕ) (hm : 0 < m) (k : ℕ) (s : Dispatch.State Tiles.Limits (Int → Int → Except Evd.Err Evd.Fit) m)
    (h : Dispatch.ReachIn Dispatch.hazardTags tiles (HazardRun.tile lib S dir) k s) (hdone : s.phase = .done) :
    let lat := HazardRun.extent w.2.lats g.jmin g.jmax
    let lon := HazardRun.extent w.2.lons g.imin g.imax
    ∀ a b : ℕ, a < lat.length → b < lon.length → ∃ j i : ℕ,
      lat[a]? = (regionAxis gl.yMin gl.yMax P.margin P.resolution)[j]? ∧
      lon[b]? = (regionAxis gl.xMin gl.xMax P.margin P.resolution)[i]? ∧
      (∀ t ∈ files.flatMap content, meets gl P.margin t = false →
        t.steps.filterMap (contribution gl M r j i) = []) ∧
      ∃ record : List ℝ,
        List.Forall₂ (fun (t : Track) v => ∃ u : ℝ, v = rd u ∧
          IsGreatestWind (t.steps.filterMap (contribution gl M r j i)) u)
          ((files.flatMap content).filter (meets gl P.margin)) record ∧
        HazardRun.FittedTo lib S record (Hazard.storeAll g.imin g.jmin zero s.written a b) := by
  intro lat lon a b ha hb
  obtain ⟨field, written', hfield, hw', hperm⟩ :=
    C121_files P gl M r hM hr hd hPm hPr hPd content files hf hid n hn listing hl
  have ew : (List.range n).flatMap written = (List.range n).flatMap written' := by
    rw [List.flatMap_def, List.flatMap_def]
    congr 1
    apply List.map_congr_left
    intro p hp
    have h1 := hw p (List.mem_range.1 hp)
    have h2 := hw' p (List.mem_range.1 hp)
    rw [h1] at h2
    simpa using h2
  have hax : w.2.lons = regionAxis gl.xMin gl.xMax P.margin P.resolution ∧
      w.2.lats = (regionAxis gl.yMin gl.yMax P.margin P.resolution).reverse := by
    rw [ew] at hwm
    obtain ⟨t, -, e⟩ := List.mem_map.1 (hperm.mem_iff.1 hwm)
    rw [← e]
    exact ⟨rfl, rfl⟩
  simp only [lat, lon, hax.1, hax.2] at ha hb ⊢
  rw [hax.1, hax.2] at hg
  set lats := regionAxis gl.yMin gl.yMax P.margin P.resolution with hlats
  set lons := regionAxis gl.xMin gl.xMax P.margin P.resolution with hlons
  set all := files.flatMap content with hall
  set events : List ((ℕ × ℕ) × (ℕ → ℕ → ℝ)) := (all.filter (meets gl P.margin)).map fun t =>
    (t.id, fun j i => rd (field t (lats.length - 1 - j) i).gust) with hev
  have hisdir : dir.Perm (events.map fun e => (GustFiles.gustName e.1, some e.2)) := by
    refine hdir.trans ?_
    rw [ew]
    refine (hperm.map _).trans (List.Perm.of_eq ?_)
    rw [hev, List.map_map, List.map_map]
    rfl
  have hlat := (axis_milli lats (by rw [hlats, hPr]; exact regionAxis_pairwise _ _ _ _ hr)).2
  have hlon := (axis_milli lons (by rw [hlons, hPr]; exact regionAxis_pairwise _ _ _ _ hr)).1
  obtain ⟨i, j, hreq, e1, e2, hval⟩ :=
    HazardRun.C116_event_value events dir hisdir lib S hS lons lats.reverse (10 * ·) xLo xHi yLo yHi xstep ystep hlon hlat
      g hg tiles ht zero m hm k s h hdone a b ha hb
  have hj : j < lats.length := by
    obtain ⟨y, hy, -⟩ := hreq.2
    have := (List.getElem?_eq_some_iff.1 hy).1
    simpa using this
  have hex : ∀ t : Track, Extreme P.dir t.env (t.steps.filterMap (contribution gl M r (lats.length - 1 - j) i))
      (field t (lats.length - 1 - j) i) := by
    intro t
    obtain ⟨f', hf', hx⟩ := C17_regional_extremes P gl M r hM hr hd hPm hPr hPd t.env t.steps
    rw [hfield t] at hf'
    simp only [Except.ok.injEq, Prod.mk.injEq] at hf'
    obtain ⟨e, -, -⟩ := hf'
    rw [e]
    exact hx _ _
  refine ⟨lats.length - 1 - j, i, by rw [← reverse_get _ _ hj]; exact e1, e2, ?_, _, ?_, hval⟩
  · intro t _ hmt
    rw [List.filterMap_eq_nil_iff]
    intro st hst
    by_contra hne
    have hin : Windfield.inRegion gl st = true := by
      unfold contribution at hne
      simp only at hne
      split at hne
      · next h => exact h.1
      · exact absurd rfl hne
    simp only [Windfield.inRegion, decide_eq_true_eq] at hin
    have hm0 : 0 ≤ P.margin := by rw [hPm]; positivity
    rw [C121_near_is_chosen gl P.margin t hst (by
      constructor <;> [linarith; constructor <;> [linarith; constructor <;> linarith]])] at hmt
    cases hmt
  · rw [hev, List.map_map, List.forall₂_map_right_iff]
    refine List.forall₂_same.2 fun t _ => ⟨_, rfl, (hex t).upper, ?_⟩
    rcases (hex t).attained with ⟨hz, -⟩ | ⟨pre, w, post, hws, -, -, hgw, -⟩
    · left; exact hz
    · right
      exact ⟨w, by rw [hws]; simp, hgw⟩

/-- Two track files, two processes for the wind fields, one worker for the hazard: all the assumptions of
`C124_tracks_to_hazard_events` hold together. -/
example (lib : HazardRun.Lib) (S : HazardRun.Settings) :
    let P : Params := ⟨((100 : ℤ) : ℚ) / 100, ((50 : ℤ) : ℚ) / 100, .bounded, fun _ _ => 0⟩
    let gl : Limits := ⟨100, 101, -20, -19⟩
    let content : Fin 2 → List Track := fun f =>
      [⟨(0, f), [⟨100, -19, fun _ _ => (3, 4, 950)⟩], 1010⟩, ⟨(1, f), [⟨150, -19, fun _ _ => (3, 4, 950)⟩], 1010⟩]
    ∃ (written : ℕ → List (GustFiles.Name × File)) (w : GustFiles.Name × File) (dir : List (GustFiles.Name × Option (ℕ → ℕ → ℝ)))
      (g : Tiles.Grid) (tiles : List Tiles.Limits) (k : ℕ)
      (s : Dispatch.State Tiles.Limits (Int → Int → Except Evd.Err Evd.Fit) 1),
      w ∈ (List.range 2).flatMap written ∧ (∀ p < 2, rank P (some gl) content [1, 0] 2 p = some (.ok (written p))) ∧
      dir.Perm (((List.range 2).flatMap written).map fun w => (w.1, some fun j i => (w.2.field j i).gust)) ∧
      Tiles.mkGrid (w.2.lons.map (10 * ·)) (w.2.lats.map (10 * ·)) 100000 101000 (-20000) (-19000) 3 3 = .ok g ∧
      Tiles.getTiles g = some tiles ∧
      Dispatch.ReachIn Dispatch.hazardTags tiles (HazardRun.tile lib S dir) k s ∧ s.phase = .done := by
  intro P gl content
  obtain ⟨field, written, -, hw, hperm⟩ := C121_files P gl 100 50 (by norm_num) (by norm_num) (by norm_num) rfl rfl rfl
    content [1, 0] (by simp) (by decide +kernel) 2 (by norm_num) (fun _ => [1, 0]) (fun _ => .refl _)
  let dir : List (GustFiles.Name × Option (ℕ → ℕ → ℝ)) := ((List.range 2).flatMap written).map fun w =>
    (w.1, some fun j i => (w.2.field j i).gust)
  have h0 : Dispatch.ReachIn Dispatch.hazardTags [⟨2, 5, 2, 5⟩] (HazardRun.tile lib S dir) 0
    (Dispatch.start : Dispatch.State Tiles.Limits _ 1) := .start
  have h1 := Dispatch.ReachIn.step h0 (Dispatch.Step.initWork _ 0 (by omega) rfl ⟨2, 5, 2, 5⟩ rfl)
  have h3 := Dispatch.ReachIn.step h1 (Dispatch.Step.initDone _ 1 (by omega) rfl)
  have h4 := Dispatch.ReachIn.step h3 (Dispatch.Step.workerTake _ 0 rfl [] [] (by simp) ⟨2, 5, 2, 5⟩ rfl)
  have h5 := Dispatch.ReachIn.step h4 (Dispatch.Step.workerSend _ 0 0 ⟨2, 5, 2, 5⟩ rfl)
  have h6 := Dispatch.ReachIn.step h5 (Dispatch.Step.recvStop _ rfl (Nat.lt_succ_self 0) 0 0 ⟨2, 5, 2, 5⟩ _ [] rfl
    (Nat.lt_irrefl 1))
  have h7 := Dispatch.ReachIn.step h6 (Dispatch.Step.masterDone _ rfl (Nat.lt_irrefl 1))
  let t : Track := ⟨(0, 0), [⟨100, -19, fun _ _ => (3, 4, 950)⟩], 1010⟩
  refine ⟨written, _, dir, ⟨2, 4, 2, 4, Tiles.ceilDiv 3 3 * Tiles.ceilDiv 3 3, Tiles.tileGrid 2 2 3 3 3 3⟩,
    [⟨2, 5, 2, 5⟩], _, _, hperm.mem_iff.2 (List.mem_map.2 ⟨t, by simp [content, t, meets, gl, P]; norm_num, rfl⟩), hw,
    .refl _, ?_, by decide +kernel, h7, rfl⟩
  simp only [toFile]
  rw [show (regionAxis gl.xMin gl.xMax P.margin P.resolution) = [9900, 9950, 10000, 10050, 10100, 10150, 10200]
      by decide +kernel, show (regionAxis gl.yMin gl.yMax P.margin P.resolution) = [-2100, -2050, -2000, -1950,
      -1900, -1850, -1800] by decide +kernel]
  rfl

end Tcrm.WindRun
