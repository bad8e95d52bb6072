import Verif.Props.HazardRun
/-!
C116 for the methods that use the winds of all events: Pareto, power law and empirical.
-/
namespace Tcrm.HazardRun

open Tcrm.Evd Tcrm.Tiles Tcrm.Hazard Tcrm.Dispatch

theorem eventRecord_spec (events : List ((ℕ × ℕ) × (ℕ → ℕ → ℝ))) (dir : List (GustFiles.Name × Option (ℕ → ℕ → ℝ)))
    (hd : dir.Perm (events.map fun e => (GustFiles.gustName e.1, some e.2))) (t : GustFiles.Tile) (y x : ℕ) :
    ∃ r, eventRecord dir t y x = some r ∧ r.Perm (events.map fun e => e.2 (t.ymin + y) (t.xmin + x)) := by
  have hp : (dir.mergeSort fun a b => decide (a.1 ≤ b.1)).Perm (events.map fun e => (GustFiles.gustName e.1, some e.2)) :=
    (List.mergeSort_perm _ _).trans hd
  have hm : List.Forall₂ (fun (a : GustFiles.Name × Option (ℕ → ℕ → ℝ)) b => GustFiles.loadFile a.2 t = some b)
      (events.map fun e => (GustFiles.gustName e.1, some e.2))
      (events.map fun e y x => e.2 (t.ymin + y) (t.xmin + x)) := by
    rw [List.forall₂_map_left_iff, List.forall₂_map_right_iff]
    exact List.forall₂_same.2 fun e _ => rfl
  obtain ⟨r, h1, h2⟩ := List.perm_comp_forall₂ hp hm
  have h3 : GustFiles.loadFiles dir t = some r := (GustFiles.mapM_option_eq_some _ _ _).2 h1
  refine ⟨r.map fun v => v y x, by simp only [eventRecord, h3, Option.map_some], ?_⟩
  have := h2.map fun v : ℕ → ℕ → ℝ => v y x
  rwa [List.map_map] at this

/-- What is saved at a place is calculated at the cell of a tile that is at that place. -/
theorem stored_cell {A : Type} (dir : List (GustFiles.Name × Option (ℕ → ℕ → ℝ)))
    (lib : Lib) (S : Settings) (lon lat : List A) (milli : A → Int) (xLo xHi yLo yHi : Int) (xstep ystep : Nat)
    (hlon : IsAxis (lon.map milli)) (hlat : IsAxis (lat.map milli)) (g : Grid)
    (hg : mkGrid (lon.map milli) (lat.map milli) xLo xHi yLo yHi xstep ystep = .ok g)
    (tiles : List Limits) (ht : getTiles g = some tiles) (zero : Except Evd.Err Fit)
    (n : Nat) (hn : 0 < n) (k : Nat) (s : State Limits (Int → Int → Except Evd.Err Fit) n)
    (h : ReachIn hazardTags tiles (tile lib S dir) k s) (hdone : s.phase = .done)
    (a b : ℕ) (ha : a < (extent lat g.jmin g.jmax).length) (hb : b < (extent lon g.imin g.imax).length) :
    ∃ i j, Requested (lon.map milli) (lat.map milli) xLo xHi yLo yHi i j ∧
        (extent lat g.jmin g.jmax)[a]? = lat[j]? ∧ (extent lon g.imin g.imax)[b]? = lon[i]? ∧
        ∃ t y x, GustFiles.Tile.ymin t + y = j ∧ t.xmin + x = i ∧
          storeAll g.imin g.jmin zero s.written a b = cell lib S dir t y x := by
  obtain ⟨imin, imax, jmin, jmax, e1, e2, e3, e4, hil, hjl, hreq⟩ :=
    grid_bounds _ _ xLo xHi yLo yHi xstep ystep hlon hlat g hg
  rw [List.length_map] at hil hjl
  rw [e3, e4, extent_length _ _ _ hjl] at ha
  rw [e1, e2, extent_length _ _ _ hil] at hb
  rw [e1, e2, e3, e4]
  have hr : Requested (lon.map milli) (lat.map milli) xLo xHi yLo yHi (imin + b) (jmin + a) :=
    (hreq _ _).2 (by omega)
  refine ⟨imin + b, jmin + a, hr, extent_get _ _ _ _ (by omega), extent_get _ _ _ _ (by omega), ?_⟩
  obtain ⟨t, htm, hc, hval⟩ := (C02_parallel_output_equals_serial _ _ xLo xHi yLo yHi xstep ystep hlon hlat
    g hg tiles ht (tile lib S dir) zero n hn k s h hdone).2 _ _ hr
  obtain ⟨tiles', ht', -, hpos, -, -, hback⟩ :=
    C01_tiles_partition _ _ xLo xHi yLo yHi xstep ystep hlon hlat g hg
  rw [ht] at ht'
  obtain rfl := Option.some.inj ht'
  obtain ⟨hp1, hp2⟩ := hpos t htm
  obtain ⟨i', j', hi', hj', -⟩ := hback t.x1 t.y1 t htm ⟨le_refl _, hp1, le_refl _, hp2⟩
  obtain ⟨hc1, -, hc2, -⟩ := hc
  refine ⟨natTile t, (((jmin + a : ℕ) : Int) - t.y1).toNat, (((imin + b : ℕ) : Int) - t.x1).toNat,
    by simp only [natTile]; omega, by simp only [natTile]; omega, ?_⟩
  have e5 : (((jmin + a : ℕ) : Int) - g.jmin) = a := by rw [e3]; push_cast; ring
  have e6 : (((imin + b : ℕ) : Int) - g.imin) = b := by rw [e1]; push_cast; ring
  rw [e5, e6, e1, e3] at hval
  rw [hval]
  rfl

theorem eventCell_spec (fit : List ℝ → Except Evd.Err Fit) (k : ℕ) (record : List ℝ) :
    (record = [] → eventCell fit k record = .error .valueError) ∧
    ((∃ x ∈ record, 0 < x) → ∃ sorted : List ℝ, sorted.Perm record ∧ sorted.Pairwise (· ≤ ·) ∧
      eventCell fit k record = fit sorted) ∧
    (record ≠ [] → (∀ x ∈ record, x ≤ 0) →
      eventCell fit k record = .ok ⟨List.replicate k (some 0), some 0, some 0, some 0⟩) := by
  refine ⟨fun h => by simp [eventCell, h], fun h => ?_, fun h1 h2 => ?_⟩
  · have hne : record ≠ [] := by rintro rfl; obtain ⟨x, hx, -⟩ := h; simp at hx
    refine ⟨_, List.mergeSort_perm _ _, ?_, by rw [eventCell, if_neg hne, if_pos h]⟩
    have := List.pairwise_mergeSort (le := fun a b : ℝ => decide (a ≤ b))
      (fun a b c h1 h2 => decide_eq_true (le_trans (of_decide_eq_true h1) (of_decide_eq_true h2)))
      (fun a b => by rcases le_total a b with h | h <;> simp [h]) record
    exact this.imp fun h => of_decide_eq_true h
  · have : ¬ ∃ x ∈ record, x > 0 := by rintro ⟨x, hx, h⟩; exact absurd (h2 x hx) (not_le.2 h)
    rw [eventCell, if_neg h1, if_neg this]; rfl

/-- `value` is the fit to the winds `record` by the configured method: the fit to them in ascending order if there is a
wind, zeros if there is none. -/
def FittedTo (lib : Lib) (S : Settings) (record : List ℝ) (value : Except Evd.Err Fit) : Prop :=
  (record = [] → value = .error .valueError) ∧
  ((∃ x ∈ record, 0 < x) → ∃ sorted : List ℝ, sorted.Perm record ∧ sorted.Pairwise (· ≤ ·) ∧
    (S.evd = "GPD" → value = gpdfit lib.pareto (lib.percentile sorted) sorted S.years S.numSim S.minRecords) ∧
    (S.evd = "power" → value = powerfit lib.curve sorted S.years S.numSim) ∧
    (S.evd = "emp" → value = (empfit sorted S.years S.numSim).map fun ws => ⟨ws.map some, none, none, none⟩)) ∧
  (record ≠ [] → (∀ x ∈ record, x ≤ 0) →
    value = .ok ⟨List.replicate S.years.length (some 0), some 0, some 0, some 0⟩)

theorem empFit_map (d years : List ℝ) (n : ℕ) :
    empFit d years n = (empfit d years n).map fun ws => ⟨ws.map some, none, none, none⟩ := by
  unfold empFit
  cases empfit d years n <;> rfl

theorem FittedTo.perm {lib : Lib} {S : Settings} {r r' : List ℝ} {v : Except Evd.Err Fit} (hp : r.Perm r')
    (h : FittedTo lib S r v) : FittedTo lib S r' v := by
  obtain ⟨h1, h2, h3⟩ := h
  refine ⟨fun e => h1 (by subst e; exact List.perm_nil.1 hp), ?_, ?_⟩
  · rintro ⟨x, hx, h0⟩
    obtain ⟨s, hs, hr⟩ := h2 ⟨x, hp.mem_iff.2 hx, h0⟩
    exact ⟨s, hs.trans hp, hr⟩
  · intro e hx
    exact h3 (by rintro rfl; exact e (List.nil_perm.1 hp)) fun x h => hx x (hp.mem_iff.1 h)

theorem cell_fitted (lib : Lib) (S : Settings) (hS : S.evd = "GPD" ∨ S.evd = "power" ∨ S.evd = "emp")
    (dir : List (GustFiles.Name × Option (ℕ → ℕ → ℝ))) (t : GustFiles.Tile) (y x : ℕ) (r : List ℝ)
    (h : eventRecord dir t y x = some r) : FittedTo lib S r (cell lib S dir t y x) := by
  rcases hS with e | e | e
  all_goals
    simp only [cell, e, h, FittedTo, reduceIte, String.reduceEq, false_implies, true_implies, true_and, and_true]
    obtain ⟨h1, h2, h3⟩ := eventCell_spec _ S.years.length r
    refine ⟨h1, fun hx => ?_, h3⟩
    obtain ⟨s, hs1, hs2, hs3⟩ := h2 hx
    refine ⟨s, hs1, hs2, ?_⟩
    first
    | exact hs3
    | rw [hs3, empFit_map]

/-- C116 for the methods that use all events: whatever the number of processes and the order in which results arrive, when
the tiles are done the value saved at a longitude and latitude is the fit to the winds of all events at that grid point.
The directory holds the wind fields of the events (C57 says what happens with other files in it). -/
theorem C116_event_value {A : Type} (events : List ((ℕ × ℕ) × (ℕ → ℕ → ℝ)))
    (dir : List (GustFiles.Name × Option (ℕ → ℕ → ℝ)))
    (hd : dir.Perm (events.map fun e => (GustFiles.gustName e.1, some e.2)))
    (lib : Lib) (S : Settings) (hS : S.evd = "GPD" ∨ S.evd = "power" ∨ S.evd = "emp")
    (lon lat : List A) (milli : A → Int) (xLo xHi yLo yHi : Int) (xstep ystep : Nat)
    (hlon : IsAxis (lon.map milli)) (hlat : IsAxis (lat.map milli)) (g : Grid)
    (hg : mkGrid (lon.map milli) (lat.map milli) xLo xHi yLo yHi xstep ystep = .ok g)
    (tiles : List Limits) (ht : getTiles g = some tiles) (zero : Except Evd.Err Fit)
    (n : Nat) (hn : 0 < n) (k : Nat) (s : State Limits (Int → Int → Except Evd.Err Fit) n)
    (h : ReachIn hazardTags tiles (tile lib S dir) k s) (hdone : s.phase = .done)
    (a b : ℕ) (ha : a < (extent lat g.jmin g.jmax).length) (hb : b < (extent lon g.imin g.imax).length) :
    ∃ i j, Requested (lon.map milli) (lat.map milli) xLo xHi yLo yHi i j ∧
      (extent lat g.jmin g.jmax)[a]? = lat[j]? ∧ (extent lon g.imin g.imax)[b]? = lon[i]? ∧
      FittedTo lib S (events.map fun e => e.2 j i) (storeAll g.imin g.jmin zero s.written a b) := by
  obtain ⟨i, j, hr, e1, e2, t, y, x, ey, ex, hv⟩ := stored_cell dir lib S lon lat milli xLo xHi yLo yHi xstep ystep hlon
    hlat g hg tiles ht zero n hn k s h hdone a b ha hb
  obtain ⟨r, hr1, hr2⟩ := eventRecord_spec events dir hd t y x
  rw [ey, ex] at hr2
  refine ⟨i, j, hr, e1, e2, ?_⟩
  rw [hv]
  exact (cell_fitted lib S hS dir t y x r hr1).perm hr2

/-- A directory with two wind fields, in the order of a listing. -/
example : ([(GustFiles.gustName (1, 2), some fun y x => (y : ℝ) + x), (GustFiles.gustName (0, 0), some fun _ _ => 30)] :
    List (GustFiles.Name × Option (ℕ → ℕ → ℝ))).Perm
    (([((0, 0), fun _ _ => 30), ((1, 2), fun y x => (y : ℝ) + x)] : List ((ℕ × ℕ) × (ℕ → ℕ → ℝ))).map
      fun e => (GustFiles.gustName e.1, some e.2)) := List.Perm.swap _ _ _

end Tcrm.HazardRun
