import Verif.Spec.EvalSave
import Verif.Props.NcGrid
import Verif.Props.EvaluateStats
/-!
C164: the files saved by the evaluation.
-/
namespace Tcrm.EvalSave
open Tcrm.NcGrid Tcrm.Evaluate

variable {T K : Type}

/-! ### Arrays -/

theorem flatten_get {α : Type} (L : List (List α)) (r : ℕ) (h : ∀ l ∈ L, l.length = r) (i j : ℕ) (hj : j < r) :
    L.flatten[i * r + j]? = L[i]?.bind (·[j]?) := by
  induction L generalizing i with
  | nil => simp
  | cons l L ih =>
    have hl := h l (by simp)
    cases i with
    | zero => simp [List.getElem?_append, hl, hj]
    | succ i =>
      have : (i + 1) * r + j = (i * r + j) + l.length := by rw [hl]; ring
      rw [List.flatten_cons, this, List.getElem?_append_right (by omega), Nat.add_sub_cancel,
        ih (fun l' hl' => h l' (by simp [hl']))]
      simp

theorem flatten_len {α : Type} (L : List (List α)) (r : ℕ) (h : ∀ l ∈ L, l.length = r) :
    L.flatten.length = L.length * r := by
  induction L with
  | nil => simp
  | cons l L ih =>
    rw [List.flatten_cons, List.length_append, h l (by simp), ih (fun l' hl' => h l' (by simp [hl'])), List.length_cons]
    ring

theorem filterMap_range {α : Type} (r : ℕ) (f : ℕ → Option α) (h : ∀ j < r, (f j).isSome) :
    ((List.range r).filterMap f).length = r ∧ ∀ j < r, ((List.range r).filterMap f)[j]? = f j := by
  induction r with
  | zero => simp
  | succ r ih =>
    obtain ⟨i1, i2⟩ := ih (fun j hj => h j (by omega))
    obtain ⟨v, hv⟩ := Option.isSome_iff_exists.1 (h r (by omega))
    rw [List.range_succ, List.filterMap_append]
    simp only [List.filterMap_cons, hv, List.filterMap_nil, List.length_append, i1, List.length_singleton, true_and]
    intro j hj
    rcases Nat.lt_succ_iff_lt_or_eq.1 hj with hj' | rfl
    · rw [List.getElem?_append_left (by omega), i2 j hj']
    · rw [List.getElem?_append_right (by omega)]
      simp [i1, hv]

theorem transpose_spec {α : Type} {a : Arr α} {r c : ℕ} (h : IsArr a [r, c]) :
    IsArr (transpose a) [c, r] ∧ ∀ i < c, ∀ j < r, (transpose a).data[i * r + j]? = a.data[j * c + i]? := by
  obtain ⟨h1, h2⟩ := h
  simp only [List.prod_cons, List.prod_nil, mul_one] at h2
  have hidx : ∀ i < c, ∀ j < r, j * c + i < a.data.length := by
    intro i hi j hj
    rw [h2]
    calc j * c + i < j * c + c := by omega
      _ = (j + 1) * c := by ring
      _ ≤ r * c := Nat.mul_le_mul_right _ (by omega)
  have hrow : ∀ i < c, ((List.range r).filterMap fun j => a.data[j * c + i]?).length = r ∧
      ∀ j < r, ((List.range r).filterMap fun j => a.data[j * c + i]?)[j]? = a.data[j * c + i]? := fun i hi =>
    filterMap_range r _ (fun j hj => by simp [hidx i hi j hj])
  have hall : ∀ l ∈ (List.range c).map (fun i => (List.range r).filterMap fun j => a.data[j * c + i]?), l.length = r := by
    intro l hl
    obtain ⟨i, hi, rfl⟩ := List.mem_map.1 hl
    exact (hrow i (List.mem_range.1 hi)).1
  have e : transpose a = ⟨[c, r], (List.range c).flatMap fun i => (List.range r).filterMap fun j => a.data[j * c + i]?⟩ := by
    unfold transpose; rw [h1]
  rw [e]
  refine ⟨⟨rfl, ?_⟩, ?_⟩
  · simp only [List.flatMap_def, List.prod_cons, List.prod_nil, mul_one]
    rw [flatten_len _ r hall]
    simp
  · intro i hi j hj
    simp only [List.flatMap_def]
    rw [flatten_get _ r hall i j hj]
    simp only [List.getElem?_map, List.getElem?_range hi, Option.map_some, Option.bind_some]
    exact (hrow i hi).2 j hj

theorem ofRows_spec {α : Type} {rows : List (List α)} {c : ℕ} (h : ∀ l ∈ rows, l.length = c) :
    IsArr (ofRows c rows) [rows.length, c] ∧ ∀ j i, i < c → (ofRows c rows).data[j * c + i]? = entry rows j i := by
  refine ⟨⟨rfl, ?_⟩, ?_⟩
  · simp [ofRows, flatten_len rows c h]
  · intro j i hi
    exact flatten_get rows c h j i hi

theorem idx_lt {r c j i : ℕ} (hj : j < r) (hi : i < c) : j * c + i < r * c :=
  calc j * c + i < j * c + c := by omega
    _ = (j + 1) * c := by ring
    _ ≤ r * c := Nat.mul_le_mul_right _ (by omega)

theorem stack_spec (stat : List ℚ → Option ℚ) (r c : ℕ) (maps : List (Arr (Option ℚ))) :
    IsArr (stack stat r c maps) [r, c] ∧ ∀ j < r, ∀ i < c, (stack stat r c maps).data[j * c + i]? =
      some (stat (maps.filterMap fun m => m.data[j * c + i]?.join)) := by
  refine ⟨⟨rfl, by simp [stack]⟩, ?_⟩
  intro j hj i hi
  simp only [stack, List.getElem?_map, List.getElem?_range (idx_lt hj hi), Option.map_some]

/-! ### Saving -/

/-- All arrays are there. -/
def given (es : List (String × Option ℕ × Arr (Option K))) : List (Entry K) := es.map fun e => ⟨e.1, e.2.1, some e.2.2⟩

theorem saveAll_ok (lib : Lib T K) (ty : Types T) (default nodata : K) (disk : Disk T K) (path : String)
    (lats lons : List K) (es : List (String × Option ℕ × Arr (Option K)))
    (hn : (["lat", "lon"] ++ es.map (·.1)).Nodup) (hs : ∀ e ∈ es, IsArr e.2.2 [lats.length, lons.length]) :
    ∃ disk' f, saveAll lib ty default nodata true disk path lats lons (given es) = (disk', .saved) ∧
      (∀ p, p ≠ path → disk' p = disk p) ∧ ncLoadFile disk' path = .ok f ∧
      (∀ e ∈ es, ∀ i < lats.length, ∀ j < lons.length, ∃ y x v, lats[i]? = some y ∧ lons[j]? = some x ∧
        e.2.2.data[i * lons.length + j]? = some v ∧
        ReadsAt f e.1 i j (lib.cast ty.f y) (lib.cast ty.f x) (lib.cast ty.f (v.getD nodata))) ∧
      (∀ e ∈ es, ∀ p, e.2.1 = some p → Labelled f e.1 p) ∧
      (∀ n, n ∉ ["lat", "lon"] ++ es.map (·.1) → ncGetData f n = .error .key) := by
  set axes : List (Axis T K) := [⟨"lat", ty.f, lats⟩, ⟨"lon", ty.f, lons⟩] with hax
  set grids : List (Grid T K) := es.map fun e =>
    ⟨e.1, ty.f, ["lat", "lon"], none, some (filled nodata e.2.2), { percentile := e.2.1 }⟩ with hgr
  have hc : Consistent axes grids := by
    refine ⟨?_, ?_, ?_⟩
    · simpa [hax, hgr, Function.comp_def] using hn
    · intro g hg n hng
      obtain ⟨e, _, rfl⟩ := List.mem_map.1 hg
      simp only [List.mem_cons, List.not_mem_nil, or_false] at hng
      rcases hng with rfl | rfl
      · exact ⟨⟨"lat", ty.f, lats⟩, by simp [hax], rfl⟩
      · exact ⟨⟨"lon", ty.f, lons⟩, by simp [hax], rfl⟩
    · intro g hg a ha
      obtain ⟨e, he, rfl⟩ := List.mem_map.1 hg
      simp only [Option.some.injEq] at ha
      subst ha
      simp only [filled, (hs e he).1]
      exact .cons ⟨⟨"lat", ty.f, lats⟩, by simp [hax], rfl, rfl⟩ (.cons ⟨⟨"lon", ty.f, lons⟩, by simp [hax], rfl, rfl⟩ .nil)
  have hm : (given es).mapM (Entry.dict ty nodata) = some (grids.map Grid.dict) := by
    rw [mapM_iff]
    simp only [given, hgr, List.map_map, List.forall₂_map_left_iff, List.forall₂_map_right_iff]
    exact List.forall₂_same.2 fun e _ => rfl
  have hk := ncSaveGrid_ok lib default nodata disk path axes grids hc
  have hd : axes.map Axis.dict =
      [⟨some "lat", some lats, some ty.f, some {}⟩, ⟨some "lon", some lons, some ty.f, some {}⟩] := rfl
  rw [hd] at hk
  have a1 : ncGetDims (fileOf lib nodata axes grids) "lat" = .ok (lats.map (lib.cast ty.f)) := by
    have := get_axis lib nodata axes grids hc (a := ⟨"lat", ty.f, lats⟩) (by simp [hax])
    simp only at this
    simp [ncGetDims, this, axisVar, Except.map]
  have a2 : ncGetDims (fileOf lib nodata axes grids) "lon" = .ok (lons.map (lib.cast ty.f)) := by
    have := get_axis lib nodata axes grids hc (a := ⟨"lon", ty.f, lons⟩) (by simp [hax])
    simp only at this
    simp [ncGetDims, this, axisVar, Except.map]
  refine ⟨Function.update disk path (some (fileOf lib nodata axes grids)), fileOf lib nodata axes grids, ?_, ?_,
    by simp only [ncLoadFile, Function.update_self], ?_, ?_, ?_⟩
  · simp only [saveAll, hm, hk]
  · intro p hp
    simp [Function.update_of_ne hp]
  · intro e he i hi j hj
    have hg : (⟨e.1, ty.f, ["lat", "lon"], none, some (filled nodata e.2.2), { percentile := e.2.1 }⟩ : Grid T K) ∈ grids :=
      List.mem_map_of_mem he
    have d := data_grid lib nodata axes grids hc hg rfl
    simp only [filled, (hs e he).1] at d
    have hl := (hs e he).2
    simp only [List.prod_cons, List.prod_nil, mul_one] at hl
    have hlt : i * lons.length + j < e.2.2.data.length := by rw [hl]; exact idx_lt hi hj
    refine ⟨lats[i], lons[j], e.2.2.data[i * lons.length + j], by simp [hi], by simp [hj], by simp [hlt],
      lats.map (lib.cast ty.f), lons.map (lib.cast ty.f), _, a1, a2, by simpa using d, by simp [hl], by simp [hi], by simp [hj], ?_⟩
    simp [hlt, kept]
  · intro e he p hp
    have hg : (⟨e.1, ty.f, ["lat", "lon"], none, some (filled nodata e.2.2), { percentile := e.2.1 }⟩ : Grid T K) ∈ grids :=
      List.mem_map_of_mem he
    have g := get_grid lib nodata axes grids hc hg
    exact ⟨_, g, hp⟩
  · intro n hn'
    have : (fileOf lib nodata axes grids).vars.find? (·.name == n) = none := by
      rw [List.find?_eq_none]
      intro v hv
      simp only [beq_iff_eq]
      intro e
      have := List.mem_map_of_mem (f := fun v : Var T K => v.name) hv
      rw [names_fileOf, e] at this
      apply hn'
      simpa [hax, hgr, Function.comp_def] using this
    simp [ncGetData, ncGetVar, this]

theorem saveAll_reads (lib : Lib T K) (ty : Types T) (default nodata : K) (disk : Disk T K) (path : String)
    (lats lons : List K) (es : List (String × Option ℕ × Arr (Option K)))
    (hn : (["lat", "lon"] ++ es.map (·.1)).Nodup) (hs : ∀ e ∈ es, IsArr e.2.2 [lats.length, lons.length]) :
    ∃ disk' f, saveAll lib ty default nodata true disk path lats lons (given es) = (disk', .saved) ∧
      (∀ p, p ≠ path → disk' p = disk p) ∧ ncLoadFile disk' path = .ok f ∧
      (∀ n p A, (n, some p, A) ∈ es → Labelled f n p) ∧
      ∀ n p A, (n, p, A) ∈ es → ∀ i j y x v, lats[i]? = some y → lons[j]? = some x →
        A.data[i * lons.length + j]? = some v →
        ReadsAt f n i j (lib.cast ty.f y) (lib.cast ty.f x) (lib.cast ty.f (v.getD nodata)) := by
  obtain ⟨disk', f, h1, h2, h3, h4, h5, _⟩ := saveAll_ok lib ty default nodata disk path lats lons es hn hs
  refine ⟨disk', f, h1, h2, h3, fun n p A h => h5 _ h p rfl, ?_⟩
  intro n p A h i j y x v hy hx hv
  obtain ⟨y', x', v', e1, e2, e3, r⟩ := h4 _ h i (List.getElem?_eq_some_iff.1 hy).1 j (List.getElem?_eq_some_iff.1 hx).1
  simp only at e3
  rw [hy] at e1
  rw [hx] at e2
  rw [hv] at e3
  cases e1; cases e2; cases e3
  exact r

/-! ### Density of tracks -/

/-- Number of records in the cell of row `i` and column `j` -/
abbrev cellCount (lons lats : List ℚ) (tracks : List Track) (i j : ℕ) : ℕ :=
  (records tracks).countP fun o => decide (InCell lons j o.lon ∧ InCell lats i o.lat)

theorem trackDensity_shape (lons lats : List ℚ) (tracks : List Track) :
    (trackDensity lons lats tracks).length = lons.length - 1 ∧ ∀ l ∈ trackDensity lons lats tracks, l.length = lats.length - 1 := by
  simp [trackDensity, histogram2d]

theorem historicRate_shape {lons lats : List ℚ} {tracks : List Track} {m} (h : historicRate lons lats tracks = .ok m) :
    m.length = lons.length - 1 ∧ ∀ l ∈ m, l.length = lats.length - 1 := by
  obtain ⟨h1, h2⟩ := trackDensity_shape lons lats tracks
  unfold historicRate at h
  split at h
  · cases h
  · cases h
    refine ⟨by simpa using h1, ?_⟩
    intro l hl
    obtain ⟨l', hl', rfl⟩ := List.mem_map.1 hl
    simpa using h2 l' hl'

theorem syntheticRate_shape (lons lats : List ℚ) (years : ℚ) (tracks : List Track) :
    (syntheticRate lons lats years tracks).length = lons.length - 1 ∧
      ∀ l ∈ syntheticRate lons lats years tracks, l.length = lats.length - 1 := by
  obtain ⟨h1, h2⟩ := trackDensity_shape lons lats tracks
  unfold syntheticRate
  refine ⟨by simpa using h1, ?_⟩
  intro l hl
  obtain ⟨l', hl', rfl⟩ := List.mem_map.1 hl
  simpa using h2 l' hl'

theorem filterMap_all {α β : Type} (l : List α) (f : α → Option β) (g : α → β) (h : ∀ a ∈ l, f a = some (g a)) :
    l.filterMap f = l.map g := by
  induction l with
  | nil => rfl
  | cons a l ih =>
    rw [List.filterMap_cons, h a (by simp)]
    simp [ih fun b hb => h b (by simp [hb])]

theorem mean_some {vs : List ℚ} (h : vs ≠ []) : ∃ m, mean vs = some m ∧ m * vs.length = vs.sum := by
  obtain ⟨m, md, up, lw, lo, hi, e, _⟩ := C106_summary h
  refine ⟨vs.sum / vs.length, by simp [mean, h], ?_⟩
  have : (vs.length : ℚ) ≠ 0 := by
    have := List.length_pos_of_ne_nil h
    positivity
  field_simp

theorem percentile_some {vs : List ℚ} (h : vs ≠ []) : (∃ u, percentile vs 95 = some u) ∧ ∃ u, percentile vs 5 = some u := by
  obtain ⟨m, md, up, lw, lo, hi, e, _⟩ := C106_summary h
  simp only [summarise, Summary.mk.injEq] at e
  exact ⟨⟨up, e.2.2.1⟩, ⟨lw, e.2.2.2⟩⟩

/-- **C164**: in the saved density of tracks, the number read at the latitude and the longitude of the south-west corner of
a cell is that of this cell: for the record, its count of positions per year; for the simulations, the mean and the
95th and 5th percentile of the counts per year, and so are they labelled.  No other file changes. -/
theorem C164_track_density (lib : Lib T ℚ) (ty : Types T) (default nodata : ℚ) (disk : Disk T ℚ) (path : String)
    {lons lats : List ℚ} {years : ℚ} (h0 : years ≠ 0) {tracks : List Track} {sims : List (List Track)} (hs : sims ≠ [])
    (hne : ∀ t ∈ tracks, t ≠ []) (hy : ∀ o ∈ records tracks, 0 ≤ o.year ∧ o.year ≤ 9999) {a b : ℤ}
    (ha : FirstYear tracks a) (hb : LastYear tracks b) (hab : a < b) :
    ∃ d disk' f, trackDensities lons lats years tracks sims = .ok d ∧
      saveTrackDensity lib ty default nodata true disk path d = (disk', .saved) ∧
      (∀ p, p ≠ path → disk' p = disk p) ∧ ncLoadFile disk' path = .ok f ∧
      Labelled f "syn_density_upper" 95 ∧ Labelled f "syn_density_lower" 5 ∧
      ∀ i j y x, lats[i]? = some y → lons[j]? = some x → i + 1 < lats.length → j + 1 < lons.length →
        ReadsAt f "hist_density" i j (lib.cast ty.f y) (lib.cast ty.f x)
          (lib.cast ty.f ((cellCount lons lats tracks i j : ℚ) / ((b - a : ℤ) : ℚ))) ∧
        ∃ m up lw,
          ReadsAt f "syn_density" i j (lib.cast ty.f y) (lib.cast ty.f x) (lib.cast ty.f m) ∧
          ReadsAt f "syn_density_upper" i j (lib.cast ty.f y) (lib.cast ty.f x) (lib.cast ty.f up) ∧
          ReadsAt f "syn_density_lower" i j (lib.cast ty.f y) (lib.cast ty.f x) (lib.cast ty.f lw) ∧
          (∀ rates : List ℚ, rates = sims.map (fun s => (cellCount lons lats s i j : ℚ) / years) →
            m * sims.length = rates.sum ∧ percentile rates 95 = some up ∧ percentile rates 5 = some lw) := by
  obtain ⟨h, hh, hcell⟩ := C101_historic_partial (lons := lons) (lats := lats) hne hy ha hb hab
  obtain ⟨hl1, hl2⟩ := historicRate_shape hh
  set r := lons.length - 1 with hr
  set c := lats.length - 1 with hc
  set maps := sims.map fun s => ofRows c (syntheticRate lons lats years s) with hmaps
  have hlat : lats.dropLast.length = c := by simp [hc]
  have hlon : lons.dropLast.length = r := by simp [hr]
  obtain ⟨o1, o2⟩ := ofRows_spec hl2
  rw [hl1] at o1
  obtain ⟨t1, t2⟩ := transpose_spec o1
  obtain ⟨m1, m2⟩ := stack_spec mean r c maps
  obtain ⟨u1, u2⟩ := stack_spec (percentile · 95) r c maps
  obtain ⟨w1, w2⟩ := stack_spec (percentile · 5) r c maps
  obtain ⟨tm1, tm2⟩ := transpose_spec m1
  obtain ⟨tu1, tu2⟩ := transpose_spec u1
  obtain ⟨tw1, tw2⟩ := transpose_spec w1
  obtain ⟨disk', f, hsave, hoth, hload, hread, hlab, _⟩ := saveAll_ok lib ty default nodata disk path lats.dropLast lons.dropLast
    [("hist_density", none, transpose (ofRows c h)), ("syn_density", none, transpose (stack mean r c maps)),
     ("syn_density_upper", some 95, transpose (stack (percentile · 95) r c maps)),
     ("syn_density_lower", some 5, transpose (stack (percentile · 5) r c maps))]
    (by simp) (by
      rw [hlat, hlon]
      simp only [List.mem_cons, List.not_mem_nil, or_false]
      rintro e (rfl | rfl | rfl | rfl)
      · exact t1
      · exact tm1
      · exact tu1
      · exact tw1)
  refine ⟨_, disk', f, by simp only [trackDensities, hh]; rfl, ?_, hoth, hload, ?_, ?_, ?_⟩
  · simp only [saveTrackDensity, Option.isNone_some, Bool.false_eq_true, if_false]
    exact hsave
  · exact hlab ("syn_density_upper", some 95, transpose (stack (percentile · 95) r c maps)) (by simp) 95 rfl
  · exact hlab ("syn_density_lower", some 5, transpose (stack (percentile · 5) r c maps)) (by simp) 5 rfl
  · intro i j y x hyi hxj hi hj
    have hi' : i < c := by omega
    have hj' : j < r := by omega
    have ey : lats.dropLast[i]? = some y := by rw [List.getElem?_dropLast, if_pos (by omega)]; exact hyi
    have ex : lons.dropLast[j]? = some x := by rw [List.getElem?_dropLast, if_pos (by omega)]; exact hxj
    have rd := fun e he => hread e he i (by omega) j (by omega)
    rw [ey, ex, hlon] at rd
    have hmapsj : maps.filterMap (fun m => m.data[j * c + i]?.join) =
        sims.map (fun s => (cellCount lons lats s i j : ℚ) / years) := by
      rw [hmaps, List.filterMap_map]
      apply filterMap_all
      intro s _
      obtain ⟨s1, s2⟩ := syntheticRate_shape lons lats years s
      obtain ⟨q, hq, hq2⟩ := C101_synthetic (lons := lons) (lats := lats) (tracks := s) h0 hj hi
      rw [Function.comp_apply, (ofRows_spec s2).2 j i hi', hq]
      simp only [Option.join_some, Option.some.injEq]
      rw [eq_div_iff h0, hq2]
    set rates := sims.map (fun s => (cellCount lons lats s i j : ℚ) / years) with hrates
    have hrn : rates ≠ [] := by simp [hrates, hs]
    obtain ⟨m, hm, hm2⟩ := mean_some hrn
    obtain ⟨⟨up, hup⟩, lw, hlw⟩ := percentile_some hrn
    have take : ∀ (n : String) (p : Option ℕ) (A : Arr (Option ℚ)) (v : ℚ),
        (n, p, A) ∈ [("hist_density", none, transpose (ofRows c h)), ("syn_density", none, transpose (stack mean r c maps)),
          ("syn_density_upper", some 95, transpose (stack (percentile · 95) r c maps)),
          ("syn_density_lower", some 5, transpose (stack (percentile · 5) r c maps))] →
        A.data[i * r + j]? = some (some v) → ReadsAt f n i j (lib.cast ty.f y) (lib.cast ty.f x) (lib.cast ty.f v) := by
      intro n p A v hmem hv
      obtain ⟨y', x', v', e1, e2, e3, h3⟩ := rd _ hmem
      simp only [Option.some.injEq] at e1 e2
      subst e1 e2
      rw [hv] at e3
      cases e3
      exact h3
    refine ⟨take _ none (transpose (ofRows c h)) _ (by simp) ?_, m, up, lw,
      take _ none (transpose (stack mean r c maps)) _ (by simp) ?_,
      take _ (some 95) (transpose (stack (percentile · 95) r c maps)) _ (by simp) ?_,
      take _ (some 5) (transpose (stack (percentile · 5) r c maps)) _ (by simp) ?_, ?_⟩
    · rw [t2 i hi' j hj', o2 j i hi']
      exact hcell j i hj hi
    · rw [tm2 i hi' j hj', m2 j hj' i hi', hmapsj, hm]
    · rw [tu2 i hi' j hj', u2 j hj' i hi', hmapsj, hup]
    · rw [tw2 i hi' j hj', w2 j hj' i hi', hmapsj, hlw]
    · rintro rates' rfl
      exact ⟨by rw [← hm2, hrates]; simp, hup, hlw⟩

/-! ### Density of genesis -/

/-- First positions of the tracks that start inside the domain -/
def starts (g : Limit) (tracks : List Track) : List (ℚ × ℚ) :=
  ((tracks.filter fun t => decide (StartsIn g t)).filterMap (·.head?)).map fun o => (o.lon, o.lat)

theorem genesisPoints_eq (g : Limit) (tracks : List Track) : genesisPoints g tracks = starts g tracks := by
  unfold genesisPoints starts
  induction tracks with
  | nil => rfl
  | cons t ts ih =>
    cases t with
    | nil =>
      have : ¬ StartsIn g [] := by simp [StartsIn]
      rw [List.filterMap_cons]
      simp only [List.head?_nil, Option.map_none]
      rw [ih, List.filter_cons_of_neg (by simpa using this)]
    | cons o os =>
      rw [List.filterMap_cons]
      simp only [List.head?_cons, Option.map_some]
      by_cases h : StartsIn g (o :: os)
      · rw [List.filter_cons_of_pos, ih, List.filter_cons_of_pos (by simpa using h)]
        · simp
        · simpa [StartsIn, and_assoc] using h
      · rw [List.filter_cons_of_neg, ih, List.filter_cons_of_neg (by simpa using h)]
        simpa [StartsIn, and_assoc] using h

theorem genesisMap_spec {kde : List (ℚ × ℚ) → Except Evaluate.Err (ℚ × ℚ → ℚ)} {g : Limit} (lons lats : List ℚ)
    {tracks : List Track} {pdf : ℚ × ℚ → ℚ} (h : kde (starts g tracks) = .ok pdf) :
    ∃ A, genesisMap kde g lons lats tracks = .ok A ∧ IsArr A [lons.length, lats.length] ∧
      ∀ i j y x, lats[i]? = some y → lons[j]? = some x → A.data[j * lats.length + i]? = some (some (pdf (x, y))) := by
  have hl : ∀ l ∈ lats.map (fun y => lons.map fun x => some (pdf (x, y))), l.length = lons.length := by
    intro l hl
    obtain ⟨y, _, rfl⟩ := List.mem_map.1 hl
    simp
  have hB : IsArr (⟨[lats.length, lons.length], lats.flatMap fun y => lons.map fun x => some (pdf (x, y))⟩ : Arr (Option ℚ))
      [lats.length, lons.length] := by
    refine ⟨rfl, ?_⟩
    rw [List.flatMap_def, flatten_len _ _ hl]
    simp
  obtain ⟨t1, t2⟩ := transpose_spec hB
  refine ⟨_, by unfold genesisMap; rw [genesisPoints_eq, h], t1, ?_⟩
  intro i j y x hy hx
  have hi := (List.getElem?_eq_some_iff.1 hy).1
  have hj := (List.getElem?_eq_some_iff.1 hx).1
  obtain ⟨tt1, tt2⟩ := transpose_spec t1
  rw [t2 j hj i hi]
  simp only [List.flatMap_def]
  rw [flatten_get _ _ hl i j hj]
  simp [hy, hx]

theorem genesis_mapM {kde : List (ℚ × ℚ) → Except Evaluate.Err (ℚ × ℚ → ℚ)} {g : Limit} (lons lats : List ℚ)
    {sims : List (List Track)} {pdfs : List (ℚ × ℚ → ℚ)} (h : List.Forall₂ (fun s p => kde (starts g s) = .ok p) sims pdfs) :
    ∃ maps, sims.mapM (genesisMap kde g lons lats) = .ok maps ∧ ∀ i j y x, lats[i]? = some y → lons[j]? = some x →
      maps.filterMap (fun m => m.data[j * lats.length + i]?.join) = pdfs.map (· (x, y)) := by
  induction h with
  | nil => exact ⟨[], rfl, by simp⟩
  | @cons s p ss ps h1 _ ih =>
    obtain ⟨maps, e, hm⟩ := ih
    obtain ⟨A, hA, _, hA2⟩ := genesisMap_spec lons lats h1
    refine ⟨A :: maps, ?_, ?_⟩
    · rw [List.mapM_cons, hA, e]
      rfl
    · intro i j y x hy hx
      rw [List.filterMap_cons, hA2 i j y x hy hx]
      simp [hm i j y x hy hx]

theorem yearRange_ok (tracks : List Track) (r : ℤ × ℤ) (hne : ∀ t ∈ tracks, t ≠ []) : ∃ r', yearRange tracks r = .ok r' := by
  induction tracks generalizing r with
  | nil => exact ⟨r, rfl⟩
  | cons t ts ih =>
    cases t with
    | nil => exact absurd rfl (hne [] (by simp))
    | cons o os => exact ih _ (fun t ht => hne t (by simp [ht]))

/-- **C164**: in the saved density of genesis, the number read at a latitude and a longitude is the density at that
point: for the record, the one estimated from the first positions of the tracks that start in the domain; for the
simulations, the mean and the 95th and 5th percentile of theirs, and so are they labelled. -/
theorem C164_genesis (lib : Lib T ℚ) (ty : Types T) (default nodata : ℚ) (disk : Disk T ℚ) (path : String)
    {kde : List (ℚ × ℚ) → Except Evaluate.Err (ℚ × ℚ → ℚ)} {g : Limit} {tracks : List Track} (hne : ∀ t ∈ tracks, t ≠ [])
    {pdf : ℚ × ℚ → ℚ} (hk : kde (starts g tracks) = .ok pdf) {sims : List (List Track)} (hs : sims ≠ [])
    {pdfs : List (ℚ × ℚ → ℚ)} (hks : List.Forall₂ (fun s p => kde (starts g s) = .ok p) sims pdfs) :
    ∃ d disk' f, genesisDensities kde g tracks sims = .ok d ∧
      saveGenesis lib ty default nodata true disk path d = (disk', .saved) ∧
      (∀ p, p ≠ path → disk' p = disk p) ∧ ncLoadFile disk' path = .ok f ∧
      Labelled f "syn_density_upper" 95 ∧ Labelled f "syn_density_lower" 5 ∧
      ∀ i j y x, (gridRange g.yMin g.yMax 1)[i]? = some y → (gridRange g.xMin g.xMax 1)[j]? = some x →
        ReadsAt f "hist_density" i j (lib.cast ty.f y) (lib.cast ty.f x) (lib.cast ty.f (pdf (x, y))) ∧
        ∃ m up lw,
          ReadsAt f "syn_density" i j (lib.cast ty.f y) (lib.cast ty.f x) (lib.cast ty.f m) ∧
          ReadsAt f "syn_density_upper" i j (lib.cast ty.f y) (lib.cast ty.f x) (lib.cast ty.f up) ∧
          ReadsAt f "syn_density_lower" i j (lib.cast ty.f y) (lib.cast ty.f x) (lib.cast ty.f lw) ∧
          m * sims.length = (pdfs.map (· (x, y))).sum ∧ percentile (pdfs.map (· (x, y))) 95 = some up ∧
          percentile (pdfs.map (· (x, y))) 5 = some lw := by
  set lons := gridRange g.xMin g.xMax 1 with hlons
  set lats := gridRange g.yMin g.yMax 1 with hlats
  obtain ⟨A, hA, a1, a2⟩ := genesisMap_spec lons lats hk
  obtain ⟨maps, hmaps, hm⟩ := genesis_mapM lons lats hks
  obtain ⟨yr, hyr⟩ := yearRange_ok tracks (9999, 0) hne
  obtain ⟨t1, t2⟩ := transpose_spec a1
  obtain ⟨m1, m2⟩ := stack_spec mean lons.length lats.length maps
  obtain ⟨u1, u2⟩ := stack_spec (percentile · 95) lons.length lats.length maps
  obtain ⟨w1, w2⟩ := stack_spec (percentile · 5) lons.length lats.length maps
  obtain ⟨tm1, tm2⟩ := transpose_spec m1
  obtain ⟨tu1, tu2⟩ := transpose_spec u1
  obtain ⟨tw1, tw2⟩ := transpose_spec w1
  obtain ⟨disk', f, hsave, hoth, hload, hlab, hread⟩ := saveAll_reads lib ty default nodata disk path lats lons
    [("hist_density", none, transpose A), ("syn_density", none, transpose (stack mean lons.length lats.length maps)),
     ("syn_density_upper", some 95, transpose (stack (percentile · 95) lons.length lats.length maps)),
     ("syn_density_lower", some 5, transpose (stack (percentile · 5) lons.length lats.length maps))]
    (by simp) (by
      simp only [List.mem_cons, List.not_mem_nil, or_false]
      rintro e (rfl | rfl | rfl | rfl)
      · exact t1
      · exact tm1
      · exact tu1
      · exact tw1)
  refine ⟨_, disk', f, by simp only [genesisDensities, genesisHistoric, hyr, ← hlons, ← hlats, hA, hmaps]; rfl, ?_, hoth, hload,
    ?_, ?_, ?_⟩
  · simp only [saveGenesis, Option.isNone_some, Bool.false_eq_true, if_false]
    exact hsave
  · exact hlab "syn_density_upper" 95 (transpose (stack (percentile · 95) lons.length lats.length maps)) (by simp)
  · exact hlab "syn_density_lower" 5 (transpose (stack (percentile · 5) lons.length lats.length maps)) (by simp)
  · intro i j y x hy hx
    have hi := (List.getElem?_eq_some_iff.1 hy).1
    have hj := (List.getElem?_eq_some_iff.1 hx).1
    have hpn : pdfs.map (· (x, y)) ≠ [] := by
      intro e
      have := hks.length_eq
      rw [List.map_eq_nil_iff] at e
      rw [e] at this
      exact hs (List.length_eq_zero_iff.1 this)
    have hmm := hm i j y x hy hx
    obtain ⟨m, hm1, hm2⟩ := mean_some hpn
    obtain ⟨⟨up, hup⟩, lw, hlw⟩ := percentile_some hpn
    refine ⟨hread _ none (transpose A) (by simp) i j y x (some (pdf (x, y))) hy hx ?_, m, up, lw,
      hread _ none (transpose (stack mean lons.length lats.length maps)) (by simp) i j y x (some m) hy hx ?_,
      hread _ (some 95) (transpose (stack (percentile · 95) lons.length lats.length maps)) (by simp) i j y x (some up) hy hx ?_,
      hread _ (some 5) (transpose (stack (percentile · 5) lons.length lats.length maps)) (by simp) i j y x (some lw) hy hx ?_,
      ?_, hup, hlw⟩
    · rw [t2 i hi j hj, a2 i j y x hy hx]
    · rw [tm2 i hi j hj, m2 j hj i hi, hmm, hm1]
    · rw [tu2 i hi j hj, u2 j hj i hi, hmm, hup]
    · rw [tw2 i hi j hj, w2 j hj i hi, hmm, hlw]
    · rw [← hm2, List.length_map, hks.length_eq]

/-- Storms starting in and outside of the domain: the density is estimated from the one inside; at (-20, 111) it is that of
this point. -/
example : ∃ d disk' f, genesisDensities (fun ps => .ok fun q => ps.length * q.1 - q.2) ⟨110, 112, -20, -18⟩
      [[⟨110, -19, 990, 2000⟩], [⟨90, -19, 990, 2000⟩]] [[]] = .ok d ∧
    saveGenesis (T := Unit) ⟨fun _ x => x, fun _ x => x, fun _ a => .ok a.data⟩ ⟨(), (), ()⟩ 0 (-9999) true (fun _ => none)
      "genesis_density.nc" d = (disk', .saved) ∧ ncLoadFile disk' "genesis_density.nc" = .ok f ∧
    ReadsAt f "hist_density" 0 1 (-20) 111 131 := by
  have hst : starts ⟨110, 112, -20, -18⟩ [[⟨110, -19, 990, 2000⟩], [⟨90, -19, 990, 2000⟩]] = [(110, -19)] := by decide +kernel
  obtain ⟨d, disk', f, h1, h2, _, h4, _, _, h⟩ := C164_genesis (T := Unit) ⟨fun _ x => x, fun _ x => x, fun _ a => .ok a.data⟩
    ⟨(), (), ()⟩ 0 (-9999) (fun _ => none) "genesis_density.nc" (kde := fun ps => .ok fun q => ps.length * q.1 - q.2)
    (g := ⟨110, 112, -20, -18⟩) (tracks := [[⟨110, -19, 990, 2000⟩], [⟨90, -19, 990, 2000⟩]]) (by simp) rfl
    (sims := [[]]) (by simp) (.cons rfl .nil)
  have hy : (gridRange (-20) (-18) 1)[0]? = some (-20 : ℚ) := by decide +kernel
  have hx : (gridRange 110 112 1)[1]? = some (111 : ℚ) := by decide +kernel
  have := (h 0 1 (-20) 111 hy hx).1
  rw [hst] at this
  norm_num at this
  exact ⟨d, disk', f, h1, h2, h4, this⟩

/-- **C164** fails for the unit of the density of genesis ("TCs per 1-degree grid per year"): the years of the record play no
part, so the same storms spread over ten times as many years give the same map. -/
theorem C164_genesis_per_year_fails (kde : List (ℚ × ℚ) → Except Evaluate.Err (ℚ × ℚ → ℚ)) (g : Limit) (lons lats : List ℚ)
    (tracks : List Track) (year : Obs → ℤ) :
    genesisHistoric kde g lons lats (tracks.map fun t => t.map fun o => { o with year := year o }) =
      genesisHistoric kde g lons lats tracks := by
  have h1 : genesisPoints g (tracks.map fun t => t.map fun o => { o with year := year o }) = genesisPoints g tracks := by
    unfold genesisPoints
    rw [List.filterMap_map]
    congr 2
    funext t
    cases t <;> rfl
  have h2 : genesisMap kde g lons lats (tracks.map fun t => t.map fun o => { o with year := year o }) =
      genesisMap kde g lons lats tracks := by
    unfold genesisMap
    rw [h1]
  have h3 : ∀ (ts : List Track) (r r' : ℤ × ℤ),
      (∃ q q', yearRange (ts.map fun t => t.map fun o => { o with year := year o }) r = .ok q ∧ yearRange ts r' = .ok q') ∨
      (yearRange (ts.map fun t => t.map fun o => { o with year := year o }) r = .error .valueError ∧
        yearRange ts r' = .error .valueError) := by
    intro ts
    induction ts with
    | nil => exact fun r r' => .inl ⟨r, r', rfl, rfl⟩
    | cons t ts ih =>
      intro r r'
      cases t with
      | nil => exact .inr ⟨rfl, rfl⟩
      | cons o os => exact ih _ _
  unfold genesisHistoric
  rcases h3 tracks (9999, 0) (9999, 0) with ⟨q, q', e1, e2⟩ | ⟨e1, e2⟩
  · rw [e1, e2, h2]
  · rw [e1, e2]

/-! ### Pressure -/

theorem pressureRows (lons lats : List ℚ) (dx dy : ℚ) (f : CellStats → Option ℚ) (tracks : List Track) :
    IsArr (ofRows (lats.length - 1) ((pressureGrid lons lats dx dy tracks).map (·.map f))) [lons.length - 1, lats.length - 1] ∧
    ∀ i j y x, lats[i]? = some y → lons[j]? = some x → i + 1 < lats.length → j + 1 < lons.length →
      (ofRows (lats.length - 1) ((pressureGrid lons lats dx dy tracks).map (·.map f))).data[j * (lats.length - 1) + i]? =
        some (f (cellStats x (x + dx) y (y + dy) tracks)) := by
  have hl : ∀ l ∈ (pressureGrid lons lats dx dy tracks).map (·.map f), l.length = lats.length - 1 := by
    intro l hl
    simp only [pressureGrid, List.map_map, List.mem_map] at hl
    obtain ⟨k, _, rfl⟩ := hl
    simp
  obtain ⟨h1, h2⟩ := ofRows_spec hl
  refine ⟨by simpa [pressureGrid] using h1, ?_⟩
  intro i j y x hy hx hi hj
  rw [h2 j i (by omega)]
  have := C102_grid (lons := lons) (lats := lats) dx dy tracks hj hi
  unfold entry at this ⊢
  rw [List.getElem?_map]
  cases e : (pressureGrid lons lats dx dy tracks)[j]? with
  | none => rw [e] at this; simp at this
  | some row =>
    rw [e] at this
    simp only [Option.bind_some] at this
    simp only [Option.map_some, Option.bind_some, List.getElem?_map, this, List.getD_eq_getElem?_getD, hy, hx, Option.getD_some]

/-- **C164**: in the saved pressures, the number read at the south-west corner of a cell is that of this cell: for the
record, the mean and the lowest pressure; for the simulations, the mean of those of the simulations that have data
in the cell; and the missing value where there are none. -/
theorem C164_pressure (lib : Lib T ℚ) (ty : Types T) (default nodata : ℚ) (disk : Disk T ℚ) (path : String)
    (lons lats : List ℚ) (dx dy : ℚ) (tracks : List Track) (sims : List (List Track)) :
    ∃ disk' f, savePressure lib ty default nodata true disk path (pressureMaps lons lats dx dy tracks sims) = (disk', .saved) ∧
      (∀ p, p ≠ path → disk' p = disk p) ∧ ncLoadFile disk' path = .ok f ∧
      ∀ i j y x, lats[i]? = some y → lons[j]? = some x → i + 1 < lats.length → j + 1 < lons.length →
        ∀ stats : List Track → CellStats, (∀ s, stats s = cellStats x (x + dx) y (y + dy) s) →
        ReadsAt f "hist_mean" i j (lib.cast ty.f y) (lib.cast ty.f x) (lib.cast ty.f ((stats tracks).mean.getD nodata)) ∧
        ReadsAt f "hist_min" i j (lib.cast ty.f y) (lib.cast ty.f x) (lib.cast ty.f ((stats tracks).min.getD nodata)) ∧
        ReadsAt f "syn_mean" i j (lib.cast ty.f y) (lib.cast ty.f x)
          (lib.cast ty.f ((mean (sims.filterMap fun s => (stats s).mean)).getD nodata)) ∧
        ReadsAt f "syn_min" i j (lib.cast ty.f y) (lib.cast ty.f x)
          (lib.cast ty.f ((mean (sims.filterMap fun s => (stats s).min)).getD nodata)) := by
  set r := lons.length - 1 with hr
  set c := lats.length - 1 with hc
  set mp := fun (f : CellStats → Option ℚ) (s : List Track) =>
    ofRows c ((pressureGrid lons lats dx dy s).map (·.map f)) with hmp
  have hlat : lats.dropLast.length = c := by simp [hc]
  have hlon : lons.dropLast.length = r := by simp [hr]
  have pr := fun f s => pressureRows lons lats dx dy f s
  obtain ⟨t1, t2⟩ := transpose_spec (pr (·.mean) tracks).1
  obtain ⟨n1, n2⟩ := transpose_spec (pr (·.min) tracks).1
  obtain ⟨m1, m2⟩ := stack_spec mean r c (sims.map (mp (·.mean)))
  obtain ⟨u1, u2⟩ := stack_spec mean r c (sims.map (mp (·.min)))
  obtain ⟨tm1, tm2⟩ := transpose_spec m1
  obtain ⟨tu1, tu2⟩ := transpose_spec u1
  obtain ⟨disk', f, hsave, hoth, hload, hlab, hread⟩ := saveAll_reads lib ty default nodata disk path lats.dropLast lons.dropLast
    [("hist_mean", none, transpose (mp (·.mean) tracks)), ("syn_mean", none, transpose (stack mean r c (sims.map (mp (·.mean))))),
     ("hist_min", none, transpose (mp (·.min) tracks)), ("syn_min", none, transpose (stack mean r c (sims.map (mp (·.min)))))]
    (by simp) (by
      rw [hlat, hlon]
      simp only [List.mem_cons, List.not_mem_nil, or_false]
      rintro e (rfl | rfl | rfl | rfl)
      · exact t1
      · exact tm1
      · exact n1
      · exact tu1)
  refine ⟨disk', f, ?_, hoth, hload, ?_⟩
  · simp only [savePressure, pressureMaps, Option.isNone_some, Bool.false_eq_true, if_false]
    exact hsave
  · intro i j y x hy hx hi hj stats hst
    have hi' : i < c := by omega
    have hj' : j < r := by omega
    have ey : lats.dropLast[i]? = some y := by rw [List.getElem?_dropLast, if_pos (by omega)]; exact hy
    have ex : lons.dropLast[j]? = some x := by rw [List.getElem?_dropLast, if_pos (by omega)]; exact hx
    rw [hlon] at hread
    have key : ∀ f : CellStats → Option ℚ, (sims.map (mp f)).filterMap (fun m => m.data[j * c + i]?.join) =
        sims.filterMap fun s => f (stats s) := by
      intro f
      rw [List.filterMap_map]
      congr 1
      funext s
      rw [Function.comp_apply, (pr f s).2 i j y x hy hx hi hj, hst]
      rfl
    refine ⟨hread _ none (transpose (mp (·.mean) tracks)) (by simp) i j y x _ ey ex ?_,
      hread _ none (transpose (mp (·.min) tracks)) (by simp) i j y x _ ey ex ?_,
      hread _ none (transpose (stack mean r c (sims.map (mp (·.mean))))) (by simp) i j y x _ ey ex ?_,
      hread _ none (transpose (stack mean r c (sims.map (mp (·.min))))) (by simp) i j y x _ ey ex ?_⟩
    · rw [t2 i hi' j hj', (pr (·.mean) tracks).2 i j y x hy hx hi hj, hst]
    · rw [n2 i hi' j hj', (pr (·.min) tracks).2 i j y x hy hx hi hj, hst]
    · rw [tm2 i hi' j hj', m2 j hj' i hi', key]
    · rw [tu2 i hi' j hj', u2 j hj' i hi', key]

/-! ### Crossings of lines of longitude -/

/-- The columns for all crossings, those to the west and those to the east -/
abbrev Columns := Option (List ℚ) × Option (List ℚ) × Option (List ℚ)

theorem crossingMap_spec (which : Columns → Option (List ℚ)) (gateLons gateLats : List ℚ) (tracks : List Track) :
    IsArr (crossingMap which gateLons gateLats tracks) [gateLats.length - 1, gateLons.length] ∧
    ∀ i j x, gateLons[j]? = some x → i + 1 < gateLats.length →
      (crossingMap which gateLons gateLats tracks).data[i * gateLons.length + j]? =
        some ((which (findCrossings x gateLats tracks)).bind (·[i]?)) := by
  have hl : ∀ l ∈ (List.range (gateLats.length - 1)).map (fun i =>
      gateLons.map fun g => (which (findCrossings g gateLats tracks)).bind (·[i]?)), l.length = gateLons.length := by
    intro l hl
    obtain ⟨i, _, rfl⟩ := List.mem_map.1 hl
    simp
  refine ⟨⟨rfl, ?_⟩, ?_⟩
  · simp only [crossingMap, List.flatMap_def]
    rw [flatten_len _ _ hl]
    simp
  · intro i j x hx hi
    simp only [crossingMap, List.flatMap_def]
    rw [flatten_get _ _ hl i j (List.getElem?_eq_some_iff.1 hx).1]
    simp [List.getElem?_range (show i < gateLats.length - 1 by omega), hx]

/-- The names of the fields for a kind of crossings, record and mean, upper and lower percentile of simulations -/
structure Names where
  hist : String
  mean : String
  upper : String
  lower : String

/-- The three kinds -/
def kinds : List ((Columns → Option (List ℚ)) × Names) :=
  [((·.1), ⟨"hist", "syn_mean", "syn_upper", "syn_lower"⟩),
   ((·.2.1), ⟨"hist_ew", "syn_mean_ew", "syn_upper_ew", "syn_lower_ew"⟩),
   ((·.2.2), ⟨"hist_we", "syn_mean_we", "syn_upper_we", "syn_lower_we"⟩)]

/-- **C164**, in part: in the saved crossings, the number read at the southern end of an interval of latitude and at the longitude
of a gate is that of this gate and interval, for all crossings, those to the west and those to the east alike: of the
record, and the mean and the 95th and 5th percentile of those of the simulations.  The lower percentiles are labelled as
such, but the upper ones as the 90th. -/
theorem C164_crossings_partial (lib : Lib T ℚ) (ty : Types T) (default nodata : ℚ) (disk : Disk T ℚ) (path : String)
    (gateLons gateLats : List ℚ) (tracks : List Track) (sims : List (List Track)) :
    ∃ disk' f, saveCrossings lib ty default nodata true disk path (crossingMaps gateLons gateLats tracks sims) = (disk', .saved) ∧
      (∀ p, p ≠ path → disk' p = disk p) ∧ ncLoadFile disk' path = .ok f ∧
      ∀ k ∈ kinds, Labelled f k.2.lower 5 ∧ Labelled f k.2.upper 90 ∧
        ∀ i j y x, gateLats[i]? = some y → gateLons[j]? = some x → i + 1 < gateLats.length →
        ∀ rate : List Track → Option ℚ, (∀ s, rate s = (k.1 (findCrossings x gateLats s)).bind (·[i]?)) →
          ReadsAt f k.2.hist i j (lib.cast ty.f y) (lib.cast ty.f x) (lib.cast ty.f ((rate tracks).getD nodata)) ∧
          ReadsAt f k.2.mean i j (lib.cast ty.f y) (lib.cast ty.f x) (lib.cast ty.f ((mean (sims.filterMap rate)).getD nodata)) ∧
          ReadsAt f k.2.upper i j (lib.cast ty.f y) (lib.cast ty.f x)
            (lib.cast ty.f ((percentile (sims.filterMap rate) 95).getD nodata)) ∧
          ReadsAt f k.2.lower i j (lib.cast ty.f y) (lib.cast ty.f x)
            (lib.cast ty.f ((percentile (sims.filterMap rate) 5).getD nodata)) := by
  set r := gateLats.length - 1 with hr
  set c := gateLons.length with hc
  set mp := fun (w : Columns → Option (List ℚ)) => crossingMap w gateLons gateLats with hmp
  have hlat : gateLats.dropLast.length = r := by simp [hr]
  have pr := fun w s => crossingMap_spec w gateLons gateLats s
  obtain ⟨disk', f, hsave, hoth, hload, hlab, hread⟩ := saveAll_reads lib ty default nodata disk path gateLats.dropLast gateLons
    [("hist", none, mp (·.1) tracks), ("hist_ew", none, mp (·.2.1) tracks), ("hist_we", none, mp (·.2.2) tracks),
     ("syn_mean", none, stack mean r c (sims.map (mp (·.1)))), ("syn_mean_ew", none, stack mean r c (sims.map (mp (·.2.1)))),
     ("syn_mean_we", none, stack mean r c (sims.map (mp (·.2.2)))),
     ("syn_upper", some 90, stack (percentile · 95) r c (sims.map (mp (·.1)))),
     ("syn_upper_ew", some 90, stack (percentile · 95) r c (sims.map (mp (·.2.1)))),
     ("syn_upper_we", some 90, stack (percentile · 95) r c (sims.map (mp (·.2.2)))),
     ("syn_lower", some 5, stack (percentile · 5) r c (sims.map (mp (·.1)))),
     ("syn_lower_ew", some 5, stack (percentile · 5) r c (sims.map (mp (·.2.1)))),
     ("syn_lower_we", some 5, stack (percentile · 5) r c (sims.map (mp (·.2.2))))]
    (by simp) (by
      rw [hlat]
      simp only [List.mem_cons, List.not_mem_nil, or_false]
      rintro e (rfl | rfl | rfl | rfl | rfl | rfl | rfl | rfl | rfl | rfl | rfl | rfl)
      · exact (pr _ _).1
      · exact (pr _ _).1
      · exact (pr _ _).1
      all_goals exact (stack_spec _ _ _ _).1)
  refine ⟨disk', f, ?_, hoth, hload, ?_⟩
  · simp only [saveCrossings, crossingMaps]
    exact hsave
  · have general : ∀ (w : Columns → Option (List ℚ)) (i j : ℕ) (y x : ℚ), gateLats[i]? = some y → gateLons[j]? = some x →
        i + 1 < gateLats.length → ∀ rate : List Track → Option ℚ,
        (∀ s, rate s = (w (findCrossings x gateLats s)).bind (·[i]?)) →
        gateLats.dropLast[i]? = some y ∧ (mp w tracks).data[i * c + j]? = some (rate tracks) ∧
        ∀ stat : List ℚ → Option ℚ, (stack stat r c (sims.map (mp w))).data[i * c + j]? = some (stat (sims.filterMap rate)) := by
      intro w i j y x hy hx hi rate hrate
      refine ⟨by rw [List.getElem?_dropLast, if_pos (by omega)]; exact hy, ?_, ?_⟩
      · rw [(pr w tracks).2 i j x hx hi, hrate]
      · intro stat
        rw [(stack_spec stat r c _).2 i (by omega) j (List.getElem?_eq_some_iff.1 hx).1, List.filterMap_map]
        congr 3
        funext s
        rw [Function.comp_apply, (pr w s).2 i j x hx hi, hrate]
        rfl
    intro k hk
    simp only [kinds, List.mem_cons, List.not_mem_nil, or_false] at hk
    rcases hk with rfl | rfl | rfl
    · refine ⟨hlab _ _ (stack (percentile · 5) r c (sims.map (mp (·.1)))) (by simp),
        hlab _ _ (stack (percentile · 95) r c (sims.map (mp (·.1)))) (by simp), ?_⟩
      intro i j y x hy hx hi rate hrate
      obtain ⟨ey, e1, e2⟩ := general (·.1) i j y x hy hx hi rate hrate
      exact ⟨hread _ none (mp (·.1) tracks) (by simp) i j y x _ ey hx e1,
        hread _ none (stack mean r c (sims.map (mp (·.1)))) (by simp) i j y x _ ey hx (e2 _),
        hread _ (some 90) (stack (percentile · 95) r c (sims.map (mp (·.1)))) (by simp) i j y x _ ey hx (e2 _),
        hread _ (some 5) (stack (percentile · 5) r c (sims.map (mp (·.1)))) (by simp) i j y x _ ey hx (e2 _)⟩
    · refine ⟨hlab _ _ (stack (percentile · 5) r c (sims.map (mp (·.2.1)))) (by simp),
        hlab _ _ (stack (percentile · 95) r c (sims.map (mp (·.2.1)))) (by simp), ?_⟩
      intro i j y x hy hx hi rate hrate
      obtain ⟨ey, e1, e2⟩ := general (·.2.1) i j y x hy hx hi rate hrate
      exact ⟨hread _ none (mp (·.2.1) tracks) (by simp) i j y x _ ey hx e1,
        hread _ none (stack mean r c (sims.map (mp (·.2.1)))) (by simp) i j y x _ ey hx (e2 _),
        hread _ (some 90) (stack (percentile · 95) r c (sims.map (mp (·.2.1)))) (by simp) i j y x _ ey hx (e2 _),
        hread _ (some 5) (stack (percentile · 5) r c (sims.map (mp (·.2.1)))) (by simp) i j y x _ ey hx (e2 _)⟩
    · refine ⟨hlab _ _ (stack (percentile · 5) r c (sims.map (mp (·.2.2)))) (by simp),
        hlab _ _ (stack (percentile · 95) r c (sims.map (mp (·.2.2)))) (by simp), ?_⟩
      intro i j y x hy hx hi rate hrate
      obtain ⟨ey, e1, e2⟩ := general (·.2.2) i j y x hy hx hi rate hrate
      exact ⟨hread _ none (mp (·.2.2) tracks) (by simp) i j y x _ ey hx e1,
        hread _ none (stack mean r c (sims.map (mp (·.2.2)))) (by simp) i j y x _ ey hx (e2 _),
        hread _ (some 90) (stack (percentile · 95) r c (sims.map (mp (·.2.2)))) (by simp) i j y x _ ey hx (e2 _),
        hread _ (some 5) (stack (percentile · 5) r c (sims.map (mp (·.2.2)))) (by simp) i j y x _ ey hx (e2 _)⟩

/-! ### Results that are not there -/

/-- **C164** fails without results of the record: `save` then returns as usual, and a file of an earlier run stays as
it was, as if it were of this one. -/
theorem C164_no_record_fails (lib : Lib T K) (ty : Types T) (default nodata : K) (canOpen : Bool) (disk : Disk T K)
    (path : String) (d : Densities K) (p : Pressures K) (hd : d.hist = none) (hp : p.histMin = none) :
    saveTrackDensity lib ty default nodata canOpen disk path d = (disk, .skipped) ∧
    saveGenesis lib ty default nodata canOpen disk path d = (disk, .skipped) ∧
    savePressure lib ty default nodata canOpen disk path p = (disk, .skipped) := by
  simp [saveTrackDensity, saveGenesis, savePressure, hd, hp]

theorem saveAll_missing (lib : Lib T K) (ty : Types T) (default nodata : K) (canOpen : Bool) (disk : Disk T K)
    (path : String) (lats lons : List K) {es : List (Entry K)} (h : ∃ e ∈ es, e.values = none) :
    saveAll lib ty default nodata canOpen disk path lats lons es = (disk, .attributeError) := by
  have : es.mapM (Entry.dict ty nodata) = none := by
    cases e : es.mapM (Entry.dict ty nodata) with
    | none => rfl
    | some r =>
      rw [mapM_iff] at e
      obtain ⟨x, hx, hv⟩ := h
      have : ∀ (l : List (Entry K)) r', List.Forall₂ (fun a b => Entry.dict ty nodata a = some b) l r' → x ∉ l := by
        intro l r' hf
        induction hf with
        | nil => simp
        | @cons a b l' r'' h1 _ ih =>
          rw [List.mem_cons, not_or]
          refine ⟨?_, ih⟩
          rintro rfl
          simp [Entry.dict, hv] at h1
      exact absurd hx (this es r e)
  simp only [saveAll, this]

/-- **C164**: with results of the record but without some of those of the simulations (or, for the crossings, without any
of the results) `save` raises, before the file is touched. -/
theorem C164_incomplete (lib : Lib T K) (ty : Types T) (default nodata : K) (canOpen : Bool) (disk : Disk T K)
    (path : String) (d : Densities K) (p : Pressures K) (c : Crossings K)
    (hd : d.hist ≠ none ∧ (d.synMean = none ∨ d.synUpper = none ∨ d.synLower = none))
    (hp : p.histMin ≠ none ∧ (p.histMean = none ∨ p.synMean = none ∨ p.synMin = none))
    (hc : none ∈ [c.hist, c.histEW, c.histWE, c.synMean, c.synEW, c.synWE, c.synUpper, c.synEWUpper, c.synWEUpper,
      c.synLower, c.synEWLower, c.synWELower]) :
    saveTrackDensity lib ty default nodata canOpen disk path d = (disk, .attributeError) ∧
    saveGenesis lib ty default nodata canOpen disk path d = (disk, .attributeError) ∧
    savePressure lib ty default nodata canOpen disk path p = (disk, .attributeError) ∧
    saveCrossings lib ty default nodata canOpen disk path c = (disk, .attributeError) := by
  have e1 : ∃ e ∈ d.entries, e.values = none := by
    rcases hd.2 with h | h | h <;> simp [Densities.entries, h]
  refine ⟨?_, ?_, ?_, ?_⟩
  · unfold saveTrackDensity
    rw [if_neg (by simp [hd.1])]
    exact saveAll_missing _ _ _ _ _ _ _ _ _ e1
  · unfold saveGenesis
    rw [if_neg (by simp [hd.1])]
    exact saveAll_missing _ _ _ _ _ _ _ _ _ e1
  · unfold savePressure
    rw [if_neg (by simp [hp.1])]
    apply saveAll_missing
    rcases hp.2 with h | h | h <;> simp [h]
  · unfold saveCrossings
    apply saveAll_missing
    simp only [List.mem_cons, List.not_mem_nil, or_false] at hc
    simp only [List.mem_cons, List.not_mem_nil, or_false, exists_eq_or_imp, exists_eq_left]
    simpa [eq_comm] using hc

/-- **C164** fails for the label of the upper percentile of crossings: it is 90, but the numbers are the 95th percentiles, which are others. -/
theorem C164_percentile_fails (lib : Lib T ℚ) (ty : Types T) (default nodata : ℚ) (disk : Disk T ℚ) (path : String) :
    ∃ (gateLons gateLats : List ℚ) (sims : List (List Track)) (rates : List ℚ) (up up90 : ℚ), ∃ disk' f,
      saveCrossings lib ty default nodata true disk path (crossingMaps gateLons gateLats [] sims) = (disk', .saved) ∧
      ncLoadFile disk' path = .ok f ∧ Labelled f "syn_upper" 90 ∧
      rates = sims.filterMap (fun s => ((findCrossings 110 gateLats s).1).bind (·[0]?)) ∧ rates.length = sims.length ∧
      percentile rates 90 = some up90 ∧ percentile rates 95 = some up ∧ up90 < up ∧
      ReadsAt f "syn_upper" 0 0 (lib.cast ty.f (-20)) (lib.cast ty.f 110) (lib.cast ty.f up) := by
  obtain ⟨disk', f, h1, _, h3, h4⟩ := C164_crossings_partial lib ty default nodata disk path [110] [-20, -18] []
    [[], [[⟨109, -19, 990, 2000⟩, ⟨111, -19, 990, 2000⟩]]]
  obtain ⟨_, hl, hr⟩ := h4 _ (show ((·.1), ⟨"hist", "syn_mean", "syn_upper", "syn_lower"⟩) ∈ kinds by simp [kinds])
  obtain ⟨_, _, hu, _⟩ := hr 0 0 (-20) 110 rfl rfl (by simp) _ (fun _ => rfl)
  have hrates : ([[], [[⟨109, -19, 990, 2000⟩, ⟨111, -19, 990, 2000⟩]]] : List (List Track)).filterMap
      (fun s => ((findCrossings 110 [-20, -18] s).1).bind (·[0]?)) = [0, 1 / 2] := by decide +kernel
  refine ⟨[110], [-20, -18], [[], [[⟨109, -19, 990, 2000⟩, ⟨111, -19, 990, 2000⟩]]], [0, 1 / 2], 19 / 40, 9 / 20, disk', f, h1, h3, hl,
    hrates.symm, rfl, by decide +kernel, by decide +kernel, by norm_num, ?_⟩
  rw [hrates] at hu
  have : percentile [0, 1 / 2] 95 = some (19 / 40) := by decide +kernel
  rw [this] at hu
  exact hu

/-- A cell with two positions in a record of two years, and one simulation of one year with three: the file of densities
has 2 for the record and 3 for the simulation at (-20, 110), and zeros elsewhere. -/
example : ∃ d disk' f, trackDensities [110, 111, 112] [-20, -19] 1
      [[⟨110, -20, 990, 2000⟩, ⟨110, -20, 990, 2001⟩]]
      [[[⟨110, -20, 990, 1⟩, ⟨110, -20, 990, 1⟩, ⟨110, -20, 990, 1⟩]]] = .ok d ∧
    saveTrackDensity (T := Unit) ⟨fun _ x => x, fun _ x => x, fun _ a => .ok a.data⟩ ⟨(), (), ()⟩ 0 (-9999) true (fun _ => none)
      "density.nc" d = (disk', .saved) ∧ ncLoadFile disk' "density.nc" = .ok f ∧
    ReadsAt f "hist_density" 0 0 (-20) 110 2 ∧ ReadsAt f "hist_density" 0 1 (-20) 111 0 := by
  obtain ⟨d, disk', f, h1, h2, _, h4, _, _, h⟩ := C164_track_density (T := Unit) ⟨fun _ x => x, fun _ x => x, fun _ a => .ok a.data⟩
    ⟨(), (), ()⟩ 0 (-9999) (fun _ => none) "density.nc" (lons := [110, 111, 112]) (lats := [-20, -19]) (years := 1) (by norm_num)
    (tracks := [[⟨110, -20, 990, 2000⟩, ⟨110, -20, 990, 2001⟩]])
    (sims := [[[⟨110, -20, 990, 1⟩, ⟨110, -20, 990, 1⟩, ⟨110, -20, 990, 1⟩]]]) (by simp) (by simp) (by simp [records])
    (a := 2000) (b := 2001) ⟨by simp [records], by simp [records]⟩ ⟨by simp [records], by simp [records]⟩ (by norm_num)
  refine ⟨d, disk', f, h1, h2, h4, ?_, ?_⟩
  · have := (h 0 0 (-20) 110 rfl rfl (by simp) (by simp)).1
    have e : cellCount [110, 111, 112] [-20, -19] [[⟨110, -20, 990, 2000⟩, ⟨110, -20, 990, 2001⟩]] 0 0 = 2 := by decide +kernel
    rw [e] at this
    norm_num at this
    exact this
  · have := (h 0 1 (-20) 111 rfl rfl (by simp) (by simp)).1
    have e : cellCount [110, 111, 112] [-20, -19] [[⟨110, -20, 990, 2000⟩, ⟨110, -20, 990, 2001⟩]] 0 1 = 0 := by decide +kernel
    rw [e] at this
    norm_num at this
    exact this

end Tcrm.EvalSave
