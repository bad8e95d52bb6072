import Verif.Props.Database
import Verif.Spec.CurveRuns
/-!
C191: hazard curves of a history of runs.
-/
namespace Tcrm.CurveRuns
open Tcrm.Database Tcrm.CurveRuns.Spec

theorem mem_inside {stored : List Location} {d : Domain} {l : Location} : l ∈ Inside stored d ↔ l ∈ stored ∧ InDomain d l := by
  unfold Inside InDomain
  simp

/-- Of the records of one event at different locations, those of one location -/
theorem filter_records {e : (ℕ × ℕ) × Field} {ls : List Location} {ws : List Wind} (h : List.Forall₂ (RecordOf e) ls ws)
    (hk : (ls.map (·.locId)).Nodup) {l : Location} :
    (l ∈ ls → ∃ w, RecordOf e l w ∧ ws.filter (fun w => decide (w.locId = l.locId)) = [w]) ∧
    ((∀ x ∈ ls, x.locId ≠ l.locId) → ws.filter (fun w => decide (w.locId = l.locId)) = []) := by
  induction h with
  | nil => simp
  | @cons x w ls ws h1 _ ih =>
    simp only [List.map_cons, List.nodup_cons, List.mem_map, not_exists, not_and] at hk
    obtain ⟨ih1, ih2⟩ := ih hk.2
    have hw : w.locId = x.locId := by obtain ⟨i, j, -, -, rfl⟩ := h1; rfl
    constructor
    · intro hl
      rcases List.mem_cons.1 hl with rfl | hl
      · refine ⟨w, h1, ?_⟩
        rw [List.filter_cons_of_pos (by simpa using hw), ih2 hk.1]
      · obtain ⟨w', a, b⟩ := ih1 hl
        refine ⟨w', a, ?_⟩
        rw [List.filter_cons_of_neg (by rw [hw]; simpa using fun e => hk.1 l hl e.symm), b]
    · intro hn
      rw [List.filter_cons_of_neg (by rw [hw]; simpa using hn x (by simp)), ih2 fun y hy => hn y (List.mem_cons_of_mem _ hy)]

theorem gusts_of {ls : List Location} {events : List ((ℕ × ℕ) × Field)} {rs : List (Event × List Wind)} (h : Recorded ls events rs)
    (hk : (ls.map (·.locId)).Nodup) {l : Location} (hl : l ∈ ls) :
    List.Forall₂ (GustAt l) (events.map (·.2)) (((rs.flatMap (·.2)).filter fun w => decide (w.locId = l.locId)).map (·.wspd)) := by
  induction h with
  | nil => exact .nil
  | @cons e r es rs h1 _ ih =>
    obtain ⟨w, ⟨i, j, a, b, rfl⟩, hf⟩ := (filter_records h1.2.2 hk (l := l)).1 hl
    rw [List.flatMap_cons, List.filter_append, List.map_append, hf, List.map_cons]
    exact .cons ⟨i, j, a, b, rfl⟩ ih

/-- The database holds the locations of a domain and, for each of them, the gusts of these fields. -/
def Holds (stored : List Location) (d : Domain) (fields : List Field) (db : DB) : Prop :=
  db.locations = Inside stored d ∧
    ∀ l ∈ Inside stored d, List.Forall₂ (GustAt l) fields ((db.winds.filter fun w => decide (w.locId = l.locId)).map (·.wspd))

theorem update_holds {stored : List Location} (hk : (stored.map (·.locId)).Nodup) {r : Run} {events : List ((ℕ × ℕ) × Field)}
    (hg : Good stored r events) {fields : List Field} {db : DB}
    (h : Holds stored r.domain fields db ∨ (fields = [] ∧ db = empty)) :
    ∃ db', update stored r.domain r.output db = (db', none) ∧ Holds stored r.domain (fields ++ events.map (·.2)) db' := by
  have hik := insideKey hk r.domain
  have hloc : (setLocations stored r.domain db).locations = Inside stored r.domain := by
    rcases h with h | ⟨_, rfl⟩
    · have := setLocations_again [] (Inside stored r.domain) (by simpa using hik)
      rw [List.append_nil, List.nil_append] at this
      change (Inside stored r.domain).foldl replaceLocation db.locations = _
      rw [h.1, this]
    · exact setLocations_empty hk r.domain
  obtain ⟨rs, hr, hf⟩ := results_gust events (Inside stored r.domain) (fun e he l hl => by
    obtain ⟨h1, h2⟩ := mem_inside.1 hl
    exact hg.covers e he l h1 h2) 0
  rw [← hg.files, ← hloc] at hr
  obtain ⟨he, a, _, c, _⟩ := update_ok (db := db) (db' := (update stored r.domain r.output db).1)
    (e := (update stored r.domain r.output db).2) rfl hr
  refine ⟨_, Prod.ext rfl he, a.trans hloc, fun l hl => ?_⟩
  rw [c, List.filter_append, List.map_append]
  refine List.rel_append ?_ (gusts_of hf hik hl)
  rcases h with h | ⟨rfl, rfl⟩
  · exact h.2 l hl
  · exact .nil

theorem findIndex_within {axis : List ℚ} {v : ℚ} (h : ∃ a ∈ axis, ∃ b ∈ axis, a ≤ v ∧ v ≤ b) :
    ∃ i, Grid.findIndex axis v = .ok i ∧ NearestPoint axis v i := by
  obtain ⟨a, ha, b, hb, h1, h2⟩ := h
  obtain ⟨i, hi, hn, -⟩ := Grid.C33_within_range ha hb h1 h2
  exact ⟨i, hi, hn⟩

/-- The curves of locations within the axes of the hazard file -/
theorem plotAll_within {days : ℕ} {h : HazardFile} {db : DB} (ls : List Location) (hw : ∀ l ∈ ls, Within h.lon h.lat l)
    (hd : ∀ l ∈ ls, ((db.winds.filter fun w => decide (w.locId = l.locId)).map (·.wspd)).length ≤ days) :
    ∃ cs, plotAll days h db ls = (cs, none) ∧ (cs.map (·.locId)).Sublist (ls.map (·.locId)) ∧
      (∀ c ∈ cs, ∃ l ∈ ls, c.locId = l.locId ∧ NearestPoint h.lon l.lon c.i ∧ NearestPoint h.lat l.lat c.j ∧ h.null c.j c.i = false ∧
        c.events = (db.winds.filter fun w => decide (w.locId = l.locId)).map (·.wspd)) ∧
      (∀ l ∈ ls, (∃ c ∈ cs, c.locId = l.locId) ∨
        ∃ i j, NearestPoint h.lon l.lon i ∧ NearestPoint h.lat l.lat j ∧ h.null j i = true) := by
  induction ls with
  | nil => exact ⟨[], rfl, by simp, by simp, by simp⟩
  | cons l ls ih =>
    obtain ⟨cs, e, hs, h1, h2⟩ := ih (fun x hx => hw x (List.mem_cons_of_mem _ hx)) fun x hx => hd x (List.mem_cons_of_mem _ hx)
    obtain ⟨i, hi, ni⟩ := findIndex_within (hw l (by simp)).1
    obtain ⟨j, hj, nj⟩ := findIndex_within (hw l (by simp)).2
    have hlen := hd l (by simp)
    by_cases hn : h.null j i = true
    · refine ⟨cs, ?_, hs.trans (by simp), ?_, ?_⟩
      · simp only [plotAll, plotOne, hi, hj]
        rw [if_neg (by omega), if_pos hn]
        exact e
      · intro c hc
        obtain ⟨x, hx, r⟩ := h1 c hc
        exact ⟨x, List.mem_cons_of_mem _ hx, r⟩
      · intro x hx
        rcases List.mem_cons.1 hx with rfl | hx
        · exact .inr ⟨i, j, ni, nj, hn⟩
        · exact h2 x hx
    · refine ⟨⟨l.locId, i, j, (db.winds.filter fun w => decide (w.locId = l.locId)).map (·.wspd)⟩ :: cs, ?_, ?_, ?_, ?_⟩
      · simp only [plotAll, plotOne, hi, hj]
        rw [if_neg (by omega), if_neg hn]
        simp only [e]
      · simpa using hs
      · intro c hc
        rcases List.mem_cons.1 hc with rfl | hc
        · exact ⟨l, by simp, rfl, ni, nj, by simpa using hn, rfl⟩
        · obtain ⟨x, hx, r⟩ := h1 c hc
          exact ⟨x, List.mem_cons_of_mem _ hx, r⟩
      · intro x hx
        rcases List.mem_cons.1 hx with rfl | hx
        · exact .inl ⟨_, List.mem_cons_self, rfl⟩
        · rcases h2 x hx with ⟨c, hc, r⟩ | r
          · exact .inl ⟨c, List.mem_cons_of_mem _ hc, r⟩
          · exact .inr r

theorem days_ge (n k : ℕ) (h : (k : ℚ) ≤ 365 * n) : k ≤ ⌊(n : ℚ) * 365.25⌋₊ := by
  apply Nat.le_floor
  have : (0 : ℚ) ≤ n := by positivity
  norm_num
  linarith

/-- What is plotted from a database that holds the gusts of some fields at the locations of a domain -/
theorem plot_holds {stored : List Location} (hk : (stored.map (·.locId)).Nodup) {d : Domain} {fields : List Field} {db : DB}
    (h : Holds stored d fields db) {hz : HazardFile} (hw : ∀ l ∈ stored, InDomain d l → Within hz.lon hz.lat l) {n : ℕ}
    (hf : (fields.length : ℚ) ≤ 365 * n) :
    ∃ cs, plotCurves ⌊(n : ℚ) * 365.25⌋₊ hz (some db) = (cs, none) ∧ (cs.map (·.locId)).Nodup ∧
      (∀ c ∈ cs, ∃ l ∈ stored, InDomain d l ∧ CurveOf hz fields l c) ∧
      (∀ l ∈ stored, InDomain d l → (∃ c ∈ cs, c.locId = l.locId) ∨
        ∃ i j, NearestPoint hz.lon l.lon i ∧ NearestPoint hz.lat l.lat j ∧ hz.null j i = true) := by
  obtain ⟨cs, e, hs, h1, h2⟩ := plotAll_within (days := ⌊(n : ℚ) * 365.25⌋₊) (h := hz) (db := db) db.locations
    (fun l hl => by rw [h.1] at hl; obtain ⟨a, b⟩ := mem_inside.1 hl; exact hw l a b)
    (fun l hl => by rw [h.1] at hl; rw [← (h.2 l hl).length_eq]; exact days_ge n _ hf)
  rw [h.1] at hs h1 h2
  refine ⟨cs, e, hs.nodup (insideKey hk d), ?_, ?_⟩
  · intro c hc
    obtain ⟨l, hl, a, b, b', b'', he⟩ := h1 c hc
    obtain ⟨l1, l2⟩ := mem_inside.1 hl
    exact ⟨l, l1, l2, a, b, b', b'', he ▸ h.2 l hl⟩
  · intro l l1 l2
    exact h2 l (mem_inside.2 ⟨l1, l2⟩)

/-- C191, partial: the first run in a folder, if it makes the database and plots, draws one curve for each location of its domain
that has levels, with the levels at a nearest grid point and the gusts of all its events. -/
theorem C191_first_partial {stored : List Location} (hk : (stored.map (·.locId)).Nodup) {r : Run} (hc : r.create = true)
    (hp : r.plot = true) {events : List ((ℕ × ℕ) × Field)} (hg : Good stored r events) :
    ∃ db cs, run stored r none = (some db, cs, none) ∧ (cs.map (·.locId)).Nodup ∧
      (∀ c ∈ cs, ∃ l ∈ stored, InDomain r.domain l ∧ CurveOf r.hazard (events.map (·.2)) l c) ∧
      (∀ l ∈ stored, InDomain r.domain l → (∃ c ∈ cs, c.locId = l.locId) ∨
        ∃ i j, NearestPoint r.hazard.lon l.lon i ∧ NearestPoint r.hazard.lat l.lat j ∧ r.hazard.null j i = true) := by
  obtain ⟨db, hu, hh⟩ := update_holds hk hg (fields := []) (db := empty) (.inr ⟨rfl, rfl⟩)
  rw [List.nil_append] at hh
  obtain ⟨cs, e, h1, h2, h3⟩ := plot_holds hk hh hg.hazard (n := r.numsim) (by rw [List.length_map]; exact hg.few)
  refine ⟨db, cs, ?_, h1, h2, h3⟩
  simp only [run, hc, if_true, Option.getD_none, hu, Option.map_none, hp, e]

theorem after_none (stored : List Location) (rs : List Run) (hr : ∀ r ∈ rs, r.create = false) (t : Option DB) :
    after stored rs t = t := by
  induction rs generalizing t with
  | nil => rfl
  | cons r rs ih =>
    have : (run stored r t).1 = t := by
      simp only [run, hr r (by simp), Bool.false_eq_true, if_false]
      split <;> rfl
    rw [after, this]
    exact ih (fun x hx => hr x (List.mem_cons_of_mem _ hx)) t

/-- C191 fails in a folder where no run has made the database: whatever runs have been made there, the plotting of curves stops with
an error before the first one. -/
theorem C191_never_fails (stored : List Location) (rs : List Run) (hr : ∀ r ∈ rs, r.create = false) {r : Run}
    (hc : r.create = false) (hp : r.plot = true) : run stored r (after stored rs none) = (none, [], some .noTable) := by
  rw [after_none stored rs hr]
  simp only [run, hc, Bool.false_eq_true, if_false, hp, if_true, plotCurves]

/-- C191 fails after a run that made the database: later runs that do not, whatever their results, plot the events of that run. -/
theorem C191_stale_fails {stored : List Location} (hk : (stored.map (·.locId)).Nodup) {r1 : Run} (hc1 : r1.create = true)
    {events : List ((ℕ × ℕ) × Field)} (hg : Good stored r1 events) (rs : List Run) (hr : ∀ r ∈ rs, r.create = false) {r2 : Run}
    (hc2 : r2.create = false) (hp2 : r2.plot = true)
    (hw : ∀ l ∈ stored, InDomain r1.domain l → Within r2.hazard.lon r2.hazard.lat l) (hf : (events.length : ℚ) ≤ 365 * r2.numsim) :
    ∃ cs, (run stored r2 (after stored rs (run stored r1 none).1)).2 = (cs, none) ∧
      (∀ c ∈ cs, ∃ l ∈ stored, InDomain r1.domain l ∧ CurveOf r2.hazard (events.map (·.2)) l c) ∧
      (∀ l ∈ stored, InDomain r1.domain l → (∃ c ∈ cs, c.locId = l.locId) ∨
        ∃ i j, NearestPoint r2.hazard.lon l.lon i ∧ NearestPoint r2.hazard.lat l.lat j ∧ r2.hazard.null j i = true) := by
  obtain ⟨db, hu, hh⟩ := update_holds hk hg (fields := []) (db := empty) (.inr ⟨rfl, rfl⟩)
  rw [List.nil_append] at hh
  obtain ⟨cs, e, _, h2, h3⟩ := plot_holds hk hh hw (n := r2.numsim) (by rw [List.length_map]; exact hf)
  have h1 : (run stored r1 none).1 = some db := by
    simp only [run, hc1, if_true, Option.getD_none, hu, Option.map_none]
    split <;> rfl
  refine ⟨cs, ?_, h2, h3⟩
  rw [after_none stored rs hr, h1]
  simp only [run, hc2, Bool.false_eq_true, if_false, hp2, if_true, e]

/-- C191 for updates of one folder again and again with the same domain: each curve has the gusts of the events of all runs so far. -/
theorem C191_again {stored : List Location} (hk : (stored.map (·.locId)).Nodup) (d : Domain)
    (hist : List (Run × List ((ℕ × ℕ) × Field)))
    (hh : ∀ x ∈ hist, x.1.create = true ∧ x.1.domain = d ∧ Good stored x.1 x.2) {r : Run} (hc : r.create = true) (hp : r.plot = true)
    (hd : r.domain = d) {events : List ((ℕ × ℕ) × Field)} (hg : Good stored r events)
    (hf : (((hist.flatMap (·.2)) ++ events).length : ℚ) ≤ 365 * r.numsim) :
    ∃ cs, (run stored r (after stored (hist.map (·.1)) none)).2 = (cs, none) ∧ (cs.map (·.locId)).Nodup ∧
      ∀ c ∈ cs, ∃ l ∈ stored, InDomain d l ∧ CurveOf r.hazard ((hist.flatMap (·.2) ++ events).map (·.2)) l c := by
  have key : ∀ (hist : List (Run × List ((ℕ × ℕ) × Field))) (fields : List Field) (t : Option DB),
      (∀ x ∈ hist, x.1.create = true ∧ x.1.domain = d ∧ Good stored x.1 x.2) →
      (Holds stored d fields (t.getD empty) ∨ (fields = [] ∧ t.getD empty = empty)) →
      (Holds stored d (fields ++ (hist.flatMap (·.2)).map (·.2)) ((after stored (hist.map (·.1)) t).getD empty) ∨
        (fields ++ (hist.flatMap (·.2)).map (·.2) = [] ∧ (after stored (hist.map (·.1)) t).getD empty = empty)) := by
    intro hist
    induction hist with
    | nil => intro fields t _ h; simpa [after] using h
    | cons x hist ih =>
      intro fields t hx h
      obtain ⟨c1, c2, c3⟩ := hx x (by simp)
      obtain ⟨db, hu, hh⟩ := update_holds hk c3 (fields := fields) (db := t.getD empty) (by rw [c2]; exact h)
      rw [c2] at hu hh
      have h1 : (run stored x.1 t).1 = some db := by
        simp only [run, c1, if_true, c2, hu, Option.map_none]
        split <;> rfl
      have := ih (fields ++ x.2.map (·.2)) (some db) (fun y hy => hx y (List.mem_cons_of_mem _ hy)) (.inl hh)
      rw [List.map_cons, after, h1, List.flatMap_cons, List.map_append, ← List.append_assoc]
      exact this
  obtain ⟨db, hu, hh'⟩ := update_holds hk hg (fields := (hist.flatMap (·.2)).map (·.2))
    (db := (after stored (hist.map (·.1)) none).getD empty) (by
      have := key hist [] none hh (.inr ⟨rfl, rfl⟩)
      rw [List.nil_append] at this
      rw [hd]; exact this)
  rw [← List.map_append, hd] at hh'
  obtain ⟨cs, e, h1, h2, _⟩ := plot_holds hk hh' (fun l hl h => hg.hazard l hl (hd ▸ h)) (n := r.numsim)
    (by rw [List.length_map]; exact hf)
  refine ⟨cs, ?_, h1, h2⟩
  simp only [run, hc, if_true, hu, Option.map_none, hp, e]

/-- C191 fails in a folder with more records of the first location than there are days in the simulated years: no curve is drawn. -/
theorem C191_many_fails (stored : List Location) {r : Run} (hc : r.create = false) (hp : r.plot = true) (hn : 1 ≤ r.numsim) {db : DB}
    {l : Location} {ls : List Location} (hl : db.locations = l :: ls) (hw : Within r.hazard.lon r.hazard.lat l)
    (hm : (r.numsim : ℚ) * 365.25 < (db.winds.filter fun w => decide (w.locId = l.locId)).length) :
    run stored r (some db) = (some db, [], some .valueError) := by
  obtain ⟨i, hi, -⟩ := findIndex_within hw.1
  obtain ⟨j, hj, -⟩ := findIndex_within hw.2
  have hnq : (1 : ℚ) ≤ r.numsim := by exact_mod_cast hn
  have h1 : ⌊(r.numsim : ℚ) * 365.25⌋₊ < (db.winds.filter fun w => decide (w.locId = l.locId)).length :=
    (Nat.floor_lt (by positivity)).2 hm
  have h2 : (db.winds.filter fun w => decide (w.locId = l.locId)).length ≠ 1 := by
    intro e
    rw [e] at hm
    norm_num at hm
    linarith
  have h3 : plotOne ⌊(r.numsim : ℚ) * 365.25⌋₊ r.hazard db l = .error .valueError := by
    simp only [plotOne, hi, hj, List.length_map]
    rw [if_pos ⟨h1, h2⟩]
  simp only [run, hc, hp, Bool.false_eq_true, if_false, if_true, plotCurves, hl, plotAll, h3]

/-- C191 fails for a second run in a folder: no curve is that of its events, if there were events in the first. -/
theorem C191_again_fails {stored : List Location} (hk : (stored.map (·.locId)).Nodup) {r1 r2 : Run} (hd : r1.domain = r2.domain)
    (hc1 : r1.create = true) (hc2 : r2.create = true) (hp2 : r2.plot = true) {e1 e2 : List ((ℕ × ℕ) × Field)}
    (h1 : Good stored r1 e1) (h2 : Good stored r2 e2) (hne : e1 ≠ []) (hf : ((e1 ++ e2).length : ℚ) ≤ 365 * r2.numsim) :
    ∃ cs, (run stored r2 (run stored r1 none).1).2 = (cs, none) ∧
      ∀ c ∈ cs, ∀ l, ¬ CurveOf r2.hazard (e2.map (·.2)) l c := by
  obtain ⟨cs, e, _, hcs⟩ := C191_again hk r2.domain [(r1, e1)] (by simp only [List.mem_singleton, forall_eq]; exact ⟨hc1, hd, h1⟩)
    hc2 hp2 rfl h2 (by simpa using hf)
  refine ⟨cs, e, ?_⟩
  rintro c hc l ⟨_, _, _, _, hl⟩
  obtain ⟨l', _, _, _, _, _, _, hl'⟩ := hcs c hc
  have a := hl.length_eq
  have b := hl'.length_eq
  have : 0 < e1.length := List.length_pos_of_ne_nil hne
  simp at a b
  omega

/-! ### A case: one location in the domain, one outside; two events -/

section
private def here : Location := ⟨1, "here".toList, 150, -20⟩
private def away : Location := ⟨2, "away".toList, 10, 50⟩
private def field (v : ℚ) : Field := ⟨[149, 150, 151], [-21, -20, -19], fun _ _ => some v, fun _ _ => none, fun _ _ => none, some v, none⟩
private def events : List ((ℕ × ℕ) × Field) := [((0, 1), field 30), ((0, 2), field 40)]
private def theRun (c : Bool) (n : ℕ) : Run := ⟨c, true, ⟨140, 160, -30, -10⟩,
  ⟨events.map fun e => (GustFiles.gustName e.1, some e.2), [], fun _ _ => (none, none, none), []⟩,
  ⟨[149, 150, 151], [-21, -20, -19], fun _ _ => false⟩, n⟩
private theorem good (c : Bool) : Good [here, away] (theRun c 1) events := by
  have hin : ∀ l ∈ [here, away], InDomain (theRun c 1).domain l → l = here := by
    intro l hl hd
    simp only [List.mem_cons, List.not_mem_nil, or_false] at hl
    rcases hl with rfl | rfl
    · rfl
    · norm_num [InDomain, theRun, away] at hd
  refine ⟨rfl, ?_, ?_, by norm_num [events, theRun]⟩
  · intro e he l hl hd
    rw [hin l hl hd]
    simp only [events, List.mem_cons, List.not_mem_nil, or_false] at he
    rcases he with rfl | rfl <;> exact ⟨⟨149, by simp [field], 151, by simp [field], by norm_num [here], by norm_num [here]⟩,
      -21, by simp [field], -19, by simp [field], by norm_num [here], by norm_num [here]⟩
  · intro l hl hd
    rw [hin l hl hd]
    exact ⟨⟨149, by simp [theRun], 151, by simp [theRun], by norm_num [here], by norm_num [here]⟩,
      -21, by simp [theRun], -19, by simp [theRun], by norm_num [here], by norm_num [here]⟩
example : (run [here, away] (theRun true 1) none).2 = ([⟨1, 1, 1, [some 30, some 40]⟩], none) := by decide +kernel
example : (run [here, away] (theRun true 1) (run [here, away] (theRun true 1) none).1).2 =
    ([⟨1, 1, 1, [some 30, some 40, some 30, some 40]⟩], none) := by decide +kernel
example := C191_first_partial (stored := [here, away]) (by decide +kernel) rfl rfl (good true)
example := C191_again_fails (stored := [here, away]) (by decide +kernel) rfl rfl rfl rfl (good true) (good true) (by simp [events])
  (by norm_num [events, theRun])
example := C191_stale_fails (stored := [here, away]) (by decide +kernel) rfl (good true) [theRun false 7] (by simp [theRun])
  (r2 := theRun false 1) rfl rfl (good true).hazard (good true).few
example := C191_many_fails [here] (r := theRun false 1) rfl rfl le_rfl
  (db := ⟨[here], [], List.replicate 366 ⟨1, [], some 30, none, none⟩, [], []⟩) (l := here) (ls := []) rfl
  ((good true).hazard here (by simp) (by norm_num [InDomain, theRun, here])) (by
    rw [List.filter_eq_self.2 (by intro w hw; rw [List.eq_of_mem_replicate hw]; rfl), List.length_replicate]
    norm_num [theRun])
end

end Tcrm.CurveRuns
