import Verif.Spec.Database
import Verif.Lemmas.GustFiles
import Verif.Props.Grid
import Mathlib.Data.List.Perm.Basic
import Mathlib.Data.List.Nodup
import Mathlib.Tactic.Linarith
/-!
C52 (queries of the hazard database), C83 (repeated updates), C84 (identifiers of events in the tables).
-/
namespace Tcrm.Database
open Tcrm.GustFiles (Name pad gustName evolutionName)

/-! ### C52 -/

theorem gt_iff (a : Num) (u : ℚ) : gt a (some u) = true ↔ ∃ v, a = some v ∧ u < v := by
  cases a <;> simp [gt]

/-- With the key of the locations, a join on a single location leaves the rows of that one. -/
theorem join_key {β : Type} (ls : List Location) (hk : (ls.map (·.locId)).Nodup) (l : Location) (hl : l ∈ ls)
    (g : Location → List β) (h0 : ∀ x ∈ ls, x.locId ≠ l.locId → g x = []) : ls.flatMap g = g l := by
  induction ls with
  | nil => simp at hl
  | cons x ls ih =>
    simp only [List.map_cons, List.nodup_cons, List.mem_map, not_exists, not_and] at hk
    rw [List.flatMap_cons]
    rcases List.mem_cons.1 hl with rfl | hl'
    · have : ls.flatMap g = [] := by
        rw [List.flatMap_eq_nil_iff]
        intro y hy
        exact h0 y (List.mem_cons_of_mem _ hy) (fun e => hk.1 y hy e)
      rw [this, List.append_nil]
    · rw [h0 x (by simp) (fun e => hk.1 l hl' e.symm), List.nil_append]
      exact ih hk.2 hl' fun y hy => h0 y (List.mem_cons_of_mem _ hy)

theorem join_none {β : Type} (ls : List Location) (g : Location → List β) (h : ∀ x ∈ ls, g x = []) :
    ls.flatMap g = [] := List.flatMap_eq_nil_iff.2 h

/-- C52: the winds above a threshold at a location are exactly those recorded at that location, weakest first. -/
theorem C52_exceeding (db : DB) (hk : LocKey db) (l : Location) (hl : l ∈ db.locations) (u : ℚ) (res : List Exceeding)
    (h : locationRecordsExceeding db l.locId (some u) res) :
    res.Perm ((db.winds.filter fun w => w.locId = l.locId ∧ w.wspd.any fun v => u < v).map fun w =>
      ⟨l.locId, l.name, w.wspd, w.eventId⟩) ∧
    res.Pairwise fun a b => before a.wspd b.wspd := by
  refine ⟨h.1.trans ?_, h.2⟩
  unfold exceedingRows
  rw [join_key db.locations hk l hl _ (by
    intro x _ hx
    simp only [List.map_eq_nil_iff, List.filter_eq_nil_iff]
    intro w _; simp [hx])]
  apply List.Perm.of_eq
  congr 1
  apply List.filter_congr
  intro w _
  cases hw : w.wspd <;> simp [gt, eq_comm]

/-- C52: for a location that is not in the table nothing is returned. -/
theorem C52_exceeding_unknown (db : DB) (locId : ℤ) (h0 : ∀ l ∈ db.locations, l.locId ≠ locId) (u : Num)
    (res : List Exceeding) (h : locationRecordsExceeding db locId u res) : res = [] := by
  have := h.1
  unfold exceedingRows at this
  rw [join_none _ _ (by
    intro x hx
    simp only [List.map_eq_nil_iff, List.filter_eq_nil_iff]
    intro w _; simp [h0 x hx])] at this
  exact List.perm_nil.1 this

/-- C52: all records of a location -/
theorem C52_records (db : DB) (hk : LocKey db) (l : Location) (hl : l ∈ db.locations) (res : List Record)
    (h : locationRecords db l.locId res) :
    res.Perm ((db.winds.filter fun w => w.locId = l.locId).map fun w =>
      ⟨l.locId, l.name, w.wspd, w.umax, w.vmax, w.eventId⟩) ∧ res.Pairwise fun a b => before a.wspd b.wspd := by
  refine ⟨h.1.trans (List.Perm.of_eq ?_), h.2⟩
  clear h
  induction db.winds with
  | nil => rfl
  | cons w ws ih =>
    rw [List.flatMap_cons, ih]
    by_cases hw : w.locId = l.locId
    · have : db.locations.filter (fun x => w.locId = x.locId ∧ x.locId = l.locId) = [l] := by
        have key (ls : List Location) (hk : (ls.map (·.locId)).Nodup) (hl : l ∈ ls) :
            ls.filter (fun x => w.locId = x.locId ∧ x.locId = l.locId) = [l] := by
          induction ls with
          | nil => simp at hl
          | cons x ls ih =>
            simp only [List.map_cons, List.nodup_cons, List.mem_map, not_exists, not_and] at hk
            rcases List.mem_cons.1 hl with rfl | hl'
            · rw [List.filter_cons_of_pos (by simp [hw])]
              congr 1
              rw [List.filter_eq_nil_iff]
              intro y hy
              simp [hk.1 y hy]
            · have hx : x.locId ≠ l.locId := fun e => hk.1 l hl' e.symm
              rw [List.filter_cons_of_neg (by simp [hx])]
              exact ih hk.2 hl'
        exact key _ hk hl
      rw [this, List.filter_cons_of_pos (by simp [hw])]
      simp [hw]
    · have : db.locations.filter (fun x => w.locId = x.locId ∧ x.locId = l.locId) = [] := by
        rw [List.filter_eq_nil_iff]
        intro x _
        simp only [decide_eq_true_eq, not_and]
        intro h1 h2; exact hw (h1.trans h2)
      rw [this, List.filter_cons_of_neg (by simp [hw])]
      simp

/-- C52: all return levels of a location, by return period -/
theorem C52_levels (db : DB) (hk : LocKey db) (l : Location) (hl : l ∈ db.locations) (res : List Level)
    (h : locationAllReturnLevels db l.locId res) :
    res.Perm ((db.hazard.filter fun h => h.locId = l.locId).map fun h =>
      ⟨l.locId, l.name, h.period, h.wspd, h.lower, h.upper⟩) ∧ res.Pairwise fun a b => a.period ≤ b.period := by
  refine ⟨h.1.trans ?_, h.2⟩
  rw [join_key db.locations hk l hl _ (by
    intro x _ hx
    simp only [List.map_eq_nil_iff, List.filter_eq_nil_iff]
    intro w _; simp [hx])]
  apply List.Perm.of_eq
  congr 1
  apply List.filter_congr
  intro w _
  simp [eq_comm]

theorem filter_key {α κ : Type} [DecidableEq κ] (k : α → κ) (l : List α) (h : (l.map k).Nodup) (a : κ) (p : α → Bool)
    (hp : ∀ x ∈ l, p x = true → k x = a) : l.filter p = [] ∨ ∃ x ∈ l, l.filter p = [x] := by
  induction l with
  | nil => simp
  | cons x l ih =>
    simp only [List.map_cons, List.nodup_cons, List.mem_map, not_exists, not_and] at h
    by_cases hx : p x = true
    · right
      refine ⟨x, by simp, ?_⟩
      rw [List.filter_cons_of_pos hx]
      congr 1
      rw [List.filter_eq_nil_iff]
      intro y hy hpy
      exact h.1 y hy ((hp y (List.mem_cons_of_mem _ hy) hpy).trans (hp x (by simp) hx).symm)
    · rw [List.filter_cons_of_neg hx]
      rcases ih h.2 (fun y hy => hp y (List.mem_cons_of_mem _ hy)) with e | ⟨y, hy, e⟩
      · exact .inl e
      · exact .inr ⟨y, List.mem_cons_of_mem _ hy, e⟩

theorem flatMap_sublist {α β κ : Type} (ws : List α) (g : α → List β) (key : β → κ) (k : α → κ)
    (h : ∀ w ∈ ws, ((g w).map key).Sublist [k w]) : ((ws.flatMap g).map key).Sublist (ws.map k) := by
  induction ws with
  | nil => simp
  | cons w ws ih =>
    rw [List.flatMap_cons, List.map_append, List.map_cons]
    exact (h w (by simp)).append (ih fun x hx => h x (List.mem_cons_of_mem _ hx))

/-- C52: the winds above a threshold of events passing within a distance: exactly the combinations of the records of
that location. -/
theorem C52_passage_wind (db : DB) (hk : Keys db) (l : Location) (hl : l ∈ db.locations) (u d : ℚ)
    (res : List PassingWind) (h : locationPassageWindSpeed db l.locId (some u) d res) :
    (∀ r, r ∈ res ↔ ∃ w ∈ db.winds, ∃ e ∈ db.events, ∃ t ∈ db.tracks,
      w.locId = l.locId ∧ t.locId = l.locId ∧ e.eventId = w.eventId ∧ t.eventId = w.eventId ∧
      (∃ v, w.wspd = some v ∧ u < v) ∧ t.dist ≤ d ∧
      r = ⟨l.name, w.wspd, w.umax, w.vmax, w.eventId, t.dist, e.maxWind, e.minPressure⟩) ∧
    (res.map (·.eventId)).Nodup ∧ res.Pairwise fun a b => before a.wspd b.wspd := by
  unfold locationPassageWindSpeed at h
  rw [join_key db.locations hk.loc l hl _ (by
    intro x _ hx
    simp [hx])] at h
  refine ⟨fun r => ?_, ?_, h.2⟩
  · rw [h.1.mem_iff]
    simp only [List.mem_flatMap, List.mem_map, List.mem_filter, decide_eq_true_eq, gt_iff, true_and]
    constructor
    · rintro ⟨w, ⟨hw, h1⟩, e, ⟨he, h2⟩, t, ⟨ht, h3, h4, h5, h6⟩, rfl⟩
      exact ⟨w, hw, e, he, t, ht, h1.symm, (h1.trans h3).symm, h2, h4.symm, h5, h6, rfl⟩
    · rintro ⟨w, hw, e, he, t, ht, h1, h3, h2, h4, h5, h6, rfl⟩
      exact ⟨w, ⟨hw, h1.symm⟩, e, ⟨he, h2⟩, t, ⟨ht, h1.trans h3.symm, h4.symm, h5, h6⟩, rfl⟩
  · rw [(h.1.map _).nodup_iff]
    refine List.Nodup.sublist (flatMap_sublist _ _ _ (·.eventId) ?_) ?_
    · intro w hw
      have hw : l.locId = w.locId := by simpa using (List.mem_filter.1 hw).2
      rcases filter_key (·.eventId) db.events hk.event w.eventId (fun e => decide (e.eventId = w.eventId))
        (by simp) with e | ⟨x, -, e⟩
      · simp [e]
      · rw [e]
        rcases filter_key (fun t => (t.locId, t.eventId)) db.tracks hk.track (w.locId, w.eventId)
          (fun t => decide (w.locId = t.locId ∧ w.eventId = t.eventId ∧ True ∧
            gt w.wspd (some u) = true ∧ t.dist ≤ d))
          (by intro t _ ht; simp only [decide_eq_true_eq] at ht; rw [ht.1, ht.2.1]) with e' | ⟨y, -, e'⟩
        · simp only [List.flatMap_cons, List.flatMap_nil, List.append_nil]
          rw [e']
          simp
        · simp only [List.flatMap_cons, List.flatMap_nil, List.append_nil]
          rw [e']
          simp
    · have : ((db.winds.filter fun w => decide (l.locId = w.locId)).map fun w => (w.locId, w.eventId)).Nodup :=
        hk.wind.sublist (List.Sublist.map _ List.filter_sublist)
      have h2 : (db.winds.filter fun w => decide (l.locId = w.locId)).map (fun w => (w.locId, w.eventId)) =
          ((db.winds.filter fun w => decide (l.locId = w.locId)).map (·.eventId)).map (fun e => (l.locId, e)) := by
        rw [List.map_map]
        apply List.map_congr_left
        intro w hw
        have : l.locId = w.locId := by simpa using (List.mem_filter.1 hw).2
        simp [this]
      rw [h2] at this
      exact List.Nodup.of_map _ this

/-- C52, partial: the passages found for a location (event, distance, file) are exactly those recorded for that location
within the distance, if every event has some wind record. -/
theorem C52_passage_partial (db : DB) (hk : LocKey db) (l : Location) (hl : l ∈ db.locations) (d : ℚ)
    (hw : ∀ t ∈ db.tracks, ∃ w ∈ db.winds, w.eventId = t.eventId) (res : List Passing)
    (h : locationPassage db l.locId d res) (n : Name) (x : ℚ) (file : Name) :
    (∃ s, (⟨l.locId, l.name, n, x, s, file⟩ : Passing) ∈ res) ↔
      ∃ t ∈ db.tracks, ∃ e ∈ db.events, t.locId = l.locId ∧ t.eventId = n ∧ t.dist = x ∧ x < d ∧ e.eventId = n ∧
        e.file = file := by
  unfold locationPassage at h
  rw [join_key db.locations hk l hl _ (by intro x _ hx; simp [hx])] at h
  simp only [h.mem_iff, List.mem_flatMap, List.mem_map, List.mem_filter, decide_eq_true_eq, and_true, Passing.mk.injEq,
    true_and]
  constructor
  · rintro ⟨s, t, ⟨ht, h1⟩, w, -, e, ⟨he, h2, h3⟩, rfl, rfl, -, rfl⟩
    exact ⟨t, ht, e, he, h1.symm, rfl, rfl, h3, h2, rfl⟩
  · rintro ⟨t, ht, e, he, h1, rfl, rfl, h3, h2, rfl⟩
    obtain ⟨w, hw, h4⟩ := hw t ht
    exact ⟨w.wspd, t, ⟨ht, h1.symm⟩, w, ⟨hw, h4⟩, e, ⟨he, h2, h3⟩, rfl, rfl, rfl, rfl⟩

/-- C52 fails for passages: the wind speed recorded for the event at any other location is returned too, as the wind
speed of a passage of this one. -/
theorem C52_passage_fails (db : DB) (l : Location) (hl : l ∈ db.locations) (d : ℚ) (t : Passage) (ht : t ∈ db.tracks)
    (e : Event) (he : e ∈ db.events) (w : Wind) (hw : w ∈ db.winds) (h1 : t.locId = l.locId) (h2 : t.dist < d)
    (h3 : e.eventId = t.eventId) (h4 : w.eventId = t.eventId) (res : List Passing)
    (h : locationPassage db l.locId d res) :
    (⟨l.locId, l.name, t.eventId, t.dist, w.wspd, e.file⟩ : Passing) ∈ res := by
  unfold locationPassage at h
  rw [h.mem_iff]
  simp only [List.mem_flatMap, List.mem_map, List.mem_filter, decide_eq_true_eq]
  exact ⟨l, hl, t, ⟨ht, h1.symm⟩, w, ⟨hw, h4⟩, e, ⟨he, h3, h2, rfl⟩, rfl⟩

/-- C52, partial: the events above the level of a return period, if one level is recorded for it. -/
theorem C52_return_partial (db : DB) (hk : LocKey db) (l : Location) (hl : l ∈ db.locations) (period u : ℚ)
    (x : Hazard) (hx : x.wspd = some u)
    (h1 : db.hazard.filter (fun h => h.locId = l.locId ∧ h.period = period) = [x]) (res : Except Err (List Exceeding))
    (h : locationReturnPeriodEvents db l.locId period res) :
    ∃ r, res = .ok r ∧ r.Perm ((db.winds.filter fun w => w.locId = l.locId ∧ w.wspd.any fun v => u < v).map fun w =>
      ⟨l.locId, l.name, w.wspd, w.eventId⟩) := by
  obtain ⟨row, hp, hr⟩ := h
  rw [join_key db.locations hk l hl _ (by intro x _ hx; simp [hx])] at hp
  have e : db.hazard.filter (fun h => decide (l.locId = h.locId ∧ h.period = period ∧ l.locId = l.locId)) = [x] := by
    rw [← h1]
    apply List.filter_congr
    intro w _
    simp [eq_comm]
  rw [e, List.map_singleton, hx] at hp
  have := List.perm_singleton.1 hp
  subst this
  obtain ⟨r, h2, rfl⟩ := hr
  exact ⟨r, rfl, (C52_exceeding db hk l hl u r h2).1⟩

/-- C52 fails for a return period without level: an IndexError. -/
theorem C52_return_none_fails (db : DB) (locId : ℤ) (period : ℚ)
    (h0 : ∀ h ∈ db.hazard, h.locId = locId → h.period ≠ period) (res : Except Err (List Exceeding))
    (h : locationReturnPeriodEvents db locId period res) : res = .error .indexError := by
  obtain ⟨row, hp, hr⟩ := h
  rw [join_none _ _ (by
    intro l _
    simp only [List.map_eq_nil_iff, List.filter_eq_nil_iff, decide_eq_true_eq]
    rintro x hx ⟨h1, h2, h3⟩
    exact h0 x hx (h1.symm.trans h3) h2)] at hp
  rw [List.perm_nil.1 hp] at hr
  exact hr

/-- Two locations, one event of 50 at the first and 20 at the second -/
def sample : DB where
  locations := [⟨1, "A".toList, 150, -20⟩, ⟨2, "B".toList, 152, -22⟩]
  events := [⟨0, idText 1 2, "gust.001-00002.nc".toList, some 60, some 95000⟩]
  winds := [⟨1, idText 1 2, some 50, some 30, some 40⟩, ⟨2, idText 1 2, some 20, some 12, some 16⟩]
  hazard := [⟨1, 100, some 45, some 50, some 40⟩, ⟨2, 100, some 25, some 30, some 20⟩]
  tracks := [⟨1, idText 1 2, 20⟩, ⟨2, idText 1 2, 120⟩]

example : Keys sample := ⟨by unfold LocKey; decide, by decide, by decide, by decide⟩

example : ∀ t ∈ sample.tracks, ∃ w ∈ sample.winds, w.eventId = t.eventId := by decide

example : locationRecordsExceeding sample 1 (some 30) [⟨1, "A".toList, some 50, idText 1 2⟩] :=
  ⟨List.Perm.of_eq (by decide +kernel), by simp⟩

example : sample.hazard.filter (fun h => h.locId = 1 ∧ h.period = 100) = [⟨1, 100, some 45, some 50, some 40⟩] := by
  decide +kernel

/-- The passages within 50 km of the first location: the wind of the second is among them. -/
example : locationPassage sample 1 50 [⟨1, "A".toList, idText 1 2, 20, some 50, "gust.001-00002.nc".toList⟩,
    ⟨1, "A".toList, idText 1 2, 20, some 20, "gust.001-00002.nc".toList⟩] :=
  List.Perm.of_eq (by decide +kernel)

/-! ### C84 -/

theorem numbersFrom_digits (ds : Name) (h : ∀ c ∈ ds, c.isDigit = true) (cur rest : Name) :
    numbersFrom cur (ds ++ rest) = numbersFrom (ds.reverse ++ cur) rest := by
  induction ds generalizing cur with
  | nil => rfl
  | cons c ds ih =>
    rw [List.cons_append, numbersFrom, if_pos (h c (by simp)), ih (fun x hx => h x (List.mem_cons_of_mem _ hx))]
    simp

theorem numbersFrom_other (s : Name) (h : ∀ c ∈ s, c.isDigit = false) (rest : Name) :
    numbersFrom [] (s ++ rest) = numbersFrom [] rest := by
  induction s with
  | nil => rfl
  | cons c s ih =>
    rw [List.cons_append, numbersFrom, if_neg (by simp [h c (by simp)]), if_pos rfl,
      ih (fun x hx => h x (List.mem_cons_of_mem _ hx))]

theorem numbersFrom_stop (cur : Name) (hc : cur ≠ []) (c : Char) (h : c.isDigit = false) (rest : Name) :
    numbersFrom cur (c :: rest) = cur.reverse :: numbersFrom [] rest := by
  rw [numbersFrom, if_neg (by simp [h]), if_neg hc]

theorem pad_ne_nil (w n : ℕ) : pad w n ≠ [] := by
  unfold pad
  simp only [ne_eq, List.append_eq_nil_iff, not_and]
  intro _
  exact Nat.toDigits_ne_nil

theorem eventId_prefix (pre : Name) (hp : ∀ c ∈ pre, c.isDigit = false) (a b : ℕ) :
    eventIdOf (pre ++ pad 3 a ++ "-".toList ++ pad 5 b ++ ".nc".toList) = .ok (idText a b) := by
  have e : numbersFrom [] (pre ++ pad 3 a ++ "-".toList ++ pad 5 b ++ ".nc".toList) = [pad 3 a, pad 5 b] := by
    simp only [List.append_assoc]
    rw [numbersFrom_other pre hp, numbersFrom_digits _ (fun c hc => GustFiles.isDigit_of_mem_pad hc)]
    rw [show "-".toList ++ (pad 5 b ++ ".nc".toList) = '-' :: (pad 5 b ++ ".nc".toList) from rfl,
      numbersFrom_stop _ (by simp [pad_ne_nil]) '-' rfl, numbersFrom_digits _ (fun c hc => GustFiles.isDigit_of_mem_pad hc)]
    rw [show ".nc".toList = '.' :: "nc".toList from rfl, numbersFrom_stop _ (by simp [pad_ne_nil]) '.' rfl]
    have : numbersFrom [] "nc".toList = [] := by decide
    rw [this]
    simp
  unfold eventIdOf
  rw [e]
  simp only [GustFiles.ofDigitChars_pad]

/-- C84: the event identifier found from the name of a wind field is the one its track is recorded under. -/
theorem C84_same (id : ℕ × ℕ) (dist : Location → ℚ) (ls : List Location) :
    ∀ p ∈ passages id dist ls, eventIdOf (gustName id) = .ok p.eventId := by
  intro p hp
  obtain ⟨l, -, rfl⟩ := List.mem_map.1 hp
  exact eventId_prefix "gust.".toList (by decide) id.1 id.2

/-- C84: different tracks have different event identifiers. -/
theorem C84_distinct (a b : ℕ × ℕ) (h : eventIdOf (gustName a) = eventIdOf (gustName b)) : a = b := by
  unfold gustName at h
  rw [eventId_prefix "gust.".toList (by decide), eventId_prefix "gust.".toList (by decide)] at h
  have h : idText a.1 a.2 = idText b.1 b.2 := by simpa using h
  obtain ⟨h1, h2⟩ := GustFiles.split_first (GustFiles.dash_notMem_pad 3 a.1) (GustFiles.dash_notMem_pad 3 b.1) h
  exact Prod.ext (GustFiles.pad_injective 3 h1) (GustFiles.pad_injective 5 h2)

example : eventIdOf "gust.012-00345.nc".toList = .ok "012-00345".toList := by decide +kernel

/-- C84 fails for a directory with any other file: the local wind field written beside the wind fields, or the evolution
of the wind field of a track, ends the update; later wind fields are not recorded. -/
theorem C84_other_fails (locations : List Location) (fs : List (Name × Option Field)) (db : DB) (n : ℕ) (id : ℕ × ℕ)
    (g : Option Field) :
    processEvents locations n (("local_wind.tif".toList, g) :: fs) db = (db, some .valueError) ∧
    processEvents locations n ((evolutionName id, none) :: fs) db = (db, some .attributeError) := by
  constructor
  · have : eventIdOf "local_wind.tif".toList = .error .valueError := by decide +kernel
    simp only [processEvents, processEvent, this]
  · have : eventIdOf (evolutionName id) = .ok (idText id.1 id.2) :=
      eventId_prefix "evolution.".toList (by decide) id.1 id.2
    simp only [processEvents, processEvent, this]

/-! ### C83 -/

/-- What the files of a listing, numbered from `n`, are recorded as -/
def results (locations : List Location) : ℕ → List (Name × Option Field) → Except Err (List (Event × List Wind))
  | _, [] => .ok []
  | n, f :: fs =>
    match processEvent f.1 f.2 locations n with
    | .error e => .error e
    | .ok r => match results locations (n + 1) fs with
      | .error e => .error e
      | .ok rs => .ok (r :: rs)

/-- Insertion of such records -/
def insertAll (rs : List (Event × List Wind)) (db : DB) : DB :=
  rs.foldl (fun db r => insertWinds (insertEvent db r.1) r.2) db

theorem processEvents_ok {locations : List Location} {fs : List (Name × Option Field)} {n : ℕ} {db : DB} :
    (∀ rs, results locations n fs = .ok rs → processEvents locations n fs db = (insertAll rs db, none)) ∧
    (∀ e, results locations n fs = .error e → (processEvents locations n fs db).2 = some e) := by
  induction fs generalizing n db with
  | nil =>
    constructor
    · intro rs h
      simp only [results, Except.ok.injEq] at h
      subst h; rfl
    · intro e h; simp [results] at h
  | cons f fs ih =>
    obtain ⟨file, fl⟩ := f
    simp only [results, processEvents]
    cases hp : processEvent file fl locations n with
    | error e => simp
    | ok r =>
      simp only
      cases hr : results locations (n + 1) fs with
      | error e =>
        simp only [reduceCtorEq, false_implies, implies_true, Except.error.injEq, true_and]
        rintro e' rfl
        exact ih.2 e hr
      | ok rs =>
        simp only [Except.ok.injEq, reduceCtorEq, false_implies, implies_true, and_true]
        rintro rs' rfl
        rw [ih.1 rs hr]
        rfl

theorem results_numbers {locations : List Location} {fs : List (Name × Option Field)} {n : ℕ}
    {rs : List (Event × List Wind)} (h : results locations n fs = .ok rs) :
    rs.map (·.1.number) = List.range' n fs.length := by
  induction fs generalizing n rs with
  | nil => simp only [results, Except.ok.injEq] at h; subst h; rfl
  | cons f fs ih =>
    simp only [results] at h
    cases hp : processEvent f.1 f.2 locations n with
    | error e => simp [hp] at h
    | ok r =>
      simp only [hp] at h
      cases hr : results locations (n + 1) fs with
      | error e => simp [hr] at h
      | ok rs' =>
        simp only [hr, Except.ok.injEq] at h
        subst h
        rw [List.map_cons, ih hr, List.length_cons, List.range'_succ]
        congr 1
        unfold processEvent at hp
        split at hp
        · simp at hp
        · split at hp
          · simp at hp
          · split at hp
            · simp at hp
            · simp only [Except.ok.injEq] at hp
              rw [← hp]

theorem insertAll_tables (rs : List (Event × List Wind)) (db : DB) :
    (insertAll rs db).winds = db.winds ++ rs.flatMap (·.2) ∧ (insertAll rs db).locations = db.locations ∧
    (insertAll rs db).hazard = db.hazard ∧ (insertAll rs db).tracks = db.tracks := by
  induction rs generalizing db with
  | nil => simp [insertAll]
  | cons r rs ih =>
    obtain ⟨a, b, c, d⟩ := ih (insertWinds (insertEvent db r.1) r.2)
    have hw : (insertEvent db r.1).winds = db.winds ∧ (insertEvent db r.1).locations = db.locations ∧
        (insertEvent db r.1).hazard = db.hazard ∧ (insertEvent db r.1).tracks = db.tracks := by
      unfold insertEvent; split <;> simp
    change (insertAll rs _).winds = _ ∧ (insertAll rs _).locations = _ ∧ (insertAll rs _).hazard = _ ∧
      (insertAll rs _).tracks = _
    rw [a, b, c, d]
    simp [insertWinds, hw]

/-- The numbers of the events: those below `m`. -/
def NumberedBelow (db : DB) (m : ℕ) : Prop := ∀ k, (∃ e ∈ db.events, e.number = k) ↔ k < m

theorem insertAll_events {rs : List (Event × List Wind)} {db : DB} {m n k : ℕ} (hm : NumberedBelow db m)
    (hn : rs.map (·.1.number) = List.range' n k) (hle : n ≤ m) :
    (insertAll rs db).events = db.events ++ (rs.drop (m - n)).map (·.1) ∧
    NumberedBelow (insertAll rs db) (max m (n + k)) := by
  induction rs generalizing db n k m with
  | nil =>
    have : k = 0 := by
      have := congrArg List.length hn
      simpa using this.symm
    subst this
    simp only [insertAll, List.foldl_nil, List.drop_nil, List.map_nil, List.append_nil, true_and, add_zero]
    rwa [max_eq_left hle]
  | cons r rs ih =>
    cases k with
    | zero => simp at hn
    | succ k =>
      rw [List.map_cons, List.range'_succ, List.cons.injEq] at hn
      change (insertAll rs (insertWinds (insertEvent db r.1) r.2)).events = _ ∧
        NumberedBelow (insertAll rs (insertWinds (insertEvent db r.1) r.2)) _
      by_cases hlt : n < m
      · have hany : db.events.any (fun x => decide (x.number = r.1.number)) = true := by
          rw [List.any_eq_true]
          obtain ⟨e, he, h⟩ := (hm n).2 hlt
          exact ⟨e, he, by simp [h, hn.1]⟩
        have he : insertEvent db r.1 = db := by unfold insertEvent; rw [if_pos hany]
        rw [he]
        have := ih (db := insertWinds db r.2) (m := m) hm hn.2 (by omega)
        rw [show m - n = (m - (n + 1)) + 1 by omega, List.drop_succ_cons, show n + (k + 1) = n + 1 + k by omega]
        exact this
      · have hmn : m = n := by omega
        subst hmn
        have hany : ¬db.events.any (fun x => decide (x.number = r.1.number)) = true := by
          rw [List.any_eq_true]
          rintro ⟨e, he, h⟩
          have := (hm m).1 ⟨e, he, by simpa [hn.1] using h⟩
          omega
        have he : insertEvent db r.1 = { db with events := db.events ++ [r.1] } := by
          unfold insertEvent; rw [if_neg hany]
        rw [he]
        have hm' : NumberedBelow (insertWinds { db with events := db.events ++ [r.1] } r.2) (m + 1) := by
          intro j
          simp only [insertWinds, List.mem_append, List.mem_singleton]
          constructor
          · rintro ⟨e, h | rfl, rfl⟩
            · have := (hm e.number).1 ⟨e, h, rfl⟩
              omega
            · rw [hn.1]; omega
          · intro hj
            by_cases h : j = m
            · exact ⟨r.1, .inr rfl, by rw [hn.1, h]⟩
            · obtain ⟨e, he, h⟩ := (hm j).2 (by omega)
              exact ⟨e, .inl he, h⟩
        have := ih hm' hn.2 le_rfl
        rw [Nat.sub_self, List.drop_zero] at this
        rw [Nat.sub_self, List.drop_zero, this.1, show max m (m + (k + 1)) = max (m + 1) (m + 1 + k) by omega]
        exact ⟨by simp [insertWinds], this.2⟩

theorem setLocations_new (a l : List Location) (h : ((a ++ l).map (·.locId)).Nodup) :
    l.foldl replaceLocation a = a ++ l := by
  induction l generalizing a with
  | nil => simp
  | cons x l ih =>
    have : replaceLocation a x = a ++ [x] := by
      unfold replaceLocation
      congr 1
      rw [List.filter_eq_self]
      intro y hy
      simp only [List.map_append, List.map_cons, List.nodup_append, List.mem_map, List.mem_cons] at h
      have := h.2.2 y.locId ⟨y, hy, rfl⟩ x.locId (.inl rfl)
      simpa using this
    rw [List.foldl_cons, this, ih (a ++ [x]) (by simpa using h)]
    simp

theorem setLocations_again (a b : List Location) (h : ((b ++ a).map (·.locId)).Nodup) :
    b.foldl replaceLocation (b ++ a) = a ++ b := by
  induction b generalizing a with
  | nil => simp
  | cons x b ih =>
    have hx : ∀ y ∈ b ++ a, y.locId ≠ x.locId := by
      intro y hy e
      simp only [List.cons_append, List.map_cons, List.nodup_cons, List.mem_map, not_exists, not_and] at h
      exact h.1 y hy e
    have : replaceLocation (x :: b ++ a) x = b ++ (a ++ [x]) := by
      unfold replaceLocation
      rw [List.cons_append, List.filter_cons_of_neg (by simp), List.filter_eq_self.2 (by
        intro y hy; simpa using hx y hy)]
      simp
    rw [List.foldl_cons, this, ih (a ++ [x])]
    · simp
    · have h' := h
      simp only [List.cons_append, List.map_cons, List.nodup_cons] at h'
      rw [← List.append_assoc, List.map_append, List.nodup_append]
      refine ⟨h'.2, by simp, ?_⟩
      rintro p hp q hq rfl
      simp only [List.map_cons, List.map_nil, List.mem_singleton] at hq
      exact h'.1 (hq ▸ hp)

/-- The stored locations inside the domain -/
def Inside (stored : List Location) (d : Domain) : List Location :=
  stored.filter fun l => d.xMin ≤ l.lon ∧ l.lon ≤ d.xMax ∧ d.yMin ≤ l.lat ∧ l.lat ≤ d.yMax

theorem update_ok {stored : List Location} {d : Domain} {o : Output} {db db' : DB} {e : Option Err}
    (h : update stored d o db = (db', e)) {rs : List (Event × List Wind)}
    (hr : results (setLocations stored d db).locations 0 o.fields = .ok rs) :
    e = none ∧ db'.locations = (setLocations stored d db).locations ∧
    db'.events = (insertAll rs (setLocations stored d db)).events ∧ db'.winds = db.winds ++ rs.flatMap (·.2) ∧
    db'.hazard = db.hazard ++ o.periods.flatMap (fun y => (setLocations stored d db).locations.map fun l =>
      ⟨l.locId, ⌊y⌋, (o.level y l).1, (o.level y l).2.1, (o.level y l).2.2⟩) ∧
    db'.tracks = db.tracks ++ o.tracks.flatMap fun t => passages t.1 t.2 (setLocations stored d db).locations := by
  unfold update at h
  simp only at h
  have hp := (processEvents_ok (db := setLocations stored d db)).1 rs hr
  rw [hp] at h
  simp only [Prod.mk.injEq] at h
  obtain ⟨rfl, rfl⟩ := h
  obtain ⟨a, b, c, d'⟩ := insertAll_tables rs (setLocations stored d db)
  refine ⟨rfl, ?_, rfl, ?_, ?_, ?_⟩
  · exact b
  · exact a
  · change (insertAll rs _).hazard ++ _ = _
    rw [c, b]; rfl
  · change (insertAll rs _).tracks ++ _ = _
    rw [d']
    change db.tracks ++ o.tracks.flatMap (fun t => passages t.1 t.2 (insertAll rs _).locations) = _
    rw [b]

theorem idText_inj {a b : ℕ × ℕ} (h : idText a.1 a.2 = idText b.1 b.2) : a = b := by
  obtain ⟨h1, h2⟩ := GustFiles.split_first (GustFiles.dash_notMem_pad 3 a.1) (GustFiles.dash_notMem_pad 3 b.1) h
  exact Prod.ext (GustFiles.pad_injective 3 h1) (GustFiles.pad_injective 5 h2)

theorem product_nodup (ids : List (ℕ × ℕ)) (hi : ids.Nodup) (ls : List Location) (hl : (ls.map (·.locId)).Nodup) :
    (ids.flatMap fun i => ls.map fun l => (l.locId, idText i.1 i.2)).Nodup := by
  rw [List.nodup_flatMap]
  constructor
  · intro i _
    have : (ls.map fun l => (l.locId, idText i.1 i.2)) = (ls.map (·.locId)).map fun x => (x, idText i.1 i.2) := by simp
    rw [this]
    exact hl.map (by intro a b h; simpa using h)
  · refine hi.imp ?_
    intro a b hab
    simp only [Function.onFun, List.disjoint_left, List.mem_map, not_exists, not_and]
    rintro p ⟨l, -, rfl⟩ m - h
    simp only [Prod.mk.injEq] at h
    exact hab (idText_inj h.2.symm)

/-- A record of the wind of an event at a location, at a grid point nearest to it -/
def RecordOf (e : (ℕ × ℕ) × Field) (l : Location) (w : Wind) : Prop :=
  ∃ i j, NearestPoint e.2.lon l.lon i ∧ NearestPoint e.2.lat l.lat j ∧
    w = ⟨l.locId, idText e.1.1 e.1.2, e.2.vmax j i, e.2.ua j i, e.2.va j i⟩

theorem windAt_ok (e : (ℕ × ℕ) × Field) (l : Location) (h : Covers e.2 l) :
    ∃ w, windAt e.2 (idText e.1.1 e.1.2) l = .ok w ∧ RecordOf e l w := by
  obtain ⟨⟨a, ha, b, hb, h1, h2⟩, a', ha', b', hb', h3, h4⟩ := h
  obtain ⟨i, hi, ni, -⟩ := Grid.C33_within_range ha hb h1 h2
  obtain ⟨j, hj, nj, -⟩ := Grid.C33_within_range ha' hb' h3 h4
  unfold windAt
  rw [hi, hj]
  exact ⟨_, rfl, i, j, ni, nj, rfl⟩

theorem mapM_windAt (e : (ℕ × ℕ) × Field) (ls : List Location) (h : ∀ l ∈ ls, Covers e.2 l) :
    ∃ ws, ls.mapM (windAt e.2 (idText e.1.1 e.1.2)) = .ok ws ∧ List.Forall₂ (RecordOf e) ls ws := by
  induction ls with
  | nil => exact ⟨[], rfl, .nil⟩
  | cons l ls ih =>
    obtain ⟨w, hw, h1⟩ := windAt_ok e l (h l (by simp))
    obtain ⟨ws, hws, h2⟩ := ih fun x hx => h x (List.mem_cons_of_mem _ hx)
    refine ⟨w :: ws, ?_, .cons h1 h2⟩
    rw [List.mapM_cons, hw, hws]
    rfl

theorem results_gust (events : List ((ℕ × ℕ) × Field)) (ls : List Location)
    (h : ∀ e ∈ events, ∀ l ∈ ls, Covers e.2 l) (n : ℕ) :
    ∃ rs, results ls n (events.map fun e => (gustName e.1, some e.2)) = .ok rs ∧
      List.Forall₂ (fun e r => r.1.eventId = idText e.1.1 e.1.2 ∧ r.1.file = gustName e.1 ∧
        List.Forall₂ (RecordOf e) ls r.2) events rs := by
  induction events generalizing n with
  | nil => exact ⟨[], rfl, .nil⟩
  | cons e events ih =>
    obtain ⟨rs, hr, h1⟩ := ih (fun x hx => h x (List.mem_cons_of_mem _ hx)) (n + 1)
    obtain ⟨ws, hw, h2⟩ := mapM_windAt e ls (h e (by simp))
    refine ⟨(⟨n, idText e.1.1 e.1.2, gustName e.1, e.2.maxWind, e.2.minPressure⟩, ws) :: rs, ?_, .cons ⟨rfl, rfl, h2⟩ h1⟩
    have hi : eventIdOf (gustName e.1) = .ok (idText e.1.1 e.1.2) :=
      eventId_prefix "gust.".toList (by decide) e.1.1 e.1.2
    simp only [List.map_cons, results, processEvent, hi, hw, hr]

theorem insideKey {stored : List Location} (hk : (stored.map (·.locId)).Nodup) (d : Domain) :
    ((Inside stored d).map (·.locId)).Nodup := hk.sublist (List.Sublist.map _ List.filter_sublist)

theorem setLocations_empty {stored : List Location} (hk : (stored.map (·.locId)).Nodup) (d : Domain) :
    (setLocations stored d empty).locations = Inside stored d := by
  have := setLocations_new [] (Inside stored d) (by simpa using insideKey hk d)
  rwa [List.nil_append] at this

theorem forall₂_right {α β : Type} {R : α → β → Prop} {a : List α} {b : List β} (h : List.Forall₂ R a b) :
    ∀ y ∈ b, ∃ x ∈ a, R x y := by
  induction h with
  | nil => simp
  | @cons x y a b h1 _ ih =>
    intro z hz
    rcases List.mem_cons.1 hz with rfl | hz
    · exact ⟨x, by simp, h1⟩
    · obtain ⟨x', hx, h2⟩ := ih z hz
      exact ⟨x', List.mem_cons_of_mem _ hx, h2⟩

theorem forall₂_left {α β : Type} {R : α → β → Prop} {a : List α} {b : List β} (h : List.Forall₂ R a b) :
    ∀ x ∈ a, ∃ y ∈ b, R x y := by
  induction h with
  | nil => simp
  | @cons x y a b h1 _ ih =>
    intro z hz
    rcases List.mem_cons.1 hz with rfl | hz
    · exact ⟨y, by simp, h1⟩
    · obtain ⟨x', hx, h2⟩ := ih z hz
      exact ⟨x', List.mem_cons_of_mem _ hx, h2⟩

theorem record_keys {e : (ℕ × ℕ) × Field} {ls : List Location} {ws : List Wind} (h : List.Forall₂ (RecordOf e) ls ws) :
    ws.map (fun w => (w.locId, w.eventId)) = ls.map fun l => (l.locId, idText e.1.1 e.1.2) := by
  induction h with
  | nil => rfl
  | cons h1 _ ih =>
    obtain ⟨i, j, -, -, rfl⟩ := h1
    rw [List.map_cons, List.map_cons, ih]

/-- How the records of the events belong to the events -/
abbrev Recorded (ls : List Location) (events : List ((ℕ × ℕ) × Field)) (rs : List (Event × List Wind)) : Prop :=
  List.Forall₂ (fun e r => r.1.eventId = idText e.1.1 e.1.2 ∧ r.1.file = gustName e.1 ∧
    List.Forall₂ (RecordOf e) ls r.2) events rs

theorem recorded_events {ls : List Location} {events : List ((ℕ × ℕ) × Field)} {rs : List (Event × List Wind)}
    (h : Recorded ls events rs) : (rs.map (·.1)).map (fun x => (x.eventId, x.file)) =
      events.map (fun e => (idText e.1.1 e.1.2, gustName e.1)) := by
  induction h with
  | nil => rfl
  | cons h1 _ ih => rw [List.map_cons, List.map_cons, ih, h1.1, h1.2.1, List.map_cons]

theorem recorded_winds {ls : List Location} {events : List ((ℕ × ℕ) × Field)} {rs : List (Event × List Wind)}
    (h : Recorded ls events rs) : (rs.flatMap (·.2)).map (fun w => (w.locId, w.eventId)) =
      (events.map (·.1)).flatMap fun i => ls.map fun l => (l.locId, idText i.1 i.2) := by
  induction h with
  | nil => rfl
  | cons h1 _ ih =>
    rw [List.flatMap_cons, List.map_append, ih, record_keys h1.2.2, List.map_cons, List.flatMap_cons]

/-- C83, partial: after the first update each location of the domain, each event and each passage is recorded once, with
the wind at a grid point nearest to the location. -/
theorem C83_first_partial (stored : List Location) (hk : (stored.map (·.locId)).Nodup) (d : Domain) (o : Output)
    (events : List ((ℕ × ℕ) × Field)) (ho : o.fields = events.map fun e => (gustName e.1, some e.2))
    (hid : (events.map (·.1)).Nodup) (hcov : ∀ e ∈ events, ∀ l ∈ Inside stored d, Covers e.2 l)
    (ht : (o.tracks.map (·.1)).Nodup) :
    ∃ db, update stored d o empty = (db, none) ∧ db.locations = Inside stored d ∧ Keys db ∧
      db.events.map (fun x => (x.eventId, x.file)) = events.map (fun e => (idText e.1.1 e.1.2, gustName e.1)) ∧
      (∀ w ∈ db.winds, ∃ e ∈ events, ∃ l ∈ Inside stored d, RecordOf e l w) ∧
      (∀ e ∈ events, ∀ l ∈ Inside stored d, ∃ w ∈ db.winds, RecordOf e l w) ∧
      (∀ p, p ∈ db.tracks ↔ ∃ t ∈ o.tracks, ∃ l ∈ Inside stored d, p = ⟨l.locId, idText t.1.1 t.1.2, t.2 l⟩) ∧
      (∀ x, x ∈ db.hazard ↔ ∃ y ∈ o.periods, ∃ l ∈ Inside stored d,
        x = ⟨l.locId, ⌊y⌋, (o.level y l).1, (o.level y l).2.1, (o.level y l).2.2⟩) := by
  have hl := setLocations_empty hk d
  obtain ⟨rs, hr, hf⟩ := results_gust events (Inside stored d) hcov 0
  rw [← ho] at hr
  rw [← hl] at hr
  obtain ⟨he, a, b, c, f', f⟩ := update_ok (db := empty) (db' := (update stored d o empty).1)
    (e := (update stored d o empty).2) rfl hr
  have hev : (insertAll rs (setLocations stored d empty)).events = rs.map (·.1) := by
    have h0 : NumberedBelow (setLocations stored d empty) 0 := by
      intro k; simp [setLocations, empty]
    have := (insertAll_events h0 (results_numbers hr) le_rfl).1
    simpa [setLocations, empty] using this
  rw [hev] at b
  rw [hl] at a f f'
  have hlk := insideKey hk d
  have c : (update stored d o empty).1.winds = rs.flatMap (·.2) := c
  refine ⟨(update stored d o empty).1, Prod.ext rfl he, a, ⟨?_, ?_, ?_, ?_⟩, ?_, ?_, ?_, ?_, ?_⟩
  · unfold LocKey; rwa [a]
  · have h1 : (update stored d o empty).1.events.map (·.eventId) =
        (events.map (·.1)).map (fun i => idText i.1 i.2) := by
      have := congrArg (List.map Prod.fst) (recorded_events hf)
      rw [b]
      simpa [List.map_map, Function.comp_def] using this
    rw [h1]
    exact hid.map fun _ _ h => idText_inj h
  · rw [c, recorded_winds hf]
    exact product_nodup _ hid _ hlk
  · rw [f]
    have : (o.tracks.flatMap fun t => passages t.1 t.2 (Inside stored d)).map (fun t => (t.locId, t.eventId)) =
        (o.tracks.map (·.1)).flatMap fun i => (Inside stored d).map fun l => (l.locId, idText i.1 i.2) := by
      rw [List.map_flatMap, List.flatMap_map]
      congr 1
      funext t
      simp [passages, Function.comp_def]
    rw [show empty.tracks = [] from rfl, List.nil_append, this]
    exact product_nodup _ ht _ hlk
  · rw [b]; exact recorded_events hf
  · rw [c]
    intro w hw
    obtain ⟨r, hr1, hr2⟩ := List.mem_flatMap.1 hw
    obtain ⟨e, he1, -, -, h3⟩ := forall₂_right hf r hr1
    obtain ⟨l, hl1, h4⟩ := forall₂_right h3 w hr2
    exact ⟨e, he1, l, hl1, h4⟩
  · rw [c]
    intro e he1 l hl1
    obtain ⟨r, hr1, -, -, h3⟩ := forall₂_left hf e he1
    obtain ⟨w, hw1, h4⟩ := forall₂_left h3 l hl1
    exact ⟨w, List.mem_flatMap.2 ⟨r, hr1, hw1⟩, h4⟩
  · intro p
    rw [f, show empty.tracks = [] from rfl, List.nil_append]
    simp only [List.mem_flatMap, passages, List.mem_map]
    constructor
    · rintro ⟨t, h1, l, h2, rfl⟩; exact ⟨t, h1, l, h2, rfl⟩
    · rintro ⟨t, h1, l, h2, rfl⟩; exact ⟨t, h1, l, h2, rfl⟩
  · intro x
    rw [f', show empty.hazard = [] from rfl, List.nil_append]
    simp only [List.mem_flatMap, List.mem_map]
    constructor
    · rintro ⟨t, h1, l, h2, rfl⟩; exact ⟨t, h1, l, h2, rfl⟩
    · rintro ⟨t, h1, l, h2, rfl⟩; exact ⟨t, h1, l, h2, rfl⟩

theorem update_error {stored : List Location} {d : Domain} {o : Output} {db db' : DB}
    (h : update stored d o db = (db', none)) :
    ∃ rs, results (setLocations stored d db).locations 0 o.fields = .ok rs := by
  cases hr : results (setLocations stored d db).locations 0 o.fields with
  | ok rs => exact ⟨rs, rfl⟩
  | error e =>
    exfalso
    have := (processEvents_ok (db := setLocations stored d db)).2 e hr
    unfold update at h
    simp only [this] at h
    simp at h

theorem processEvents_append {locations : List Location} {fs gs : List (Name × Option Field)} {n : ℕ} {db : DB}
    {rs : List (Event × List Wind)} (h : results locations n fs = .ok rs) :
    processEvents locations n (fs ++ gs) db = processEvents locations (n + fs.length) gs (insertAll rs db) := by
  induction fs generalizing n db rs with
  | nil => simp only [results, Except.ok.injEq] at h; subst h; rfl
  | cons f fs ih =>
    obtain ⟨file, fl⟩ := f
    simp only [results] at h
    simp only [List.cons_append, processEvents]
    cases hp : processEvent file fl locations n with
    | error e => simp [hp] at h
    | ok r =>
      simp only [hp] at h
      cases hr : results locations (n + 1) fs with
      | error e => simp [hr] at h
      | ok rs' =>
        simp only [hr, Except.ok.injEq] at h
        subst h
        simp only
        rw [ih hr, List.length_cons, show n + 1 + fs.length = n + (fs.length + 1) by omega]
        rfl

/-- C84 fails: a local wind field among the wind fields ends the update; the wind fields listed before it stay recorded,
those after it, the levels and the passages are not. -/
theorem C84_interrupted_fails (stored : List Location) (hk : (stored.map (·.locId)).Nodup) (d : Domain) (o : Output)
    (events : List ((ℕ × ℕ) × Field)) (g : Option Field) (fs : List (Name × Option Field))
    (ho : o.fields = events.map (fun e => (gustName e.1, some e.2)) ++ ("local_wind.tif".toList, g) :: fs)
    (hcov : ∀ e ∈ events, ∀ l ∈ Inside stored d, Covers e.2 l) :
    ∃ db, update stored d o empty = (db, some .valueError) ∧
      (∀ w ∈ db.winds, ∃ e ∈ events, ∃ l ∈ Inside stored d, RecordOf e l w) ∧
      (∀ e ∈ events, ∀ l ∈ Inside stored d, ∃ w ∈ db.winds, RecordOf e l w) ∧ db.hazard = [] ∧ db.tracks = [] := by
  have hl := setLocations_empty hk d
  obtain ⟨rs, hr, hf⟩ := results_gust events (Inside stored d) hcov 0
  rw [← hl] at hr
  obtain ⟨a, -, c, e⟩ := insertAll_tables rs (setLocations stored d empty)
  refine ⟨insertAll rs (setLocations stored d empty), ?_, ?_, ?_, c, e⟩
  · unfold update
    simp only [ho]
    rw [processEvents_append hr, (C84_other_fails _ _ _ _ (0, 0) _).1]
  · rw [a]
    intro w hw
    obtain ⟨r, hr1, hr2⟩ := List.mem_flatMap.1 (show w ∈ rs.flatMap (·.2) from hw)
    obtain ⟨e, he1, -, -, h3⟩ := forall₂_right hf r hr1
    obtain ⟨l, hl1, h4⟩ := forall₂_right h3 w hr2
    exact ⟨e, he1, l, hl1, h4⟩
  · rw [a]
    intro e he1 l hl1
    obtain ⟨r, hr1, -, -, h3⟩ := forall₂_left hf e he1
    obtain ⟨w, hw1, h4⟩ := forall₂_left h3 l hl1
    exact ⟨w, List.mem_append_right _ (List.mem_flatMap.2 ⟨r, hr1, hw1⟩), h4⟩

/-- C83 fails: updating again with the same output records every wind, level and passage a second time. -/
theorem C83_again_fails (stored : List Location) (hk : (stored.map (·.locId)).Nodup) (d : Domain) (o : Output) (db db' : DB)
    (e : Option Err) (h : update stored d o empty = (db, none)) (h' : update stored d o db = (db', e)) :
    e = none ∧ db'.locations = db.locations ∧ db'.events = db.events ∧ db'.winds = db.winds ++ db.winds ∧
    db'.hazard = db.hazard ++ db.hazard ∧ db'.tracks = db.tracks ++ db.tracks := by
  obtain ⟨rs, hr⟩ := update_error h
  obtain ⟨-, a, b, c, f, g⟩ := update_ok h hr
  have hl := setLocations_empty hk d
  have hl' : (setLocations stored d db).locations = Inside stored d := by
    change (Inside stored d).foldl replaceLocation db.locations = _
    rw [a, hl]
    have := setLocations_again [] (Inside stored d) (by simpa using insideKey hk d)
    simpa using this
  have hr' : results (setLocations stored d db).locations 0 o.fields = .ok rs := by rw [hl', ← hl]; exact hr
  obtain ⟨e0, a', b', c', f', g'⟩ := update_ok h' hr'
  refine ⟨e0, by rw [a', hl', a, hl], ?_, by rw [c', c]; rfl, ?_, ?_⟩
  · have h0 : NumberedBelow (setLocations stored d empty) 0 := by
      intro k; simp [setLocations, empty]
    have n1 := (insertAll_events h0 (results_numbers hr) le_rfl).2
    have n2 : NumberedBelow (setLocations stored d db) (max 0 (0 + o.fields.length)) := by
      intro k
      change (∃ e ∈ db.events, e.number = k) ↔ _
      rw [b]; exact n1 k
    have := (insertAll_events n2 (results_numbers hr') (Nat.zero_le _)).1
    rw [b', this]
    have hlen : rs.length = o.fields.length := by
      have := congrArg List.length (results_numbers hr)
      simpa using this
    rw [List.drop_of_length_le (by omega)]
    simp [setLocations]
  · rw [f', f, hl', hl]; rfl
  · rw [g', g, hl', hl]; rfl

/-- C83 fails: so each wind above a threshold is returned twice. -/
theorem C83_twice_fails (stored : List Location) (hk : (stored.map (·.locId)).Nodup) (d : Domain) (o : Output)
    (db db' : DB) (e : Option Err) (h : update stored d o empty = (db, none)) (h' : update stored d o db = (db', e))
    (l : Location) (hl : l ∈ db.locations) (u : ℚ) (res res' : List Exceeding)
    (q : locationRecordsExceeding db l.locId (some u) res) (q' : locationRecordsExceeding db' l.locId (some u) res') :
    res'.Perm (res ++ res) := by
  obtain ⟨-, a, -, c, -, -⟩ := C83_again_fails stored hk d o db db' e h h'
  obtain ⟨rs, hr⟩ := update_error h
  obtain ⟨-, a0, -⟩ := update_ok h hr
  have hlk : LocKey db := by unfold LocKey; rw [a0, setLocations_empty hk d]; exact insideKey hk d
  have h1 := (C52_exceeding db hlk l hl u res q).1
  have h2 := (C52_exceeding db' (by unfold LocKey; rw [a]; exact hlk) l (a ▸ hl) u res' q').1
  rw [c, List.filter_append, List.map_append] at h2
  exact h2.trans (h1.symm.append h1.symm)

/-- C83 fails: of the events of a later simulation only those with a number beyond the earlier ones are recorded; the
table keeps the earlier events, while the winds of the later ones are added. -/
theorem C83_stale_fails (stored : List Location) (d : Domain) (o o' : Output) (db db' : DB)
    (h : update stored d o empty = (db, none)) (h' : update stored d o' db = (db', none))
    (hlen : o'.fields.length ≤ o.fields.length) : db'.events = db.events ∧ ∃ ws, db'.winds = db.winds ++ ws ∧
      ∃ rs, results (setLocations stored d db).locations 0 o'.fields = .ok rs ∧ ws = rs.flatMap (·.2) := by
  obtain ⟨rs, hr⟩ := update_error h
  obtain ⟨-, a, b, c, f, g⟩ := update_ok h hr
  obtain ⟨rs', hr'⟩ := update_error h'
  obtain ⟨-, a', b', c', f', g'⟩ := update_ok h' hr'
  refine ⟨?_, _, c', rs', hr', rfl⟩
  have h0 : NumberedBelow (setLocations stored d empty) 0 := by
    intro k; simp [setLocations, empty]
  have n1 := (insertAll_events h0 (results_numbers hr) le_rfl).2
  have n2 : NumberedBelow (setLocations stored d db) (max 0 (0 + o.fields.length)) := by
    intro k
    change (∃ e ∈ db.events, e.number = k) ↔ _
    rw [b]; exact n1 k
  have := (insertAll_events n2 (results_numbers hr') (Nat.zero_le _)).1
  rw [b', this]
  have hl : rs'.length = o'.fields.length := by
    have := congrArg List.length (results_numbers hr')
    simpa using this
  rw [List.drop_of_length_le (by omega)]
  simp [setLocations]

/-- A simulation of one event on a grid of two by two points, and a location -/
def sampleField : Field := ⟨[150, 151], [-21, -20], fun j i => some (40 + j + i), fun _ _ => some 0, fun _ _ => some 0, some 42,
  some 95000⟩

example : ∀ e ∈ [((1, 2), sampleField)], ∀ l ∈ Inside [⟨1, "A".toList, 150.2, -20.1⟩] ⟨149, 152, -22, -19⟩,
    Covers e.2 l := by
  intro e he l hl
  obtain rfl := List.mem_singleton.1 he
  obtain rfl := List.mem_singleton.1 (List.mem_of_mem_filter hl)
  exact ⟨⟨150, by decide, 151, by decide, by norm_num, by norm_num⟩, -21, by decide, -20, by decide, by norm_num, by norm_num⟩

/-! ### C85 -/

theorem storedLon_range (lon : ℚ) : 0 ≤ storedLon lon ∧ storedLon lon < 360 := by
  unfold storedLon
  have h1 := Int.floor_le (lon / 360)
  have h2 := Int.lt_floor_add_one (lon / 360)
  constructor <;> linarith

/-- C85, partial: with a domain given in longitudes from 0 to 360 exactly the locations inside it are chosen (a location of
longitude `lon` in any convention, with latitude in the domain). -/
theorem C85_inside_partial (l : Location) (lon : ℚ) (hl : l.lon = storedLon lon) (d : Domain) (h0 : 0 ≤ d.xMin)
    (h1 : d.xMax < 360) : l ∈ Inside [l] d ↔
      (∃ k : ℤ, d.xMin ≤ lon + 360 * k ∧ lon + 360 * k ≤ d.xMax) ∧ d.yMin ≤ l.lat ∧ l.lat ≤ d.yMax := by
  unfold Inside
  simp only [List.mem_filter, List.mem_singleton, true_and, decide_eq_true_eq]
  constructor
  · rintro ⟨a, b, c, e⟩
    refine ⟨⟨-⌊lon / 360⌋, ?_, ?_⟩, c, e⟩ <;> push_cast <;> rw [hl] at a b <;> unfold storedLon at a b <;> linarith
  · rintro ⟨⟨k, a, b⟩, c, e⟩
    have hf : ⌊lon / 360⌋ = -k := by
      rw [Int.floor_eq_iff]
      push_cast
      constructor <;> linarith
    have : l.lon = lon + 360 * k := by
      rw [hl]; unfold storedLon; rw [hf]; push_cast; ring
    rw [this]
    exact ⟨a, b, c, e⟩

/-- C85 fails for a domain in western longitudes given as negative numbers: no location is chosen. -/
theorem C85_west_fails (l : Location) (lon : ℚ) (hl : l.lon = storedLon lon) (d : Domain) (h1 : d.xMax < 0) :
    Inside [l] d = [] := by
  unfold Inside
  rw [List.filter_eq_nil_iff]
  intro x hx
  obtain rfl := List.mem_singleton.1 hx
  have := (storedLon_range lon).1
  simp only [decide_eq_true_eq, not_and]
  intro _ h
  rw [hl] at h
  linarith

example : storedLon (-80) = 280 := by decide +kernel

end Tcrm.Database
