import Verif.Lemmas.GustFiles
import Mathlib.Data.List.Perm.Basic
import Mathlib.Data.List.Nodup
/-!
C20 (file names and selection by year), C21 (annual maxima), C22 (restart), C56 (local wind fields of
several tracks) and C57 (records loaded for the other distributions).
-/
namespace Tcrm.GustFiles

/-! ### C20 -/

/-- C20, first half: different (track, year) pairs have different file names, whatever the number of
digits. -/
theorem C20_names_injective {a b : ℕ × ℕ} (h : gustName a = gustName b) : a = b := by
  unfold gustName at h
  simp only [List.append_assoc] at h
  have h := List.append_cancel_left h
  obtain ⟨h1, h2⟩ := split_first (dash_notMem_pad 3 a.1) (dash_notMem_pad 3 b.1) h
  have h2 : pad 5 a.2 = pad 5 b.2 := List.append_cancel_right h2
  exact Prod.ext (pad_injective 3 h1) (pad_injective 5 h2)

example : gustName (7, 12) = "gust.007-00012.nc".toList := by decide +kernel
example : gustName (1234, 123456) = "gust.1234-123456.nc".toList := by decide +kernel

/-- C20, second half: the pattern of a year selects the wind field of a track if and only if it is of
that year. -/
theorem C20_pattern_selects_year (year : ℕ) (id : ℕ × ℕ) :
    fnmatch (yearPattern year) (gustName id) = true ↔ id.2 = year := by
  rw [fnmatch_yearPattern]
  constructor
  · rintro ⟨m, h⟩
    unfold gustName at h
    have h := List.append_cancel_right h
    simp only [List.append_assoc] at h
    have h := List.append_cancel_left h
    exact pad_injective 5 (split_last (dash_notMem_pad _ _) (dash_notMem_pad _ _) h).2
  · rintro rfl
    exact ⟨pad 3 id.1, rfl⟩

example : fnmatch (yearPattern 12) (gustName (7, 12)) = true := by decide +kernel
example : fnmatch (yearPattern 12) (gustName (7, 100012)) = false := by decide +kernel

/-- C20: the time-series files kept in the same directory are selected for no year. -/
theorem C20_evolution_not_selected (year : ℕ) (id : ℕ × ℕ) :
    fnmatch (yearPattern year) (evolutionName id) = false := by
  rw [Bool.eq_false_iff]
  intro h
  obtain ⟨m, h⟩ := (fnmatch_yearPattern _ _).1 h
  unfold evolutionName at h
  simp only [List.append_assoc] at h
  rw [show "evolution.".toList = 'e' :: "volution.".toList from rfl,
    show "gust.".toList = 'g' :: "ust.".toList from rfl, List.cons_append, List.cons_append,
    List.cons.injEq] at h
  exact absurd h.1 (by decide)

/-! ### C21 -/

section C21
variable {K : Type} [LinearOrder K] [Zero K]

/-- C21: `fields` are the wind fields of the events in the directory, in any order; the aggregate for a
year is, in each cell of the tile, the greatest wind speed over the events of that year, and zero if
there are none. Nothing but the events of that year has an influence. -/
theorem C21_annual_maxima (events : List ((ℕ × ℕ) × (ℕ → ℕ → K))) (t : Tile) (year : ℕ) :
    ∃ v, aggregate (events.map fun e => (gustName e.1, some e.2)) t year = some v ∧
      ∀ y x,
        let here := (events.filter fun e => e.1.2 = year).map fun e => e.2 (t.ymin + y) (t.xmin + x)
        (here = [] → v y x = 0) ∧ (here ≠ [] → IsMaxOf (v y x) here) := by
  have hf : (events.map fun e => (gustName e.1, some e.2)).filter
      (fun f => fnmatch (yearPattern year) f.1) =
      (events.filter fun e => e.1.2 = year).map fun e => (gustName e.1, some e.2) := by
    rw [List.filter_map]
    congr 1
    apply List.filter_congr
    intro e _
    have := C20_pattern_selects_year year e.1
    by_cases h : e.1.2 = year
    · simp [h, this.2 h]
    · simp only [Function.comp, h, decide_false]
      exact Bool.eq_false_iff.2 fun h' => h (this.1 h')
  have hm : ((events.filter fun e => e.1.2 = year).map fun e => (gustName e.1, some e.2)).mapM
      (fun f => loadFile f.2 t) =
      some ((events.filter fun e => e.1.2 = year).map fun e y x => e.2 (t.ymin + y) (t.xmin + x)) := by
    rw [mapM_option_eq_some, List.forall₂_map_left_iff, List.forall₂_map_right_iff]
    exact List.forall₂_same.2 fun e _ => rfl
  unfold aggregate
  rw [hf, hm]
  cases hl : events.filter fun e => e.1.2 = year with
  | nil => exact ⟨_, rfl, fun y x => ⟨fun _ => rfl, fun h => absurd rfl h⟩⟩
  | cons e l =>
    refine ⟨_, rfl, fun y x => ⟨fun h => by simp at h, fun _ => ?_⟩⟩
    have := isMaxOf_maxList (0 : K)
      (((e :: l).map fun e y x => e.2 (t.ymin + y) (t.xmin + x)).map fun v => v y x) (by simp)
    simpa [Function.comp_def] using this

/-- C21: rounding.  When the speeds are rounded on storing them, by any rounding that preserves order and zero, the
annual maxima are those of the unrounded speeds, rounded; for any files, readable or not. -/
theorem C21_rounding {K' : Type} [LinearOrder K'] [Zero K'] (rd : K → K') (hrd : Monotone rd) (hrd0 : rd 0 = 0)
    (dir : List (Name × Option (ℕ → ℕ → K))) (t : Tile) (year : ℕ) :
    aggregate (dir.map fun f => (f.1, f.2.map fun v y x => rd (v y x))) t year =
      (aggregate dir t year).map fun v y x => rd (v y x) := by
  have hmax : ∀ l : List K, maxList 0 (l.map rd) = rd (maxList 0 l) := by
    intro l
    induction l with
    | nil => exact hrd0.symm
    | cons a l ih =>
      cases l with
      | nil => rfl
      | cons b l =>
        change max (rd a) (maxList 0 ((b :: l).map rd)) = rd (max a (maxList 0 (b :: l)))
        rw [ih, hrd.map_max]
  have hload : ∀ l : List (Name × Option (ℕ → ℕ → K)),
      ((l.map fun f => (f.1, f.2.map fun v y x => rd (v y x))).mapM fun f => loadFile f.2 t) =
        (l.mapM fun f => loadFile f.2 t).map fun fs => fs.map fun v y x => rd (v y x) := by
    intro l
    induction l with
    | nil => rfl
    | cons f l ih =>
      rw [List.map_cons, List.mapM_cons, ih, List.mapM_cons]
      cases h : f.2 with
      | none => simp [loadFile]
      | some v =>
        cases h' : (l.mapM fun f => loadFile f.2 t) with
        | none => simp [loadFile]
        | some vs => simp [loadFile]
  unfold aggregate
  rw [List.filter_map, show ((fun f : Name × Option (ℕ → ℕ → K') => fnmatch (yearPattern year) f.1) ∘
    fun f : Name × Option (ℕ → ℕ → K) => (f.1, f.2.map fun v y x => rd (v y x))) =
    fun f => fnmatch (yearPattern year) f.1 from rfl, hload]
  cases (dir.filter fun f => fnmatch (yearPattern year) f.1).mapM fun f => loadFile f.2 t with
  | none => rfl
  | some fs =>
    cases fs with
    | nil => simp [hrd0]
    | cons v vs =>
      simp only [Option.map_some, List.map_cons, Option.some.injEq]
      funext y x
      rw [← hmax]
      simp [Function.comp_def]

/-- A rounding of the kind meant, here to whole numbers, and two events whose rounded speeds are the same. -/
example : (aggregate (K := ℤ) [(gustName (1, 3), some fun _ _ => 70 / 2), (gustName (2, 3), some fun _ _ => 71 / 2)]
    ⟨0, 1, 0, 1⟩ 3).map (fun v => v 0 0) = some 35 := by
  have := C21_rounding (K := ℤ) (fun x : ℤ => x / 2) (fun a b h => by simp only; omega) rfl
    [(gustName (1, 3), some fun _ _ => 70), (gustName (2, 3), some fun _ _ => 71)] ⟨0, 1, 0, 1⟩ 3
  simp only [List.map_cons, List.map_nil, Option.map_some] at this
  rw [this]
  decide +kernel

/-- C21: the order in which the directory is listed does not matter, for any files. -/
theorem C21_listing_order {dir dir' : List (Name × Option (ℕ → ℕ → K))} (h : dir.Perm dir')
    (t : Tile) (year : ℕ) : aggregate dir t year = aggregate dir' t year := by
  have hp := (h.filter fun f => fnmatch (yearPattern year) f.1)
  generalize hd : (dir.filter fun f => fnmatch (yearPattern year) f.1) = l at hp
  generalize hd' : (dir'.filter fun f => fnmatch (yearPattern year) f.1) = l' at hp
  unfold aggregate
  rw [hd, hd']
  have tot : ∀ {l l' : List (Name × Option (ℕ → ℕ → K))}, l.Perm l' →
      ∀ r, l.mapM (fun f => loadFile f.2 t) = some r →
        ∃ r', l'.mapM (fun f => loadFile f.2 t) = some r' ∧ r.Perm r' := by
    intro l l' hp r hr
    rw [mapM_option_eq_some] at hr
    obtain ⟨r', h1, h2⟩ := List.perm_comp_forall₂ hp.symm hr
    exact ⟨r', (mapM_option_eq_some _ _ _).2 h1, h2.symm⟩
  cases h1 : l.mapM (fun f => loadFile f.2 t) with
  | none =>
    cases h2 : l'.mapM (fun f => loadFile f.2 t) with
    | none => rfl
    | some r' =>
      obtain ⟨r, h3, _⟩ := tot hp.symm _ h2
      rw [h1] at h3; cases h3
  | some r =>
    obtain ⟨r', h2, hperm⟩ := tot hp _ h1
    rw [h2]
    cases r with
    | nil => rw [List.nil_perm.1 hperm]
    | cons a r =>
      cases r' with
      | nil => exact absurd hperm.length_eq (by simp)
      | cons b r' =>
        simp only [Option.some.injEq]
        funext y x
        refine IsMaxOf.unique (isMaxOf_maxList 0 _ (by simp)) (isMaxOf_maxList 0 _ (by simp)) ?_
        intro v
        exact (hperm.map fun v : ℕ → ℕ → K => v y x).mem_iff

end C21

/-- Two events in year 3, one in year 100003; a tile with an offset. -/
example : (aggregate (K := ℤ) [(gustName (1, 3), some fun y x => y + x),
      (gustName (2, 3), some fun y _ => 5 * y), (gustName (1, 100003), some fun _ _ => 1000)]
    ⟨10, 20, 2, 4⟩ 3).map (fun v => (v 0 0, v 1 0)) = some (12, 15) := by decide +kernel

/-! ### C57: records used by the other distributions -/

/-- C57: the record loaded for the other distributions does not depend on the listing order: it is
always in the order of the file names. Names in a directory are distinct. -/
theorem C57_listing_order {K : Type} {dir dir' : List (Name × Option (ℕ → ℕ → K))}
    (h : dir.Perm dir') (hn : (dir.map Prod.fst).Nodup) (t : Tile) :
    loadFiles dir t = loadFiles dir' t := by
  unfold loadFiles
  congr 1
  have tr : ∀ a b c : Name × Option (ℕ → ℕ → K), decide (a.1 ≤ b.1) = true →
      decide (b.1 ≤ c.1) = true → decide (a.1 ≤ c.1) = true := fun a b c h1 h2 =>
    decide_eq_true (List.le_trans (of_decide_eq_true h1) (of_decide_eq_true h2))
  have tt : ∀ a b : Name × Option (ℕ → ℕ → K),
      (decide (a.1 ≤ b.1) || decide (b.1 ≤ a.1)) = true := fun a b => by
    rcases List.le_total a.1 b.1 with h | h <;> simp [h]
  have s1 := List.pairwise_mergeSort tr tt dir
  have s2 := List.pairwise_mergeSort tr tt dir'
  have hp : (dir.mergeSort fun a b => decide (a.1 ≤ b.1)).Perm
      (dir'.mergeSort fun a b => decide (a.1 ≤ b.1)) :=
    (List.mergeSort_perm _ _).trans (h.trans (List.mergeSort_perm _ _).symm)
  refine List.Perm.eq_of_pairwise ?_ s1 s2 hp
  intro a b ha hb h1 h2
  have e : a.1 = b.1 := List.le_antisymm (of_decide_eq_true h1) (of_decide_eq_true h2)
  have ha' : a ∈ dir := (List.mergeSort_perm _ _).mem_iff.1 ha
  have hb' : b ∈ dir := h.mem_iff.2 ((List.mergeSort_perm _ _).mem_iff.1 hb)
  exact List.inj_on_of_nodup_map hn ha' hb' e

/-- C57 in full: the record has one entry per event file. It fails: every regular file of the directory
is loaded, and a file without maximum gusts, such as the time-series file of a track, stops the
calculation whatever else is in the directory. -/
theorem C57_fails_with_other_files {K : Type} {dir : List (Name × Option (ℕ → ℕ → K))} {n : Name}
    (h : (n, none) ∈ dir) (t : Tile) : loadFiles dir t = none := by
  unfold loadFiles
  cases hr : (dir.mergeSort fun a b => decide (a.1 ≤ b.1)).mapM fun f => loadFile f.2 t with
  | none => rfl
  | some r =>
    rw [mapM_option_eq_some] at hr
    have hm : (n, none) ∈ dir.mergeSort fun a b => decide (a.1 ≤ b.1) :=
      (List.mergeSort_perm _ _).mem_iff.2 h
    obtain ⟨b, _, hb⟩ := exists_right hr hm
    simp [loadFile] at hb

/-- C57 for a directory that holds event files only: one entry per event, namely its wind field on the
tile. -/
theorem C57_records_partial {K : Type} (events : List ((ℕ × ℕ) × (ℕ → ℕ → K))) (t : Tile) :
    ∃ r, loadFiles (events.map fun e => (gustName e.1, some e.2)) t = some r ∧
      r.Perm (events.map fun e y x => e.2 (t.ymin + y) (t.xmin + x)) := by
  have hp : ((events.map fun e => (gustName e.1, some e.2)).mergeSort
      fun a b => decide (a.1 ≤ b.1)).Perm (events.map fun e => (gustName e.1, some e.2)) :=
    List.mergeSort_perm _ _
  have hm : List.Forall₂ (fun (a : Name × Option (ℕ → ℕ → K)) b => loadFile a.2 t = some b)
      (events.map fun e => (gustName e.1, some e.2))
      (events.map fun e y x => e.2 (t.ymin + y) (t.xmin + x)) := by
    rw [List.forall₂_map_left_iff, List.forall₂_map_right_iff]
    exact List.forall₂_same.2 fun e _ => rfl
  obtain ⟨r, h1, h2⟩ := List.perm_comp_forall₂ hp hm
  exact ⟨r, (mapM_option_eq_some _ _ _).2 h1, h2⟩

/-! ### C22 -/

section C22
variable {T L D X : Type}

/-- C22, second half, without any assumption: no state of any run changes a file that counts as
complete. -/
theorem C22_finished_not_rewritten (S : Stage T L D X) (ts : List T) (lim : Option L) (d : Disk D X)
    (n : Name) (h : complete S (d.files n) = true) :
    ∀ d' ∈ runStates S ts lim d, d'.files n = d.files n := by
  refine runStates_induction (P := fun d' => d'.files n = d.files n) rfl ?_
  intro t _ lim d1 d2 h1 h2
  rw [processTrack_files h2 (Or.inr (by rw [h1]; exact h)), h1]

/-- C22: a file counts as complete exactly if it can be read and has the variables `lat`, `lon`, `vmax`, `ua`, `va` and
`slp` (whatever their values). A run that starts with the track of the file leaves every other one replaced. -/
theorem C22_counts_as_complete (S : Stage T L D X) (t : T) (l : L) (d : Disk D X) :
    (complete S (d.files (gustName (S.id t))) = true ↔
      ∃ f, d.files (gustName (S.id t)) = some f ∧ S.readable f = true ∧
        ∀ v : Var, v ≠ .crs → ∃ x, (v, x) ∈ f.vars) ∧
    (complete S (d.files (gustName (S.id t))) = false →
      (runFinal S [t] (some l) d).files (gustName (S.id t)) = some (fullFile (S.result l t))) := by
  constructor
  · cases hf : d.files (gustName (S.id t)) with
    | none => simp [complete]
    | some f =>
      simp only [complete, Bool.and_eq_true, List.all_eq_true, List.any_eq_true, beq_iff_eq, Option.some.injEq,
        exists_eq_left']
      refine and_congr_right fun _ => ⟨fun h v hv => ?_, fun h v hv => ?_⟩
      · obtain ⟨⟨w, x⟩, hx, rfl⟩ := h v (by cases v <;> simp at hv ⊢)
        exact ⟨x, hx⟩
      · obtain ⟨x, hx⟩ := h v (by rintro rfl; simp at hv)
        exact ⟨(v, x), hx, rfl⟩
  · intro hc
    have hl : ∀ data : Var → D,
        ((saveStates data).map fun f => d.put (gustName (S.id t)) f).getLast? =
          some (d.put (gustName (S.id t)) (fullFile data)) := fun data => by
      rw [List.getLast?_map, saveStates_getLast]; rfl
    simp only [runFinal, processTrack, hc, Bool.false_eq_true, if_false, Option.getD_some, hl]
    by_cases hm : S.multipliers
    · simp only [hm, if_true]
      rw [List.getLast?_append_of_ne_nil _ (by simp)]
      simp [Disk.put]
    · simp only [hm, Bool.false_eq_true, if_false, List.append_nil]
      rw [List.getLast?_cons, hl]
      simp [Disk.put]

/-- What holds of every disk left by interrupted runs. -/
theorem crashed_files {S : Stage T L D X} {ts : List T} {l : L} {d₀ d : Disk D X}
    (hd : Crashed S ts (some l) d₀ d) (n : Name) :
    d.files n = d₀.files n ∨ ∃ t ∈ ts, gustName (S.id t) = n ∧
      ∃ f, d.files n = some f ∧ (f = fullFile (S.result l t) ∨ f.closed = false) := by
  induction hd with
  | start => exact Or.inl rfl
  | crash _ hmem ih =>
    refine runStates_induction_some (P := fun d => d.files n = d₀.files n ∨
      ∃ t ∈ ts, gustName (S.id t) = n ∧ ∃ f, d.files n = some f ∧
        (f = fullFile (S.result l t) ∨ f.closed = false)) ih ?_ _ hmem
    intro t ht d1 d2 h1 h2
    by_cases hn : n = gustName (S.id t)
    · subst hn
      rcases processTrack_own h2 with h | ⟨f, hf, hf'⟩
      · rw [h]; exact h1
      · exact Or.inr ⟨t, ht, rfl, f, hf, hf'⟩
    · rw [processTrack_files h2 (Or.inl hn)]; exact h1

theorem runFinal_files {S : Stage T L D X} (hS : Faithful S) {l : L} :
    ∀ {ts : List T} {d : Disk D X}, (∀ t ∈ ts, ∀ t' ∈ ts, S.id t = S.id t' → t = t') →
    (∀ t ∈ ts, complete S (d.files (gustName (S.id t))) = true →
      d.files (gustName (S.id t)) = some (fullFile (S.result l t))) → ∀ n,
    (∀ t ∈ ts, gustName (S.id t) = n →
      (runFinal S ts (some l) d).files n = some (fullFile (S.result l t))) ∧
    ((∀ t ∈ ts, gustName (S.id t) ≠ n) → (runFinal S ts (some l) d).files n = d.files n)
  | [], d, _, _, n => ⟨fun t ht => by simp at ht, fun _ => rfl⟩
  | t :: ts, d, hid, hd, n => by
      have hlast := processTrack_last S t (some l) d
      have hmem := processTrack_last_mem S t (some l) d
      generalize hd1 : (processTrack S t (some l) d).1.getLast?.getD d = d1 at hlast hmem
      have hown : d1.files (gustName (S.id t)) = some (fullFile (S.result l t)) := by
        rw [hlast]
        split
        · next hc => exact hd t (by simp) hc
        · simp [Disk.put]
      have hoth : ∀ n, n ≠ gustName (S.id t) → d1.files n = d.files n := fun n hn =>
        processTrack_files hmem (Or.inl hn)
      have hd1' : ∀ t' ∈ ts, complete S (d1.files (gustName (S.id t'))) = true →
          d1.files (gustName (S.id t')) = some (fullFile (S.result l t')) := by
        intro t' ht' hc
        by_cases e : gustName (S.id t') = gustName (S.id t)
        · have := hid t' (List.mem_cons_of_mem _ ht') t (by simp) (C20_names_injective e)
          rw [this]; exact hown
        · rw [hoth _ e] at hc ⊢
          exact hd t' (List.mem_cons_of_mem _ ht') hc
      have ih := runFinal_files hS (ts := ts) (d := d1)
        (fun a ha b hb => hid a (List.mem_cons_of_mem _ ha) b (List.mem_cons_of_mem _ hb)) hd1' n
      simp only [runFinal, processTrack_lim, hd1]
      refine ⟨fun t' ht' hn => ?_, fun hn => ?_⟩
      · by_cases hex : ∃ t'' ∈ ts, gustName (S.id t'') = n
        · obtain ⟨t'', ht'', hn''⟩ := hex
          have e : t' = t'' := hid _ ht' _ (List.mem_cons_of_mem _ ht'')
            (C20_names_injective (hn.trans hn''.symm))
          rw [e]; exact ih.1 t'' ht'' hn''
        · have e : t' = t := by
            rcases List.mem_cons.1 ht' with h | h
            · exact h
            · exact absurd ⟨t', h, hn⟩ hex
          subst e
          rw [ih.2 (fun a ha hna => hex ⟨a, ha, hna⟩), ← hn]
          exact hown
      · rw [ih.2 fun a ha => hn a (List.mem_cons_of_mem _ ha)]
        exact hoth n fun e => hn t (by simp) e.symm

/-- C22, gust files. Assume the grid limit is configured, files left open by an interrupted process
cannot be read, track identifiers are distinct, and the directory initially holds no complete file with
other contents. After any number of interruptions, each at any point, one run to the end leaves for
every track exactly the file of an uninterrupted write, and leaves every other file alone.
Missing for the full property: the local wind field, and the assumptions; see the refutations below. -/
theorem C22_restart_partial {S : Stage T L D X} (hS : Faithful S) {ts : List T} {l : L}
    {d₀ d : Disk D X} (hid : ∀ t ∈ ts, ∀ t' ∈ ts, S.id t = S.id t' → t = t')
    (h0 : ∀ t ∈ ts, complete S (d₀.files (gustName (S.id t))) = true →
      d₀.files (gustName (S.id t)) = some (fullFile (S.result l t)))
    (hd : Crashed S ts (some l) d₀ d) (n : Name) :
    (∀ t ∈ ts, gustName (S.id t) = n →
      (runFinal S ts (some l) d).files n = some (fullFile (S.result l t))) ∧
    ((∀ t ∈ ts, gustName (S.id t) ≠ n) → (runFinal S ts (some l) d).files n = d₀.files n) := by
  have hd' : ∀ t ∈ ts, complete S (d.files (gustName (S.id t))) = true →
      d.files (gustName (S.id t)) = some (fullFile (S.result l t)) := by
    intro t ht hc
    rcases crashed_files hd (gustName (S.id t)) with h | ⟨t', ht', hn, f, hf, h | h⟩
    · rw [h] at hc ⊢; exact h0 t ht hc
    · rw [hf, h, hid t ht t' ht' (C20_names_injective hn).symm]
    · rw [hf] at hc
      simp [complete, hS.unclosed f h] at hc
  have key := runFinal_files hS hid hd' n
  refine ⟨key.1, fun hn => ?_⟩
  rw [key.2 hn]
  rcases crashed_files hd n with h | ⟨t', ht', hn', _⟩
  · exact h
  · exact absurd hn' (hn t' ht')

/-- C22: hence the same files as a run that is never interrupted. -/
theorem C22_same_as_uninterrupted_partial {S : Stage T L D X} (hS : Faithful S) {ts : List T} {l : L}
    {d₀ d : Disk D X} (hid : ∀ t ∈ ts, ∀ t' ∈ ts, S.id t = S.id t' → t = t')
    (h0 : ∀ t ∈ ts, complete S (d₀.files (gustName (S.id t))) = true →
      d₀.files (gustName (S.id t)) = some (fullFile (S.result l t)))
    (hd : Crashed S ts (some l) d₀ d) :
    (runFinal S ts (some l) d).files = (runFinal S ts (some l) d₀).files := by
  funext n
  have h1 := C22_restart_partial hS hid h0 hd n
  have h2 := C22_restart_partial hS hid h0 .start n
  by_cases h : ∃ t ∈ ts, gustName (S.id t) = n
  · obtain ⟨t, ht, hn⟩ := h
    rw [h1.1 t ht hn, h2.1 t ht hn]
  · have h' : ∀ t ∈ ts, gustName (S.id t) ≠ n := fun t ht hn => h ⟨t, ht, hn⟩
    rw [h1.2 h', h2.2 h']

/-- The states of a write that count as complete hold the data of all variables but the pressure. -/
theorem complete_saveState {S : Stage T L D X} {data : Var → D} {f : File D} (hf : f ∈ saveStates data)
    (hc : complete S (some f) = true) {v : Var} (hv : v ≠ .slp) (hv' : v ≠ .crs) :
    (v, some (data v)) ∈ f.vars := by
  simp only [saveStates, List.mem_cons, List.not_mem_nil, or_false] at hf
  rcases hf with h | h | h | h | h | h | h | h | h | h | h | h | h | h | h <;> subst h <;>
    first
      | (exfalso; revert hc; simp [complete]; done)
      | (cases v <;> simp at hv hv' ⊢)

/-- The file of a track in any disk reached, without the assumption on unclosed files. -/
theorem processTrack_own_saveState {S : Stage T L D X} {t : T} {lim : Option L} {d d' : Disk D X}
    (h : d' ∈ (processTrack S t lim d).1) :
    d'.files (gustName (S.id t)) = d.files (gustName (S.id t)) ∨
      ∃ f ∈ saveStates (S.result (lim.getD (S.limitOf t)) t), d'.files (gustName (S.id t)) = some f := by
  unfold processTrack at h
  by_cases hc : complete S (d.files (gustName (S.id t)))
  · simp only [hc, if_true, List.mem_singleton] at h
    rw [h]; exact Or.inl rfl
  · have hl : ∀ data : Var → D,
        ((saveStates data).map fun f => d.put (gustName (S.id t)) f).getLast? =
          some (d.put (gustName (S.id t)) (fullFile data)) := fun data => by
      rw [List.getLast?_map, saveStates_getLast]; rfl
    simp only [hc, Bool.false_eq_true, if_false, List.mem_append, List.mem_cons, List.mem_map, hl] at h
    rcases h with (rfl | ⟨f, hf, rfl⟩) | h
    · exact Or.inl rfl
    · exact Or.inr ⟨f, hf, by simp [Disk.put]⟩
    · by_cases hm : S.multipliers
      · simp only [hm, if_true, List.mem_singleton] at h
        subst h
        exact Or.inr ⟨fullFile _, List.mem_of_getLast? (saveStates_getLast _),
          by simp only [Disk.put, if_true, Option.getD_some]⟩
      · simp [hm] at h

/-- C22, even if files that were not closed can be opened: after any interruptions, a file that will be
kept by later runs holds the correct axes, gusts and wind components of its track. (Only the pressure can
be missing, see `C22_torn_file_fails`.) In particular the input of the hazard calculation is right. -/
theorem C22_kept_gusts_correct_partial {S : Stage T L D X} {ts : List T} {l : L} {d₀ d : Disk D X}
    (hid : ∀ t ∈ ts, ∀ t' ∈ ts, S.id t = S.id t' → t = t')
    (h0 : ∀ t ∈ ts, complete S (d₀.files (gustName (S.id t))) = false)
    (hd : Crashed S ts (some l) d₀ d) {t : T} (ht : t ∈ ts) {f : File D}
    (hf : d.files (gustName (S.id t)) = some f) (hc : complete S (some f) = true) {v : Var}
    (hv : v ∈ [Var.lat, .lon, .vmax, .ua, .va]) : (v, some (S.result l t v)) ∈ f.vars := by
  have key : d.files (gustName (S.id t)) = d₀.files (gustName (S.id t)) ∨
      ∃ g ∈ saveStates (S.result l t), d.files (gustName (S.id t)) = some g := by
    clear hf hc
    induction hd with
    | start => exact Or.inl rfl
    | crash _ hmem ih =>
      refine runStates_induction_some (P := fun d =>
        d.files (gustName (S.id t)) = d₀.files (gustName (S.id t)) ∨
          ∃ g ∈ saveStates (S.result l t), d.files (gustName (S.id t)) = some g) ih ?_ _ hmem
      intro t' ht' d1 d2 h1 h2
      by_cases hn : gustName (S.id t) = gustName (S.id t')
      · have e := hid t ht t' ht' (C20_names_injective hn)
        subst e
        rcases processTrack_own_saveState h2 with h | h
        · rw [h]; exact h1
        · exact Or.inr h
      · rw [processTrack_files h2 (Or.inl hn)]; exact h1
  rcases key with h | ⟨g, hg, h⟩
  · have := h0 t ht
    rw [← h, hf, hc] at this
    cases this
  · rw [hf] at h
    cases h
    refine complete_saveState hg hc ?_ ?_ <;> rintro rfl <;> simp at hv

end C22

/-- A stage for the examples: tracks are numbers, the grid is a number, values depend on both. -/
def demo (readable : File ℕ → Bool) (multipliers : Bool) : Stage ℕ ℕ ℕ ℕ where
  id t := (t, 0)
  result l t _ := 1000 * l + t
  limitOf t := t
  readable := readable
  multipliers := multipliers
  localField l t := 1000 * l + t

def emptyDisk : Disk ℕ ℕ := ⟨fun _ => none, none⟩

theorem faithful_demo (m : Bool) : Faithful (demo (fun f => f.closed) m) where
  unclosed _ h := h
  full _ := rfl

/-- The hypotheses of C22 are met, and the interruption in this example is in the middle of a write. -/
example : ∃ d, Crashed (demo (fun f => f.closed) true) [1, 2] (some 7) emptyDisk d ∧
    d.files (gustName (1, 0)) = some (fullFile fun _ => 7001) ∧
    d.files (gustName (2, 0)) = some ⟨[(.lat, some 7002), (.lon, none)], false⟩ := by
  refine ⟨(runStates (demo (fun f => f.closed) true) [1, 2] (some 7) emptyDisk)[21]'(by decide +kernel),
    .crash .start ?_, ?_, ?_⟩
  · exact List.getElem_mem _
  · decide +kernel
  · decide +kernel

/-- C22 fails if the library can open a file that was not closed: a crash between defining the last
variable and filling it leaves a file that counts as complete, and its contents are never repaired. -/
theorem C22_torn_file_fails : ∃ d, Crashed (demo (fun _ => true) false) [1] (some 7) emptyDisk d ∧
    (runFinal (demo (fun _ => true) false) [1] (some 7) d).files (gustName (1, 0)) ≠
      (runFinal (demo (fun _ => true) false) [1] (some 7) emptyDisk).files (gustName (1, 0)) := by
  refine ⟨(runStates (demo (fun _ => true) false) [1] (some 7) emptyDisk)[12]'(by decide +kernel), .crash .start ?_, ?_⟩
  · exact List.getElem_mem _
  · decide +kernel

/-- The hypotheses of `C22_kept_gusts_correct_partial` are met by a torn file. -/
example : ∃ d f, Crashed (demo (fun _ => true) false) [1] (some 7) emptyDisk d ∧
    d.files (gustName (1, 0)) = some f ∧ complete (demo (fun _ => true) false) (some f) = true ∧
    (.slp, none) ∈ f.vars := by
  refine ⟨(runStates (demo (fun _ => true) false) [1] (some 7) emptyDisk)[12]'(by decide +kernel),
    (saveStates fun _ => 7001)[11]'(by decide +kernel), .crash .start ?_, ?_, ?_, ?_⟩
  · exact List.getElem_mem _
  · decide +kernel
  · decide +kernel
  · decide +kernel

/-- C22 fails if wind multipliers are configured: a crash between saving the gust file and computing
the local wind field leaves a disk on which no later run computes it. -/
theorem C22_local_wind_fails : ∃ d, Crashed (demo (fun f => f.closed) true) [1] (some 7) emptyDisk d ∧
    (runFinal (demo (fun f => f.closed) true) [1] (some 7) d).localWind = none ∧
    (runFinal (demo (fun f => f.closed) true) [1] (some 7) emptyDisk).localWind = some 7001 := by
  refine ⟨(runStates (demo (fun f => f.closed) true) [1] (some 7) emptyDisk)[15]'(by decide +kernel), .crash .start ?_, ?_, ?_⟩
  · exact List.getElem_mem _
  · decide +kernel
  · decide +kernel

/-- C22 fails if no grid limit is configured: the limit is taken from the first track that is computed,
which after a restart is another one. -/
theorem C22_grid_limit_fails : ∃ d, Crashed (demo (fun f => f.closed) false) [1, 2] none emptyDisk d ∧
    (runFinal (demo (fun f => f.closed) false) [1, 2] none d).files (gustName (2, 0)) =
      some (fullFile fun _ => 2002) ∧
    (runFinal (demo (fun f => f.closed) false) [1, 2] none emptyDisk).files (gustName (2, 0)) =
      some (fullFile fun _ => 1002) := by
  refine ⟨(runStates (demo (fun f => f.closed) false) [1, 2] none emptyDisk)[15]'(by decide +kernel), .crash .start ?_, ?_, ?_⟩
  · exact List.getElem_mem _
  · decide +kernel
  · decide +kernel

/-! ### C56: local wind fields -/

/-- C56, what happens: after an uninterrupted run over new tracks with multipliers, the local wind
field on disk is that of the last track; those of the others are lost. -/
theorem C56_only_last_track_kept {T L D X : Type} {S : Stage T L D X} {l : L} (hm : S.multipliers = true) :
    ∀ (ts : List T) (t : T) (d : Disk D X),
    (ts ++ [t]).Pairwise (fun a b => S.id a ≠ S.id b) →
    (∀ a ∈ ts ++ [t], complete S (d.files (gustName (S.id a))) = false) →
    (runFinal S (ts ++ [t]) (some l) d).localWind = some (S.localField l t)
  | [], t, d, _, hc => by
      have h := hc t (by simp)
      simp only [List.nil_append, runFinal, processTrack_last, h, hm]
      simp
  | a :: ts, t, d, hid, hc => by
      simp only [List.cons_append, runFinal, processTrack_lim]
      simp only [List.cons_append, List.pairwise_cons] at hid
      refine C56_only_last_track_kept hm ts t _ hid.2 fun b hb => ?_
      rw [processTrack_files (processTrack_last_mem S a (some l) d)
        (Or.inl fun e => hid.1 b hb (C20_names_injective e).symm)]
      exact hc b (by simp only [List.cons_append]; exact List.mem_cons_of_mem _ hb)

/-- C56 fails: with two tracks, the local wind field of the first is not on disk at the end. -/
theorem C56_counterexample :
    (runFinal (demo (fun f => f.closed) true) [1, 2] (some 7) emptyDisk).localWind ≠
      some ((demo (fun f => f.closed) true).localField 7 1) := by
  rw [show [1, 2] = [1] ++ [2] from rfl, C56_only_last_track_kept rfl [1] 2 emptyDisk (by decide +kernel)
    (by intro a _; rfl)]
  decide

/-- C56 for a single track. -/
theorem C56_single_track_partial {T L D X : Type} {S : Stage T L D X} {l : L} (hm : S.multipliers = true)
    (t : T) (d : Disk D X) (hc : complete S (d.files (gustName (S.id t))) = false) :
    (runFinal S [t] (some l) d).localWind = some (S.localField l t) :=
  C56_only_last_track_kept hm [] t d (by simp) (by simpa using hc)

end Tcrm.GustFiles
