import Verif.Lemmas.Evaluate
/-!
C100, C101: density of tracks and of genesis.
-/
namespace Tcrm.Evaluate

instance (edges : List ℚ) (i : Nat) (v : ℚ) : Decidable (InCell edges i v) := decidable_of_iff _ inBin_iff

/-- C100: a value between the first and the last edge is in exactly one cell, any other in none. -/
theorem C100_one_cell {edges : List ℚ} (hinc : edges.Pairwise (· < ·)) (h2 : 2 ≤ edges.length) (v : ℚ) :
    (Within edges v → ∃! i, InCell edges i v) ∧ (¬ Within edges v → ∀ i, ¬ InCell edges i v) := by
  have hc := cells_count hinc h2 v
  have hlt : ∀ i, InCell edges i v → i < edges.length - 1 := by
    rintro i ⟨a, b, _, hb, _⟩
    have := (List.getElem?_eq_some_iff.mp hb).1
    omega
  constructor
  · intro hw
    rw [if_pos hw, List.countP_eq_length_filter, List.length_eq_one_iff] at hc
    obtain ⟨i, hi⟩ := hc
    have hmem : ∀ k, k ∈ (List.range (edges.length - 1)).filter (fun i => inBin edges i v) ↔ InCell edges k v := by
      intro k
      rw [List.mem_filter, List.mem_range, inBin_iff]
      exact ⟨fun h => h.2, fun h => ⟨hlt k h, h⟩⟩
    rw [hi] at hmem
    refine ⟨i, (hmem i).mp (by simp), ?_⟩
    intro k hk
    simpa using (hmem k).mpr hk
  · intro hw i hi
    rw [if_neg hw, List.countP_eq_zero] at hc
    exact hc i (List.mem_range.mpr (hlt i hi)) (inBin_iff.mpr hi)

example : Within [0, 1, 2] 2 ∧ InCell [0, 1, 2] 1 2 ∧ ¬ InCell [0, 1, 2] 0 1 ∧ ¬ Within [0, 1, 2] 3 := by decide +kernel

/-- An entry of a map -/
def entry {α : Type} (m : List (List α)) (i j : Nat) : Option α := m[i]?.bind (·[j]?)

theorem entry_histogram2d (ps : List (ℚ × ℚ)) {xe ye : List ℚ} {i j : Nat} (hi : i + 1 < xe.length) (hj : j + 1 < ye.length) :
    entry (histogram2d ps xe ye) i j = some (ps.countP fun p => inBin xe i p.1 && inBin ye j p.2) := by
  unfold entry histogram2d
  rw [List.getElem?_map, List.getElem?_range (by omega)]
  simp only [Option.map_some, Option.bind_some]
  rw [List.getElem?_map, List.getElem?_range (by omega)]
  rfl

/-- C100: the entry of a cell is the number of records of all tracks that are in it. -/
theorem C100_cell (lons lats : List ℚ) (tracks : List Track) {i j : Nat} (hi : i + 1 < lons.length) (hj : j + 1 < lats.length) :
    entry (trackDensity lons lats tracks) i j =
      some ((records tracks).countP fun o => decide (InCell lons i o.lon ∧ InCell lats j o.lat)) := by
  unfold trackDensity
  rw [entry_histogram2d _ hi hj]
  congr 1
  have : (tracks.flatMap fun t => t.map fun o => (o.lon, o.lat)) = (records tracks).map fun o => (o.lon, o.lat) := by
    unfold records
    rw [List.map_flatten, List.flatMap_def]
  rw [this, List.countP_map]
  apply List.countP_congr
  intro o _
  simp only [Function.comp, Bool.and_eq_true, inBin_iff, decide_eq_true_eq]

/-- C100: the counts add up to the number of records inside the grid: none is lost and none counted twice. -/
theorem C100_total {lons lats : List ℚ} (hx : lons.Pairwise (· < ·)) (hx2 : 2 ≤ lons.length) (hy : lats.Pairwise (· < ·))
    (hy2 : 2 ≤ lats.length) (tracks : List Track) :
    ((trackDensity lons lats tracks).map List.sum).sum =
      (records tracks).countP fun o => decide (Within lons o.lon ∧ Within lats o.lat) := by
  unfold trackDensity
  rw [histogram2d_sum hx hx2 hy hy2]
  have : (tracks.flatMap fun t => t.map fun o => (o.lon, o.lat)) = (records tracks).map fun o => (o.lon, o.lat) := by
    unfold records
    rw [List.map_flatten, List.flatMap_def]
  rw [this, List.countP_map]
  rfl

/-- C100: the map of two sets of tracks is the sum of their maps. -/
theorem C100_additive (lons lats : List ℚ) (ts us : List Track) :
    trackDensity lons lats (ts ++ us) =
      List.zipWith (List.zipWith (· + ·)) (trackDensity lons lats ts) (trackDensity lons lats us) := by
  unfold trackDensity histogram2d
  rw [List.zipWith_map, List.zipWith_self]
  simp only [List.flatMap_append, List.countP_append]
  apply List.map_congr_left
  intro i _
  rw [List.zipWith_map, List.zipWith_self]

/-- C100: neither the order of the tracks nor the grouping of records into tracks matters. -/
theorem C100_order (lons lats : List ℚ) {ts us : List Track} (h : (records ts).Perm (records us)) :
    trackDensity lons lats ts = trackDensity lons lats us := by
  have e : ∀ ts : List Track, (ts.flatMap fun t => t.map fun o => (o.lon, o.lat)) = (records ts).map fun o => (o.lon, o.lat) := by
    intro ts
    unfold records
    rw [List.map_flatten, List.flatMap_def]
  unfold trackDensity histogram2d
  rw [e, e]
  apply List.map_congr_left
  intro i _
  apply List.map_congr_left
  intro j _
  exact (h.map _).countP_eq _

theorem firstPoints_ok {tracks : List Track} {ps : List (ℚ × ℚ)} :
    firstPoints tracks = .ok ps ↔ (∀ t ∈ tracks, t ≠ []) ∧ ps = (tracks.filterMap List.head?).map fun o => (o.lon, o.lat) := by
  induction tracks generalizing ps with
  | nil => simp [firstPoints, eq_comm]
  | cons t ts ih =>
    cases t with
    | nil => simp [firstPoints]
    | cons o os =>
      simp only [firstPoints]
      split
      · rename_i e he
        constructor
        · intro h; cases h
        · rintro ⟨h1, _⟩
          have := ih.mpr ⟨fun t ht => h1 t (List.mem_cons_of_mem _ ht), rfl⟩
          rw [this] at he; cases he
      · rename_i qs hq
        obtain ⟨h1, h2⟩ := ih.mp hq
        simp only [Except.ok.injEq, List.mem_cons, forall_eq_or_imp, ne_eq, reduceCtorEq, not_false_eq_true, true_and]
        rw [h2]
        simp only [List.filterMap_cons, List.head?_cons, List.map_cons]
        exact ⟨fun h => ⟨h1, h.symm⟩, fun h => h.2.symm⟩

theorem firstPoints_error (tracks : List Track) : firstPoints tracks ≠ .error .valueError := by
  induction tracks with
  | nil => simp [firstPoints]
  | cons t ts ih =>
    cases t with
    | nil => simp [firstPoints]
    | cons o os =>
      simp only [firstPoints]
      split
      · rename_i e he
        rintro h
        cases h
        exact ih he
      · simp

theorem countP_heads (tracks : List Track) (P : Obs → Prop) [DecidablePred P] :
    (tracks.filterMap List.head?).countP (fun o => decide (P o)) =
      tracks.countP fun t => decide (∃ o, t.head? = some o ∧ P o) := by
  induction tracks with
  | nil => rfl
  | cons t ts ih =>
    cases t with
    | nil => simp [List.filterMap_cons, ih]
    | cons o os =>
      simp only [List.filterMap_cons, List.head?_cons, List.countP_cons, ih, Option.some.injEq, exists_eq_left']

/-- C100: the map of genesis counts every track once, in the cell of its first record; it fails for a track without
records. -/
theorem C100_genesis (lons lats : List ℚ) (tracks : List Track) :
    ((∃ t ∈ tracks, t = []) → genesisDensity lons lats tracks = .error .indexError) ∧
    ((∀ t ∈ tracks, t ≠ []) → ∃ m, genesisDensity lons lats tracks = .ok m ∧
      (∀ i j, i + 1 < lons.length → j + 1 < lats.length → entry m i j =
        some (tracks.countP fun t => decide (∃ o, t.head? = some o ∧ InCell lons i o.lon ∧ InCell lats j o.lat))) ∧
      (lons.Pairwise (· < ·) → 2 ≤ lons.length → lats.Pairwise (· < ·) → 2 ≤ lats.length → (m.map List.sum).sum =
        tracks.countP fun t => decide (∃ o, t.head? = some o ∧ Within lons o.lon ∧ Within lats o.lat))) := by
  constructor
  · rintro ⟨t, ht, rfl⟩
    unfold genesisDensity
    have : firstPoints tracks = .error .indexError := by
      cases h : firstPoints tracks with
      | ok ps => exact absurd rfl ((firstPoints_ok.mp h).1 [] ht)
      | error e => cases e with
        | indexError => rfl
        | valueError => exact absurd h (firstPoints_error tracks)
    rw [this]
  · intro h
    have hf := firstPoints_ok.mpr ⟨h, rfl⟩
    refine ⟨histogram2d _ lons lats, by unfold genesisDensity; rw [hf], ?_, ?_⟩
    · intro i j hi hj
      rw [entry_histogram2d _ hi hj, List.countP_map, ← countP_heads]
      congr 1
      apply List.countP_congr
      intro o _
      simp only [Function.comp, Bool.and_eq_true, inBin_iff, decide_eq_true_eq]
    · intro hx hx2 hy hy2
      rw [histogram2d_sum hx hx2 hy hy2, List.countP_map, ← countP_heads]
      rfl

/-- C100: in no cell are there more genesis points than records of tracks. -/
theorem C100_genesis_le {lons lats : List ℚ} {tracks : List Track} {m : List (List Nat)}
    (h : genesisDensity lons lats tracks = .ok m) {i j a b : Nat} (ha : entry m i j = some a)
    (hb : entry (trackDensity lons lats tracks) i j = some b) : a ≤ b := by
  unfold genesisDensity at h
  split at h
  · cases h
  · rename_i ps hps
    cases h
    have hps' := (firstPoints_ok.mp hps).2
    subst hps'
    have hi : i + 1 < lons.length := by
      by_contra hc
      unfold entry histogram2d at ha
      rw [List.getElem?_map, List.getElem?_eq_none (by simp; omega)] at ha
      simp at ha
    have hj : j + 1 < lats.length := by
      by_contra hc
      unfold entry histogram2d at ha
      rw [List.getElem?_map, List.getElem?_range (by omega)] at ha
      simp only [Option.map_some, Option.bind_some] at ha
      rw [List.getElem?_map, List.getElem?_eq_none (by simp; omega)] at ha
      simp at ha
    rw [entry_histogram2d _ hi hj] at ha
    unfold trackDensity at hb
    rw [entry_histogram2d _ hi hj] at hb
    cases ha
    cases hb
    apply List.Sublist.countP_le
    clear hps
    induction tracks with
    | nil => simp
    | cons t ts ih =>
      cases t with
      | nil => simpa [List.filterMap_cons] using ih
      | cons o os =>
        simp only [List.filterMap_cons, List.head?_cons, List.map_cons, List.flatMap_cons, List.cons_append]
        exact (ih.trans (List.sublist_append_right _ _)).cons₂ _

/-- A track of two records and one of a single record -/
def sample : List Track := [[⟨1, 1, 990, 2000⟩, ⟨3, 1, 980, 2000⟩], [⟨4, 2, 950, 2002⟩]]

example : trackDensity [0, 2, 4] [0, 2] sample = [[1], [2]] ∧ genesisDensity [0, 2, 4] [0, 2] sample = .ok [[1], [1]] ∧
    genesisDensity [0, 2, 4] [0, 2] ([] :: sample) = .error .indexError := by decide +kernel

/-- C100: the edges of the grid. With a remainder `r` of the extent that is at most a tenth of a degree smaller than the
spacing, the last edge is `r` short of the limit. -/
theorem C100_edges {lo hi d r : ℚ} {n : Nat} (hd : 0 < d) (hr : 0 ≤ r) (hrd : r + 1 / 10 ≤ d) (hn : hi = lo + n * d + r) :
    gridRange lo hi d = (List.range (n + 1)).map fun (i : Nat) => lo + i * d := by
  have h1 : ⌈(hi + 0.1 - lo) / d⌉ = n + 1 := by
    rw [Int.ceil_eq_iff]
    have e : hi + 0.1 - lo = n * d + (r + 1 / 10) := by rw [hn]; ring
    rw [e]
    constructor
    · rw [lt_div_iff₀ hd]; push_cast; nlinarith
    · rw [div_le_iff₀ hd]; push_cast; nlinarith
  unfold gridRange arange
  rw [h1]
  rfl

/-- C100 does not hold at the border of the domain: if the spacing does not divide the extent, positions inside the domain
lie beyond the last edge, and are in no cell. -/
theorem C100_domain_fails {lo hi d r : ℚ} {n : Nat} (hd : 0 < d) (hr : 0 < r) (hrd : r + 1 / 10 ≤ d) (hn : hi = lo + n * d + r) :
    ¬ Within (gridRange lo hi d) hi ∧ ∀ v, v ≤ hi → hi - r < v → ∀ i, ¬ InCell (gridRange lo hi d) i v := by
  have he := C100_edges hd hr.le hrd hn
  have hlast : ∀ (i : Nat) (b : ℚ), (gridRange lo hi d)[i]? = some b → b ≤ hi - r := by
    intro i b hb
    rw [he, List.getElem?_map, Option.map_eq_some_iff] at hb
    obtain ⟨k, hk, rfl⟩ := hb
    have hk' := List.mem_range.mp (List.mem_of_getElem? hk)
    have : (k : ℚ) ≤ n := by exact_mod_cast Nat.lt_succ_iff.mp hk'
    rw [hn]
    nlinarith
  constructor
  · rintro ⟨a, b, _, hb, _, hv⟩
    rw [List.getLast?_eq_getElem?] at hb
    have := hlast _ _ hb
    linarith
  · rintro v _ hv i ⟨a, b, _, hb, _, h⟩
    have := hlast _ _ hb
    rcases h with h | ⟨_, h⟩ <;> linarith

example : gridRange 0 10 3 = [0, 3, 6, 9] ∧ trackDensity (gridRange 0 10 3) [0, 2] [[⟨9.5, 1, 990, 2000⟩]] = [[0], [0], [0]] ∧
    gridRange 0 3 1 = [0, 1, 2, 3] := by decide +kernel

/-! ### Annual rates -/

theorem foldl_years_min (os : List Obs) (a : ℤ) : os.foldl (fun a x => min a x.year) a ≤ a ∧
    (∀ o ∈ os, os.foldl (fun a x => min a x.year) a ≤ o.year) ∧
    (os.foldl (fun a x => min a x.year) a = a ∨ ∃ o ∈ os, o.year = os.foldl (fun a x => min a x.year) a) := by
  induction os generalizing a with
  | nil => simp
  | cons o os ih =>
    simp only [List.foldl_cons]
    obtain ⟨h1, h2, h3⟩ := ih (min a o.year)
    refine ⟨h1.trans (min_le_left _ _), ?_, ?_⟩
    · intro x hx
      rcases List.mem_cons.mp hx with rfl | hx
      · exact h1.trans (min_le_right _ _)
      · exact h2 x hx
    · rcases h3 with h | ⟨x, hx, h⟩
      · rcases min_choice a o.year with h' | h'
        · left; rw [h, h']
        · right; exact ⟨o, by simp, by rw [h, h']⟩
      · right; exact ⟨x, List.mem_cons_of_mem _ hx, h⟩

theorem foldl_years_max (os : List Obs) (a : ℤ) : a ≤ os.foldl (fun a x => max a x.year) a ∧
    (∀ o ∈ os, o.year ≤ os.foldl (fun a x => max a x.year) a) ∧
    (os.foldl (fun a x => max a x.year) a = a ∨ ∃ o ∈ os, o.year = os.foldl (fun a x => max a x.year) a) := by
  induction os generalizing a with
  | nil => simp
  | cons o os ih =>
    simp only [List.foldl_cons]
    obtain ⟨h1, h2, h3⟩ := ih (max a o.year)
    refine ⟨(le_max_left _ _).trans h1, ?_, ?_⟩
    · intro x hx
      rcases List.mem_cons.mp hx with rfl | hx
      · exact (le_max_right _ _).trans h1
      · exact h2 x hx
    · rcases h3 with h | ⟨x, hx, h⟩
      · rcases max_choice a o.year with h' | h'
        · left; rw [h, h']
        · right; exact ⟨o, by simp, by rw [h, h']⟩
      · right; exact ⟨x, List.mem_cons_of_mem _ hx, h⟩

theorem yearRange_spec {tracks : List Track} (hne : ∀ t ∈ tracks, t ≠ []) (r : ℤ × ℤ) : ∃ q, yearRange tracks r = .ok q ∧
    q.1 ≤ r.1 ∧ r.2 ≤ q.2 ∧ (∀ o ∈ records tracks, q.1 ≤ o.year ∧ o.year ≤ q.2) ∧
    (q.1 = r.1 ∨ ∃ o ∈ records tracks, o.year = q.1) ∧ (q.2 = r.2 ∨ ∃ o ∈ records tracks, o.year = q.2) := by
  induction tracks generalizing r with
  | nil => exact ⟨r, rfl, le_rfl, le_rfl, by simp [records], .inl rfl, .inl rfl⟩
  | cons t ts ih =>
    cases t with
    | nil => exact absurd rfl (hne [] (by simp))
    | cons o os =>
      obtain ⟨a1, a2, a3⟩ := foldl_years_min os o.year
      obtain ⟨b1, b2, b3⟩ := foldl_years_max os o.year
      obtain ⟨q, hq, h1, h2, h3, h4, h5⟩ := ih (fun t ht => hne t (List.mem_cons_of_mem _ ht))
        (min r.1 (os.foldl (fun a x => min a x.year) o.year), max r.2 (os.foldl (fun a x => max a x.year) o.year))
      have hrec : ∀ x, x ∈ records ((o :: os) :: ts) ↔ x = o ∨ x ∈ os ∨ x ∈ records ts := by
        intro x; unfold records; simp [or_assoc]
      dsimp only at h1 h2 h4 h5
      refine ⟨q, by simp only [yearRange]; exact hq, h1.trans (min_le_left _ _), (le_max_left _ _).trans h2, ?_, ?_, ?_⟩
      · intro x hx
        have h1' := h1.trans (min_le_right _ _)
        have h2' := (le_max_right _ _).trans h2
        rcases (hrec x).mp hx with rfl | hx | hx
        · exact ⟨h1'.trans a1, b1.trans h2'⟩
        · exact ⟨h1'.trans (a2 x hx), (b2 x hx).trans h2'⟩
        · exact h3 x hx
      · rcases h4 with h | ⟨x, hx, h⟩
        · rcases min_choice r.1 (os.foldl (fun a x => min a x.year) o.year) with h' | h'
          · left; rw [h, h']
          · right
            rcases a3 with h'' | ⟨x, hx, h''⟩
            · exact ⟨o, (hrec o).mpr (.inl rfl), by rw [h, h', h'']⟩
            · exact ⟨x, (hrec x).mpr (.inr (.inl hx)), by rw [h, h', h'']⟩
        · right; exact ⟨x, (hrec x).mpr (.inr (.inr hx)), h⟩
      · rcases h5 with h | ⟨x, hx, h⟩
        · rcases max_choice r.2 (os.foldl (fun a x => max a x.year) o.year) with h' | h'
          · left; rw [h, h']
          · right
            rcases b3 with h'' | ⟨x, hx, h''⟩
            · exact ⟨o, (hrec o).mpr (.inl rfl), by rw [h, h', h'']⟩
            · exact ⟨x, (hrec x).mpr (.inr (.inl hx)), by rw [h, h', h'']⟩
        · right; exact ⟨x, (hrec x).mpr (.inr (.inr hx)), h⟩

theorem entry_map {α β : Type} (f : α → β) (m : List (List α)) (i j : Nat) :
    entry (m.map (·.map f)) i j = (entry m i j).map f := by
  unfold entry
  rw [List.getElem?_map]
  cases m[i]? with
  | none => rfl
  | some r => simp

theorem years_spec {tracks : List Track} (hne : ∀ t ∈ tracks, t ≠ []) (hy : ∀ o ∈ records tracks, 0 ≤ o.year ∧ o.year ≤ 9999)
    {a b : ℤ} (ha : FirstYear tracks a) (hb : LastYear tracks b) : yearRange tracks (9999, 0) = .ok (a, b) := by
  obtain ⟨q, hq, h1, h2, h3, h4, h5⟩ := yearRange_spec hne (9999, 0)
  rw [hq]
  congr 1
  obtain ⟨⟨x, hx, rfl⟩, ha⟩ := ha
  obtain ⟨⟨y, hy', rfl⟩, hb⟩ := hb
  dsimp only at h1 h2 h4 h5
  have e1 : q.1 = x.year := by
    apply le_antisymm (h3 x hx).1
    rcases h4 with h | ⟨z, hz, h⟩
    · rw [h]; exact (hy x hx).2
    · rw [← h]; exact ha z hz
  have e2 : q.2 = y.year := by
    apply le_antisymm _ (h3 y hy').2
    rcases h5 with h | ⟨z, hz, h⟩
    · rw [h]; exact (hy y hy').1
    · rw [← h]; exact hb z hz
  exact Prod.ext e1 e2

/-- C101: the historic rate of a cell is its count divided by the difference of the last and the first year, not by the
number of years from the first to the last. -/
theorem C101_historic_partial {lons lats : List ℚ} {tracks : List Track} (hne : ∀ t ∈ tracks, t ≠ [])
    (hy : ∀ o ∈ records tracks, 0 ≤ o.year ∧ o.year ≤ 9999) {a b : ℤ} (ha : FirstYear tracks a) (hb : LastYear tracks b)
    (hab : a < b) : ∃ m, historicRate lons lats tracks = .ok m ∧ ∀ i j, i + 1 < lons.length → j + 1 < lats.length →
      entry m i j = some (some (((records tracks).countP fun o => decide (InCell lons i o.lon ∧ InCell lats j o.lat) : ℕ) / ((b - a : ℤ) : ℚ))) := by
  unfold historicRate
  rw [years_spec hne hy ha hb]
  refine ⟨_, rfl, ?_⟩
  intro i j hi hj
  have h0 : ((b - a : ℤ) : ℚ) ≠ 0 := by
    have : b - a ≠ 0 := by omega
    exact_mod_cast this
  rw [entry_map, C100_cell _ _ _ hi hj]
  simp only [Option.map_some, if_neg h0]

/-- C101 does not hold: the rate of every cell with a record is too large, by the factor of one year more; and of tracks
of one year there is no rate at all. -/
theorem C101_historic_fails {lons lats : List ℚ} {tracks : List Track} (hne : ∀ t ∈ tracks, t ≠ [])
    (hy : ∀ o ∈ records tracks, 0 ≤ o.year ∧ o.year ≤ 9999) {a b : ℤ} (ha : FirstYear tracks a) (hb : LastYear tracks b) :
    ∃ m, historicRate lons lats tracks = .ok m ∧ ∀ i j, i + 1 < lons.length → j + 1 < lats.length →
      ∀ n : Nat, n = ((records tracks).countP fun o => decide (InCell lons i o.lon ∧ InCell lats j o.lat)) →
      (a = b → entry m i j = some none) ∧
      (a < b → 0 < n → ∃ q, entry m i j = some (some q) ∧ (n : ℚ) / ((b - a + 1 : ℤ) : ℚ) < q) := by
  unfold historicRate
  rw [years_spec hne hy ha hb]
  refine ⟨_, rfl, ?_⟩
  intro i j hi hj n hn
  rw [entry_map, C100_cell _ _ _ hi hj]
  constructor
  · rintro rfl
    simp
  · intro hab h0
    have hpos : (0 : ℚ) < ((b - a : ℤ) : ℚ) := by
      have : 0 < b - a := by omega
      exact_mod_cast this
    refine ⟨_, by simp only [Option.map_some, if_neg hpos.ne']; rfl, ?_⟩
    rw [← hn]
    apply div_lt_div_of_pos_left (by exact_mod_cast h0) hpos
    push_cast
    linarith

/-- C101: the rate of a simulation of `years` years, multiplied by the years, is the count. -/
theorem C101_synthetic {lons lats : List ℚ} {tracks : List Track} {years : ℚ} (h0 : years ≠ 0) {i j : Nat}
    (hi : i + 1 < lons.length) (hj : j + 1 < lats.length) : ∃ q, entry (syntheticRate lons lats years tracks) i j = some (some q) ∧
      q * years = ((records tracks).countP fun o => decide (InCell lons i o.lon ∧ InCell lats j o.lat) : ℕ) := by
  unfold syntheticRate
  rw [entry_map, C100_cell _ _ _ hi hj]
  refine ⟨_, by simp only [Option.map_some, if_neg h0]; rfl, ?_⟩
  field_simp

/-- C101: a track without records makes the historic rates fail. -/
theorem C101_empty {lons lats : List ℚ} {tracks : List Track} (h : [] ∈ tracks) :
    historicRate lons lats tracks = .error .valueError := by
  have : ∀ r, yearRange tracks r = .error .valueError := by
    induction tracks with
    | nil => cases h
    | cons t ts ih =>
      intro r
      cases t with
      | nil => rfl
      | cons o os =>
        simp only [yearRange]
        exact ih (by simpa using h) _
  unfold historicRate
  rw [this]

example : historicRate [0, 2, 4] [0, 2] sample = .ok [[some (1 / 2)], [some 1]] ∧
    historicRate [0, 2, 4] [0, 2] [[⟨1, 1, 990, 2000⟩]] = .ok [[none], [none]] ∧
    syntheticRate [0, 2, 4] [0, 2] 3 sample = [[some (1 / 3)], [some (2 / 3)]] := by decide +kernel

example : FirstYear sample 2000 ∧ LastYear sample 2002 ∧ (∀ t ∈ sample, t ≠ []) := by
  unfold FirstYear LastYear records sample
  simp

end Tcrm.Evaluate
