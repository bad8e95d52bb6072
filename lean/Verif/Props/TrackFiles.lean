import Verif.Model.TrackFiles
import Mathlib.Tactic.FieldSimp
import Mathlib.Tactic.Ring
import Mathlib.Tactic.Linarith
/-!
C32 (saved tracks load back), C65 (csv track files), C66 (loading a directory), C67 (saving leaves the
tracks alone).
-/
namespace Tcrm.TrackFiles

variable {I D : Type}

/-- A track as the simulation makes it: all entries of `Datetime` are times, in whole seconds. -/
def Proper (t : Track I D) : Prop := ∀ r ∈ t.rows, ∃ s : ℤ, r.stamp = .time s

/-- The library lists the groups in the order of creation or in the order of names. -/
def ListsByNameOrCreation (order : List (Group I D) → List (Group I D)) : Prop :=
  ∀ gs, (order gs).Perm gs ∧ (order gs = gs ∨ (order gs).Pairwise fun a b => a.name < b.name)

/-! ### Names of groups -/

/-- The decimal digits of a number below 10000. -/
def digits4 (n : ℕ) : List Char :=
  [Nat.digitChar (n / 1000), Nat.digitChar (n / 100 % 10), Nat.digitChar (n / 10 % 10), Nat.digitChar (n % 10)]

theorem pad4_eq_aux : ∀ a < 10, ∀ b < 10, ∀ c < 10, ∀ d < 10,
    pad4 (1000 * a + 100 * b + 10 * c + d) = digits4 (1000 * a + 100 * b + 10 * c + d) := by decide +kernel

theorem pad4_eq (n : ℕ) (h : n < 10000) : pad4 n = digits4 n := by
  have := pad4_eq_aux (n / 1000) (by omega) (n / 100 % 10) (by omega) (n / 10 % 10) (by omega) (n % 10) (by omega)
  rwa [show 1000 * (n / 1000) + 100 * (n / 100 % 10) + 10 * (n / 10 % 10) + n % 10 = n by omega] at this

theorem digitChar_lt : ∀ a < 10, ∀ b < 10, a < b → Nat.digitChar a < Nat.digitChar b := by decide +kernel

/-- Names of groups 0, 1, ..., 9999 are in alphabetical order. -/
theorem groupName_lt {n m : ℕ} (h : n < m) (hm : m < 10000) : groupName n < groupName m := by
  unfold groupName
  have : pad4 n < pad4 m := by
    rw [pad4_eq n (by omega), pad4_eq m hm]
    unfold digits4
    simp only [List.cons_lt_cons_iff]
    by_cases h1 : n / 1000 = m / 1000
    · right; refine ⟨by rw [h1], ?_⟩
      by_cases h2 : n / 100 % 10 = m / 100 % 10
      · right; refine ⟨by rw [h2], ?_⟩
        by_cases h3 : n / 10 % 10 = m / 10 % 10
        · right; refine ⟨by rw [h3], ?_⟩
          left; exact digitChar_lt _ (by omega) _ (by omega) (by omega)
        · left; exact digitChar_lt _ (by omega) _ (by omega) (by omega)
      · left; exact digitChar_lt _ (by omega) _ (by omega) (by omega)
    · left; exact digitChar_lt _ (by omega) _ (by omega) (by omega)
  exact List.append_left_lt this

/-! ### Saving -/

theorem mapM_times {u : Units} : ∀ {rows : List (Row D)} {ts : List ℤ},
    List.Forall₂ (fun r (s : ℤ) => r.stamp = .time s) rows ts →
    (rows.mapM fun r => date2num u r.stamp) = .ok (ts.map fun s : ℤ => ((s : ℚ) - u.origin) / u.scale)
  | _, _, .nil => by simp [pure, Except.pure]
  | r :: rs, _, .cons (b := s) h hs => by
    have ih := mapM_times (u := u) hs
    have e : date2num u r.stamp = .ok (((s : ℚ) - u.origin) / u.scale) := by rw [h]; rfl
    simp only [List.mapM_cons, bind, Except.bind, e, ih, pure, Except.pure, List.map_cons]

theorem times_of_proper {t : Track I D} (h : Proper t) :
    ∃ ts : List ℤ, List.Forall₂ (fun r (s : ℤ) => r.stamp = .time s) t.rows ts := by
  obtain ⟨id, rows⟩ := t
  unfold Proper at h
  simp only at h ⊢
  induction rows with
  | nil => exact ⟨[], .nil⟩
  | cons r rs ih =>
    obtain ⟨s, hs⟩ := h r (by simp)
    obtain ⟨ts, hts⟩ := ih fun x hx => h x (List.mem_cons_of_mem _ hx)
    exact ⟨s :: ts, .cons hs hts⟩

/-- What reading a saved group gives, in any units. -/
theorem read_saved (fallback : ℕ → ℕ → I) {u : Units} {n k i : ℕ} {t : Track I D} (h : Proper t)
    (hne : t.rows ≠ []) : ∃ g t', saveOne u n t = .ok (some g, t') ∧ g.name = groupName n ∧
      t'.id = t.id ∧ t'.rows.map (·.rest) = t.rows.map (·.rest) ∧
      (∀ r ∈ t'.rows, ∃ x, r.stamp = .num x) ∧
      (readGroup fallback k i g).id = t.id ∧
      List.Forall₂ (fun (r r' : Row D) => r'.rest = r.rest ∧ ∃ s : ℤ, r.stamp = .time s ∧
        r'.stamp = .time (⌊((s : ℚ) - u.origin) / u.scale * 3600⌋ : ℤ)) t.rows (readGroup fallback k i g).rows := by
  obtain ⟨ts, hts⟩ := times_of_proper h
  have hm := mapM_times (u := u) hts
  unfold saveOne
  rw [if_neg hne, hm]
  refine ⟨_, _, rfl, rfl, rfl, ?_, ?_, rfl, ?_⟩
  · simp only
    have hl : ts.length = t.rows.length := hts.length_eq.symm
    clear hm hne h
    obtain ⟨id, rows⟩ := t
    simp only at hts hl ⊢
    induction hts with
    | nil => rfl
    | cons h1 h2 ih => simp only [List.map_cons, List.zip_cons_cons]; rw [ih (by simpa using hl)]
  · simp only [List.mem_map]
    rintro r ⟨p, _, rfl⟩
    exact ⟨_, rfl⟩
  · unfold readGroup
    simp only
    clear hm hne h
    obtain ⟨id, rows⟩ := t
    simp only at hts ⊢
    induction hts with
    | nil => exact .nil
    | cons h1 h2 ih =>
      simp only [List.map_cons, List.zip_cons_cons]
      refine .cons ⟨rfl, _, h1, ?_⟩ ih
      simp only [num2date, hours1900, zero_add]

/-- In the default units the track itself comes back. -/
theorem read_saved_default (fallback : ℕ → ℕ → I) {n k i : ℕ} {t : Track I D} (h : Proper t)
    (hne : t.rows ≠ []) : ∃ g t', saveOne hours1900 n t = .ok (some g, t') ∧ g.name = groupName n ∧
      readGroup fallback k i g = t := by
  obtain ⟨g, t', h1, h2, -, -, -, h6, h7⟩ := read_saved (u := hours1900) (n := n) (k := k) (i := i) fallback h hne
  refine ⟨g, t', h1, h2, ?_⟩
  obtain ⟨id, rows⟩ := t
  have : (readGroup fallback k i g).rows = rows := by
    clear hne h1 h h6
    simp only at h7
    generalize (readGroup fallback k i g).rows = rows' at h7
    induction h7 with
    | nil => rfl
    | @cons r r' l l' hr _ ih =>
      obtain ⟨e1, s, e2, e3⟩ := hr
      have e4 : r' = r := by
        obtain ⟨st, re⟩ := r
        obtain ⟨st', re'⟩ := r'
        simp only at e1 e2 e3
        subst e1
        subst e2
        subst e3
        have : ⌊((s : ℚ) - hours1900.origin) / hours1900.scale * 3600⌋ = s := by
          rw [show ((s : ℚ) - hours1900.origin) / hours1900.scale * 3600 = (s : ℚ) by
            simp only [hours1900]; ring, Int.floor_intCast]
        rw [this]
      rw [e4, ih]
  simp only at h6
  rw [← this, ← h6]

/-- The groups written: names in order, and each reads back as its track. -/
theorem saveAll_spec (fallback : ℕ → ℕ → I) : ∀ (n : ℕ) (ts : List (Track I D)), (∀ t ∈ ts, Proper t) →
    ∃ gs ts', saveAll hours1900 n ts = .ok (gs, ts') ∧
      (∀ k, List.Forall₂ (fun t g => ∀ i, readGroup fallback k i g = t)
        (ts.filter fun t => !t.rows.isEmpty) gs) ∧
      (∃ js : List ℕ, gs.map (·.name) = js.map groupName ∧ js.Pairwise (· < ·) ∧
        ∀ j ∈ js, n ≤ j ∧ j < n + ts.length)
  | n, [], _ => ⟨[], [], rfl, fun _ => .nil, [], rfl, List.Pairwise.nil, by simp⟩
  | n, t :: ts, h => by
    obtain ⟨gs, ts', e1, e2, js, e3, e4, e5⟩ := saveAll_spec fallback (n + 1) ts fun x hx => h x (List.mem_cons_of_mem _ hx)
    unfold saveAll
    by_cases hne : t.rows = []
    · have e0 : saveOne hours1900 n t = .ok (none, t) := by unfold saveOne; rw [if_pos hne]
      rw [e0, e1]
      refine ⟨_, _, rfl, ?_, js, ?_, e4, ?_⟩
      · intro k
        simp only [List.filter_cons, hne, List.isEmpty_nil, Bool.not_true, Option.toList_none, List.nil_append]
        exact e2 k
      · simpa using e3
      · intro j hj
        have := e5 j hj
        simp only [List.length_cons]; omega
    · obtain ⟨g, t', e0, en, _⟩ := read_saved_default (n := n) (k := 0) (i := 0) fallback (h t (by simp)) hne
      rw [e0, e1]
      refine ⟨_, _, rfl, ?_, n :: js, ?_, ?_, ?_⟩
      · intro k
        have hf : (!t.rows.isEmpty) = true := by simp [hne]
        simp only [List.filter_cons, hf, if_true, Option.toList_some, List.singleton_append]
        refine .cons ?_ (e2 k)
        intro i
        obtain ⟨g', t'', e0', _, e7⟩ := read_saved_default (n := n) (k := k) (i := i) fallback (h t (by simp)) hne
        rw [e0] at e0'
        cases e0'
        exact e7
      · simp [en, e3]
      · refine List.Pairwise.cons ?_ e4
        intro j hj
        have := e5 j hj
        omega
      · intro j hj
        simp only [List.length_cons]
        rcases List.mem_cons.1 hj with rfl | hj
        · omega
        · have := e5 j hj
          omega

theorem mapIdx_read (fallback : ℕ → ℕ → I) (k : ℕ) : ∀ {ts : List (Track I D)} {gs : List (Group I D)},
    List.Forall₂ (fun t g => ∀ i, readGroup fallback k i g = t) ts gs → ∀ j,
    (gs.mapIdx fun i g => readGroup fallback k (i + j) g) = ts
  | _, _, .nil, _ => rfl
  | _, _, .cons h hs, j => by
    simp only [List.mapIdx_cons]
    rw [h]
    congr 1
    have := mapIdx_read fallback k hs (j + 1)
    rw [← this]
    congr 1
    funext i g
    rw [Nat.add_right_comm, Nat.add_assoc]

/-- C32: any number of tracks, saved in the default units and read with the groups in the order of their
creation. What is read is the list of the tracks that are not empty. -/
theorem C32_round_trip (fallback : ℕ → ℕ → I) (disk : Disk I D) (path : List Char) {ts : List (Track I D)}
    (hp : ∀ t ∈ ts, Proper t) (hne : ts ≠ []) : ∃ disk' ts', save hours1900 disk path ts = .ok (disk', ts') ∧
      loadTracks fallback id disk' path = .ok (ts.filter fun t => !t.rows.isEmpty) ∧
      ∀ p ≠ path, disk' p = disk p := by
  obtain ⟨gs, ts', e1, e2, _⟩ := saveAll_spec fallback 0 ts hp
  unfold save
  rw [if_neg hne, e1]
  refine ⟨_, _, rfl, ?_, ?_⟩
  · unfold loadTracks
    simp only [if_true, read, id_eq]
    rw [← mapIdx_read fallback gs.length (e2 gs.length) 0]
    simp
  · intro p h
    simp [h]

/-- C32: up to 10000 tracks, it makes no difference if the groups are listed in the order of names. -/
theorem C32_round_trip_any_order (fallback : ℕ → ℕ → I) {order : List (Group I D) → List (Group I D)}
    (ho : ListsByNameOrCreation order) (disk : Disk I D) (path : List Char) {ts : List (Track I D)}
    (hp : ∀ t ∈ ts, Proper t) (hne : ts ≠ []) (hlen : ts.length ≤ 10000) :
    ∃ disk' ts', save hours1900 disk path ts = .ok (disk', ts') ∧
      loadTracks fallback order disk' path = .ok (ts.filter fun t => !t.rows.isEmpty) := by
  obtain ⟨gs, ts', e1, e2, js, e3, e4, e5⟩ := saveAll_spec fallback 0 ts hp
  unfold save
  rw [if_neg hne, e1]
  refine ⟨_, _, rfl, ?_⟩
  unfold loadTracks
  simp only [if_true, read]
  have hsorted : gs.Pairwise fun a b => a.name < b.name := by
    have : (gs.map (·.name)).Pairwise (· < ·) := by
      rw [e3, List.pairwise_map]
      refine e4.imp_of_mem ?_
      intro a b _ hb hab
      exact groupName_lt hab (by have := e5 b hb; omega)
    exact List.pairwise_map.1 this
  have horder : order gs = gs := by
    obtain ⟨hperm, h | h⟩ := ho gs
    · exact h
    · refine List.Perm.eq_of_pairwise ?_ h hsorted hperm
      intro a b _ _ hab hba
      exact absurd (List.lt_trans hab hba) (List.lt_irrefl _)
  rw [horder]
  have := mapIdx_read fallback gs.length (e2 gs.length) 0
  simp only [Nat.add_zero] at this
  rw [this]

/-- With more than 10000 tracks the order of names is not the order of the tracks. -/
theorem C32_names_out_of_order : groupName 10000 < groupName 9999 := by decide +kernel

/-- Names are distinct, so that no group replaces another. -/
theorem C32_names_distinct {n m : ℕ} (hn : n < 10000) (hm : m < 10000) (h : groupName n = groupName m) :
    n = m := by
  rcases lt_trichotomy n m with hl | hl | hl
  · have := groupName_lt hl hm; rw [h] at this; exact absurd this (List.lt_irrefl _)
  · exact hl
  · have := groupName_lt hl hn; rw [h] at this; exact absurd this (List.lt_irrefl _)

/-- C32: an empty list writes no file. Note: a file of that name that exists already keeps its old
tracks. -/
theorem C32_empty (u : Units) (disk : Disk I D) (path : List Char) :
    save u disk path [] = .ok (disk, []) := by
  unfold save
  rw [if_pos rfl]

/-- C32 fails for other units: the time is converted with the units given, but the file says hours since
1900. An observation at 48 hours, saved in days, is read as 2 hours. -/
theorem C32_units_fail : ∃ (u : Units) (t : Track ℕ ℕ), Proper t ∧ t.rows ≠ [] ∧
    ∀ disk path, ∃ disk' ts', save u disk path [t] = .ok (disk', ts') ∧
      loadTracks (fun a _ => a) id disk' path = .ok [⟨t.id, [⟨.time 7200, 5⟩]⟩] ∧
      t.rows = [⟨.time 172800, 5⟩] := by
  refine ⟨⟨86400, 0⟩, ⟨3, [⟨.time 172800, 5⟩]⟩, ?_, by simp, ?_⟩
  · intro r hr
    simp only [List.mem_singleton] at hr
    subst hr
    exact ⟨172800, by norm_num⟩
  · intro disk path
    refine ⟨_, _, rfl, ?_, rfl⟩
    have : num2date hours1900 2 = 7200 := by
      unfold num2date hours1900
      rw [show (0 : ℚ) + 2 * 3600 = ((7200 : ℤ) : ℚ) by norm_num, Int.floor_intCast]
      norm_num
    simp only [loadTracks, if_true, read, readGroup, id_eq]
    norm_num
    exact this

/-- C32, fractions of a second are dropped: what is read for a time `t` saved in the default units. -/
theorem C32_fraction_dropped (t : ℚ) : ∃ x, date2num hours1900 (.time t) = .ok x ∧
    num2date hours1900 x = ⌊t⌋ := by
  refine ⟨_, rfl, ?_⟩
  unfold num2date hours1900
  simp only
  rw [show (0 : ℚ) + (t - 0) / 3600 * 3600 = t by ring]

/-- Two tracks, an empty one between them, saved and loaded. -/
example : ∃ disk' ts', save hours1900 (fun _ => none) "f".toList
      ([⟨1, [⟨.time 3600, 7⟩, ⟨.time 7200, 8⟩]⟩, ⟨2, []⟩, ⟨3, [⟨.time 0, 9⟩]⟩] : List (Track ℕ ℕ)) = .ok (disk', ts') ∧
    loadTracks (fun a _ => a) id disk' "f".toList =
      .ok [⟨1, [⟨.time 3600, 7⟩, ⟨.time 7200, 8⟩]⟩, ⟨3, [⟨.time 0, 9⟩]⟩] := by
  obtain ⟨d, t, h1, h2, _⟩ := C32_round_trip (fun a _ => a) (fun _ => none) "f".toList
    (ts := ([⟨1, [⟨.time 3600, 7⟩, ⟨.time 7200, 8⟩]⟩, ⟨2, []⟩, ⟨3, [⟨.time 0, 9⟩]⟩] : List (Track ℕ ℕ)))
    (by
      intro t ht r hr
      simp only [List.mem_cons, List.not_mem_nil, or_false] at ht
      rcases ht with rfl | rfl | rfl
      · simp only [List.mem_cons, List.not_mem_nil, or_false] at hr
        rcases hr with rfl | rfl
        · exact ⟨3600, by norm_num⟩
        · exact ⟨7200, by norm_num⟩
      · simp at hr
      · simp only [List.mem_singleton] at hr
        subst hr
        exact ⟨0, by norm_num⟩) (by simp)
  exact ⟨d, t, h1, h2⟩

/-! ### C67 -/

theorem saveAll_after (u : Units) : ∀ (n : ℕ) (ts : List (Track I D)), (∀ t ∈ ts, Proper t) →
    ∃ gs ts', saveAll u n ts = .ok (gs, ts') ∧
      List.Forall₂ (fun t t' : Track I D => t'.id = t.id ∧ t'.rows.map (·.rest) = t.rows.map (·.rest) ∧
        ∀ r ∈ t'.rows, ∃ x, r.stamp = .num x) ts ts'
  | n, [], _ => ⟨[], [], rfl, .nil⟩
  | n, t :: ts, h => by
    obtain ⟨gs, ts', e1, e2⟩ := saveAll_after u (n + 1) ts fun x hx => h x (List.mem_cons_of_mem _ hx)
    unfold saveAll
    by_cases hne : t.rows = []
    · have e0 : saveOne u n t = .ok (none, t) := by unfold saveOne; rw [if_pos hne]
      rw [e0, e1]
      exact ⟨_, _, rfl, .cons ⟨rfl, rfl, by simp [hne]⟩ e2⟩
    · by_cases hI : Nonempty I
      · obtain ⟨i0⟩ := hI
        obtain ⟨g, t', e0, _, f1, f2, f3, _⟩ := read_saved (u := u) (n := n) (k := 0) (i := 0) (fun _ _ => i0) (h t (by simp)) hne
        rw [e0, e1]
        exact ⟨_, _, rfl, .cons ⟨f1, f2, f3⟩ e2⟩
      · exact absurd ⟨t.id⟩ hI

/-- C67 in part: saving leaves the identifiers and all columns but the time as they were. -/
theorem C67_other_columns_partial (u : Units) (disk : Disk I D) (path : List Char) {ts : List (Track I D)}
    (hp : ∀ t ∈ ts, Proper t) : ∃ disk' ts', save u disk path ts = .ok (disk', ts') ∧
      List.Forall₂ (fun t t' : Track I D => t'.id = t.id ∧ t'.rows.map (·.rest) = t.rows.map (·.rest)) ts ts' := by
  unfold save
  by_cases hne : ts = []
  · rw [if_pos hne]
    subst hne
    exact ⟨_, _, rfl, .nil⟩
  · obtain ⟨gs, ts', e1, e2⟩ := saveAll_after u 0 ts hp
    rw [if_neg hne, e1]
    exact ⟨_, _, rfl, e2.imp fun _ _ h => ⟨h.1, h.2.1⟩⟩

/-- C67 fails: after saving, the tracks in memory have numbers in place of times, and saving them again
is an error. -/
theorem C67_second_save_fails (u v : Units) (disk disk2 : Disk I D) (path path2 : List Char)
    {ts : List (Track I D)} (hp : ∀ t ∈ ts, Proper t) (hne : ∃ t ∈ ts, t.rows ≠ []) :
    ∃ disk' ts', save u disk path ts = .ok (disk', ts') ∧ save v disk2 path2 ts' = .error .typeError := by
  have hne' : ts ≠ [] := by rintro rfl; simp at hne
  obtain ⟨gs, ts', e1, e2⟩ := saveAll_after u 0 ts hp
  unfold save
  rw [if_neg hne', e1]
  refine ⟨_, _, rfl, ?_⟩
  have hne2 : ts' ≠ [] := by
    intro h
    rw [h] at e2
    cases e2
    exact hne' rfl
  rw [if_neg hne2]
  have key : ∀ (n : ℕ) (ts ts' : List (Track I D)),
      List.Forall₂ (fun t t' : Track I D => t'.id = t.id ∧ t'.rows.map (·.rest) = t.rows.map (·.rest) ∧
        ∀ r ∈ t'.rows, ∃ x, r.stamp = .num x) ts ts' → (∃ t ∈ ts, t.rows ≠ []) →
      saveAll v n ts' = .error .typeError := by
    intro n ts ts' h
    induction h generalizing n with
    | nil => intro h; simp at h
    | @cons t t' l l' h hs ih =>
      intro hex
      unfold saveAll
      by_cases ht : t.rows = []
      · have ht' : t'.rows = [] := by
          have := h.2.1
          rw [ht] at this
          simpa using this
        have e0 : saveOne v n t' = .ok (none, t') := by unfold saveOne; rw [if_pos ht']
        rw [e0]
        have : ∃ t ∈ l, t.rows ≠ [] := by
          obtain ⟨x, hx, hxr⟩ := hex
          rcases List.mem_cons.1 hx with rfl | hx
          · exact absurd ht hxr
          · exact ⟨x, hx, hxr⟩
        simp only [ih (n + 1) this]
      · have ht' : t'.rows ≠ [] := by
          intro hc
          have := h.2.1
          rw [hc] at this
          exact ht (by simpa using this.symm)
        have e0 : saveOne v n t' = .error .typeError := by
          unfold saveOne
          rw [if_neg ht']
          have : (t'.rows.mapM fun r => date2num v r.stamp) = .error .typeError := by
            cases hr : t'.rows with
            | nil => exact absurd hr ht'
            | cons r rs =>
              obtain ⟨x, hx⟩ := h.2.2 r (by rw [hr]; simp)
              simp only [List.mapM_cons, bind, Except.bind, hx, date2num]
          rw [this]
        rw [e0]
  rw [key 0 ts ts' e2 hne]

/-! ### C66 -/

/-- C66: if every file can be read, the tracks of all files of the directory with the prefix `tracks` are
yielded, file by file in alphabetical order, each exactly once. -/
theorem C66_load_path {load : List Char → Except Err (List (Track I D))} {content : List Char → List (Track I D)}
    {path : List Char} {ns : List (List Char)}
    (h : ∀ f ∈ ns, "tracks".toList.isPrefixOf f = true → load (path ++ f) = .ok (content (path ++ f))) :
    ∃ files : List (List Char), loadTracksFromPath load path (some ns) = .ok (files.flatMap content, none) ∧
      files.Perm ((ns.filter fun f => "tracks".toList.isPrefixOf f).map (path ++ ·)) ∧
      files.Pairwise (· ≤ ·) := by
  refine ⟨_, ?_, List.mergeSort_perm _ fun a b => decide (a ≤ b), ?_⟩
  · unfold loadTracksFromPath
    simp only
    congr 1
    generalize hf : ((ns.filter fun f => "tracks".toList.isPrefixOf f).map (path ++ ·)).mergeSort
      (fun a b => decide (a ≤ b)) = files
    have hall : ∀ f ∈ files, load f = .ok (content f) := by
      intro f hfm
      rw [← hf, List.mem_mergeSort, List.mem_map] at hfm
      obtain ⟨g, hg, rfl⟩ := hfm
      rw [List.mem_filter] at hg
      exact h g hg.1 hg.2
    clear hf
    induction files with
    | nil => rfl
    | cons f fs ih =>
      have ih' := ih fun x hx => hall x (List.mem_cons_of_mem _ hx)
      simp only [loadTracksFromFiles, hall f (by simp), ih', List.flatMap_cons]
  · have := List.pairwise_mergeSort (le := fun a b : List Char => decide (a ≤ b))
      (by intro a b c h1 h2; simp only [decide_eq_true_eq] at *; exact List.le_trans h1 h2)
      (by intro a b; simp only [Bool.or_eq_true, decide_eq_true_eq]; exact List.le_total a b)
      ((ns.filter fun f => "tracks".toList.isPrefixOf f).map (path ++ ·))
    simpa using this

/-- C66: a directory that does not exist is an error. -/
theorem C66_no_directory (load : List Char → Except Err (List (Track I D))) (path : List Char) :
    loadTracksFromPath load path none = .error .ioError := rfl

/-- C66: a file that cannot be read stops the iteration with its error, after the tracks of the files
before it. -/
theorem C66_stops_at_error {load : List Char → Except Err (List (Track I D))}
    {content : List Char → List (Track I D)} {before after : List (List Char)} {f : List Char} {e : Err}
    (h : ∀ g ∈ before, load g = .ok (content g)) (hf : load f = .error e) :
    loadTracksFromFiles load (before ++ f :: after) = (before.flatMap content, some e) := by
  induction before with
  | nil => simp [loadTracksFromFiles, hf]
  | cons g gs ih =>
    have ih' := ih fun x hx => h x (List.mem_cons_of_mem _ hx)
    simp only [List.cons_append, loadTracksFromFiles, h g (by simp), ih', List.flatMap_cons]

example : loadTracksFromPath (I := ℕ) (D := ℕ) (fun f => if f = "p/tracks.1".toList then .ok [⟨1, []⟩] else .ok [⟨2, []⟩])
    "p/".toList (some ["tracks.2".toList, "other".toList, "tracks.1".toList]) = .ok ([⟨1, []⟩, ⟨2, []⟩], none) := by
  obtain ⟨files, h1, h2, h3⟩ := C66_load_path (I := ℕ) (D := ℕ)
    (load := fun f => if f = "p/tracks.1".toList then .ok [⟨1, []⟩] else .ok [⟨2, []⟩])
    (content := fun f => if f = "p/tracks.1".toList then [⟨1, []⟩] else [⟨2, []⟩])
    (path := "p/".toList) (ns := ["tracks.2".toList, "other".toList, "tracks.1".toList])
    (by intro f _ _; split <;> rfl)
  have hp : (["p/tracks.1".toList, "p/tracks.2".toList] : List (List Char)).Perm
      ((["tracks.2".toList, "other".toList, "tracks.1".toList].filter fun f =>
        "tracks".toList.isPrefixOf f).map ("p/".toList ++ ·)) := by decide +kernel
  have : files = ["p/tracks.1".toList, "p/tracks.2".toList] :=
    List.Perm.eq_of_pairwise (le := fun a b : List Char => a ≤ b) (fun a b _ _ h1 h2 => List.le_antisymm h1 h2) h3 (by decide +kernel)
      (h2.trans hp.symm)
  rw [h1, this]
  rfl

/-! ### C65 -/

theorem foldl_max_ge : ∀ (l : List ℤ) (a : ℤ), a ≤ l.foldl max a ∧ ∀ x ∈ l, x ≤ l.foldl max a
  | [], a => ⟨le_refl a, by simp⟩
  | b :: l, a => by
    obtain ⟨h1, h2⟩ := foldl_max_ge l (max a b)
    simp only [List.foldl_cons]
    refine ⟨le_trans (le_max_left a b) h1, ?_⟩
    intro x hx
    rcases List.mem_cons.1 hx with rfl | hx
    · exact le_trans (le_max_right a x) h1
    · exact h2 x hx

theorem foldl_max_mem : ∀ (l : List ℤ) (a : ℤ), l.foldl max a ∈ a :: l
  | [], a => by simp
  | b :: l, a => by
    simp only [List.foldl_cons]
    have := foldl_max_mem l (max a b)
    rcases List.mem_cons.1 this with h | h
    · rw [h]
      rcases max_choice a b with h' | h' <;> rw [h'] <;> simp
    · exact List.mem_cons_of_mem _ (List.mem_cons_of_mem _ h)

/-- All lines can be converted. -/
theorem readTrackData_good (rows : List (CsvRow D)) : readTrackData (rows.map some) = rows := by
  unfold readTrackData
  rw [if_neg]
  · induction rows with
    | nil => rfl
    | cons r rs ih =>
      simp only [List.map_cons, List.filterMap_cons]
      rw [ih]
      rfl
  · simp

/-- C65 for a file with at least two records, all of which can be read: track `i` has the records with
number `i`, in the order of the file, for `i` from 1 up to the largest number. -/
theorem C65_tracks {rows : List (CsvRow D)} (h2 : 2 ≤ rows.length) : ∃ ts : List (List (CsvRow D)),
    readMultipleTrackData (rows.map some) = .ok ts ∧
    (∀ i : ℕ, i < ts.length → ts[i]? = some (rows.filter fun x => x.number = ((i + 1 : ℕ) : ℤ))) ∧
    (∀ r ∈ rows, r.number ≤ ts.length) ∧ (ts ≠ [] → ∃ r ∈ rows, r.number = ts.length) := by
  match rows, h2 with
  | r :: r2 :: rs, _ =>
    unfold readMultipleTrackData
    rw [readTrackData_good]
    simp only
    refine ⟨_, rfl, ?_, ?_, ?_⟩
    · intro i hi
      simp only [List.length_map, List.length_range] at hi
      simp only [List.getElem?_map, List.getElem?_range hi, Option.map_some]
    · intro x hx
      simp only [List.length_map, List.length_range]
      have hge := foldl_max_ge ((r2 :: rs).map (·.number)) r.number
      have : x.number ≤ ((r2 :: rs).map (·.number)).foldl max r.number := by
        rcases List.mem_cons.1 hx with rfl | hx
        · exact hge.1
        · exact hge.2 _ (List.mem_map_of_mem hx)
      omega
    · intro hne
      simp only [List.length_map, List.length_range]
      have hm := foldl_max_mem ((r2 :: rs).map (·.number)) r.number
      generalize ((r2 :: rs).map (·.number)).foldl max r.number = top at hm hne
      have hpos : 0 < top := by
        by_contra hc
        have : top.toNat = 0 := by omega
        rw [this] at hne
        simp at hne
      rcases List.mem_cons.1 hm with h | h
      · exact ⟨r, by simp, by omega⟩
      · obtain ⟨x, hx, hxn⟩ := List.mem_map.1 h
        exact ⟨x, List.mem_cons_of_mem _ hx, by omega⟩

/-- C65: no record is lost if all numbers are positive. -/
theorem C65_no_record_lost_partial {rows : List (CsvRow D)} (h2 : 2 ≤ rows.length)
    (hpos : ∀ r ∈ rows, 1 ≤ r.number) {ts : List (List (CsvRow D))}
    (h : readMultipleTrackData (rows.map some) = .ok ts) {r : CsvRow D} (hr : r ∈ rows) :
    ∃ t ∈ ts, r ∈ t := by
  obtain ⟨ts', e, h1, h3, _⟩ := C65_tracks h2
  rw [e] at h
  cases h
  have hp := hpos r hr
  have hle := h3 r hr
  have hi : (r.number - 1).toNat < ts.length := by omega
  refine ⟨_, List.mem_of_getElem? (h1 _ hi), ?_⟩
  rw [List.mem_filter]
  refine ⟨hr, ?_⟩
  rw [decide_eq_true_eq]
  omega

/-- C65 fails for cyclone number 0: its records are dropped. -/
theorem C65_number_zero_lost : readMultipleTrackData
    [some (⟨0, 1⟩ : CsvRow ℕ), some ⟨0, 2⟩, some ⟨1, 3⟩] = .ok [[⟨1, 3⟩]] := by decide +kernel

/-- C65 fails for a file with a single record. -/
theorem C65_single_record_fails (r : CsvRow D) : readMultipleTrackData [some r] = .error .typeError := by
  unfold readMultipleTrackData
  rw [show [some r] = [r].map some from rfl, readTrackData_good]

/-- C65 fails if one line cannot be read: the file is taken as empty, without an error. -/
theorem C65_bad_line_empties (before after : List (Option (CsvRow D))) :
    readMultipleTrackData (before ++ none :: after) = .ok [[]] := by
  unfold readMultipleTrackData readTrackData
  rw [if_pos (by simp)]

example : readMultipleTrackData [some (⟨1, 10⟩ : CsvRow ℕ), some ⟨1, 11⟩, some ⟨3, 12⟩] =
    .ok [[⟨1, 10⟩, ⟨1, 11⟩], [], [⟨3, 12⟩]] := by decide +kernel

/-- C32: a group written by other software without an identifier gets its place in the file, from one, and the number
of tracks; a group with one keeps it. -/
theorem C32_identifier (fallback : ℕ → ℕ → I) (order : List (Group I D) → List (Group I D)) (gs : List (Group I D))
    {i : ℕ} {g : Group I D} (h : (order gs)[i]? = some g) :
    ((read fallback order (.tracks gs))[i]?.map (·.id)) =
      some (match g.id with | some k => k | none => fallback (i + 1) gs.length) := by
  unfold read
  simp only [List.getElem?_mapIdx, h, Option.map_some]
  unfold readGroup
  cases g.id <;> rfl

end Tcrm.TrackFiles
