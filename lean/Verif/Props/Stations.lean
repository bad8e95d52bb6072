import Verif.Spec.Stations
import Verif.Props.Grid
import Verif.Lemmas.Windfield
import Mathlib.Tactic.NormNum
import Mathlib.Tactic.IntervalCases
/-!
C86 (time series at stations), C87 (series and gust field), C88 (complete series of a run),
C89 (multipliers applied to a series).
-/
namespace Tcrm.Stations
open Tcrm.Grid (findIndex foldl_max_spec foldl_min_spec C33_within_range)

/-! ### C86 -/

theorem within_iff (x : ℚ) (xs : List ℚ) (v : ℚ) :
    Within (x :: xs) v ↔ v ≥ xs.foldl min x ∧ v ≤ xs.foldl max x := by
  obtain ⟨a1, a2⟩ := foldl_min_spec xs x
  obtain ⟨b1, b2⟩ := foldl_max_spec xs x
  constructor
  · rintro ⟨⟨lo, h1, h2⟩, hi, h3, h4⟩
    exact ⟨le_trans (a2 lo h1) h2, le_trans h4 (b2 hi h3)⟩
  · rintro ⟨h1, h2⟩
    exact ⟨⟨_, a1, h1⟩, _, b1, h2⟩

theorem insideGrid_ok {s : Station} {gx gy : List ℚ} {b : Bool} (h : insideGrid s gx gy = .ok b) :
    b = true ↔ Within gx s.lon ∧ Within gy s.lat := by
  unfold insideGrid at h
  split at h
  · injection h with h
    rw [← h]
    simp only [Bool.and_eq_true, decide_eq_true_eq, within_iff]
    tauto
  · cases h

theorem index_within {a : List ℚ} {v : ℚ} (h : Within a v) : ∃ i, index a v = .ok i ∧ FirstNearest a v i := by
  obtain ⟨⟨lo, h1, h2⟩, hi, h3, h4⟩ := h
  obtain ⟨i, hi', ⟨x, hx, hn⟩, hf⟩ := C33_within_range h1 h3 h2 h4
  refine ⟨i, by unfold index; rw [hi'], x, hx, hn, ?_⟩
  intro j y hj hy
  exact hf j y x hj hy hx

theorem at2_ok {K : Type} {a : List (List K)} {j i : ℕ} {x : K} : at2 a j i = .ok x ↔ Entry a j i x := by
  unfold at2 Entry
  split
  · rename_i h; simp [h]
  · rename_i row h
    simp only [h, Option.some.injEq, exists_eq_left']
    split
    · rename_i h'; simp [h']
    · rename_i h'; simp [h']

section
variable {K : Type} [LinearOrder K] [Zero K]
set_option linter.unusedSectionVars false

theorem extract1_ok {dir : K → K → K} {s : Station} {l : Layer K} {r : Rec K}
    (h : extract1 dir s l = .ok r) : RecordOf dir s l r := by
  unfold extract1 at h
  split at h
  · cases h
  · rename_i hin
    have hw := (insideGrid_ok hin).1 rfl
    obtain ⟨i, hi, ni⟩ := index_within hw.1
    obtain ⟨j, hj, nj⟩ := index_within hw.2
    unfold sample at h
    rw [hi, hj] at h
    simp only at h
    split at h
    · rename_i e1 e2 e3 e4
      injection h with h
      subst h
      exact ⟨rfl, rfl, rfl, rfl, fun _ _ => ⟨i, j, ni, nj, at2_ok.1 e1, at2_ok.1 e2, at2_ok.1 e3,
        at2_ok.1 e4, rfl⟩, fun h => absurd hw h⟩
    · cases h
  · rename_i hin
    have hw := (insideGrid_ok hin).not.1 (by simp)
    split at h
    · cases h
    · rename_i p hp
      injection h with h
      subst h
      exact ⟨rfl, rfl, rfl, rfl, fun h1 h2 => absurd ⟨h1, h2⟩ hw, fun _ => ⟨rfl, rfl, rfl, rfl, at2_ok.1 hp⟩⟩

theorem extract_ok {dir : K → K → K} {l : Layer K} : ∀ {st st' : List (Station × List (Rec K))},
    extract dir l st = .ok st' → st'.length = st.length ∧ ∀ (k : ℕ) (s : Station) (d : List (Rec K)),
      st[k]? = some (s, d) → ∃ r, st'[k]? = some (s, d ++ [r]) ∧ extract1 dir s l = .ok r
  | [], st', h => by
    unfold extract at h
    injection h with h
    subst h
    simp
  | (s, d) :: rest, st', h => by
    unfold extract at h
    split at h
    · cases h
    rename_i r hr
    split at h
    · cases h
    rename_i rest' hrest
    injection h with h
    subst h
    obtain ⟨i1, i2⟩ := extract_ok hrest
    refine ⟨by simp [i1], ?_⟩
    intro k s' d' hk
    match k with
    | 0 =>
      simp only [List.getElem?_cons_zero, Option.some.injEq, Prod.mk.injEq] at hk
      obtain ⟨rfl, rfl⟩ := hk
      exact ⟨r, by simp, hr⟩
    | k + 1 =>
      simp only [List.getElem?_cons_succ] at hk ⊢
      exact i2 k s' d' hk

theorem extractAll_ok {dir : K → K → K} : ∀ {ls : List (Layer K)} {st st' : List (Station × List (Rec K))},
    extractAll dir ls st = .ok st' → st'.length = st.length ∧ ∀ (k : ℕ) (s : Station) (d : List (Rec K)),
      st[k]? = some (s, d) → ∃ rs, st'[k]? = some (s, d ++ rs) ∧ rs.length = ls.length ∧
        ∀ (n : ℕ) (l : Layer K), ls[n]? = some l → ∃ r, rs[n]? = some r ∧ extract1 dir s l = .ok r
  | [], st, st', h => by
    unfold extractAll at h
    injection h with h
    subst h
    refine ⟨rfl, fun k s d hk => ⟨[], by simpa using hk, rfl, by simp⟩⟩
  | l :: ls, st, st', h => by
    unfold extractAll at h
    split at h
    · cases h
    rename_i st1 h1
    obtain ⟨a1, a2⟩ := extract_ok h1
    obtain ⟨b1, b2⟩ := extractAll_ok h
    refine ⟨by rw [b1, a1], ?_⟩
    intro k s d hk
    obtain ⟨r, c1, c2⟩ := a2 k s d hk
    obtain ⟨rs, d1, d2, d3⟩ := b2 k s _ c1
    refine ⟨r :: rs, by rw [d1]; simp, by simp [d2], ?_⟩
    intro n l' hn
    match n with
    | 0 =>
      simp only [List.getElem?_cons_zero, Option.some.injEq] at hn
      subst hn
      exact ⟨r, by simp, c2⟩
    | n + 1 =>
      simp only [List.getElem?_cons_succ] at hn ⊢
      exact d3 n l' hn

/-- C86: after any number of time steps every station has one record for each of them, in order, with the
values at the nearest grid point of that step (no wind if the station is outside its grid). -/
theorem C86_records {dir : K → K → K} {stations : List Station} {ls : List (Layer K)}
    {st : List (Station × List (Rec K))} (h : extractAll dir ls (stations.map fun s => (s, [])) = .ok st) :
    st.map Prod.fst = stations ∧ ∀ s d, (s, d) ∈ st → d.length = ls.length ∧
      ∀ (n : ℕ) (l : Layer K), ls[n]? = some l → ∃ r, d[n]? = some r ∧ RecordOf dir s l r := by
  obtain ⟨h1, h2⟩ := extractAll_ok h
  simp only [List.length_map] at h1
  have key : ∀ (k : ℕ) (s : Station), stations[k]? = some s → ∃ rs, st[k]? = some (s, rs) ∧
      rs.length = ls.length ∧ ∀ (n : ℕ) (l : Layer K), ls[n]? = some l → ∃ r, rs[n]? = some r ∧
        extract1 dir s l = .ok r := by
    intro k s hk
    have := h2 k s [] (by simp [hk])
    simpa using this
  constructor
  · apply List.ext_getElem?
    intro k
    rcases lt_or_ge k stations.length with hk | hk
    · obtain ⟨rs, e, -⟩ := key k stations[k] (by simp [hk])
      rw [List.getElem?_map, e]
      simp [hk]
    · rw [List.getElem?_eq_none (by simpa [h1] using hk), List.getElem?_eq_none hk]
  · intro s d hm
    obtain ⟨k, hk, e⟩ := List.getElem_of_mem hm
    have hk' : k < stations.length := by omega
    obtain ⟨rs, e1, e2, e3⟩ := key k stations[k] (by simp [hk'])
    rw [List.getElem?_eq_getElem hk, e] at e1
    simp only [Option.some.injEq, Prod.mk.injEq] at e1
    obtain ⟨es, rfl⟩ := e1
    refine ⟨e2, ?_⟩
    intro n l hn
    obtain ⟨r, f1, f2⟩ := e3 n l hn
    exact ⟨r, f1, by rw [es]; exact extract1_ok f2⟩

/-- A table with one row per latitude and one column per longitude has an entry at every pair of indices. -/
theorem at2_exists {a : List (List K)} {ny nx j i : ℕ} (h : a.length = ny ∧ ∀ row ∈ a, row.length = nx)
    (hj : j < ny) (hi : i < nx) : ∃ x, at2 a j i = .ok x := by
  have h1 : j < a.length := by omega
  have h2 : i < (a[j]).length := by rw [h.2 _ (List.getElem_mem h1)]; exact hi
  exact ⟨(a[j])[i], at2_ok.2 ⟨a[j], List.getElem?_eq_getElem h1, List.getElem?_eq_getElem h2⟩⟩

/-- C86: the extraction succeeds for every sequence of fields on grids that are not empty. -/
theorem C86_total (dir : K → K → K) (stations : List Station) (ls : List (Layer K))
    (hls : ∀ l ∈ ls, l.gridx ≠ [] ∧ l.gridy ≠ [] ∧ ∀ t ∈ [l.spd, l.uu, l.vv, l.prs],
      t.length = l.gridy.length ∧ ∀ row ∈ t, row.length = l.gridx.length) :
    ∃ st, extractAll dir ls (stations.map fun s => (s, [])) = .ok st := by
  have one : ∀ l ∈ ls, ∀ s : Station, ∃ r, extract1 dir s l = .ok r := by
    intro l hl s
    obtain ⟨hx, hy, ht⟩ := hls l hl
    have hx' : 0 < l.gridx.length := List.length_pos_iff.2 hx
    have hy' : 0 < l.gridy.length := List.length_pos_iff.2 hy
    have hin : ∃ b, insideGrid s l.gridx l.gridy = .ok b := by
      match hgx : l.gridx, hgy : l.gridy, hx, hy with
      | x :: xs, y :: ys, _, _ => exact ⟨_, rfl⟩
    obtain ⟨b, hb⟩ := hin
    unfold extract1
    rw [hb]
    rcases b with _ | _
    · obtain ⟨p, hp⟩ := at2_exists (ht l.prs (by simp)) hy' hx'
      simp only [hp]
      exact ⟨_, rfl⟩
    · obtain ⟨wx, wy⟩ := (insideGrid_ok hb).1 rfl
      obtain ⟨i, hi, x, hix, -⟩ := index_within wx
      obtain ⟨j, hj, y, hjy, -⟩ := index_within wy
      have li := (List.getElem?_eq_some_iff.1 hix).1
      have lj := (List.getElem?_eq_some_iff.1 hjy).1
      obtain ⟨v1, e1⟩ := at2_exists (ht l.spd (by simp)) lj li
      obtain ⟨v2, e2⟩ := at2_exists (ht l.uu (by simp)) lj li
      obtain ⟨v3, e3⟩ := at2_exists (ht l.vv (by simp)) lj li
      obtain ⟨v4, e4⟩ := at2_exists (ht l.prs (by simp)) lj li
      simp only [sample, hi, hj, e1, e2, e3, e4]
      exact ⟨_, rfl⟩
  have step : ∀ l ∈ ls, ∀ st : List (Station × List (Rec K)), ∃ st', extract dir l st = .ok st' := by
    intro l hl st
    induction st with
    | nil => exact ⟨[], rfl⟩
    | cons p rest ih =>
      obtain ⟨r, hr⟩ := one l hl p.1
      obtain ⟨rest', hrest⟩ := ih
      exact ⟨(p.1, p.2 ++ [r]) :: rest', by unfold extract; simp only [hr, hrest]⟩
  suffices H : ∀ ks : List (Layer K), (∀ l ∈ ks, l ∈ ls) → ∀ st, ∃ st', extractAll dir ks st = .ok st' from
    H ls (fun _ h => h) _
  intro ks
  induction ks with
  | nil => intro _ st; exact ⟨st, rfl⟩
  | cons l ks ih =>
    intro h st
    obtain ⟨st1, h1⟩ := step l (h l List.mem_cons_self) st
    obtain ⟨st2, h2⟩ := ih (fun l hl => h l (List.mem_cons_of_mem _ hl)) st1
    exact ⟨st2, by unfold extractAll; rw [h1]; exact h2⟩

theorem maxRec_spec : ∀ (l : List (Rec K)) (r : Rec K), FirstMax (r :: l) (maxRec r l)
  | [], r => ⟨[], [], rfl, by simp, by simp⟩
  | x :: l, r => by
    unfold maxRec
    obtain ⟨pre, post, e, h1, h2⟩ := maxRec_spec l (if x.speed > r.speed then x else r)
    by_cases hc : x.speed > r.speed
    · rw [if_pos hc] at e h1 h2 ⊢
      refine ⟨r :: pre, post, by rw [List.cons_append, ← e], ?_, h2⟩
      intro y hy
      rcases List.mem_cons.1 hy with rfl | hy
      · refine lt_of_lt_of_le hc ?_
        rcases pre with _ | ⟨p, pre⟩
        · simp only [List.nil_append, List.cons.injEq] at e
          rw [← e.1]
        · simp only [List.cons_append, List.cons.injEq] at e
          have := (h1 p (by simp)).le
          rwa [← e.1] at this
      · exact h1 y hy
    · rw [if_neg hc] at e h1 h2 ⊢
      rcases pre with _ | ⟨p, pre⟩
      · simp only [List.nil_append, List.cons.injEq] at e
        refine ⟨[], x :: post, by rw [List.nil_append, ← e.1, ← e.2], by simp, ?_⟩
        intro y hy
        rcases List.mem_cons.1 hy with rfl | hy
        · rw [← e.1]; exact not_lt.1 hc
        · exact h2 y hy
      · simp only [List.cons_append, List.cons.injEq] at e
        refine ⟨r :: x :: pre, post, by simp [← e.2], ?_, h2⟩
        intro y hy
        have hr : r.speed < (maxRec r l).speed := by have := h1 p (by simp); rwa [← e.1] at this
        rcases List.mem_cons.1 hy with rfl | hy
        · exact hr
        rcases List.mem_cons.1 hy with rfl | hy
        · exact lt_of_le_of_lt (not_lt.1 hc) hr
        · exact h1 y (by simp [hy])

theorem minRec_spec : ∀ (l : List (Rec K)) (r : Rec K), FirstMin (r :: l) (minRec r l)
  | [], r => ⟨[], [], rfl, by simp, by simp⟩
  | x :: l, r => by
    unfold minRec
    obtain ⟨pre, post, e, h1, h2⟩ := minRec_spec l (if x.pressure < r.pressure then x else r)
    by_cases hc : x.pressure < r.pressure
    · rw [if_pos hc] at e h1 h2 ⊢
      refine ⟨r :: pre, post, by rw [List.cons_append, ← e], ?_, h2⟩
      intro y hy
      rcases List.mem_cons.1 hy with rfl | hy
      · refine lt_of_le_of_lt ?_ hc
        rcases pre with _ | ⟨p, pre⟩
        · simp only [List.nil_append, List.cons.injEq] at e
          rw [← e.1]
        · simp only [List.cons_append, List.cons.injEq] at e
          have := (h1 p (by simp)).le
          rwa [← e.1] at this
      · exact h1 y hy
    · rw [if_neg hc] at e h1 h2 ⊢
      rcases pre with _ | ⟨p, pre⟩
      · simp only [List.nil_append, List.cons.injEq] at e
        refine ⟨[], x :: post, by rw [List.nil_append, ← e.1, ← e.2], by simp, ?_⟩
        intro y hy
        rcases List.mem_cons.1 hy with rfl | hy
        · rw [← e.1]; exact not_lt.1 hc
        · exact h2 y hy
      · simp only [List.cons_append, List.cons.injEq] at e
        refine ⟨r :: x :: pre, post, by simp [← e.2], ?_, h2⟩
        intro y hy
        have hr : (minRec r l).pressure < r.pressure := by have := h1 p (by simp); rwa [← e.1] at this
        rcases List.mem_cons.1 hy with rfl | hy
        · exact hr
        rcases List.mem_cons.1 hy with rfl | hy
        · exact lt_of_lt_of_le hr (not_lt.1 hc)
        · exact h1 y (by simp [hy])

theorem windy_iff (d : List (Rec K)) : d.any (fun r => decide (r.speed > 0)) = true ↔ Windy d := by
  simp [Windy, List.any_eq_true]

/-- The loop of `shutdown`: the tables get one record for each station with wind. -/
theorem shutdownLoop_spec : ∀ (st : List (Station × List (Rec K))) (files : List Char → Option (List (Rec K)))
    (mx mn : List (Rec K)), ∃ mx' mn',
      (shutdownLoop st files mx mn).2 = (mx ++ mx', mn ++ mn') ∧
      List.Forall₂ (fun (p : Station × List (Rec K)) r => FirstMax p.2 r) (st.filter fun p => decide (Windy p.2)) mx' ∧
      List.Forall₂ (fun (p : Station × List (Rec K)) r => FirstMin p.2 r) (st.filter fun p => decide (Windy p.2)) mn'
  | [], files, mx, mn => ⟨[], [], by simp [shutdownLoop], .nil, .nil⟩
  | (s, d) :: rest, files, mx, mn => by
    unfold shutdownLoop
    by_cases hw : Windy d
    · rw [if_pos ((windy_iff d).2 hw)]
      match d, hw with
      | r :: l, hw =>
        simp only
        obtain ⟨mx', mn', e, h1, h2⟩ := shutdownLoop_spec rest
          (fun id => if id = s.id then some (r :: l) else files id) (mx ++ [maxRec r l]) (mn ++ [minRec r l])
        refine ⟨maxRec r l :: mx', minRec r l :: mn', by rw [e]; simp, ?_, ?_⟩
        · rw [List.filter_cons_of_pos (by simpa using hw)]
          exact .cons (maxRec_spec l r) h1
        · rw [List.filter_cons_of_pos (by simpa using hw)]
          exact .cons (minRec_spec l r) h2
    · rw [if_neg ((windy_iff d).not.2 hw)]
      rw [List.filter_cons_of_neg (by simpa using hw)]
      exact shutdownLoop_spec rest files mx mn

/-- C86: the table of maxima holds, for each station that had any wind, the first record with its largest wind
speed, in the order of the stations; that of minima the first record with its lowest pressure. -/
theorem C86_tables (st : List (Station × List (Rec K))) (f : Files K) : ∃ mx mn,
    (shutdown st f).maxima = some mx ∧ (shutdown st f).minima = some mn ∧
      List.Forall₂ (fun (p : Station × List (Rec K)) r => FirstMax p.2 r) (st.filter fun p => decide (Windy p.2)) mx ∧
      List.Forall₂ (fun (p : Station × List (Rec K)) r => FirstMin p.2 r) (st.filter fun p => decide (Windy p.2)) mn := by
  obtain ⟨mx, mn, e, h1, h2⟩ := shutdownLoop_spec st f.series [] []
  refine ⟨mx, mn, ?_, ?_, h1, h2⟩
  · simp only [shutdown, e, List.nil_append]
  · simp only [shutdown, e, List.nil_append]

theorem shutdownLoop_other : ∀ (st : List (Station × List (Rec K))) (files : List Char → Option (List (Rec K)))
    (mx mn : List (Rec K)) (id : List Char), (∀ p ∈ st, Windy p.2 → p.1.id ≠ id) →
    (shutdownLoop st files mx mn).1 id = files id
  | [], files, mx, mn, id, _ => rfl
  | (s, d) :: rest, files, mx, mn, id, h => by
    have hrest : ∀ p ∈ rest, Windy p.2 → p.1.id ≠ id := fun p hp => h p (List.mem_cons_of_mem _ hp)
    unfold shutdownLoop
    by_cases hw : Windy d
    · rw [if_pos ((windy_iff d).2 hw)]
      match d, hw, h with
      | r :: l, hw, h =>
        simp only
        rw [shutdownLoop_other rest _ _ _ id hrest]
        exact if_neg fun e => h (s, r :: l) List.mem_cons_self hw e.symm
    · rw [if_neg ((windy_iff d).not.2 hw)]
      exact shutdownLoop_other rest files mx mn id hrest

/-- C86: the file of a station with wind is its series, provided the identifiers are distinct; the file of a
station without wind is left as it was. -/
theorem C86_files : ∀ (st : List (Station × List (Rec K))) (f : Files K)
    (_ : (st.map fun p => p.1.id).Nodup) {s : Station} {d : List (Rec K)} (_ : (s, d) ∈ st),
    (shutdown st f).series s.id = if Windy d then some d else f.series s.id := by
  suffices H : ∀ (st : List (Station × List (Rec K))) (files : List Char → Option (List (Rec K)))
      (mx mn : List (Rec K)), (st.map fun p => p.1.id).Nodup → ∀ {s : Station} {d : List (Rec K)}, (s, d) ∈ st →
      (shutdownLoop st files mx mn).1 s.id = if Windy d then some d else files s.id from
    fun st f hn s d hm => H st f.series [] [] hn hm
  intro st
  induction st with
  | nil => intro files mx mn _ s d h; cases h
  | cons p rest ih =>
    obtain ⟨s0, d0⟩ := p
    intro files mx mn hn s d hm
    simp only [List.map_cons, List.nodup_cons, List.mem_map, not_exists, not_and] at hn
    unfold shutdownLoop
    rcases List.mem_cons.1 hm with e | hm'
    · simp only [Prod.mk.injEq] at e
      obtain ⟨rfl, rfl⟩ := e
      have hoth : ∀ p ∈ rest, Windy p.2 → p.1.id ≠ s.id := fun p hp _ => hn.1 p hp
      by_cases hw : Windy d
      · rw [if_pos ((windy_iff d).2 hw), if_pos hw]
        match d, hw with
        | r :: l, hw =>
          simp only
          rw [shutdownLoop_other rest _ _ _ _ hoth, if_pos rfl]
      · rw [if_neg ((windy_iff d).not.2 hw), if_neg hw, shutdownLoop_other rest _ _ _ _ hoth]
    · have hne : s.id ≠ s0.id := fun e => hn.1 (s, d) hm' e
      by_cases hw : Windy d0
      · rw [if_pos ((windy_iff d0).2 hw)]
        match d0, hw with
        | r :: l, hw =>
          simp only
          rw [ih _ _ _ hn.2 hm', if_neg hne]
      · rw [if_neg ((windy_iff d0).not.2 hw)]
        exact ih _ _ _ hn.2 hm'

end

/-- C86 fails: two stations with one identifier share a file, which holds the series of the second only. -/
theorem C86_same_id_fails : ∃ (st : List (Station × List (Rec ℚ))) (s : Station) (d : List (Rec ℚ)),
    (s, d) ∈ st ∧ Windy d ∧ (shutdown st ⟨fun _ => none, none, none⟩).series s.id ≠ some d :=
  ⟨[(⟨['a'], 0, 0⟩, [⟨['a'], 0, 0, 0, 5, 3, 4, 0, 990⟩]), (⟨['a'], 1, 0⟩, [⟨['a'], 0, 1, 0, 10, 6, 8, 0, 980⟩])],
    ⟨['a'], 0, 0⟩, [⟨['a'], 0, 0, 0, 5, 3, 4, 0, 990⟩], by decide +kernel, by decide +kernel, by decide +kernel⟩

/-- A layer used in the examples: three by two points from 150E and 10S, with a wind of 5 (or 10) units. -/
def exLayer (t p : ℚ) : Layer ℚ :=
  ⟨t, [[5, 5, 10], [5, 5, 5]], [[3, 3, 6], [3, 3, 3]], [[4, 4, 8], [4, 4, 4]], [[p, 990, 985], [1000, 1001, 1002]],
    [150, 151, 152], [-10, -9]⟩

/-- The pressure recorded while the station is outside the grid is that of a grid corner: C86's table of minima
can name a time at which the station was outside the grid, with a pressure of another place. -/
theorem C86_minimum_fails : ∃ (s : Station) (ls : List (Layer ℚ)) (st : List (Station × List (Rec ℚ))) (r : Rec ℚ)
    (l : Layer ℚ), extractAll (fun _ _ => 0) ls [(s, [])] = .ok st ∧ (shutdown st ⟨fun _ => none, none, none⟩).minima = some [r] ∧
      l ∈ ls ∧ r.time = l.time ∧ (∀ l' ∈ ls, l'.time = l.time → l' = l) ∧ ¬ Within l.gridx s.lon :=
  ⟨⟨['a'], 151, -10⟩, [exLayer 0 980, { exLayer 1 980 with gridx := [160, 161, 162] }],
    [(⟨['a'], 151, -10⟩, [⟨['a'], 0, 151, -10, 5, 3, 4, 0, 990⟩, ⟨['a'], 1, 151, -10, 0, 0, 0, 0, 980⟩])],
    ⟨['a'], 1, 151, -10, 0, 0, 0, 0, 980⟩, { exLayer 1 980 with gridx := [160, 161, 162] },
    by decide +kernel, by decide +kernel, by simp [exLayer], rfl, by simp [exLayer], by
      rintro ⟨⟨lo, h, h'⟩, -⟩
      simp only [List.mem_cons, List.not_mem_nil, or_false] at h
      rcases h with rfl | rfl | rfl <;> norm_num at h'⟩

/-- C86 fails for stations in the western hemisphere: read from a shape file the station has its longitude in
0–360, read from a csv file it does not, and so only one of them is inside the grid. -/
theorem C86_west_fails (id : List Char) {lon lat : ℚ} (hw : lon < 0) {gx gy : List ℚ}
    (hpos : ∀ x ∈ gx, 0 ≤ x) (hx : Within gx (lon + 360)) (hy : Within gy lat) :
    insideGrid (fromShape id lon lat) gx gy = .ok true ∧ insideGrid (fromCsv id lon lat) gx gy = .ok false := by
  obtain ⟨⟨a, ha, ha'⟩, hx'⟩ := hx
  obtain ⟨⟨b, hb, hb'⟩, hy'⟩ := hy
  match gx, gy, ha, hb with
  | x :: xs, y :: ys, ha, hb =>
    have hx : Within (x :: xs) (lon + 360) := ⟨⟨a, ha, ha'⟩, hx'⟩
    have hy : Within (y :: ys) lat := ⟨⟨b, hb, hb'⟩, hy'⟩
    have h1 : ∀ s : Station, ∃ b, insideGrid s (x :: xs) (y :: ys) = .ok b := fun s => ⟨_, rfl⟩
    obtain ⟨b1, e1⟩ := h1 (fromShape id lon lat)
    obtain ⟨b2, e2⟩ := h1 (fromCsv id lon lat)
    refine ⟨?_, ?_⟩
    · rw [e1, (insideGrid_ok e1).2 ⟨by simpa [fromShape, hw] using hx, hy⟩]
    · rw [e2]
      rcases b2 with _ | _
      · rfl
      · exfalso
        obtain ⟨⟨⟨lo, h, h'⟩, -⟩, -⟩ := (insideGrid_ok e2).1 rfl
        have := hpos lo h
        simp only [fromCsv] at h'
        linarith

example : insideGrid (fromShape ['a'] (-75) 20) [280, 285, 290] [15, 25] = .ok true ∧
    insideGrid (fromCsv ['a'] (-75) 20) [280, 285, 290] [15, 25] = .ok false := by decide +kernel

/-- The hypotheses of `C86_records` are met. -/
example : extractAll (fun _ _ => 0) [exLayer 0 980, exLayer 1 980] [(⟨['a'], 749/5, -10⟩, []), (⟨['b'], 1519/10, -10⟩, [])] =
    .ok [(⟨['a'], 749/5, -10⟩, [⟨['a'], 0, 749/5, -10, 0, 0, 0, 0, 980⟩, ⟨['a'], 1, 749/5, -10, 0, 0, 0, 0, 980⟩]),
      (⟨['b'], 1519/10, -10⟩, [⟨['b'], 0, 1519/10, -10, 10, 6, 8, 0, 985⟩, ⟨['b'], 1, 1519/10, -10, 10, 6, 8, 0, 985⟩])] := by
  decide +kernel

/-- The hypotheses of `C86_total` are met. -/
example : ∀ l ∈ [exLayer 0 980, exLayer 1 980], l.gridx ≠ [] ∧ l.gridy ≠ [] ∧ ∀ t ∈ [l.spd, l.uu, l.vv, l.prs],
    t.length = l.gridy.length ∧ ∀ row ∈ t, row.length = l.gridx.length := by
  decide +kernel

end Tcrm.Stations
