import Verif.Model.Seasons
import Verif.Props.DataProc
import Mathlib.Algebra.BigOperators.Group.List.Basic
import Mathlib.Data.List.Chain

/-!
C111: selecting seasons keeps whole tracks.
C112: counts by year and by day account for every track.
-/

namespace Tcrm.DataProc

/-- All records of a track have the same season. -/
def OneSeason {α : Type} (p : List (ℤ × ℤ × α)) : Prop := ∀ a ∈ p, ∀ b ∈ p, a.2.1 = b.2.1

/-- The track is of season `s` or later. -/
def FromSeason {α : Type} (s : ℤ) (p : List (ℤ × ℤ × α)) : Prop := ∀ a ∈ p, s ≤ a.2.1

instance {α : Type} (s : ℤ) (p : List (ℤ × ℤ × α)) : Decidable (FromSeason s p) :=
  inferInstanceAs (Decidable (∀ a ∈ p, s ≤ a.2.1))

/-- C111 (part): if every track is of one season, selecting seasons keeps exactly the tracks of the
season given and of later ones, complete and in order.
Missing: tracks with records of several seasons, see `C111_merge_fails`. -/
theorem C111_whole_tracks_partial {α : Type} (s : ℤ) (ps : List (List (ℤ × ℤ × α)))
    (h1 : ∀ p ∈ ps, OneSeason p) :
    selectSeasons s ps.flatten = (ps.filter fun p => decide (FromSeason s p)).flatten := by
  induction ps with
  | nil => rfl
  | cons p ps ih =>
    have hp := h1 p (by simp)
    have ih := ih fun q hq => h1 q (by simp [hq])
    unfold selectSeasons at ih ⊢
    rw [List.flatten_cons, List.filter_append, ih]
    by_cases h : FromSeason s p
    · rw [List.filter_cons_of_pos (by simpa using h), List.flatten_cons]
      congr 1
      rw [List.filter_eq_self]
      intro a ha
      simpa using h a ha
    · rw [List.filter_cons_of_neg (by simpa using h)]
      have : p.filter (fun r => decide (r.2.1 ≥ s)) = [] := by
        rw [List.filter_eq_nil_iff]
        intro a ha hge
        refine h fun b hb => ?_
        rw [hp b hb a ha]
        simpa using hge
      rw [this, List.nil_append]

theorem chain_marks {α : Type} (key : α → ℤ × ℤ) : ∀ (m : ℤ) (r : α) (rs : List α),
    List.IsChain (fun a b : ℤ × α => b.1 = 0 → key a.2 = key b.2)
      ((m, r) :: (((((r :: rs).map key).zip (rs.map key)).map
        fun p => if p.1 = p.2 then (0 : ℤ) else 1).zip rs))
  | m, r, [] => by simp
  | m, r, r' :: rs => by
    have ih := chain_marks key (if key r = key r' then 0 else 1) r' rs
    simp only [List.map_cons, List.zip_cons_cons] at ih ⊢
    rw [List.isChain_cons_cons]
    refine ⟨fun h => ?_, ih⟩
    by_contra hne
    simp [hne] at h

theorem chain_const {β : Type} (R : β → β → Prop) (k : β → ℤ × ℤ) (z : β → Prop)
    (hR : ∀ a b, R a b → z b → k a = k b) : ∀ (l : List β) (x : β), List.IsChain R (x :: l) →
      (∀ b ∈ l, z b) → ∀ b ∈ l, k b = k x
  | [], _, _, _ => by simp
  | y :: l, x, h, hz => by
    rw [List.isChain_cons_cons] at h
    have hxy := hR x y h.1 (hz y (by simp))
    intro b hb
    rcases List.mem_cons.mp hb with rfl | hb
    · exact hxy.symm
    · rw [chain_const R k z hR l y h.2 (fun b hb => hz b (by simp [hb])) b hb, hxy]

/-- C111 (part): where the tracks are told apart by season and number, every track is of one
season, so that `C111_whole_tracks_partial` applies. -/
theorem C111_numbered_partial {α : Type} (rows : List (ℤ × α)) (num : ℤ × α → ℤ)
    (ps : List (List (ℤ × ℤ × α)))
    (hps : ps.flatten = (markChanges (rows.map fun r => (r.1, num r))).zip rows)
    (hp : ∀ p ∈ ps, IsPiece p) : ∀ p ∈ ps, OneSeason p := by
  intro p hpm
  obtain ⟨ps1, ps2, rfl⟩ := List.append_of_mem hpm
  obtain ⟨x, l, rfl, hl⟩ := hp p hpm
  cases rows with
  | nil => simp [markChanges] at hps
  | cons r rs =>
    have hc := chain_marks (fun r : ℤ × α => (r.1, num r)) 1 r rs
    simp only [List.map_cons, markChanges, List.zip_cons_cons] at hps
    simp only [List.map_cons] at hc
    rw [← hps] at hc
    simp only [List.flatten_append, List.flatten_cons] at hc
    have hc2 := (List.isChain_append.mp (List.isChain_append.mp hc).2.1).1
    have hcon := chain_const _ (fun a : ℤ × ℤ × α => (a.2.1, num a.2)) (fun b => b.1 = 0)
      (fun a b h hz => h hz) l (1, x) hc2 hl
    have hseas : ∀ a ∈ (1, x) :: l, a.2.1 = x.1 := by
      intro a ha
      rcases List.mem_cons.mp ha with rfl | ha
      · rfl
      · exact (Prod.mk.inj (hcon a ha)).1
    intro a ha b hb
    rw [hseas a ha, hseas b hb]

/-- C111 (the failure): if only the beginning of a track is of an earlier season, what is left of
it loses its marker and becomes part of the track before it. -/
theorem C111_merge_fails {α : Type} (s : ℤ) (p l l' : List (ℤ × ℤ × α)) (x : ℤ × α)
    (hp : IsPiece p) (hps : FromSeason s p) (hl : ∀ q ∈ l ++ l', q.1 = 0)
    (hx : x.1 < s) (hearly : ∀ q ∈ l, q.2.1 < s) (hlate : FromSeason s l') :
    selectSeasons s (p ++ (1, x) :: (l ++ l')) = p ++ l' ∧ IsPiece (p ++ l') := by
  constructor
  · unfold selectSeasons
    rw [List.filter_append, List.filter_cons_of_neg (by simpa using hx), List.filter_append]
    have h1 : p.filter (fun r => decide (r.2.1 ≥ s)) = p :=
      List.filter_eq_self.mpr fun a ha => by simpa using hps a ha
    have h2 : l.filter (fun r => decide (r.2.1 ≥ s)) = [] :=
      List.filter_eq_nil_iff.mpr fun a ha => by simpa using hearly a ha
    have h3 : l'.filter (fun r => decide (r.2.1 ≥ s)) = l' :=
      List.filter_eq_self.mpr fun a ha => by simpa using hlate a ha
    rw [h1, h2, h3, List.nil_append]
  · obtain ⟨y, m, rfl, hm⟩ := hp
    refine ⟨y, m ++ l', by simp, fun q hq => ?_⟩
    rcases List.mem_append.mp hq with h | h
    · exact hm q h
    · exact hl q (by simp [h])

/-! ### C112 -/

theorem foldl_min_le (rs : List (ℤ × ℤ)) : ∀ a : ℤ,
    rs.foldl (fun m x => min m x.2) a ≤ a ∧ ∀ r ∈ rs, rs.foldl (fun m x => min m x.2) a ≤ r.2 := by
  induction rs with
  | nil => intro a; simp
  | cons r rs ih =>
    intro a
    obtain ⟨h1, h2⟩ := ih (min a r.2)
    simp only [List.foldl_cons]
    refine ⟨h1.trans (min_le_left _ _), fun q hq => ?_⟩
    rcases List.mem_cons.mp hq with rfl | hq
    · exact h1.trans (min_le_right _ _)
    · exact h2 q hq

theorem le_foldl_max (rs : List (ℤ × ℤ)) : ∀ a : ℤ,
    a ≤ rs.foldl (fun m x => max m x.2) a ∧ ∀ r ∈ rs, r.2 ≤ rs.foldl (fun m x => max m x.2) a := by
  induction rs with
  | nil => intro a; simp
  | cons r rs ih =>
    intro a
    obtain ⟨h1, h2⟩ := ih (max a r.2)
    simp only [List.foldl_cons]
    refine ⟨(le_max_left _ _).trans h1, fun q hq => ?_⟩
    rcases List.mem_cons.mp hq with rfl | hq
    · exact (le_max_right _ _).trans h1
    · exact h2 q hq

theorem foldl_min_mem (rs : List (ℤ × ℤ)) : ∀ a : ℤ,
    rs.foldl (fun m x => min m x.2) a = a ∨ ∃ r ∈ rs, r.2 = rs.foldl (fun m x => min m x.2) a := by
  induction rs with
  | nil => intro a; simp
  | cons r rs ih =>
    intro a
    simp only [List.foldl_cons]
    rcases ih (min a r.2) with h | ⟨q, hq, h⟩
    · rcases min_choice a r.2 with h' | h'
      · left; rw [h, h']
      · right; exact ⟨r, by simp, by rw [h, h']⟩
    · right; exact ⟨q, by simp [hq], h⟩

theorem foldl_max_mem (rs : List (ℤ × ℤ)) : ∀ a : ℤ,
    rs.foldl (fun m x => max m x.2) a = a ∨ ∃ r ∈ rs, r.2 = rs.foldl (fun m x => max m x.2) a := by
  induction rs with
  | nil => intro a; simp
  | cons r rs ih =>
    intro a
    simp only [List.foldl_cons]
    rcases ih (max a r.2) with h | ⟨q, hq, h⟩
    · rcases max_choice a r.2 with h' | h'
      · left; rw [h, h']
      · right; exact ⟨r, by simp, by rw [h, h']⟩
    · right; exact ⟨q, by simp [hq], h⟩

theorem sum_one (a : ℕ) : ∀ n : ℕ, a < n →
    ((List.range n).map fun k => if a = k then 1 else 0).sum = 1
  | 0, h => by omega
  | n + 1, h => by
    rw [List.range_succ, List.map_append, List.sum_append]
    by_cases e : a = n
    · have : ((List.range n).map fun k => if a = k then 1 else 0).sum = 0 := by
        rw [List.sum_eq_zero]
        intro y hy
        obtain ⟨k, hk, rfl⟩ := List.mem_map.mp hy
        rw [if_neg]
        have := List.mem_range.mp hk
        omega
      rw [this]; simp [e]
    · rw [sum_one a n (by omega)]
      simp [e]

/-- Every element falls into one class: the sizes of the classes add up. -/
theorem sum_classes {β : Type} (l : List β) (P : β → Bool) (key : β → ℕ) (n : ℕ)
    (h : ∀ x ∈ l, key x < n) :
    ((List.range n).map fun k => (l.filter fun x => P x && decide (key x = k)).length).sum =
      (l.filter P).length := by
  induction l with
  | nil => simp
  | cons x l ih =>
    have ih := ih fun y hy => h y (by simp [hy])
    have hx := h x (by simp)
    have hstep : ∀ k, ((x :: l).filter fun x => P x && decide (key x = k)).length =
        (if P x = true ∧ key x = k then 1 else 0) +
          (l.filter fun x => P x && decide (key x = k)).length := by
      intro k
      by_cases hh : P x = true ∧ key x = k
      · rw [List.filter_cons_of_pos (by simp [hh]), List.length_cons, if_pos hh]; omega
      · rw [List.filter_cons_of_neg (by simpa using hh), if_neg hh]; omega
    simp only [hstep]
    have hadd : ((List.range n).map fun k => (if P x = true ∧ key x = k then 1 else 0) +
        (l.filter fun x => P x && decide (key x = k)).length).sum =
        ((List.range n).map fun k => if P x = true ∧ key x = k then 1 else 0).sum +
        ((List.range n).map fun k => (l.filter fun x => P x && decide (key x = k)).length).sum := by
      induction (List.range n) with
      | nil => rfl
      | cons a t iht => simp only [List.map_cons, List.sum_cons, iht]; omega
    rw [hadd, ih]
    by_cases hp : P x = true
    · rw [List.filter_cons_of_pos hp, List.length_cons]
      have : ((List.range n).map fun k => if P x = true ∧ key x = k then 1 else 0).sum = 1 := by
        simp only [hp, true_and]
        exact sum_one (key x) n hx
      omega
    · rw [List.filter_cons_of_neg hp]
      have : ((List.range n).map fun k => if P x = true ∧ key x = k then 1 else 0).sum = 0 := by
        rw [List.sum_eq_zero]
        intro y hy
        obtain ⟨k, hk, rfl⟩ := List.mem_map.mp hy
        simp [hp]
      omega

/-- C112: the annual frequencies have one row for every year from the first to the last of the
record, in order, each with the number of tracks that begin in the year; together they account for
every track exactly once. -/
theorem C112_years (rows : List (ℤ × ℤ)) (t : List (ℤ × ℕ))
    (h : yearFrequency rows = .ok (some t)) :
    ∃ lo hi : ℤ, lo < hi ∧ (∀ r ∈ rows, lo ≤ r.2 ∧ r.2 ≤ hi) ∧
      (∃ r ∈ rows, r.2 = lo) ∧ (∃ r ∈ rows, r.2 = hi) ∧
      t.map (·.1) = (List.range (hi - lo + 1).toNat).map (fun (k : ℕ) => lo + k) ∧
      (∀ y n, (y, n) ∈ t → n = (rows.filter fun r => decide (r.1 ≠ 0) && decide (r.2 = y)).length) ∧
      (t.map (·.2)).sum = (rows.filter fun r => decide (r.1 ≠ 0)).length := by
  cases rows with
  | nil => simp [yearFrequency] at h
  | cons r rs =>
    have hlo := foldl_min_le rs r.2
    have hhi := le_foldl_max rs r.2
    simp only [yearFrequency] at h
    split at h
    · simp at h
    · rename_i hne
      simp only [Except.ok.injEq, Option.some.injEq] at h
      generalize hL : rs.foldl (fun m x => min m x.2) r.2 = lo at *
      generalize hH : rs.foldl (fun m x => max m x.2) r.2 = hi at *
      have hb : ∀ q ∈ r :: rs, lo ≤ q.2 ∧ q.2 ≤ hi := by
        intro q hq
        rcases List.mem_cons.mp hq with rfl | hq
        · exact ⟨hlo.1, hhi.1⟩
        · exact ⟨hlo.2 q hq, hhi.2 q hq⟩
      have hlt : lo < hi := by have := hb r (by simp); omega
      have hmin := foldl_min_mem rs r.2
      have hmax := foldl_max_mem rs r.2
      rw [hL] at hmin
      rw [hH] at hmax
      refine ⟨lo, hi, hlt, hb, ?_, ?_, ?_, ?_, ?_⟩
      · rcases hmin with h | ⟨q, hq, h⟩
        · exact ⟨r, by simp, h.symm⟩
        · exact ⟨q, by simp [hq], h⟩
      · rcases hmax with h | ⟨q, hq, h⟩
        · exact ⟨r, by simp, h.symm⟩
        · exact ⟨q, by simp [hq], h⟩
      · rw [← h, List.map_map]; rfl
      · intro y n hm
        rw [← h, List.mem_map] at hm
        obtain ⟨k, -, hk⟩ := hm
        simp only [Prod.mk.injEq] at hk
        rw [← hk.2, hk.1]
      · rw [← h, List.map_map]
        rw [← sum_classes (r :: rs) (fun x => decide (x.1 ≠ 0)) (fun x => (x.2 - lo).toNat)
          (hi - lo + 1).toNat (fun x hx => by have := hb x hx; omega)]
        congr 1
        apply List.map_congr_left
        intro k hk
        simp only [Function.comp]
        congr 1
        apply List.filter_congr
        intro x hx
        have := hb x hx
        congr 1
        rw [decide_eq_decide]
        omega

/-- C112: nothing is written exactly if all records are of the same year. -/
theorem C112_one_year (rows : List (ℤ × ℤ)) :
    yearFrequency rows = .ok none ↔ rows ≠ [] ∧ ∀ a ∈ rows, ∀ b ∈ rows, a.2 = b.2 := by
  cases rows with
  | nil => simp [yearFrequency]
  | cons r rs =>
    have hlo := foldl_min_le rs r.2
    have hhi := le_foldl_max rs r.2
    simp only [yearFrequency]
    split
    · rename_i he
      refine ⟨fun _ => ⟨by simp, ?_⟩, fun _ => rfl⟩
      have hb : ∀ q ∈ r :: rs, q.2 = rs.foldl (fun m x => min m x.2) r.2 := by
        intro q hq
        rcases List.mem_cons.mp hq with rfl | hq
        · exact le_antisymm (he ▸ hhi.1) hlo.1
        · exact le_antisymm (he ▸ hhi.2 q hq) (hlo.2 q hq)
      intro a ha b hb'
      rw [hb a ha, hb b hb']
    · rename_i hne
      refine ⟨fun h => by simp at h, fun ⟨_, hall⟩ => ?_⟩
      refine absurd ?_ hne
      have e1 : ∀ (l : List (ℤ × ℤ)) (c : ℤ), (∀ q ∈ l, q.2 = c) →
          l.foldl (fun m x => min m x.2) c = c := by
        intro l
        induction l with
        | nil => intros; rfl
        | cons q l ih =>
          intro c hc
          rw [List.foldl_cons, hc q (by simp), min_self]
          exact ih c fun x hx => hc x (by simp [hx])
      have e2 : ∀ (l : List (ℤ × ℤ)) (c : ℤ), (∀ q ∈ l, q.2 = c) →
          l.foldl (fun m x => max m x.2) c = c := by
        intro l
        induction l with
        | nil => intros; rfl
        | cons q l ih =>
          intro c hc
          rw [List.foldl_cons, hc q (by simp), max_self]
          exact ih c fun x hx => hc x (by simp [hx])
      have hc : ∀ q ∈ rs, q.2 = r.2 := fun q hq => hall q (by simp [hq]) r (by simp)
      rw [e1 rs r.2 hc, e2 rs r.2 hc]

/-- C112: the frequencies are written exactly if there are records of different years; without records an exception is
raised. -/
theorem C112_written (rows : List (ℤ × ℤ)) :
    ((∃ t, yearFrequency rows = .ok (some t)) ↔ ∃ a ∈ rows, ∃ b ∈ rows, a.2 ≠ b.2) ∧
    (yearFrequency rows = .error .valueError ↔ rows = []) := by
  have h1 := C112_one_year rows
  cases rows with
  | nil => simp [yearFrequency]
  | cons r rs =>
    constructor
    · cases hy : yearFrequency (r :: rs) with
      | error e =>
        simp only [yearFrequency] at hy
        split at hy <;> cases hy
      | ok o =>
        cases o with
        | none =>
          have := (h1.mp hy).2
          constructor
          · rintro ⟨t, ht⟩; cases ht
          · rintro ⟨a, ha, b, hb, hne⟩; exact absurd (this a ha b hb) hne
        | some t =>
          refine ⟨fun _ => ?_, fun _ => ⟨t, rfl⟩⟩
          by_contra hc
          push Not at hc
          rw [h1.mpr ⟨by simp, hc⟩] at hy
          cases hy
    · simp only [reduceCtorEq, iff_false]
      simp only [yearFrequency]
      split <;> simp

/-- C112: the counts by day have a row for each of the days 1 to 365, and account for every day
from 1 to 366 exactly once. -/
theorem C112_days (days : List ℤ) (h : ∀ d ∈ days, 1 ≤ d ∧ d ≤ 366) :
    (dayCounts days).map (·.1) = (List.range 365).map (fun (k : ℕ) => (k : ℤ) + 1) ∧
      ((dayCounts days).map (·.2)).sum = days.length ∧
      ∀ d n, (d, n) ∈ dayCounts days →
        n = if d = 365 then days.count 365 + days.count 366 else days.count d := by
  refine ⟨?_, ?_, ?_⟩
  · unfold dayCounts; rw [List.map_map]; exact List.map_congr_left fun _ _ => rfl
  · have hs := sum_classes days (fun _ => true) (fun x => (min x 365 - 1).toNat) 365
      (fun x hx => by have := h x hx; omega)
    rw [List.filter_true] at hs
    rw [← hs]
    unfold dayCounts
    rw [List.map_map]
    refine congrArg List.sum (List.map_congr_left fun k hk => ?_)
    have hk := List.mem_range.mp hk
    show List.length _ = List.length _
    refine congrArg List.length (List.filter_congr fun x hx => ?_)
    have := h x hx
    rw [Bool.true_and, Bool.eq_iff_iff]
    simp only [Bool.or_eq_true, Bool.and_eq_true, decide_eq_true_eq]
    omega
  · intro d n hm
    unfold dayCounts at hm
    obtain ⟨k, -, hk⟩ := List.mem_map.mp hm
    simp only [Prod.mk.injEq] at hk
    rw [← hk.2, hk.1]
    clear hk hm h
    induction days with
    | nil => simp
    | cons x l ih =>
      simp only [List.count_cons, List.filter_cons, beq_iff_eq, Bool.or_eq_true, Bool.and_eq_true,
        decide_eq_true_eq]
      split_ifs at ih ⊢ <;> (try simp only [List.length_cons]) <;> omega

/-! ### Examples -/

example : selectSeasons 1980 [(1, 1979, 'a'), (0, 1979, 'b'), (1, 1980, 'c'), (0, 1980, 'd')] =
    [(1, 1980, 'c'), (0, 1980, 'd')] := by decide

-- The second track begins in an earlier season: its last record is added to the first track.
example : selectSeasons 1980 [(1, 1981, 'a'), (1, 1979, 'b'), (0, 1980, 'c')] =
    [(1, 1981, 'a'), (0, 1980, 'c')] := by decide

example : yearFrequency [(1, 2001), (0, 2001), (1, 2003), (0, 2003), (1, 2003)] =
    .ok (some [(2001, 1), (2002, 0), (2003, 2)]) := by decide +kernel

example : (365, 2) ∈ dayCounts [1, 365, 366] := by decide +kernel

end Tcrm.DataProc
