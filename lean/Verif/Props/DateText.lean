import Verif.Spec.DateText
import Mathlib.Tactic.IntervalCases
import Mathlib.Data.List.Basic
/-!
C167: the dates of observations are read as written in the format of the configuration.
-/
namespace Tcrm.DateText
open Tcrm.Dates

theorem digit_numeral {n : ℕ} (h : n < 10) : digit? (numeral n) = some n := by
  interval_cases n <;> decide +kernel

theorem numeral_ne_blank {n : ℕ} (h : n < 10) : numeral n ≠ ' ' := by
  interval_cases n <;> decide +kernel

theorem matchAlt_numeral {n : ℕ} (h : n < 10) (lo hi : ℕ) (ps : List Pat) (t : Text) (v : ℕ) :
    matchAlt (.rng lo hi :: ps) (numeral n :: t) v = if lo ≤ n ∧ n ≤ hi then matchAlt ps t (10 * v + n) else none := by
  simp [matchAlt, digit_numeral h]

theorem matchAlt_nil (t : Text) (v : ℕ) : matchAlt [] t v = some (v, t) := rfl

theorem matchAlt_sp {n : ℕ} (h : n < 10) (ps : List Pat) (t : Text) (v : ℕ) :
    matchAlt (.sp :: ps) (numeral n :: t) v = none := by
  simp [matchAlt, numeral_ne_blank h]

theorem matchAlt_stop {t : Text} (h : ∀ c t', t = c :: t' → digit? c = none) (lo hi : ℕ) (ps : List Pat) (v : ℕ) :
    matchAlt (.rng lo hi :: ps) t v = none := by
  cases t with
  | nil => rfl
  | cons c t => simp [matchAlt, h c t rfl]

/-- The matches of a directive. -/
def firsts (k : Field) (t : Text) : List (ℕ × Text) := (alts k).filterMap fun a => matchAlt a t 0

theorem runs_field (k : Field) (f : List Item) (t : Text) :
    runs (.field k :: f) t = (firsts k t).flatMap fun p => (runs f p.2).map fun r => ((k, p.1) :: r.1, r.2) := by
  simp only [runs, firsts]
  induction alts k with
  | nil => rfl
  | cons a l ih =>
    rw [List.flatMap_cons, ih, List.filterMap_cons]
    cases matchAlt a t 0 with
    | none => simp
    | some p => simp

/-- The bounds of a component of a real date. -/
theorem bounds {d : DateTime} (h : Real d) : d.month < 13 ∧ d.day < 32 ∧ d.hour < 24 ∧ d.minute < 60 ∧ d.second < 60 := by
  obtain ⟨-, -, -, h1, -, h2, h3, h4, h5⟩ := h
  refine ⟨by omega, ?_, h3, h4, h5⟩
  have : daysInMonth (isLeap d.year) d.month ≤ 31 := by
    unfold daysInMonth
    split <;> (try split) <;> omega
  omega

theorem two_head (k : Field) (hk : k ≠ .year) {d : DateTime} (h : Real d) (t : Text) :
    ∃ l, firsts k (two (d.get k) ++ t) = (d.get k, t) :: l := by
  obtain ⟨b1, b2, b3, b4, b5⟩ := bounds h
  have m0 := h.2.2.1
  have d0 := h.2.2.2.2.1
  cases k with
  | year => exact absurd rfl hk
  | month =>
    simp only [DateTime.get]
    generalize d.month = v at *
    interval_cases v <;> exact ⟨_, rfl⟩
  | day =>
    simp only [DateTime.get]
    generalize d.day = v at *
    interval_cases v <;> exact ⟨_, rfl⟩
  | hour =>
    simp only [DateTime.get]
    generalize d.hour = v at *
    interval_cases v <;> exact ⟨_, rfl⟩
  | minute =>
    simp only [DateTime.get]
    generalize d.minute = v at *
    interval_cases v <;> exact ⟨_, rfl⟩
  | second =>
    simp only [DateTime.get]
    generalize d.second = v at *
    interval_cases v <;> exact ⟨_, rfl⟩

theorem one_head (k : Field) (hk : k ≠ .year) {d : DateTime} (h : Real d) (hv : d.get k < 10) {t : Text}
    (ht : ∀ c t', t = c :: t' → digit? c = none) : ∃ l, firsts k (numeral (d.get k) :: t) = (d.get k, t) :: l := by
  have m0 := h.2.2.1
  have d0 := h.2.2.2.2.1
  cases k with
  | year => exact absurd rfl hk
  | month =>
    simp only [DateTime.get] at *
    simp only [firsts, alts, List.filterMap_cons, List.filterMap_nil, matchAlt_numeral hv, matchAlt_stop ht, ite_self]
    rw [if_pos (by omega)]
    exact ⟨[], by simp [matchAlt]⟩
  | day =>
    simp only [DateTime.get] at *
    simp only [firsts, alts, List.filterMap_cons, List.filterMap_nil, matchAlt_numeral hv, matchAlt_stop ht, ite_self,
      matchAlt_sp hv]
    rw [if_pos (by omega)]
    exact ⟨[], by simp [matchAlt]⟩
  | hour =>
    simp only [DateTime.get] at *
    simp only [firsts, alts, List.filterMap_cons, List.filterMap_nil, matchAlt_numeral hv, matchAlt_stop ht, ite_self]
    rw [if_pos (by omega)]
    exact ⟨[], by simp [matchAlt]⟩
  | minute =>
    simp only [DateTime.get] at *
    simp only [firsts, alts, List.filterMap_cons, List.filterMap_nil, matchAlt_numeral hv, matchAlt_stop ht, ite_self]
    rw [if_pos (by omega)]
    exact ⟨[], by simp [matchAlt]⟩
  | second =>
    simp only [DateTime.get] at *
    simp only [firsts, alts, List.filterMap_cons, List.filterMap_nil, matchAlt_numeral hv, matchAlt_stop ht, ite_self]
    rw [if_pos (by omega)]
    exact ⟨[], by simp [matchAlt]⟩

theorem four_head {y : ℕ} (h : y ≤ 9999) (t : Text) : firsts .year (four y ++ t) = [(y, t)] := by
  have h1 : y / 1000 < 10 := by omega
  have h2 : y / 100 % 10 < 10 := by omega
  have h3 : y / 10 % 10 < 10 := by omega
  have h4 : y % 10 < 10 := by omega
  simp only [firsts, alts, four, List.cons_append, List.nil_append, List.filterMap_cons, List.filterMap_nil,
    matchAlt_numeral h1, matchAlt_numeral h2, matchAlt_numeral h3, matchAlt_numeral h4, matchAlt_nil]
  rw [if_pos (by omega), if_pos (by omega), if_pos (by omega), if_pos (by omega)]
  simp only [List.cons.injEq, Prod.mk.injEq, and_true]
  omega

theorem blanks_replicate (n : ℕ) {t : Text} (h : ∀ t', t ≠ ' ' :: t') : blanks (List.replicate n ' ' ++ t) = n := by
  induction n with
  | zero =>
    cases t with
    | nil => rfl
    | cons c t =>
      have : c ≠ ' ' := fun e => h t (by rw [e])
      simp only [List.replicate_zero, List.nil_append]
      unfold blanks
      split
      · rename_i heq
        injection heq with h1 h2
        exact absurd h1 this
      · rfl
  | succ n ih => simp only [List.replicate_succ, List.cons_append, blanks, ih]

/-- The first match of a date written in the format is the date. -/
theorem runs_written {d : DateTime} (h : Real d) {f : List Item} {t : Text} (w : Written d f t) :
    ∃ l, runs f t = ((fields f).map (fun k => (k, d.get k)), []) :: l := by
  induction w with
  | done => exact ⟨[], rfl⟩
  | @lit c f t w ih =>
    obtain ⟨l, e⟩ := ih
    exact ⟨l, by simp [runs, fields] at e ⊢; exact e⟩
  | @blank f t n hb w ih =>
    obtain ⟨l, e⟩ := ih
    refine ⟨l ++ ((List.range n).map Nat.succ).flatMap fun i => runs f ((List.replicate (n + 1) ' ' ++ t).drop (n + 1 - i)), ?_⟩
    · simp only [runs, blanks_replicate (n + 1) hb]
      rw [List.range_succ_eq_map, List.flatMap_cons]
      simp only [Nat.sub_zero]
      rw [List.drop_append_of_le_length (by simp)]
      simp only [List.drop_eq_nil_of_le (show (List.replicate (n + 1) ' ').length ≤ n + 1 by simp), List.nil_append]
      rw [e]
      simp only [fields, List.filterMap_cons, List.cons_append]
  | @year f t w ih =>
    obtain ⟨l, e⟩ := ih
    rw [runs_field, four_head h.2.1]
    refine ⟨l.map fun r => ((.year, d.year) :: r.1, r.2), ?_⟩
    simp only [List.flatMap_cons, List.flatMap_nil, List.append_nil, e, List.map_cons]
    rfl
  | @padded f t k hk w ih =>
    obtain ⟨l, e⟩ := ih
    obtain ⟨l', e'⟩ := two_head k hk h t
    rw [runs_field, e']
    refine ⟨(l.map fun r => ((k, d.get k) :: r.1, r.2)) ++
      l'.flatMap fun p => (runs f p.2).map fun r => ((k, p.1) :: r.1, r.2), ?_⟩
    · simp only [List.flatMap_cons, e, List.map_cons, List.cons_append]
      rfl
  | @short f t k hk hv ht w ih =>
    obtain ⟨l, e⟩ := ih
    obtain ⟨l', e'⟩ := one_head k hk h hv ht
    rw [runs_field, e']
    refine ⟨(l.map fun r => ((k, d.get k) :: r.1, r.2)) ++
      l'.flatMap fun p => (runs f p.2).map fun r => ((k, p.1) :: r.1, r.2), ?_⟩
    · simp only [List.flatMap_cons, e, List.map_cons, List.cons_append]
      rfl

theorem mem_fields {f : List Item} {k : Field} : k ∈ fields f ↔ Item.field k ∈ f := by
  simp only [fields, List.mem_filterMap]
  constructor
  · rintro ⟨i, hi, e⟩
    cases i with
    | field k' => simp only [Option.some.injEq] at e; rw [← e]; exact hi
    | lit c => simp at e
    | blank => simp at e
  · intro h
    exact ⟨_, h, rfl⟩

theorem found_named (f : List Item) (d : DateTime) (k : Field) :
    found ((fields f).map fun k => (k, d.get k)) k = (named f d).get k := by
  have : ((fields f).map fun k => (k, d.get k)).lookup k = if k ∈ fields f then some (d.get k) else none := by
    induction fields f with
    | nil => simp
    | cons a l ih =>
      simp only [List.map_cons, List.lookup_cons, ih, List.mem_cons]
      by_cases e : k = a
      · subst e; simp
      · simp [e, beq_eq_false_iff_ne.2 e]
  unfold found
  rw [this]
  by_cases hk : Item.field k ∈ f
  · rw [if_pos (mem_fields.2 hk)]
    cases k <;> simp [named, DateTime.get, hk]
  · rw [if_neg fun e => hk (mem_fields.1 e)]
    cases k <;> simp [named, DateTime.get, hk]

theorem datetime_ok {d : DateTime} (h : Real d) : datetime d.year d.month d.day d.hour d.minute d.second = .ok d := by
  obtain ⟨h1, h2, h3, h4, h5, h6, h7, h8, h9⟩ := h
  unfold datetime
  rw [if_pos]
  exact ⟨h1, h2, by simp [validDay, h3, h4, h5, h6], h7, h8, h9⟩

theorem datetime_real {y m d h mn s : ℕ} {r : DateTime} (e : datetime y m d h mn s = .ok r) :
    r = ⟨y, m, d, h, mn, s⟩ ∧ Real r := by
  unfold datetime at e
  split at e
  · rename_i hc
    injection e with e
    subst e
    obtain ⟨h1, h2, h3, h7, h8, h9⟩ := hc
    simp only [validDay, decide_eq_true_eq] at h3
    exact ⟨rfl, h1, h2, h3.1, h3.2.1, h3.2.2.1, h3.2.2.2, h7, h8, h9⟩
  · exact absurd e (by simp)

/-- A date without its year, month or day is real unless it is 29 February of no year. -/
theorem real_named {d : DateTime} (h : Real d) (f : List Item) : Real (named f d) ↔
    ¬ (Item.field .year ∉ f ∧ Item.field .month ∈ f ∧ Item.field .day ∈ f ∧ d.month = 2 ∧ d.day = 29) := by
  obtain ⟨b1, b2, b3, b4, b5⟩ := bounds h
  obtain ⟨h1, h2, h3, h4, h5, h6, h7, h8, h9⟩ := h
  have l0 : isLeap 1900 = false := by decide +kernel
  have dim (b : Bool) : 28 ≤ daysInMonth b d.month := by
    unfold daysInMonth; split <;> (try split) <;> omega
  have dimf : d.month ≠ 2 → daysInMonth false d.month = daysInMonth (isLeap d.year) d.month := by
    intro hm
    unfold daysInMonth
    split <;> first | (exfalso; omega) | rfl
  have dim2 : d.month = 2 → daysInMonth false d.month = 28 := by
    intro hm; rw [hm]; rfl
  have dim2' : d.month = 2 → daysInMonth (isLeap d.year) d.month ≤ 29 := by
    intro hm; rw [hm]; simp only [daysInMonth]; split <;> omega
  have hh : (if Item.field .hour ∈ f then d.hour else 0) < 24 := by split <;> omega
  have hmn : (if Item.field .minute ∈ f then d.minute else 0) < 60 := by split <;> omega
  have hs : (if Item.field .second ∈ f then d.second else 0) < 60 := by split <;> omega
  have jan (b : Bool) : daysInMonth b 1 = 31 := rfl
  unfold Real named
  simp only [DateTime.get, unnamed]
  by_cases hy : Item.field .year ∈ f <;> by_cases hm : Item.field .month ∈ f <;> by_cases hd : Item.field .day ∈ f <;>
    simp only [hy, hm, hd, if_true, if_false, not_true_eq_false, false_and, and_false, not_false_eq_true, true_and,
      iff_true, l0, jan]
  · exact ⟨h1, h2, h3, h4, h5, h6, hh, hmn, hs⟩
  · have := dim (isLeap d.year)
    exact ⟨h1, h2, h3, h4, by omega, by omega, hh, hmn, hs⟩
  · exact ⟨h1, h2, by omega, by omega, h5, by omega, hh, hmn, hs⟩
  · exact ⟨h1, h2, by omega, by omega, by omega, by omega, hh, hmn, hs⟩
  · constructor
    · rintro ⟨-, -, -, -, -, h', -⟩ ⟨e1, e2⟩
      rw [dim2 e1] at h'
      omega
    · intro hn
      refine ⟨by omega, by omega, h3, h4, h5, ?_, hh, hmn, hs⟩
      by_cases e : d.month = 2
      · have := dim2' e
        rw [dim2 e]
        have : d.day ≠ 29 := fun e2 => hn ⟨e, e2⟩
        omega
      · rw [dimf e]; exact h6
  · have := dim false
    exact ⟨by omega, by omega, h3, h4, by omega, by omega, hh, hmn, hs⟩
  · exact ⟨by omega, by omega, by omega, by omega, h5, by omega, hh, hmn, hs⟩
  · exact ⟨by omega, by omega, by omega, by omega, by omega, by omega, hh, hmn, hs⟩

/-- C167: a date written in a format is read as that date, with the components that the format does not name set to
1 January 1900, 00:00:00; only 29 February is refused if the format names no year. -/
theorem C167_read_back {fmt t : Text} {f : List Item} {d : DateTime} (hf : items fmt = some f) (hn : (fields f).Nodup)
    (hd : Real d) (w : Written d f t) :
    (¬ (Item.field .year ∉ f ∧ Item.field .month ∈ f ∧ Item.field .day ∈ f ∧ d.month = 2 ∧ d.day = 29) →
      strptime t fmt = .ok (named f d)) ∧
    (Item.field .year ∉ f ∧ Item.field .month ∈ f ∧ Item.field .day ∈ f ∧ d.month = 2 ∧ d.day = 29 →
      strptime t fmt = .error .valueError) := by
  obtain ⟨l, e⟩ := runs_written hd w
  have hs : strptime t fmt = datetime (named f d).year (named f d).month (named f d).day (named f d).hour
      (named f d).minute (named f d).second := by
    unfold strptime
    simp only [hf, if_pos hn, e, if_true, found_named]
    rfl
  constructor
  · intro h
    rw [hs, datetime_ok ((real_named hd f).2 h)]
  · intro h
    rw [hs]
    cases hc : datetime (named f d).year (named f d).month (named f d).day (named f d).hour (named f d).minute
        (named f d).second with
    | error e =>
      unfold datetime at hc
      split at hc
      · exact absurd hc (by simp)
      · exact hc.symm
    | ok r =>
      obtain ⟨e, hr⟩ := datetime_real hc
      rw [e] at hr
      exact absurd h ((real_named hd f).1 hr)

/-- What a match consumes follows the format. -/
theorem matchAlt_number {a : List Pat} {t : Text} {v n : ℕ} {rest : Text} (h : matchAlt a t v = some (n, rest)) :
    ∃ ds : List ℕ, (∀ k ∈ ds, k < 10) ∧ n = ds.foldl (fun v k => 10 * v + k) v ∧
      ((∀ p ∈ a, ∃ lo hi, p = .rng lo hi) → t = ds.map numeral ++ rest ∧ ds.length = a.length) := by
  induction a generalizing t v with
  | nil =>
    simp only [matchAlt, Option.some.injEq, Prod.mk.injEq] at h
    exact ⟨[], by simp, by simp [h.1], fun _ => by simp [h.2]⟩
  | cons p ps ih =>
    cases t with
    | nil => cases p <;> simp [matchAlt] at h
    | cons c t =>
      cases p with
      | sp =>
        simp only [matchAlt] at h
        split at h
        · obtain ⟨ds, h1, h2, -⟩ := ih h
          refine ⟨ds, h1, h2, fun hp => ?_⟩
          obtain ⟨lo, hi, e⟩ := hp .sp (by simp)
          cases e
        · simp at h
      | rng lo hi =>
        simp only [matchAlt] at h
        split at h
        · rename_i k hk
          split at h
          · obtain ⟨ds, h1, h2, h3⟩ := ih h
            have hk' : k < 10 ∧ c = numeral k := by
              unfold digit? at hk
              split at hk
              · rename_i hc
                injection hk with hk
                have a1 : 48 ≤ c.toNat := hc.1
                have a2 : c.toNat ≤ 57 := hc.2
                have e0 : '0'.toNat = 48 := rfl
                rw [e0] at hk
                refine ⟨by omega, ?_⟩
                rw [numeral, ← hk, show 48 + (c.toNat - 48) = c.toNat by omega, Char.ofNat_toNat]
              · simp at hk
            refine ⟨k :: ds, ?_, by simpa using h2, fun hp => ?_⟩
            · simp only [List.forall_mem_cons]
              exact ⟨hk'.1, h1⟩
            · obtain ⟨e1, e2⟩ := h3 fun p hp' => hp p (by simp [hp'])
              simp [hk'.2, e1, e2]
          · simp at h
        · simp at h

theorem alt_number {k : Field} {a : List Pat} (ha : a ∈ alts k) {t : Text} {n : ℕ} {rest : Text}
    (h : matchAlt a t 0 = some (n, rest)) : ∃ s, t = s ++ rest ∧ Number s n := by
  have key : (∀ p ∈ a, ∃ lo hi, p = Pat.rng lo hi) → a ≠ [] → ∃ s, t = s ++ rest ∧ Number s n := by
    intro hp hne
    obtain ⟨ds, h1, h2, h3⟩ := matchAlt_number h
    obtain ⟨e, e'⟩ := h3 hp
    refine ⟨_, e, ds, ?_, h1, .inl rfl, h2⟩
    intro h0
    rw [h0] at e'
    exact hne (List.length_eq_zero_iff.1 e'.symm)
  by_cases hs : a = [.sp, .rng 1 9]
  · subst hs
    cases t with
    | nil => simp [matchAlt] at h
    | cons c t =>
      simp only [matchAlt] at h
      split at h
      · rename_i hc
        obtain ⟨ds, h1, h2, h3⟩ := matchAlt_number h
        obtain ⟨e, e'⟩ := h3 (by simp)
        refine ⟨' ' :: ds.map numeral, by rw [e, hc]; rfl, ds, ?_, h1, .inr rfl, h2⟩
        intro h0
        simp [h0] at e'
      · simp at h
  · cases k <;> simp only [alts, List.mem_cons, List.not_mem_nil, or_false] at ha <;>
      (refine key ?_ ?_ <;> (rcases ha with rfl | rfl | rfl | rfl | rfl) <;> simp_all)

theorem blanks_split (t : Text) : t = List.replicate (blanks t) ' ' ++ t.drop (blanks t) := by
  induction t with
  | nil => rfl
  | cons c t ih =>
    by_cases h : c = ' '
    · subst h
      simp only [blanks, List.replicate_succ, List.cons_append, List.drop_succ_cons]
      rw [← ih]
    · have : blanks (c :: t) = 0 := by
        unfold blanks
        split
        · rename_i heq
          injection heq with h1 h2
          exact absurd h1 h
        · rfl
      simp [this]

/-- What any match of a format consumes follows the format. -/
theorem runs_denotes {f : List Item} {t : Text} {vs : List (Field × ℕ)} {rest : Text} (h : (vs, rest) ∈ runs f t) :
    vs.map (·.1) = fields f ∧
    ∃ s, t = s ++ rest ∧ ∀ g : Field → ℕ, (∀ p ∈ vs, g p.1 = p.2) → Denotes g f s := by
  induction f generalizing t vs with
  | nil =>
    simp only [runs, List.mem_singleton, Prod.mk.injEq] at h
    obtain ⟨rfl, rfl⟩ := h
    exact ⟨rfl, [], rfl, fun _ _ => .done⟩
  | cons i f ih =>
    cases i with
    | lit c =>
      cases t with
      | nil => simp [runs] at h
      | cons x t =>
        simp only [runs] at h
        split at h
        · rename_i hc
          obtain ⟨h1, s, h2, h3⟩ := ih h
          exact ⟨by simpa [fields] using h1, x :: s, by rw [h2]; rfl, fun g hg => .lit hc (h3 g hg)⟩
        · simp at h
    | blank =>
      simp only [runs, List.mem_flatMap, List.mem_range] at h
      obtain ⟨j, hj, h⟩ := h
      obtain ⟨h1, s, h2, h3⟩ := ih h
      refine ⟨by simpa [fields] using h1, List.replicate (blanks t - j - 1 + 1) ' ' ++ s, ?_,
        fun g hg => .blank _ (h3 g hg)⟩
      rw [List.append_assoc, ← h2]
      have e := blanks_split t
      have : t.take (blanks t - j) = List.replicate (blanks t - j - 1 + 1) ' ' := by
        have gen (b : ℕ) (u r : Text) (hu : u = List.replicate b ' ' ++ r) (hb : j < b) :
            u.take (b - j) = List.replicate (b - j - 1 + 1) ' ' := by
          rw [hu, List.take_append_of_le_length (by simp), List.take_replicate]
          congr 1
          omega
        exact gen _ _ _ e hj
      rw [← this, List.take_append_drop]
    | field k =>
      rw [runs_field] at h
      simp only [List.mem_flatMap, List.mem_map, Prod.mk.injEq, firsts, List.mem_filterMap] at h
      obtain ⟨⟨n, t'⟩, ⟨a, ha, hm⟩, ⟨r1, r2⟩, hr, rfl, rfl⟩ := h
      obtain ⟨h1, s, h2, h3⟩ := ih hr
      obtain ⟨s', e, hn⟩ := alt_number ha hm
      refine ⟨by simp only [List.map_cons, h1]; rfl, s' ++ s, ?_, fun g hg => ?_⟩
      · simp only at h2
        rw [e, h2, List.append_assoc]
      · refine .field k s' ?_ (h3 g fun p hp => hg p (by simp [hp]))
        have := hg (k, n) (by simp)
        simp only at this
        rw [this]
        exact hn

/-- C167: what is read is in the text.  A text that is accepted follows the format, its numbers are the components of
the date, and the components that the format does not name are those of 1 January 1900, 00:00:00; the date is one of
the calendar. -/
theorem C167_sound {fmt t : Text} {d : DateTime} (h : strptime t fmt = .ok d) :
    ∃ f, items fmt = some f ∧ Denotes d.get f t ∧ Real d ∧ ∀ k, Item.field k ∉ f → d.get k = unnamed k := by
  unfold strptime at h
  split at h
  · simp at h
  rename_i f hf
  split at h
  · rename_i hn
    split at h
    · simp at h
    rename_i vs rest l hr
    split at h
    · rename_i hrest
      subst hrest
      obtain ⟨e, hreal⟩ := datetime_real h
      have hm : (vs, ([] : Text)) ∈ runs f t := by rw [hr]; simp
      obtain ⟨h1, s, h2, h3⟩ := runs_denotes hm
      have hg : ∀ k, d.get k = found vs k := by
        intro k
        rw [e]
        cases k <;> rfl
      refine ⟨f, hf, ?_, hreal, ?_⟩
      · rw [h2, List.append_nil]
        apply h3
        rintro ⟨k, v⟩ hp
        rw [hg]
        have hnd : (vs.map (·.1)).Nodup := by rw [h1]; exact hn
        have : vs.lookup k = some v := by
          clear h3 hg h1 hr e h hm
          induction vs with
          | nil => simp at hp
          | cons a vs ih =>
            simp only [List.map_cons, List.nodup_cons] at hnd
            rw [List.lookup_cons]
            rcases List.mem_cons.1 hp with rfl | hp
            · simp
            · have : k ≠ a.1 := by
                rintro rfl
                exact hnd.1 (List.mem_map.2 ⟨_, hp, rfl⟩)
              rw [beq_eq_false_iff_ne.2 this]
              exact ih hp hnd.2
        simp [found, this]
      · intro k hk
        rw [hg]
        have : vs.lookup k = none := by
          rw [List.lookup_eq_none_iff]
          intro p hp
          have : p.1 ∈ fields f := by rw [← h1]; exact List.mem_map.2 ⟨p, hp, rfl⟩
          simp only [beq_eq_false_iff_ne, ne_eq, bne_iff_ne]
          rintro rfl
          exact hk (mem_fields.1 this)
        simp [found, this]
    · simp at h
  · simp at h

/-- C167: the dates of a column, each written in the format, are read in order. -/
theorem C167_column {fmt : Text} {f : List Item} (hf : items fmt = some f) (hn : (fields f).Nodup)
    (hy : Item.field .year ∈ f) (h2 : shortYear fmt = false) {ds : List DateTime} {col : List Text}
    (hd : ∀ d ∈ ds, Real d) (hw : List.Forall₂ (fun d t => Written d f t) ds col) :
    date2ymdh col fmt = .ok (ds.map (named f)) := by
  unfold date2ymdh
  simp only [h2, Bool.false_eq_true, if_false]
  induction hw with
  | nil => rfl
  | @cons d t ds col h hw ih =>
    rw [List.mapM_cons, (C167_read_back hf hn (hd d (by simp)) h).1 (fun hc => hc.1 hy)]
    simp only [List.map_cons]
    rw [ih fun d hd' => hd d (by simp [hd'])]
    rfl

/-- C167: reading succeeds only if every entry can be read, and then entry by entry. -/
theorem C167_each {fmt : Text} {col : List Text} {ds : List DateTime} (h : date2ymdh col fmt = .ok ds) :
    shortYear fmt = false ∧ List.Forall₂ (fun t d => strptime t fmt = .ok d) col ds := by
  unfold date2ymdh at h
  split at h
  · simp at h
  rename_i hs
  refine ⟨by simpa using hs, ?_⟩
  clear hs
  induction col generalizing ds with
  | nil =>
    simp only [List.mapM_nil, pure, Except.pure, Except.ok.injEq] at h
    subst h
    exact .nil
  | cons t col ih =>
    rw [List.mapM_cons] at h
    cases h1 : strptime t fmt with
    | error e => rw [h1] at h; cases h
    | ok d =>
      cases h2 : col.mapM fun t => strptime t fmt with
      | error e => rw [h1, h2] at h; cases h
      | ok l =>
        rw [h1, h2] at h
        simp only [bind, Except.bind, pure, Except.pure, Except.ok.injEq] at h
        subst h
        exact .cons h1 (ih h2)

theorem directive_some {k : Char} {i : Item} (h : directive k = some i) {t : Text} {f : List Item} (hm : Means t f) :
    Means ('%' :: k :: t) (i :: f) := by
  unfold directive at h
  split_ifs at h with h1 h2 h3 h4 h5 h6 h7 <;> simp only [Option.some.injEq, reduceCtorEq] at h <;> subst h
  · subst h1; exact .year hm
  · subst h2; exact .month hm
  · subst h3; exact .day hm
  · subst h4; exact .hour hm
  · subst h5; exact .minute hm
  · subst h6; exact .second hm
  · subst h7; exact .percent hm

theorem items_blanks (n : ℕ) {t : Text} (h : ∀ t', t ≠ ' ' :: t') :
    items (List.replicate (n + 1) ' ' ++ t) = (items t).map (.blank :: ·) := by
  induction n with
  | zero =>
    show items (' ' :: t) = _
    rw [items]
    exact h
  | succ n ih => exact ih

/-- C167: a format is understood as it says. -/
theorem C167_format (fmt : Text) (f : List Item) : items fmt = some f ↔ Means fmt f := by
  constructor
  · induction fmt using items.induct generalizing f with
    | case1 => intro h; cases h; exact .done
    | case2 k t i g hg hi ih =>
      intro h
      simp only [items, hi, hg, Option.some.injEq] at h
      subst h
      exact directive_some hi (ih _ hg)
    | case3 k t hno ih =>
      intro h
      rw [items] at h
      split at h
      · rename_i i g hi hg; exact (hno i g hi hg).elim
      · cases h
    | case4 => intro h; simp [items] at h
    | case5 t ih =>
      intro h
      rw [items] at h
      have := ih f h
      generalize hu : (' ' :: t : Text) = u at this
      cases this <;> try (simp at hu; done)
      · rename_i t' f' n hn hm
        exact Means.blank (n + 1) hn hm
      · rename_i c hc1 hc2 hm
        injection hu with h1 h2
        exact (hc2 h1.symm).elim
    | case6 t hne ih =>
      intro h
      rw [items] at h
      · obtain ⟨g, hg, rfl⟩ := Option.map_eq_some_iff.1 h
        exact Means.blank 0 (fun t' e => hne t' e) (ih g hg)
      · exact hne
    | case7 c t h1 h2 h3 h4 ih =>
      intro h
      rw [items] at h
      · obtain ⟨g, hg, rfl⟩ := Option.map_eq_some_iff.1 h
        have hb : c ≠ ' ' := fun e => h4 e
        have hp : c ≠ '%' := by
          rintro rfl
          cases t with
          | nil => exact h2 rfl rfl
          | cons k t => exact h1 k t rfl rfl
        exact Means.lit c hp hb (ih g hg)
      all_goals assumption
  · intro h
    induction h with
    | done => rfl
    | blank n hn _ ih => rw [items_blanks n hn, ih]; rfl
    | @lit t f c h1 h2 _ ih =>
      rw [items.eq_def]
      split <;> simp_all
    | _ _ ih => simp [items, directive, ih]

example : Means "%Y-%m-%d  %H:%M".toList [.field .year, .lit '-', .field .month, .lit '-', .field .day, .blank, .field .hour,
    .lit ':', .field .minute] := (C167_format _ _).1 (by decide)

/-- C167: a format with a year of two digits is refused. -/
theorem C167_short_year (fmt : Text) (a b : Text) (h : fmt = a ++ '%' :: 'y' :: b) (col : List Text) :
    date2ymdh col fmt = .error .valueError := by
  have : shortYear fmt = true := by
    subst h
    induction a with
    | nil => rfl
    | cons c a ih =>
      rw [List.cons_append]
      unfold shortYear
      split
      · rfl
      · rename_i heq
        injection heq with h1 h2
        rw [← h2]; exact ih
      · rename_i heq; cases heq
  simp [date2ymdh, this]

/-! ### The column of the file -/

theorem mem_written {d : DateTime} {f : List Item} {t : Text} (w : Written d f t) {c : Char} (hc : Item.lit c ∈ f) : c ∈ t := by
  induction w with
  | done => simp at hc
  | lit w ih =>
    rcases List.mem_cons.1 hc with h | h
    · cases h; simp
    · simp [ih h]
  | blank n hb w ih =>
    rcases List.mem_cons.1 hc with h | h
    · cases h
    · simp [ih h]
  | year w ih =>
    rcases List.mem_cons.1 hc with h | h
    · cases h
    · simp [ih h]
  | padded k hk w ih =>
    rcases List.mem_cons.1 hc with h | h
    · cases h
    · simp [ih h]
  | short k hk hv ht w ih =>
    rcases List.mem_cons.1 hc with h | h
    · cases h
    · simp [ih h]

theorem numeral_ne_zero {n : ℕ} (h : n < 10) (h0 : n ≠ 0) : numeral n ≠ '0' := by
  interval_cases n <;> first | exact absurd rfl h0 | decide +kernel

/-- A column of dates that begin with the year, or have a separator, is read as it is. -/
theorem readColumn_same {f : List Item} {ds : List DateTime} {col : List Text}
    (hw : List.Forall₂ (fun d t => Written d f t) ds col) (hd : ∀ d ∈ ds, Real d)
    (h : ((∃ g, f = .field .year :: g) ∧ ∀ d ∈ ds, 1000 ≤ d.year) ∨ ∃ c, Item.lit c ∈ f ∧ c ∈ ['-', '/', ':']) :
    readColumn col = col := by
  unfold readColumn
  split
  · rename_i hdig
    rcases h with ⟨⟨g, rfl⟩, hy⟩ | ⟨c, hc, hc'⟩
    · clear hdig
      induction hw with
      | nil => rfl
      | @cons d t ds col hwt hw ih =>
        rw [List.map_cons, ih (fun d h => hd d (by simp [h])) fun d h => hy d (by simp [h])]
        congr 1
        have hreal := hd d (by simp)
        have h1000 := hy d (by simp)
        have h9 := hreal.2.1
        cases hwt with
        | year w =>
          have : numeral (d.year / 1000) ≠ '0' := numeral_ne_zero (by omega) (by omega)
          simp [four, List.dropWhile, this]
        | padded k hk w => exact absurd rfl hk
        | short k hk => exact absurd rfl hk
    · cases hw with
      | nil => rfl
      | @cons d t ds col hwt hw =>
        have := (hdig t (by simp)).2 c (mem_written hwt hc)
        simp only [List.mem_cons, List.not_mem_nil, or_false] at hc'
        rcases hc' with rfl | rfl | rfl <;> exact absurd this (by decide +kernel)
  · rfl

/-- C167, in part: the loader of track files reads every column of dates written in the configured format, if the
format begins with the year (of four digits, none before 1000) or separates components with `-`, `/` or `:`. -/
theorem C167_loader_partial {fmt : Text} {f : List Item} (hf : items fmt = some f) (hn : (fields f).Nodup)
    (hy : Item.field .year ∈ f) (h2 : shortYear fmt = false) {ds : List DateTime} {col : List Text}
    (hd : ∀ d ∈ ds, Real d) (hw : List.Forall₂ (fun d t => Written d f t) ds col)
    (h : ((∃ g, f = .field .year :: g) ∧ ∀ d ∈ ds, 1000 ≤ d.year) ∨ ∃ c, Item.lit c ∈ f ∧ c ∈ ['-', '/', ':']) :
    loaderDates fmt col = .ok (ds.map (named f)) := by
  unfold loaderDates
  rw [readColumn_same hw hd h]
  exact C167_column hf hn hy h2 hd hw

/-- The format of example/yasi.ini L44, `%Y%m%d%H`. -/
def hourFormat : Text := ['%', 'Y', '%', 'm', '%', 'd', '%', 'H']

def hourItems : List Item := [.field .year, .field .month, .field .day, .field .hour]

/-- C167 fails for other formats of digits only: with `%d%m%Y` the first of February becomes the tenth, because the
column is read as numbers and 01022000 loses its leading zero. -/
theorem C167_leading_zero_fails : ∃ (fmt : Text) (f : List Item) (d : DateTime) (t : Text),
    items fmt = some f ∧ (fields f).Nodup ∧ Real d ∧ Written d f t ∧ d = ⟨2000, 2, 1, 0, 0, 0⟩ ∧
    strptime t fmt = .ok d ∧ loaderDates fmt [t] = .ok [⟨2000, 2, 10, 0, 0, 0⟩] := by
  refine ⟨['%', 'd', '%', 'm', '%', 'Y'], [.field .day, .field .month, .field .year], ⟨2000, 2, 1, 0, 0, 0⟩,
    ['0', '1', '0', '2', '2', '0', '0', '0'], rfl, by decide +kernel, ?_, ?_, rfl, rfl, rfl⟩
  · unfold Real; decide +kernel
  · exact .padded .day (by simp) (.padded .month (by simp) (.year .done))

/-- C167 fails in data processing, which does not pass on the format of the configuration: a file with dates written
as `%Y%m%d%H` is refused, whatever the dates, although the loader of track files reads it. -/
theorem C167_processing_fails {ds : List DateTime} {col : List Text} (hne : ds ≠ [])
    (hd : ∀ d ∈ ds, Real d ∧ 1000 ≤ d.year) (hw : List.Forall₂ (fun d t => Written d hourItems t) ds col) :
    processDates hourFormat col = .error .valueError ∧
    loaderDates hourFormat col = .ok (ds.map fun d => ⟨d.year, d.month, d.day, d.hour, 0, 0⟩) := by
  have hsame := readColumn_same hw (fun d h => (hd d h).1) (.inl ⟨⟨_, rfl⟩, fun d h => (hd d h).2⟩)
  constructor
  · unfold processDates
    rw [hsame]
    cases hw with
    | nil => exact absurd rfl hne
    | @cons d t ds col h hw =>
      have hs : strptime t defaultFormat = .error .valueError := by
        have h9 := (hd d (by simp)).1.2.1
        cases h with
        | @year _ t w =>
          have hr : runs [.field .year, .lit '-', .field .month, .lit '-', .field .day, .blank, .field .hour, .lit ':',
              .field .minute, .lit ':', .field .second] (four d.year ++ t) = [] := by
            rw [runs_field, four_head h9]
            simp only [List.flatMap_cons, List.flatMap_nil, List.append_nil, List.map_eq_nil_iff]
            have hm := (bounds (hd d (by simp)).1).1
            cases w with
            | @padded _ t k hk w =>
              have : '-'.toLower ≠ (numeral (d.month / 10)).toLower := by
                generalize d.month = m at hm ⊢
                interval_cases m <;> decide +kernel
              simp only [two, DateTime.get, List.cons_append, runs, if_neg this]
            | @short _ t k hk hv ht w =>
              have : '-'.toLower ≠ (numeral d.month).toLower := by
                generalize d.month = m at hm ⊢
                interval_cases m <;> decide +kernel
              simp only [DateTime.get, runs]
              exact if_neg this
          have hi : items defaultFormat = some [.field .year, .lit '-', .field .month, .lit '-', .field .day, .blank,
              .field .hour, .lit ':', .field .minute, .lit ':', .field .second] := rfl
          unfold strptime
          simp only [hi, hr]
          rw [if_pos (by decide +kernel)]
        | padded k hk w => exact absurd rfl hk
        | short k hk => exact absurd rfl hk
      have hy : shortYear defaultFormat = false := rfl
      simp only [date2ymdh, hy, Bool.false_eq_true, if_false, List.mapM_cons, hs]
      rfl
  · rw [C167_loader_partial (f := hourItems) rfl (by decide +kernel) (by simp [hourItems]) rfl (fun d h => (hd d h).1) hw
      (.inl ⟨⟨_, rfl⟩, fun d h => (hd d h).2⟩)]
    congr 1

/-- Both stages read a file in the default format. -/
theorem C167_default {ds : List DateTime} {col : List Text} (hd : ∀ d ∈ ds, Real d) {f : List Item}
    (hf : items defaultFormat = some f) (hw : List.Forall₂ (fun d t => Written d f t) ds col) :
    loaderDates defaultFormat col = .ok ds ∧ processDates defaultFormat col = .ok ds := by
  have hi : items defaultFormat = some [.field .year, .lit '-', .field .month, .lit '-', .field .day, .blank,
      .field .hour, .lit ':', .field .minute, .lit ':', .field .second] := rfl
  rw [hi] at hf
  injection hf with hf
  subst hf
  have := C167_loader_partial hi (by decide +kernel) (by simp) rfl hd hw (.inr ⟨'-', by simp, by simp⟩)
  have e : ds.map (named [.field .year, .lit '-', .field .month, .lit '-', .field .day, .blank,
      .field .hour, .lit ':', .field .minute, .lit ':', .field .second]) = ds := by
    conv_rhs => rw [← List.map_id ds]
    apply List.map_congr_left
    intro d _
    simp [named, DateTime.get]
  rw [e] at this
  exact ⟨this, this⟩

/-! ### Examples -/

/-- The default format, with components in one and in two digits. -/
example : strptime ['2', '0', '0', '0', '-', '2', '-', '2', '9', ' ', ' ', '6', ':', '0', '5', ':', '0', '0'] defaultFormat =
    .ok ⟨2000, 2, 29, 6, 5, 0⟩ := rfl

/-- The 30th of February, a month 13, and a text that goes on, are refused. -/
example : strptime ['2', '0', '0', '0', '0', '2', '3', '0', '0', '6'] hourFormat = .error .valueError ∧
    strptime ['2', '0', '0', '0', '1', '3', '3', '1', '0', '6'] hourFormat = .error .valueError ∧
    strptime ['2', '0', '0', '0', '1', '2', '3', '1', '0', '6', '0'] hourFormat = .error .valueError := ⟨rfl, rfl, rfl⟩

/-- The hypotheses of the theorems about files are met. -/
example : processDates hourFormat [['2', '0', '1', '1', '0', '2', '0', '2', '1', '2']] = .error .valueError ∧
    loaderDates hourFormat [['2', '0', '1', '1', '0', '2', '0', '2', '1', '2']] = .ok [⟨2011, 2, 2, 12, 0, 0⟩] :=
  C167_processing_fails (ds := [⟨2011, 2, 2, 12, 0, 0⟩]) (by simp) (by simp [Real, isLeap, daysInMonth])
    (.cons (.year (t := ['0', '2', '0', '2', '1', '2'])
      (.padded .month (by simp) (.padded .day (by simp) (.padded .hour (by simp) .done)))) .nil)

end Tcrm.DateText
