import Verif.Model.TextFiles
import Verif.Spec.TextFiles
import Verif.Lemmas.GustFiles
import Mathlib.Data.List.Forall2
import Mathlib.Data.List.TakeWhile
import Mathlib.Tactic.Linarith
import Mathlib.Tactic.Ring
import Mathlib.Tactic.FieldSimp
import Mathlib.Tactic.NormNum
/-!
C132: the files between the stages keep the data.
-/
namespace Tcrm.TextFiles
open Tcrm.GustFiles

theorem split_self {c : Char} : ∀ {a : Text}, c ∉ a → split c a = [a]
  | [], _ => rfl
  | x :: a, h => by
    rw [split, if_neg (by rintro rfl; simp at h), split_self (fun m => h (List.mem_cons_of_mem _ m))]

theorem split_cons {c : Char} {b : Text} : ∀ {a : Text}, c ∉ a → split c (a ++ c :: b) = a :: split c b
  | [], _ => by rw [List.nil_append, split, if_pos rfl]
  | x :: a, h => by
    rw [List.cons_append, split, if_neg (by rintro rfl; simp at h),
      split_cons (fun m => h (List.mem_cons_of_mem _ m))]

theorem split_join : ∀ {l : List Text}, l ≠ [] → (∀ t ∈ l, ',' ∉ t) → split ',' (join l) = l
  | [], h, _ => absurd rfl h
  | [a], _, h => by rw [join, split_self (h a (by simp))]
  | a :: b :: l, _, h => by
    rw [join, split_cons (h a (by simp)), split_join (by simp) (fun t m => h t (List.mem_cons_of_mem _ m))]

theorem split_lines : ∀ {l : List Text}, (∀ t ∈ l, '\n' ∉ t) →
    split '\n' (l.flatMap fun t => t ++ ['\n']) = l ++ [[]]
  | [], _ => rfl
  | a :: l, h => by
    rw [List.flatMap_cons, List.append_assoc, List.singleton_append, split_cons (h a (by simp)),
      split_lines (fun t m => h t (List.mem_cons_of_mem _ m))]
    rfl

theorem mem_join {c : Char} : ∀ {l : List Text}, c ∈ join l → c = ',' ∨ ∃ t ∈ l, c ∈ t
  | [], h => by simp [join] at h
  | [a], h => Or.inr ⟨a, by simp, h⟩
  | a :: b :: l, h => by
    rw [join, List.mem_append, List.mem_cons] at h
    rcases h with h | h | h
    · exact Or.inr ⟨a, by simp, h⟩
    · exact Or.inl h
    · rcases mem_join h with h | ⟨t, m, h⟩
      · exact Or.inl h
      · exact Or.inr ⟨t, List.mem_cons_of_mem _ m, h⟩

/-- A field as the formats write it: blanks and then a text of digits, points, letters and signs. -/
structure Field (t core : Text) : Prop where
  eq : ∃ k, t = List.replicate k ' ' ++ core
  ne : core ≠ []
  plain : ∀ c ∈ core, c ≠ ' ' ∧ c ≠ '\n' ∧ c ≠ '\r' ∧ c ≠ ',' ∧ c ≠ '%'

theorem dropWhile_blanks (p : Char → Bool) (hp : p ' ' = true) (k : ℕ) (t : Text) :
    (List.replicate k ' ' ++ t).dropWhile p = t.dropWhile p := by
  induction k with
  | zero => simp
  | succ k ih => rw [List.replicate_succ, List.cons_append, List.dropWhile_cons, if_pos hp, ih]

theorem strip_blanks (k : ℕ) (t : Text) : strip (List.replicate k ' ' ++ t) = strip t := by
  unfold strip
  simp only
  rw [dropWhile_blanks _ (by simp)]

theorem strip_plain {t : Text} (ht : t ≠ []) (h1 : ∀ c, t.head? = some c → c ≠ ' ' ∧ c ≠ '\n' ∧ c ≠ '\r')
    (h2 : ∀ c, t.getLast? = some c → c ≠ ' ' ∧ c ≠ '\n' ∧ c ≠ '\r') : strip t = t := by
  unfold strip
  simp only
  have e1 : t.dropWhile (fun c : Char => decide (c = ' ' ∨ c = '\n' ∨ c = '\r')) = t := by
    cases t with
    | nil => rfl
    | cons a l =>
      have := h1 a rfl
      rw [List.dropWhile_cons, if_neg (by simpa [not_or] using this)]
  rw [e1]
  have e2 : t.reverse.dropWhile (fun c : Char => decide (c = ' ' ∨ c = '\n' ∨ c = '\r')) = t.reverse := by
    cases hr : t.reverse with
    | nil => rfl
    | cons a l =>
      have : t.getLast? = some a := by rw [← List.head?_reverse, hr]; rfl
      have := h2 a this
      rw [List.dropWhile_cons, if_neg (by simpa [not_or] using this)]
  rw [e2, List.reverse_reverse]

theorem number_field {t core : Text} (h : Field t core) : number t = number core := by
  obtain ⟨k, rfl⟩ := h.eq
  unfold number
  rw [strip_blanks]

theorem getLast?_join : ∀ {l : List Text} {t : Text}, l.getLast? = some t → t ≠ [] →
    (join l).getLast? = t.getLast?
  | [], _, h, _ => by simp at h
  | [a], t, h, _ => by
    simp only [List.getLast?_singleton, Option.some.injEq] at h
    rw [join, h]
  | a :: b :: l, t, h, ht => by
    rw [List.getLast?_cons_cons] at h
    have ih := getLast?_join h ht
    rw [join, List.getLast?_append, List.getLast?_cons]
    obtain ⟨c, hc⟩ : ∃ c, t.getLast? = some c := by
      cases ht' : t.getLast? with
      | none => exact absurd (List.getLast?_eq_none_iff.1 ht') ht
      | some c => exact ⟨c, rfl⟩
    rw [ih, hc]
    rfl

/-- Reading one line back. -/
theorem fields_join {l cores : List Text} (hl : l ≠ []) (h : List.Forall₂ Field l cores) :
    (fields (join l)).map number = cores.map number ∧ (fields (join l)).length = l.length ∧
      fields (join l) ≠ [] := by
  cases h with
  | nil => exact absurd rfl hl
  | @cons a core l' cores' ha hl' =>
    obtain ⟨k, hk⟩ := ha.eq
    have hmem : ∀ t ∈ a :: l', ∀ c ∈ t, c ≠ ',' ∧ c ≠ '%' ∧ c ≠ '\n' := by
      have gen : ∀ {l cores : List Text}, List.Forall₂ Field l cores → ∀ t ∈ l, ∀ c ∈ t, c ≠ ',' ∧ c ≠ '%' ∧ c ≠ '\n' := by
        intro l cores h
        induction h with
        | nil => simp
        | cons h _ ih =>
          intro t ht
          rcases List.mem_cons.1 ht with rfl | ht
          · intro c hc
            obtain ⟨k, rfl⟩ := h.eq
            rcases List.mem_append.1 hc with hc | hc
            · rw [(List.mem_replicate.1 hc).2]; decide
            · have := h.plain c hc
              exact ⟨this.2.2.2.1, this.2.2.2.2, this.2.1⟩
          · exact ih t ht
      exact gen (List.Forall₂.cons ha hl')
    have hcore : ∀ t ∈ core :: l', ',' ∉ t := by
      intro t ht hc
      rcases List.mem_cons.1 ht with rfl | ht
      · exact (ha.plain _ hc).2.2.2.1 rfl
      · exact (hmem t (List.mem_cons_of_mem _ ht) _ hc).1 rfl
    have e0 : join (a :: l') = List.replicate k ' ' ++ join (core :: l') := by
      cases l' with
      | nil => simp only [join]; exact hk
      | cons b l'' => rw [join, join, hk, List.append_assoc]
    have e1 : (join (a :: l')).takeWhile (· ≠ '%') = join (a :: l') := by
      rw [List.takeWhile_eq_self_iff]
      intro c hc
      rcases mem_join hc with rfl | ⟨t, ht, hc⟩
      · decide
      · simpa using (hmem t ht c hc).2.1
    obtain ⟨d, core', hd⟩ : ∃ d core', core = d :: core' := by
      cases hc : core with
      | nil => exact absurd hc ha.ne
      | cons d c => exact ⟨d, c, rfl⟩
    have hne : join (core :: l') ≠ [] := by
      cases l' with
      | nil => simp only [join]; exact ha.ne
      | cons b l'' => rw [join]; simp
    have hhead : (join (core :: l')).head? = some d := by
      cases l' with
      | nil => simp [join, hd]
      | cons b l'' => rw [join, hd]; rfl
    have hlast : ∀ c, (join (core :: l')).getLast? = some c → c ≠ ' ' ∧ c ≠ '\n' ∧ c ≠ '\r' := by
      intro c hc
      cases hl'' : l'.getLast? with
      | none =>
        rw [List.getLast?_eq_none_iff] at hl''
        subst hl''
        simp only [join] at hc
        have := ha.plain c (List.mem_of_getLast? hc)
        exact ⟨this.1, this.2.1, this.2.2.1⟩
      | some t =>
        have ht : t ∈ l' := List.mem_of_getLast? hl''
        obtain ⟨ct, hct⟩ : ∃ ct, Field t ct := by
          have gen : ∀ {l cores : List Text}, List.Forall₂ Field l cores → t ∈ l → ∃ ct, Field t ct := by
            intro l cores h
            induction h with
            | nil => simp
            | cons h _ ih =>
              intro ht
              rcases List.mem_cons.1 ht with rfl | ht
              · exact ⟨_, h⟩
              · exact ih ht
          exact gen hl' ht
        obtain ⟨k', hk'⟩ := hct.eq
        have hlt : (core :: l').getLast? = some t := by
          rw [List.getLast?_cons, hl'']; rfl
        rw [getLast?_join hlt (by rw [hk']; simp [hct.ne]), hk', List.getLast?_append] at hc
        have hc' : ct.getLast? = some c := by
          cases hx : ct.getLast? with
          | none => exact absurd (List.getLast?_eq_none_iff.1 hx) hct.ne
          | some x => rw [hx] at hc; simpa using hc
        have := hct.plain c (List.mem_of_getLast? hc')
        exact ⟨this.1, this.2.1, this.2.2.1⟩
    have e2 : strip (join (a :: l')) = join (core :: l') := by
      rw [e0, strip_blanks, strip_plain hne _ hlast]
      intro c hc
      rw [hhead] at hc
      cases hc
      have := ha.plain d (by rw [hd]; simp)
      exact ⟨this.1, this.2.1, this.2.2.1⟩
    have e3 : fields (join (a :: l')) = core :: l' := by
      unfold fields
      simp only
      rw [e1, e2, if_neg hne, split_join (by simp) hcore]
    rw [e3]
    refine ⟨?_, by simp, by simp⟩
    rw [List.map_cons, List.map_cons]
    congr 1
    clear e0 e1 e2 e3 hne hhead hlast hcore hmem hl
    induction hl' with
    | nil => rfl
    | cons h _ ih => rw [List.map_cons, List.map_cons, number_field h, ih]

theorem digits_digit {n : ℕ} : (Nat.toDigits 10 n).all Char.isDigit = true :=
  List.all_eq_true.2 fun _ h => Nat.isDigit_of_mem_toDigits (by decide) (by decide) h

theorem pad_digit {w n : ℕ} : (pad w n).all Char.isDigit = true := List.all_eq_true.2 fun _ h => isDigit_of_mem_pad h

theorem digit_plain {c : Char} (h : c.isDigit = true) :
    c ≠ ' ' ∧ c ≠ '\n' ∧ c ≠ '\r' ∧ c ≠ ',' ∧ c ≠ '%' ∧ c ≠ '.' ∧ c ≠ '-' := by
  refine ⟨?_, ?_, ?_, ?_, ?_, ?_, ?_⟩ <;> (rintro rfl; revert h; decide)

theorem toDigits_plain {n : ℕ} {c : Char} (h : c ∈ Nat.toDigits 10 n) :
    c ≠ ' ' ∧ c ≠ '\n' ∧ c ≠ '\r' ∧ c ≠ ',' ∧ c ≠ '%' ∧ c ≠ '.' ∧ c ≠ '-' :=
  digit_plain (Nat.isDigit_of_mem_toDigits (by decide) (by decide) h)

theorem pad_length {n : ℕ} (h : n < 100) : (pad 2 n).length = 2 := by
  have : ∀ n < 100, (pad 2 n).length = 2 := by decide +kernel
  exact this n h

theorem unsigned_fixed (m : ℕ) :
    unsigned (Nat.toDigits 10 (m / 100) ++ '.' :: pad 2 (m % 100)) = some ((m : ℚ) / 100) := by
  have h1 : '.' ∉ Nat.toDigits 10 (m / 100) := fun h => (toDigits_plain h).2.2.2.2.2.1 rfl
  have h2 : '.' ∉ pad 2 (m % 100) := fun h => (digit_plain (isDigit_of_mem_pad h)).2.2.2.2.2.1 rfl
  have hl := pad_length (Nat.mod_lt m (show 0 < 100 by norm_num))
  have h3 : pad 2 (m % 100) ≠ [] := by
    intro h; rw [h] at hl; simp at hl
  unfold unsigned
  rw [split_cons h1, split_self h2]
  simp only
  rw [if_pos ⟨Nat.toDigits_ne_nil, h3, digits_digit, pad_digit⟩, ofDigitChars_pad, hl, Nat.ofDigitChars_ten_toDigits]
  congr 1
  have : ((100 * (m / 100) + m % 100 : ℕ) : ℚ) = m := by rw [Nat.div_add_mod]
  push_cast at this
  linarith

theorem unsigned_whole (n : ℕ) : unsigned (Nat.toDigits 10 n) = some (n : ℚ) := by
  have h1 : '.' ∉ Nat.toDigits 10 n := fun h => (toDigits_plain h).2.2.2.2.2.1 rfl
  unfold unsigned
  rw [split_self h1]
  simp only
  rw [if_pos ⟨Nat.toDigits_ne_nil, digits_digit⟩, Nat.ofDigitChars_ten_toDigits]

theorem strip_core {t : Text} (ht : t ≠ []) (h : ∀ c ∈ t, c ≠ ' ' ∧ c ≠ '\n' ∧ c ≠ '\r' ∧ c ≠ ',' ∧ c ≠ '%') :
    strip t = t :=
  strip_plain ht (fun c hc => have := h c (List.mem_of_mem_head? hc); ⟨this.1, this.2.1, this.2.2.1⟩)
    (fun c hc => have := h c (List.mem_of_getLast? hc); ⟨this.1, this.2.1, this.2.2.1⟩)

theorem number_signed {neg : Prop} [Decidable neg] {t : Text} (ht : t ≠ []) (h0 : ∀ c, t.head? = some c → c ≠ '-')
    (h : ∀ c ∈ t, c ≠ ' ' ∧ c ≠ '\n' ∧ c ≠ '\r' ∧ c ≠ ',' ∧ c ≠ '%') {q : ℚ} (hq : unsigned t = some q) :
    number ((if neg then ['-'] else []) ++ t) = some (if neg then -q else q) := by
  unfold number
  by_cases hn : neg
  · rw [if_pos hn, if_pos hn, strip_core (by simp)]
    · simp [hq]
    · intro c hc
      rcases List.mem_append.1 hc with hc | hc
      · rw [List.mem_singleton.1 hc]; decide
      · exact h c hc
  · rw [if_neg hn, if_neg hn, List.nil_append, strip_core ht h]
    cases t with
    | nil => exact absurd rfl ht
    | cons a l =>
      have := h0 a rfl
      split
      · rename_i heq; cases heq; exact absurd rfl this
      · exact hq

/-- A formatted number: its text, and the number read. -/
theorem field_fixed (w : ℕ) (x : Option ℚ) : ∃ core, Field (fixed w x) core ∧
    number core = x.map fun x : ℚ => if x < 0 then -((nearest (100 * |x|)).toNat / 100 : ℚ) else (nearest (100 * |x|)).toNat / 100 := by
  cases x with
  | none =>
    refine ⟨"nan".toList, ⟨⟨_, rfl⟩, by decide, by decide⟩, by decide +kernel⟩
  | some x =>
    have hne : (Nat.toDigits 10 ((nearest (100 * |x|)).toNat / 100) ++ '.' :: pad 2 ((nearest (100 * |x|)).toNat % 100)) ≠ [] := by
      simp
    have hpl : ∀ c ∈ (Nat.toDigits 10 ((nearest (100 * |x|)).toNat / 100) ++ '.' :: pad 2 ((nearest (100 * |x|)).toNat % 100)),
        c ≠ ' ' ∧ c ≠ '\n' ∧ c ≠ '\r' ∧ c ≠ ',' ∧ c ≠ '%' := by
      intro c hc
      rcases List.mem_append.1 hc with hc | hc
      · have := toDigits_plain hc
        exact ⟨this.1, this.2.1, this.2.2.1, this.2.2.2.1, this.2.2.2.2.1⟩
      · rcases List.mem_cons.1 hc with rfl | hc
        · decide
        · have := digit_plain (isDigit_of_mem_pad hc)
          exact ⟨this.1, this.2.1, this.2.2.1, this.2.2.2.1, this.2.2.2.2.1⟩
    have hhd : ∀ c, (Nat.toDigits 10 ((nearest (100 * |x|)).toNat / 100) ++ '.' :: pad 2 ((nearest (100 * |x|)).toNat % 100)).head? =
        some c → c ≠ '-' := by
      intro c hc
      rw [List.head?_append] at hc
      cases hd : (Nat.toDigits 10 ((nearest (100 * |x|)).toNat / 100)).head? with
      | none => exact absurd (List.head?_eq_none_iff.1 hd) Nat.toDigits_ne_nil
      | some d =>
        rw [hd] at hc
        simp only [Option.some_or, Option.some.injEq] at hc
        subst hc
        exact (toDigits_plain (List.mem_of_mem_head? hd)).2.2.2.2.2.2
    refine ⟨(if x < 0 then ['-'] else []) ++
      (Nat.toDigits 10 ((nearest (100 * |x|)).toNat / 100) ++ '.' :: pad 2 ((nearest (100 * |x|)).toNat % 100)),
      ⟨⟨_, by simp only [fixed, blanks, List.append_assoc]; rfl⟩, by simp, ?_⟩, ?_⟩
    · intro c hc
      rcases List.mem_append.1 hc with hc | hc
      · split at hc
        · rw [List.mem_singleton.1 hc]; decide
        · simp at hc
      · exact hpl c hc
    · rw [number_signed hne hhd hpl (unsigned_fixed _)]
      rfl

theorem field_whole (n : ℤ) : ∃ core, Field (whole n) core ∧ number core = some (n : ℚ) := by
  have hpl : ∀ c ∈ Nat.toDigits 10 n.natAbs, c ≠ ' ' ∧ c ≠ '\n' ∧ c ≠ '\r' ∧ c ≠ ',' ∧ c ≠ '%' := by
    intro c hc
    have := toDigits_plain hc
    exact ⟨this.1, this.2.1, this.2.2.1, this.2.2.2.1, this.2.2.2.2.1⟩
  refine ⟨whole n, ⟨⟨0, by simp⟩, by simp [whole], ?_⟩, ?_⟩
  · intro c hc
    rcases List.mem_append.1 hc with hc | hc
    · split at hc
      · rw [List.mem_singleton.1 hc]; decide
      · simp at hc
    · exact hpl c hc
  · unfold whole
    rw [number_signed Nat.toDigits_ne_nil (fun c hc => (toDigits_plain (List.mem_of_mem_head? hc)).2.2.2.2.2.2) hpl
      (unsigned_whole _)]
    congr 1
    obtain ⟨k, rfl | rfl⟩ := Int.eq_nat_or_neg n
    · rw [if_neg (by omega)]; simp
    · by_cases hk : k = 0
      · subst hk; simp
      · rw [if_pos (by omega)]; simp

/-- Reading a file back: the rows that were written. -/
theorem load_save {header : Text} (hh : '\n' ∉ header) {rows : List (List Text)} {vals : List (List (Option ℚ))}
    (hr : rows ≠ []) {c : ℕ} (hc : 0 < c) (hlen : ∀ r ∈ rows, r.length = c)
    (h : List.Forall₂ (fun r v => ∃ cores, List.Forall₂ Field r cores ∧ cores.map number = v) rows vals) :
    load (save header rows) = squeeze vals := by
  have hfacts : ∀ {rows : List (List Text)} {vals : List (List (Option ℚ))}, (∀ r ∈ rows, r.length = c) →
      List.Forall₂ (fun r v => ∃ cores, List.Forall₂ Field r cores ∧ cores.map number = v) rows vals →
      (rows.map fun r => fields (join r)).map (·.map number) = vals ∧
        (∀ r ∈ rows, fields (join r) ≠ [] ∧ (fields (join r)).length = c ∧ '\n' ∉ join r) := by
    intro rows vals hlen h
    induction h with
    | nil => simp
    | @cons r v rows vals hr _ ih =>
      obtain ⟨cores, hf, hv⟩ := hr
      have hrc : r.length = c := hlen r (by simp)
      have hrne : r ≠ [] := by rintro rfl; simp at hrc; omega
      obtain ⟨f1, f2, f3⟩ := fields_join hrne hf
      obtain ⟨i1, i2⟩ := ih (fun r' m => hlen r' (List.mem_cons_of_mem _ m))
      refine ⟨by simp only [List.map_cons, i1, f1, hv], ?_⟩
      intro r' hr'
      rcases List.mem_cons.1 hr' with rfl | hr'
      · refine ⟨f3, by rw [f2, hrc], ?_⟩
        intro hn
        rcases mem_join hn with hn | ⟨t, ht, hn⟩
        · revert hn; decide
        · have gen : ∀ {l cores : List Text}, List.Forall₂ Field l cores → t ∈ l → False := by
            intro l cores h
            induction h with
            | nil => simp
            | cons h _ ih =>
              intro ht
              rcases List.mem_cons.1 ht with rfl | ht
              · obtain ⟨k, rfl⟩ := h.eq
                rcases List.mem_append.1 hn with hn | hn
                · have := (List.mem_replicate.1 hn).2; revert this; decide
                · exact (h.plain _ hn).2.1 rfl
              · exact ih ht
          exact gen hf ht
      · exact i2 r' hr'
  obtain ⟨g1, g2⟩ := hfacts hlen h
  have hfm : ((rows.map join).map fields).filter (· ≠ []) = rows.map fun r => fields (join r) := by
    rw [List.map_map, List.filter_eq_self.2]
    · rfl
    · intro t ht
      obtain ⟨r, hr, rfl⟩ := List.mem_map.1 ht
      simpa using (g2 r hr).1
  have key : ((split '\n' (save header rows)).map fields).filter (· ≠ []) = rows.map fun r => fields (join r) := by
    have hflat : (rows.flatMap fun r => join r ++ ['\n']) = (rows.map join).flatMap fun t => t ++ ['\n'] := by
      rw [List.flatMap_map]
    have hn : ∀ t ∈ rows.map join, '\n' ∉ t := by
      intro t ht
      obtain ⟨r, hr, rfl⟩ := List.mem_map.1 ht
      exact (g2 r hr).2.2
    have hnil : fields [] = [] := by decide
    unfold save
    rw [hflat]
    by_cases hd : header = []
    · rw [if_pos hd, List.nil_append, split_lines hn, List.map_append, List.filter_append, hfm]
      simp [hnil]
    · rw [if_neg hd]
      have e : ('%' :: header ++ ['\n'] ++ (rows.map join).flatMap fun t => t ++ ['\n']) =
          ('%' :: header) ++ '\n' :: ((rows.map join).flatMap fun t => t ++ ['\n']) := by simp
      rw [e, split_cons (by simp [hh]), split_lines hn, List.map_cons, List.map_append]
      have hf : fields ('%' :: header) = [] := by
        unfold fields
        simp [strip]
      rw [hf, List.filter_cons_of_neg (by simp), List.filter_append, hfm]
      simp [hnil]
  unfold load
  simp only [key]
  cases rows with
  | nil => exact absurd rfl hr
  | cons r l =>
    simp only [List.map_cons]
    rw [if_pos]
    · rw [List.map_cons] at g1
      rw [← List.map_cons, ← g1]
    · rw [List.all_eq_true]
      intro t ht
      obtain ⟨r', hr', rfl⟩ := List.mem_map.1 ht
      simp [(g2 r' (List.mem_cons_of_mem _ hr')).2.1, (g2 r (by simp)).2.1]

theorem nearest_close (x : ℚ) : |(nearest x : ℚ) - x| ≤ 1 / 2 := by
  have h1 := Int.floor_le x
  have h2 := Int.lt_floor_add_one x
  unfold nearest
  simp only
  rw [abs_le]
  split
  · constructor <;> linarith
  · split
    · push_cast; constructor <;> linarith
    · split
      · constructor <;> linarith
      · push_cast; constructor <;> linarith

theorem nearest_nonneg {x : ℚ} (h : 0 ≤ x) : 0 ≤ nearest x := by
  have := Int.floor_nonneg.2 h
  unfold nearest
  simp only
  split
  · exact this
  · split
    · omega
    · split <;> omega

/-- The number that comes back. -/
def back (x : ℚ) : ℚ :=
  if x < 0 then -((nearest (100 * |x|)).toNat / 100 : ℚ) else (nearest (100 * |x|)).toNat / 100

theorem near_back : ∀ x : Option ℚ, Near x (x.map back)
  | none => trivial
  | some x => by
    have h0 := nearest_nonneg (x := 100 * |x|) (by positivity)
    have h1 := nearest_close (100 * |x|)
    have h2 : ((nearest (100 * |x|)).toNat : ℚ) = nearest (100 * |x|) := by
      have : ((nearest (100 * |x|)).toNat : ℤ) = nearest (100 * |x|) := Int.toNat_of_nonneg h0
      exact_mod_cast this
    show |x - back x| ≤ 1 / 200 ∧ ∃ k : ℤ, back x = k / 100
    unfold back
    rw [h2]
    rw [abs_le] at h1 ⊢
    split
    · rename_i hx
      rw [abs_of_neg hx] at *
      refine ⟨⟨by linarith, by linarith⟩, -nearest (100 * -x), by push_cast; ring⟩
    · rename_i hx
      rw [abs_of_nonneg (not_lt.1 hx)] at *
      exact ⟨⟨by linarith, by linarith⟩, nearest (100 * x), rfl⟩

theorem load_fixed {header : Text} (hh : '\n' ∉ header) (w : ℕ) {rows : List (List (Option ℚ))} (hr : rows ≠ [])
    {c : ℕ} (hc : 0 < c) (hlen : ∀ r ∈ rows, r.length = c) :
    load (save header (rows.map (·.map (fixed w)))) = squeeze (rows.map (·.map (·.map back))) := by
  apply load_save hh (by simpa using hr) hc
  · intro r hr
    obtain ⟨r', hr', rfl⟩ := List.mem_map.1 hr
    rw [List.length_map, hlen r' hr']
  · rw [List.forall₂_map_left_iff, List.forall₂_map_right_iff, List.forall₂_same]
    intro r hrr
    clear hrr
    induction r with
    | nil => exact ⟨[], .nil, rfl⟩
    | cons x r ih =>
      obtain ⟨cores, h1, h2⟩ := ih
      obtain ⟨core, f1, f2⟩ := field_fixed w x
      refine ⟨core :: cores, .cons f1 h1, ?_⟩
      rw [List.map_cons, List.map_cons, h2, f2]
      rfl

theorem squeeze_two (a b : List (Option ℚ)) (l : List (List (Option ℚ))) :
    squeeze (a :: b :: l) =
      if (a :: b :: l).all (·.length = 1) then .vector (a :: b :: l).flatten else .table (a :: b :: l) := by
  unfold squeeze
  split
  · rename_i h; cases h
  · rename_i h; cases h
  · rename_i h; cases h
  · rfl

theorem flat {α β : Type} (f : α → β) : ∀ l : List α, (l.map fun x => [f x]).flatten = l.map f
  | [] => rfl
  | a :: l => by rw [List.map_cons, List.flatten_cons, flat f l]; rfl

/-- C132: a table with at least two rows and two columns comes back from its file with the same shape, every
number to within 0.005 and missing numbers missing. -/
theorem C132_table_partial (header : Text) (hh : '\n' ∉ header) (w c : ℕ) (hc : 2 ≤ c) (rows : List (List (Option ℚ)))
    (hr : 2 ≤ rows.length) (hlen : ∀ r ∈ rows, r.length = c) :
    ∃ rows', load (save header (rows.map (·.map (fixed w)))) = .table rows' ∧
      List.Forall₂ (List.Forall₂ Near) rows rows' := by
  refine ⟨rows.map (·.map (·.map back)), ?_, ?_⟩
  · rw [load_fixed hh w (by rintro rfl; simp at hr) (by omega) hlen]
    match rows, hr with
    | a :: b :: l, _ =>
      have ha := hlen a (by simp)
      simp only [List.map_cons]
      rw [squeeze_two, if_neg]
      simp only [List.all_cons, List.length_map, ha, Bool.and_eq_true, decide_eq_true_eq, not_and]
      intro h
      omega
  · rw [List.forall₂_map_right_iff, List.forall₂_same]
    intro r _
    rw [List.forall₂_map_right_iff, List.forall₂_same]
    intro x _
    exact near_back x

/-- C132: likewise a single column with at least two entries. -/
theorem C132_column_partial (header : Text) (hh : '\n' ∉ header) (w : ℕ) (xs : List (Option ℚ)) (hx : 2 ≤ xs.length) :
    ∃ xs', load (save header ((xs.map fun x => [x]).map (·.map (fixed w)))) = .vector xs' ∧
      List.Forall₂ Near xs xs' := by
  refine ⟨xs.map (·.map back), ?_, ?_⟩
  · rw [load_fixed hh w (c := 1) (by cases xs <;> simp_all) (by norm_num) (by simp)]
    match xs, hx with
    | a :: b :: l, _ =>
      rw [List.map_map]
      rw [show (fun r : List (Option ℚ) => r.map fun x : Option ℚ => x.map back) ∘ (fun x => [x]) =
        fun x => [x.map back] from rfl]
      rw [List.map_cons, List.map_cons, squeeze_two, ← List.map_cons (f := fun x : Option ℚ => [x.map back]),
        ← List.map_cons (f := fun x : Option ℚ => [x.map back]), if_pos (by simp), flat]
  · rw [List.forall₂_map_right_iff, List.forall₂_same]
    intro x _
    exact near_back x

/-- C132: whole numbers (years, days, counts) come back unchanged. -/
theorem C132_whole_partial (header : Text) (hh : '\n' ∉ header) (xs : List ℤ) (hx : 2 ≤ xs.length) :
    load (save header (xs.map fun n => [whole n])) = .vector (xs.map fun n : ℤ => some (n : ℚ)) := by
  have := load_save hh (rows := xs.map fun n => [whole n]) (vals := xs.map fun n : ℤ => [some (n : ℚ)])
    (by cases xs <;> simp_all) (c := 1) (by norm_num) (by simp) (by
      rw [List.forall₂_map_left_iff, List.forall₂_map_right_iff, List.forall₂_same]
      intro n _
      obtain ⟨core, f1, f2⟩ := field_whole n
      exact ⟨[core], .cons f1 .nil, by simp [f2]⟩)
  rw [this]
  match xs, hx with
  | a :: b :: l, _ =>
    rw [List.map_cons, List.map_cons, squeeze_two, ← List.map_cons (f := fun n : ℤ => [some (n : ℚ)]),
      ← List.map_cons (f := fun n : ℤ => [some (n : ℚ)]), if_pos (by simp), flat]

/-- C132: a number with two decimals, in particular the code of missing values, comes back exactly. -/
theorem C132_exact {x y : ℚ} (h : Near (some x) (some y)) {k : ℤ} (hk : x = k / 100) : y = x := by
  obtain ⟨h1, j, rfl⟩ := h
  subst hk
  rw [abs_le] at h1
  have h2 : (j : ℚ) < k + 1 := by linarith
  have h3 : (k : ℚ) < j + 1 := by linarith
  have : j = k := by
    have h2' : j < k + 1 := by exact_mod_cast h2
    have h3' : k < j + 1 := by exact_mod_cast h3
    omega
  rw [this]

/-- C132 fails for a table with one row (one storm in the region): it loses its first axis, and reading a column of
it raises. -/
theorem C132_one_row_fails (header : Text) (hh : '\n' ∉ header) (w : ℕ) (row : List (Option ℚ)) (hr : 2 ≤ row.length) (k : ℕ) :
    ∃ xs, load (save header ([row].map (·.map (fixed w)))) = .vector xs ∧
      column k (load (save header ([row].map (·.map (fixed w))))) = none := by
  have : load (save header ([row].map (·.map (fixed w)))) = .vector (row.map (·.map back)) := by
    rw [load_fixed hh w (by simp) (c := row.length) (by omega) (by simp)]
    match row, hr with
    | a :: b :: l, _ => rfl
  exact ⟨_, this, by rw [this]; rfl⟩

/-- C132: a number is written without blanks, and blanks in front of it fill the width of the column, if there is room. -/
theorem C132_width (x : Option ℚ) : ∃ t : Text, ' ' ∉ t ∧ ∀ w, fixed w x = List.replicate (w - t.length) ' ' ++ t := by
  cases x with
  | none => exact ⟨"nan".toList, by decide, fun w => rfl⟩
  | some x =>
    refine ⟨_, ?_, fun w => rfl⟩
    intro h
    simp only [List.mem_append, List.mem_cons] at h
    rcases h with (h | h) | h | h
    · split at h <;> simp at h
    · exact absurd (toDigits_plain h).1 (by simp)
    · exact absurd h (by decide)
    · exact absurd (isDigit_of_mem_pad h) (by decide)

theorem nearest_whole (k : ℤ) : nearest k = k := by
  unfold nearest
  simp

/-- C132: half a hundredth is rounded to the even hundredth. -/
theorem C132_half (w k : ℕ) : fixed w (some ((4 * k + 1) / 200)) = fixed w (some (2 * k / 100)) ∧
    fixed w (some ((4 * k + 3) / 200)) = fixed w (some ((2 * k + 2) / 100)) := by
  have hk : (0 : ℚ) ≤ k := Nat.cast_nonneg k
  have f1 : ⌊(2 * k + 1 / 2 : ℚ)⌋ = 2 * k := by
    rw [Int.floor_eq_iff]; push_cast; constructor <;> linarith
  have f2 : ⌊(2 * k + 3 / 2 : ℚ)⌋ = 2 * k + 1 := by
    rw [Int.floor_eq_iff]; push_cast; constructor <;> linarith
  have n1 : nearest (2 * k + 1 / 2) = 2 * k := by
    unfold nearest
    simp only [f1]
    push_cast
    norm_num
  have n2 : nearest (2 * k + 3 / 2) = 2 * k + 2 := by
    unfold nearest
    simp only [f2]
    push_cast
    rw [if_neg (by linarith), if_neg (by linarith), if_neg (by omega)]
    ring
  have n3 : nearest (2 * k) = 2 * k := by have := nearest_whole (2 * k); push_cast at this; exact this
  have n4 : nearest (2 * k + 2) = 2 * k + 2 := by have := nearest_whole (2 * k + 2); push_cast at this; exact this
  constructor
  · rw [fixed, fixed, if_neg (not_lt.2 (by positivity)), if_neg (not_lt.2 (by positivity)), abs_of_nonneg (by positivity),
      abs_of_nonneg (by positivity), show 100 * ((4 * k + 1) / 200 : ℚ) = 2 * k + 1 / 2 by ring,
      show 100 * (2 * k / 100 : ℚ) = 2 * k by ring, n1, n3]
  · rw [fixed, fixed, if_neg (not_lt.2 (by positivity)), if_neg (not_lt.2 (by positivity)), abs_of_nonneg (by positivity),
      abs_of_nonneg (by positivity), show 100 * ((4 * k + 3) / 200 : ℚ) = 2 * k + 3 / 2 by ring,
      show 100 * ((2 * k + 2) / 100 : ℚ) = 2 * k + 2 by ring, n2, n4]

/-- Two origins of storms (the second over land), and a missing bearing. -/
example : String.ofList (save "Longitude".toList ([[some 139.996, some (-12.125), some 0], [some 145, some (-0.001), some 1]].map
      (·.map (fixed 6)))) = "%Longitude\n140.00,-12.12,  0.00\n145.00, -0.00,  1.00\n" ∧
    load (save "Longitude".toList ([[some 139.996, some (-12.125), some 0], [some 145, some (-0.001), some 1]].map
      (·.map (fixed 6)))) = .table [[some 140, some (-12.12), some 0], [some 145, some 0, some 1]] ∧
    load (save [] [[fixed 6 (some 9223372036854775808)], [fixed 6 (some 270.5)], [fixed 6 none]]) =
      .vector [some 9223372036854775808, some 270.5, none] ∧
    column 0 (load (save [] ([[some 1, some 2]].map (·.map (fixed 6))))) = none := by
  decide +kernel

end Tcrm.TextFiles
