import Verif.Spec.Template
/-!
Lemmas for C186 (filling in templates).
-/
namespace Tcrm.Template

theorem word_iff {k : Text} : Word k ↔ ∀ c ∈ k, isWord c = true := by
  simp [Word, isWord]

theorem subst_cons (pat rep : Text) (c : Char) (cs : Text) : subst pat rep 0 (c :: cs) =
    if pat.isPrefixOf (c :: cs) then rep ++ subst pat rep (pat.length - 1) cs else c :: subst pat rep 0 cs := by
  simp only [subst]

theorem subst_skip (pat rep : Text) : ∀ (n : ℕ) (a b : Text), a.length = n → subst pat rep n (a ++ b) = subst pat rep 0 b
  | 0, a, b, h => by
    obtain rfl := List.length_eq_zero_iff.1 h
    rfl
  | n + 1, [], b, h => by simp at h
  | n + 1, c :: a, b, h => by
    rw [List.cons_append, subst]
    exact subst_skip pat rep n a b (by simpa using h)

/-- A key with its closing brace does not match where a word ends otherwise. -/
theorem key_prefix {k : Text} : ∀ {w : Text} {d : Char} {r : Text}, (∀ c ∈ k, isWord c = true) → (∀ c ∈ w, isWord c = true) →
    isWord d = false → (k ++ ['}']) <+: (w ++ d :: r) → k = w ∧ d = '}' := by
  induction k with
  | nil =>
    intro w d r _ hw hd h
    cases w with
    | nil =>
      simp only [List.nil_append, List.cons_prefix_cons] at h
      exact ⟨rfl, h.1.symm⟩
    | cons x w =>
      simp only [List.nil_append, List.cons_append, List.cons_prefix_cons] at h
      have := hw x (by simp)
      rw [← h.1] at this
      exact absurd this (by decide)
  | cons a k ih =>
    intro w d r hk hw hd h
    cases w with
    | nil =>
      simp only [List.nil_append, List.cons_append, List.cons_prefix_cons] at h
      have := hk a (by simp)
      rw [h.1, hd] at this
      exact absurd this (by decide)
    | cons x w =>
      simp only [List.cons_append, List.cons_prefix_cons] at h
      obtain ⟨rfl, rfl⟩ := ih (fun c hc => hk c (by simp [hc])) (fun c hc => hw c (by simp [hc])) hd h.2
      exact ⟨by rw [h.1], rfl⟩

theorem plain_tail {c : Char} {t : Text} (h : Plain (c :: t)) : Plain t := by
  intro a b hab
  exact h (c :: a) b (by rw [hab]; rfl)

theorem plain_of_no_brace {t : Text} (h : '{' ∉ t) : Plain t := by
  intro a b hab
  exact absurd (by rw [hab]; simp) h

theorem subst_plain {key rep : Text} (hk : ∀ c ∈ key, isWord c = true) (rest : Text) : ∀ t : Text, Plain t →
    subst ('{' :: key ++ ['}']) rep 0 (t ++ rest) = t ++ subst ('{' :: key ++ ['}']) rep 0 rest
  | [], _ => rfl
  | c :: t, h => by
    show subst ('{' :: key ++ ['}']) rep 0 (c :: (t ++ rest)) = _
    rw [subst_cons, if_neg, subst_plain hk rest t (plain_tail h)]
    · rfl
    · intro hp
      rw [List.isPrefixOf_iff_prefix, List.cons_append, List.cons_prefix_cons] at hp
      obtain ⟨w, d, r, rfl, hw, hd, hne⟩ := h [] t (by rw [← hp.1]; rfl)
      have hd' : isWord d = false := by
        simp only [isWord, Bool.or_eq_false_iff, beq_eq_false_iff_ne]
        push Not at hd
        simpa using hd
      have := hp.2
      rw [List.append_assoc, List.cons_append] at this
      exact hne (key_prefix hk (word_iff.1 hw) hd' this).2

theorem subst_other {key rep : Text} (hk : ∀ c ∈ key, isWord c = true) {k : Text} (hw : ∀ c ∈ k, isWord c = true)
    (hne : key ≠ k) (rest : Text) : subst ('{' :: key ++ ['}']) rep 0 ('{' :: k ++ ['}'] ++ rest) =
      '{' :: k ++ ['}'] ++ subst ('{' :: key ++ ['}']) rep 0 rest := by
  have hb : '{' ∉ k ++ ['}'] := by
    intro h
    rcases List.mem_append.1 h with h | h
    · exact absurd (hw _ h) (by decide)
    · simp at h
  show subst ('{' :: key ++ ['}']) rep 0 ('{' :: (k ++ ['}'] ++ rest)) = _
  rw [subst_cons, if_neg, subst_plain hk rest _ (plain_of_no_brace hb)]
  · rfl
  · intro hp
    rw [List.isPrefixOf_iff_prefix, List.cons_append, List.cons_prefix_cons] at hp
    have := hp.2
    rw [List.append_assoc] at this
    exact hne (key_prefix hk hw (by decide) this).1

theorem subst_same {key rep : Text} (rest : Text) : subst ('{' :: key ++ ['}']) rep 0 ('{' :: key ++ ['}'] ++ rest) =
      rep ++ subst ('{' :: key ++ ['}']) rep 0 rest := by
  conv_lhs => rw [List.cons_append (as := key) (bs := ['}']), List.cons_append (bs := rest), subst_cons]
  rw [if_pos]
  · congr 1
    exact subst_skip _ _ _ (key ++ ['}']) rest (by simp)
  · rw [List.isPrefixOf_iff_prefix]
    exact ⟨rest, by simp⟩

theorem expand_eq : ∀ {v : Text}, '\\' ∉ v → expand v = .ok v
  | [], _ => by rw [expand]
  | c :: cs, h => by
    have hc : c ≠ '\\' := fun hc => h (by simp [hc])
    have := expand_eq (v := cs) fun hm => h (by simp [hm])
    unfold expand
    split
    · simp_all
    · simp_all
    · simp_all
    · rename_i heq
      simp only [List.cons.injEq] at heq
      obtain ⟨rfl, rfl⟩ := heq
      rw [this]

/-- The only error of a replacement text is that of the regular expressions. -/
theorem expand_error : ∀ (n : ℕ) (v : Text) (e : Err), v.length ≤ n → expand v = .error e → e = .regex
  | 0, v, e, hv, h => by
    obtain rfl : v = [] := by simpa using hv
    simp [expand] at h
  | n + 1, v, e, hv, hx => by
    unfold expand at hx
    split at hx
    · simp at hx
    · simpa using hx.symm
    · rename_i c cs
      have ih := expand_error n cs e (by simp at hv; omega)
      revert hx
      cases hc : expand cs with
      | error e' =>
        simp only
        intro hx
        exact ih (by rw [hc, hx])
      | ok r =>
        simp only
        split_ifs <;> simp
        exact fun h => h.symm
    · rename_i c cs _ _
      have ih := expand_error n cs e (by simp at hv; omega)
      revert hx
      cases hc : expand cs with
      | error e' =>
        simp only
        intro hx
        exact ih (by rw [hc, hx])
      | ok r => simp

/-- One key filled in -/
def fillOne (key val : Text) : Piece → Piece
  | .lit t => .lit t
  | .key k => if k = key then .lit val else .key k

def text (ps : List Piece) : Text := ps.flatMap Piece.written

theorem subst_text {key val : Text} (hk : ∀ c ∈ key, isWord c = true) : ∀ ps : List Piece, WellFormed ps →
    subst ('{' :: key ++ ['}']) val 0 (text ps) = text (ps.map (fillOne key val))
  | [], _ => rfl
  | p :: ps, h => by
    have ih := subst_text (val := val) hk ps fun q hq => h q (by simp [hq])
    have hp := h p (by simp)
    cases p with
    | lit t =>
      show subst _ _ 0 (t ++ text ps) = t ++ text _
      rw [subst_plain hk _ t hp, ih]
    | key k =>
      show subst _ _ 0 ('{' :: k ++ ['}'] ++ text ps) = (fillOne key val (.key k)).written ++ text (ps.map _)
      by_cases hkk : k = key
      · subst hkk
        rw [subst_same, ih]
        simp [fillOne, Piece.written]
      · rw [subst_other hk (word_iff.1 hp) (Ne.symm hkk), ih]
        simp [fillOne, hkk, Piece.written]

theorem fillLine_text : ∀ (reps : List (Text × Text)) (ps : List Piece), Values reps → WellFormed ps →
    fillLine reps (text ps) = .ok (ps.flatMap (Piece.filled reps))
  | [], ps, _, _ => by
    rw [fillLine, text]
    have : Piece.written = Piece.filled [] := by
      funext p
      cases p <;> simp [Piece.written, Piece.filled]
    rw [this]
  | (key, val) :: reps, ps, hv, ht => by
    obtain ⟨hn, hr⟩ := hv
    obtain ⟨h1, ⟨c, hc, hcd⟩, h3, h4⟩ := hr (key, val) (by simp)
    have hk := word_iff.1 h1
    have hcomp : compiles key = true := by
      unfold compiles
      rw [Bool.or_eq_true]
      right
      rw [Bool.not_eq_true', Bool.eq_false_iff]
      intro hall
      rw [List.all_eq_true] at hall
      have := hall c hc
      simp_all
    have hts : WellFormed (ps.map (fillOne key val)) := by
      intro q hq
      obtain ⟨p, hp, rfl⟩ := List.mem_map.1 hq
      have := ht p hp
      cases p with
      | lit t => exact this
      | key k =>
        by_cases hkk : k = key
        · have e : fillOne key val (.key k) = .lit val := by simp [fillOne, hkk]
          rw [e]; exact plain_of_no_brace h3
        · have e : fillOne key val (.key k) = .key k := by simp [fillOne, hkk]
          rw [e]; exact this
    rw [fillLine, sub, if_pos hcomp, expand_eq h4]
    simp only [subst_text hk ps ht]
    rw [fillLine_text reps _ ⟨(List.nodup_cons.1 hn).2, fun r hr' => hr r (by simp [hr'])⟩ hts]
    congr 1
    rw [List.flatMap_map]
    congr 1
    funext p
    cases p with
    | lit t => rfl
    | key k =>
      simp only [fillOne, Piece.filled, List.lookup_cons]
      by_cases hkk : k = key
      · subst hkk
        simp
      · have : (k == key) = false := by simpa using hkk
        simp [hkk, this]

theorem subst_newline {pat rep : Text} (hp : pat ≠ []) (hn : '\n' ∉ pat) (b : Text) : ∀ (a : Text) (k : ℕ), k ≤ a.length →
    subst pat rep k (a ++ '\n' :: b) = subst pat rep k a ++ '\n' :: subst pat rep 0 b
  | [], k, hk => by
    obtain rfl : k = 0 := by simpa using hk
    rw [List.nil_append, subst_cons, if_neg]
    · simp [subst]
    · intro h
      rw [List.isPrefixOf_iff_prefix] at h
      cases pat with
      | nil => exact hp rfl
      | cons x pat =>
        rw [List.cons_prefix_cons] at h
        exact hn (by simp [h.1])
  | c :: a, k + 1, hk => by
    rw [List.cons_append, subst, subst]
    exact subst_newline hp hn b a k (by simpa using hk)
  | c :: a, 0, _ => by
    rw [List.cons_append, subst_cons, subst_cons]
    have hiff : pat.isPrefixOf (c :: (a ++ '\n' :: b)) = true ↔ pat.isPrefixOf (c :: a) = true := by
      rw [List.isPrefixOf_iff_prefix, List.isPrefixOf_iff_prefix]
      constructor
      · intro h
        by_cases hl : pat.length ≤ (c :: a).length
        · exact List.prefix_of_prefix_length_le h ⟨'\n' :: b, by simp⟩ hl
        · exfalso
          have h2 : (c :: a ++ ['\n']) <+: pat :=
            List.prefix_of_prefix_length_le ⟨b, by simp⟩ h (by simp at hl ⊢; omega)
          exact hn (h2.subset (by simp))
      · intro h
        exact h.trans ⟨'\n' :: b, by simp⟩
    by_cases h : pat.isPrefixOf (c :: a) = true
    · rw [if_pos (hiff.2 h), if_pos h, subst_newline hp hn b a _ ?_]
      · simp
      · have := (List.isPrefixOf_iff_prefix.1 h).length_le
        simp at this
        omega
    · rw [if_neg (fun h' => h (hiff.1 h')), if_neg h, subst_newline hp hn b a 0 (by simp)]
      rfl

theorem sub_newline {key val : Text} (hn : '\n' ∉ key) (a b : Text) : sub key val (a ++ '\n' :: b) =
    match sub key val a, sub key val b with
    | .ok x, .ok y => .ok (x ++ '\n' :: y)
    | .error e, _ => .error e
    | _, .error e => .error e := by
  unfold sub
  by_cases h : compiles key = true
  · simp only [h, if_true]
    cases expand val with
    | error e => rfl
    | ok r =>
      simp only
      rw [subst_newline (by simp) (by simpa using hn) b a 0 (by simp)]
  · simp [h]

/-- Whether the keys and values raise does not depend on the text. -/
theorem sub_error {key val a b : Text} {e : Err} (h : sub key val a = .error e) : sub key val b = .error e := by
  unfold sub at h ⊢
  by_cases hc : compiles key = true
  · simp only [hc, if_true] at h ⊢
    cases hx : expand val with
    | error e' => rw [hx] at h; exact h
    | ok r => rw [hx] at h; simp at h
  · simp only [hc, if_false, Bool.false_eq_true] at h ⊢
    exact h

theorem fillLine_error : ∀ {reps : List (Text × Text)} {a b : Text} {e : Err}, fillLine reps a = .error e →
    fillLine reps b = .error e
  | [], a, b, e, h => by simp [fillLine] at h
  | (key, val) :: reps, a, b, e, h => by
    rw [fillLine] at h ⊢
    cases ha : sub key val a with
    | error e' =>
      rw [ha] at h
      rw [sub_error ha]
      exact h
    | ok x =>
      rw [ha] at h
      cases hb : sub key val b with
      | error e' => rw [sub_error hb] at ha; simp at ha
      | ok y => exact fillLine_error (b := y) h

theorem fillLine_newline : ∀ {reps : List (Text × Text)} {a b x y : Text}, (∀ r ∈ reps, '\n' ∉ r.1) →
    fillLine reps a = .ok x → fillLine reps b = .ok y → fillLine reps (a ++ '\n' :: b) = .ok (x ++ '\n' :: y)
  | [], a, b, x, y, _, ha, hb => by
    simp only [fillLine, Except.ok.injEq] at *
    rw [ha, hb]
  | (key, val) :: reps, a, b, x, y, hn, ha, hb => by
    rw [fillLine] at ha hb ⊢
    rw [sub_newline (hn (key, val) (by simp))]
    cases h1 : sub key val a with
    | error e => rw [h1] at ha; simp at ha
    | ok a' =>
      cases h2 : sub key val b with
      | error e => rw [h2] at hb; simp at hb
      | ok b' =>
        rw [h1] at ha
        rw [h2] at hb
        exact fillLine_newline (fun r hr => hn r (by simp [hr])) ha hb

theorem fillLine_nil {reps : List (Text × Text)} : ∀ {y : Text}, fillLine reps [] = .ok y → y = [] := by
  induction reps with
  | nil => intro y h; simpa [fillLine] using h.symm
  | cons r reps ih =>
    intro y h
    obtain ⟨key, val⟩ := r
    rw [fillLine] at h
    unfold sub at h
    by_cases hc : compiles key = true
    · simp only [hc, if_true] at h
      cases hx : expand val with
      | error e => rw [hx] at h; simp at h
      | ok r =>
        rw [hx] at h
        exact ih h
    · simp [hc] at h

theorem lines_append : ∀ (a b : Text), '\n' ∉ a → lines (a ++ '\n' :: b) = (a ++ ['\n']) :: lines b
  | [], b, _ => by simp [lines]
  | c :: a, b, h => by
    have hc : c ≠ '\n' := fun hc => h (by simp [hc])
    rw [List.cons_append, lines, if_neg hc, lines_append a b fun hm => h (by simp [hm])]
    rfl

theorem lines_single : ∀ (a : Text), '\n' ∉ a → a ≠ [] → lines a = [a]
  | [], _, h => absurd rfl h
  | c :: a, h, _ => by
    have hc : c ≠ '\n' := fun hc => h (by simp [hc])
    rw [lines, if_neg hc]
    cases a with
    | nil => rfl
    | cons d a => rw [lines_single (d :: a) (fun hm => h (by simp at hm ⊢; tauto)) (by simp)]

theorem split_newline (t : Text) : '\n' ∉ t ∨ ∃ a b : Text, t = a ++ '\n' :: b ∧ '\n' ∉ a := by
  induction t with
  | nil => left; simp
  | cons c t ih =>
    by_cases hc : c = '\n'
    · right; exact ⟨[], t, by simp [hc], by simp⟩
    · rcases ih with h | ⟨a, b, rfl, h⟩
      · left; simp [h, Ne.symm hc]
      · right; exact ⟨c :: a, b, rfl, by simp [h, Ne.symm hc]⟩

theorem fillLines_ok {reps : List (Text × Text)} (hn : ∀ r ∈ reps, '\n' ∉ r.1) : ∀ (n : ℕ) (t : Text), t.length ≤ n →
    ∀ {x : Text}, fillLine reps t = .ok x → fillLines reps (lines t) = (x, none)
  | 0, t, hl, x, h => by
    obtain rfl : t = [] := by simpa using hl
    rw [fillLine_nil h]
    rfl
  | n + 1, t, hl, x, h => by
    rcases split_newline t with ht | ⟨a, b, rfl, ha⟩
    · by_cases h0 : t = []
      · subst h0
        rw [fillLine_nil h]
        rfl
      · rw [lines_single t ht h0, fillLines, h]
        simp [fillLines]
    · cases h1 : fillLine reps a with
      | error e => rw [fillLine_error h1] at h; simp at h
      | ok x1 =>
        cases h2 : fillLine reps b with
        | error e => rw [fillLine_error h2] at h; simp at h
        | ok x2 =>
          rw [fillLine_newline hn h1 h2] at h
          cases h3 : fillLine reps [] with
          | error e => rw [fillLine_error h3] at h1; simp at h1
          | ok y =>
            have h4 := fillLine_newline hn h1 h3
            rw [fillLine_nil h3] at h4
            rw [lines_append a b ha, fillLines, h4]
            simp only [Except.ok.injEq] at h
            rw [fillLines_ok hn n b (by simp at hl; omega) h2, ← h]
            simp

theorem fillLines_error {reps : List (Text × Text)} {t : Text} {e : Err} (h : fillLine reps t = .error e) (ht : t ≠ []) :
    fillLines reps (lines t) = ([], some e) := by
  have : lines t ≠ [] := by
    cases t with
    | nil => exact absurd rfl ht
    | cons c t =>
      rw [lines]
      split
      · simp
      · split <;> simp
  cases hl : lines t with
  | nil => exact absurd hl this
  | cons l ls => rw [fillLines, fillLine_error h]

end Tcrm.Template
