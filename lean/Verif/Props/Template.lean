import Verif.Lemmas.Template
/-!
C186 (filling in templates).
-/
namespace Tcrm.Template

/-- C186: a template is filled in: each placeholder with a value becomes this value, whatever the order of the values, and
all other text, other placeholders included, stays as it is. No other file changes. -/
theorem C186_replace (files : Text → Option Text) (infile outfile : Text) (reps : List (Text × Text)) (ps : List Piece)
    (hne : infile ≠ outfile) (hin : files infile = some (ps.flatMap Piece.written)) (hv : Values reps) (ht : WellFormed ps) :
    (replace files infile outfile reps).2 = none ∧
    (replace files infile outfile reps).1 outfile = some (ps.flatMap (Piece.filled reps)) ∧
    ∀ f, f ≠ outfile → (replace files infile outfile reps).1 f = files f := by
  have hn : ∀ r ∈ reps, '\n' ∉ r.1 := by
    intro r hr hm
    exact absurd (word_iff.1 (hv.2 r hr).1 _ hm) (by decide)
  have h := fillLines_ok hn _ (ps.flatMap Piece.written) (Nat.le_refl _) (fillLine_text reps ps hv ht)
  unfold replace
  rw [hin]
  simp only [if_neg hne, h, Function.update_self, true_and]
  intro f hf
  rw [Function.update_of_ne hf, Function.update_of_ne hf]

/-- Two lines with three placeholders, one of them without a value; a value that is part of the name of another key -/
example :
    let ps : List Piece := [.lit "Input = ".toList, .key "PATH".toList, .lit "/{ x".toList, .key "YEAR".toList,
      .lit "\nName = ".toList, .key "NAME".toList]
    let files : Text → Option Text := fun f => if f = "a".toList then some (ps.flatMap Piece.written) else none
    ps.flatMap Piece.written = "Input = {PATH}/{ x{YEAR}\nName = {NAME}".toList ∧
    (replace files "a".toList "b".toList [("YEAR".toList, "PATH".toList), ("PATH".toList, "/foo/baz".toList)]).1 "b".toList =
      some "Input = /foo/baz/{ xPATH\nName = {NAME}".toList := by
  decide +kernel

/-- The text between the placeholders of the example is plain. -/
example : Plain "/{ x".toList := by
  intro a b h
  have h' : a ++ '{' :: b = ['/', '{', ' ', 'x'] := by rw [← h]; decide
  match a, h' with
  | [], h' => simp at h'
  | [_], h' =>
    simp at h'
    exact ⟨[], ' ', ['x'], by simp [h'], by simp [Word], by decide, by decide⟩
  | [_, _], h' => simp at h'
  | [_, _, _], h' => simp at h'
  | _ :: _ :: _ :: _ :: a, h' => simp at h'

example : Values [("YEAR".toList, "PATH".toList), ("PATH".toList, "/foo/baz".toList)] := by
  refine ⟨by decide, ?_⟩
  unfold Word
  decide

/-- C186: without the input file nothing is written. -/
theorem C186_missing (files : Text → Option Text) (infile outfile : Text) (reps : List (Text × Text)) :
    files infile = none ↔ (replace files infile outfile reps).2 = some .fileNotFound := by
  have hsub : ∀ key val t, sub key val t ≠ .error .fileNotFound := by
    intro key val t h
    unfold sub at h
    split at h
    · split at h
      · rename_i e he
        simp only [Except.error.injEq] at h
        have := expand_error _ val e (Nat.le_refl _) he
        rw [this] at h
        exact absurd h (by decide)
      · simp at h
    · simp at h
  have hline : ∀ (rs : List (Text × Text)) (t : Text), fillLine rs t ≠ .error .fileNotFound := by
    intro rs
    induction rs with
    | nil => intro t h; simp [fillLine] at h
    | cons r rs ih =>
      intro t h
      obtain ⟨key, val⟩ := r
      rw [fillLine] at h
      cases hs : sub key val t with
      | error e =>
        rw [hs] at h
        simp only [Except.error.injEq] at h
        exact hsub key val t (by rw [hs, h])
      | ok l => rw [hs] at h; exact ih l h
  have hlines : ∀ ls : List Text, (fillLines reps ls).2 ≠ some .fileNotFound := by
    intro ls
    induction ls with
    | nil => simp [fillLines]
    | cons l ls ih =>
      rw [fillLines]
      cases hl : fillLine reps l with
      | error e =>
        simp only
        intro h
        simp only [Option.some.injEq] at h
        exact hline reps l (by rw [hl, h])
      | ok l' => exact ih
  constructor
  · intro h
    simp [replace, h]
  · intro h
    unfold replace at h
    cases hf : files infile with
    | none => rfl
    | some c =>
      rw [hf] at h
      exact absurd h (hlines _)

/-- C186: and the files are left alone then. -/
theorem C186_missing_files (files : Text → Option Text) (infile outfile : Text) (reps : List (Text × Text))
    (h : files infile = none) : (replace files infile outfile reps).1 = files := by
  simp [replace, h]

/-- C186 is violated when a template is filled in place: the file is emptied, and there is no error. -/
theorem C186_in_place_fails (files : Text → Option Text) (infile content : Text) (reps : List (Text × Text))
    (h : files infile = some content) : (replace files infile infile reps).1 infile = some [] ∧
      (replace files infile infile reps).2 = none := by
  simp [replace, h, lines, fillLines]

example : (replace (fun _ => some "Input = {PATH}".toList) "a".toList "a".toList [("PATH".toList, "/foo".toList)]).1 "a".toList =
    some [] := by decide +kernel

/-- C186 is violated for values with a backslash before a letter or digit that is not one of `abfnrtv`, such as the path
`C:\Users`: there is an error and the output is empty, whether or not the template has the placeholder. -/
theorem C186_backslash_fails (files : Text → Option Text) (infile outfile content key u w : Text) (c : Char)
    (before after : List (Text × Text)) (hne : infile ≠ outfile) (hin : files infile = some content) (h0 : content ≠ [])
    (hb : Values before) (hu : '\\' ∉ u) (hc : c.isAlphanum = true)
    (hc' : c ∉ ['a', 'b', 'f', 'n', 'r', 't', 'v']) :
    (replace files infile outfile (before ++ (key, u ++ '\\' :: c :: w) :: after)).2 = some .regex ∧
    (replace files infile outfile (before ++ (key, u ++ '\\' :: c :: w) :: after)).1 outfile = some [] := by
  have hsub : ∀ t, sub key (u ++ '\\' :: c :: w) t = .error .regex := by
    have hne : c ≠ '\\' := by rintro rfl; exact absurd hc (by decide)
    simp only [List.mem_cons, List.not_mem_nil, or_false, not_or] at hc'
    have hx : ∀ u : Text, '\\' ∉ u → expand (u ++ '\\' :: c :: w) = .error .regex := by
      intro u
      induction u with
      | nil =>
        intro _
        rw [List.nil_append, expand]
        cases hw : expand w with
        | error e => simp only [expand_error _ w e (Nat.le_refl _) hw]
        | ok r =>
          simp only
          rw [if_neg hne, if_neg hc'.1, if_neg hc'.2.1, if_neg hc'.2.2.1, if_neg hc'.2.2.2.1, if_neg hc'.2.2.2.2.1,
            if_neg hc'.2.2.2.2.2.1, if_neg hc'.2.2.2.2.2.2, if_pos hc]
      | cons d u ih =>
        intro hd
        have hd1 : d ≠ '\\' := fun h => hd (by simp [h])
        have := ih fun h => hd (by simp [h])
        rw [List.cons_append]
        unfold expand
        split
        · simp_all
        · simp_all
        · simp_all
        · rename_i heq
          simp only [List.cons.injEq] at heq
          obtain ⟨rfl, rfl⟩ := heq
          rw [this]
    intro t
    unfold sub
    rw [hx u hu]
    split <;> rfl
  have hline : fillLine (before ++ (key, u ++ '\\' :: c :: w) :: after) [] = .error .regex := by
    have : ∀ b : List (Text × Text), Values b → ∀ t, fillLine (b ++ (key, u ++ '\\' :: c :: w) :: after) t = .error .regex := by
      intro b
      induction b with
      | nil => intro _ t; rw [List.nil_append, fillLine, hsub]
      | cons r b ih =>
        intro hv t
        obtain ⟨k, v⟩ := r
        rw [List.cons_append, fillLine]
        have hb1 : Values b := ⟨(List.nodup_cons.1 hv.1).2, fun r hr => hv.2 r (by simp [hr])⟩
        cases hs : sub k v t with
        | error e =>
          have h1 := fillLine_text [(k, v)] [] ⟨by simp, fun r hr => hv.2 r (by simp at hr; simp [hr])⟩ (by intro p hp; simp at hp)
          rw [fillLine, sub_error hs] at h1
          simp at h1
        | ok l => exact ih hb1 l
    exact this before hb []
  have h2 := fillLines_error (fillLine_error (b := content) hline) h0
  unfold replace
  rw [hin]
  simp only [if_neg hne, h2, Function.update_self, and_self]

example : (replace (fun _ => some "x".toList) "a".toList "b".toList [("HOME".toList, "C:\\Users".toList)]).2 = some .regex := by
  decide +kernel

/-- C186 is violated for values with a backslash before one of `abfnrtv`: the two characters become one control
character (bell, backspace, form feed, newline, carriage return, tab, vertical tab). -/
theorem C186_control_fails (key u w : Text) (c d : Char) (hd : ∃ c ∈ key, c.isDigit = false)
    (hu : '\\' ∉ u) (hw : '\\' ∉ w)
    (hc : (c, d.toNat) ∈ [('a', 7), ('b', 8), ('f', 12), ('n', 10), ('r', 13), ('t', 9), ('v', 11)]) :
    fillLine [(key, u ++ '\\' :: c :: w)] ('{' :: key ++ ['}']) = .ok (u ++ d :: w) := by
  have hx : ∀ u : Text, '\\' ∉ u → expand (u ++ '\\' :: c :: w) = .ok (u ++ d :: w) := by
    intro u
    induction u with
    | nil =>
      intro _
      rw [List.nil_append, expand, expand_eq hw]
      have hd' : ∀ e : Char, d.toNat = e.toNat → d = e := fun e h => Char.toNat_inj.1 h
      simp only [List.mem_cons, Prod.mk.injEq, List.not_mem_nil, or_false] at hc
      rcases hc with ⟨rfl, h⟩ | ⟨rfl, h⟩ | ⟨rfl, h⟩ | ⟨rfl, h⟩ | ⟨rfl, h⟩ | ⟨rfl, h⟩ | ⟨rfl, h⟩
      · rw [hd' '\x07' h]; rfl
      · rw [hd' '\x08' h]; rfl
      · rw [hd' '\x0c' h]; rfl
      · rw [hd' '\n' h]; rfl
      · rw [hd' '\r' h]; rfl
      · rw [hd' '\t' h]; rfl
      · rw [hd' '\x0b' h]; rfl
    | cons a u ih =>
      intro ha
      have ha1 : a ≠ '\\' := fun h => ha (by simp [h])
      have := ih fun h => ha (by simp [h])
      rw [List.cons_append]
      unfold expand
      split
      · simp_all
      · simp_all
      · simp_all
      · rename_i heq
        simp only [List.cons.injEq] at heq
        obtain ⟨rfl, rfl⟩ := heq
        rw [this]
        rfl
  have hcomp : compiles key = true := by
    obtain ⟨a, ha, had⟩ := hd
    unfold compiles
    rw [Bool.or_eq_true]
    right
    rw [Bool.not_eq_true', Bool.eq_false_iff]
    intro hall
    rw [List.all_eq_true] at hall
    have := hall a ha
    simp_all
  have s1 : subst ('{' :: key ++ ['}']) (u ++ d :: w) 0 ('{' :: key ++ ['}']) = u ++ d :: w := by
    have := subst_same (key := key) (rep := u ++ d :: w) []
    simpa [subst] using this
  simp only [fillLine, sub, hcomp, hx u hu, s1, if_true]

/-- Some backslashes raise nothing: `\temp` becomes a tab and `emp`. -/
example : (replace (fun _ => some "{HOME}".toList) "a".toList "b".toList [("HOME".toList, "C:\\temp".toList)]).1 "b".toList =
    some "C:\temp".toList := by
  decide +kernel

/-- C186 is violated for values with placeholders in them: these are filled in, or not, by the order of the values. -/
theorem C186_again_fails (k₁ k₂ v : Text) (h1 : Word k₁) (h2 : Word k₂) (hne : k₁ ≠ k₂)
    (hd1 : ∃ c ∈ k₁, c.isDigit = false) (hd2 : ∃ c ∈ k₂, c.isDigit = false) (hb : '\\' ∉ v) :
    fillLine [(k₁, '{' :: k₂ ++ ['}']), (k₂, v)] ('{' :: k₁ ++ ['}']) = .ok v ∧
    fillLine [(k₂, v), (k₁, '{' :: k₂ ++ ['}'])] ('{' :: k₁ ++ ['}']) = .ok ('{' :: k₂ ++ ['}']) := by
  have hcomp : ∀ k : Text, (∃ c ∈ k, c.isDigit = false) → compiles k = true := by
    intro k ⟨c, hc, hcd⟩
    unfold compiles
    rw [Bool.or_eq_true]
    right
    rw [Bool.not_eq_true', Bool.eq_false_iff]
    intro hall
    rw [List.all_eq_true] at hall
    have := hall c hc
    simp_all
  have hx2 : expand ('{' :: k₂ ++ ['}']) = .ok ('{' :: k₂ ++ ['}']) := by
    apply expand_eq
    intro h
    simp only [List.cons_append, List.mem_cons, List.mem_append, List.not_mem_nil, or_false] at h
    rcases h with h | h | h
    · exact absurd h (by decide)
    · exact absurd (word_iff.1 h2 _ h) (by decide)
    · exact absurd h (by decide)
  have hw1 := word_iff.1 h1
  have hw2 := word_iff.1 h2
  have s1 : ∀ k r : Text, subst ('{' :: k ++ ['}']) r 0 ('{' :: k ++ ['}']) = r := by
    intro k r
    have := subst_same (key := k) (rep := r) []
    simpa [subst] using this
  have s2 : subst ('{' :: k₂ ++ ['}']) v 0 ('{' :: k₁ ++ ['}']) = '{' :: k₁ ++ ['}'] := by
    have := subst_other (rep := v) hw2 hw1 (Ne.symm hne) []
    simpa [subst] using this
  constructor
  · simp only [fillLine, sub, hcomp k₁ hd1, hcomp k₂ hd2, hx2, expand_eq hb, s1, if_true]
  · simp only [fillLine, sub, hcomp k₁ hd1, hcomp k₂ hd2, hx2, expand_eq hb, s1, s2, if_true]

example : fillLine [("A".toList, "{B}".toList), ("B".toList, "x".toList)] "{A}".toList = .ok "x".toList ∧
    fillLine [("B".toList, "x".toList), ("A".toList, "{B}".toList)] "{A}".toList = .ok "{B}".toList := by
  decide +kernel

/-- C186: a key that is a number raises. -/
theorem C186_number_fails (files : Text → Option Text) (infile outfile content key val : Text) (after : List (Text × Text))
    (hne : infile ≠ outfile) (hin : files infile = some content) (h0 : content ≠ []) (hk : key ≠ [])
    (hd : ∀ c ∈ key, c.isDigit = true) :
    (replace files infile outfile ((key, val) :: after)).2 = some .regex := by
  have hc : compiles key = false := by
    unfold compiles
    rw [Bool.or_eq_false_iff]
    refine ⟨by simpa using hk, ?_⟩
    rw [Bool.not_eq_false', List.all_eq_true]
    exact hd
  have hline : fillLine ((key, val) :: after) content = .error .regex := by
    simp [fillLine, sub, hc]
  unfold replace
  rw [hin]
  simp only [if_neg hne, fillLines_error hline h0]

example : (replace (fun _ => some "{1}".toList) "a".toList "b".toList [("1".toList, "x".toList)]).2 = some .regex := by
  decide +kernel

end Tcrm.Template
