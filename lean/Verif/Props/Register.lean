import Verif.Spec.Register
import Verif.Props.Config
/-!
C28 (register of processed files), C62 (interrupted writes), C63 (deleting the register).
-/
namespace Tcrm.Register

open Config (Text split join split_ne_nil split_join split_of_no_sep split_append)

/-! ### One entry -/

theorem get_set (r : Reg) (d f a v d' f' a' : Text) :
    getEntry (setEntry r d f a v) d' f' a' =
      if d' = d ∧ f' = f ∧ a' = a then some v else getEntry r d' f' a' := by
  have e : setEntry r d f a v = upd r d (upd ((r d).getD fun _ => none) f
      (upd ((((r d).getD fun _ => none) f).getD fun _ => none) a v)) := by
    unfold setEntry
    cases hd : r d with
    | none => rfl
    | some files =>
      simp only [Option.getD_some]
      cases hf : files f <;> rfl
  have hu : ∀ {β : Type} (g : Text → Option β) (k : Text) (x : β) (k' : Text),
      upd g k x k' = if k' = k then some x else g k' := fun _ _ _ _ => rfl
  rw [e]
  unfold getEntry
  rw [hu]
  by_cases h1 : d' = d
  · subst h1
    rw [if_pos rfl, Option.bind_some, hu]
    by_cases h2 : f' = f
    · subst h2
      rw [if_pos rfl, Option.bind_some, hu]
      by_cases h3 : a' = a
      · simp [h3]
      · simp only [h3, and_false, if_false]
        cases hd : r d' with
        | none => rfl
        | some files =>
          simp only [Option.getD_some, Option.bind_some]
          cases files f' <;> rfl
    · simp only [h2, false_and, and_false, if_false]
      cases hd : r d' with
      | none => rfl
      | some files => rfl
  · simp [h1]

/-- C28: a value set is the value returned, and nothing else changes. -/
theorem C28_set_get (r : Reg) (d f a v : Text) : getEntry (setEntry r d f a v) d f a = some v ∧
    ∀ d' f' a', ¬ (d' = d ∧ f' = f ∧ a' = a) → getEntry (setEntry r d f a v) d' f' a' = getEntry r d' f' a' := by
  refine ⟨by rw [get_set]; simp, fun d' f' a' h => by rw [get_set, if_neg h]⟩

/-- C28: already processed means that the current value is the stored one. -/
theorem C28_already_iff (r : Reg) (d f a v : Text) :
    alreadyProcessed r d f a v = true ↔ getEntry r d f a = some v := by simp [alreadyProcessed]

/-! ### The file -/

theorem length_split (c : Char) (t : Text) : (split c t).length = t.count c + 1 := by
  induction t with
  | nil => rfl
  | cons x t ih =>
    unfold split
    by_cases h : x = c
    · simp [h, ih]
    · rw [if_neg h, List.count_cons_of_ne h]
      cases hs : split c t with
      | nil => exact absurd hs (split_ne_nil c t)
      | cons w ws => rw [hs] at ih; simpa using ih

theorem loadLine_error_iff (r : Reg) (l : Text) : (∃ r', loadLine r l = .ok r') ↔ bars l = 3 := by
  have h := length_split '|' l
  unfold loadLine bars
  constructor
  · rintro ⟨r', h'⟩
    split at h'
    · next he => rw [he] at h; simp at h; omega
    · cases h'
  · intro hb
    rw [hb] at h
    match hs : split '|' l, h with
    | [a, b, c, d], _ => exact ⟨_, rfl⟩

/-- C28: loading fails, with ValueError, if and only if some line does not have exactly three
separators. -/
theorem C28_load_ok_iff (r : Reg) (ls : List Text) :
    (∃ r', loadLines r ls = .ok r') ↔ ∀ l ∈ ls, bars l = 3 := by
  induction ls generalizing r with
  | nil => simp [loadLines]
  | cons l ls ih =>
    simp only [loadLines, List.forall_mem_cons]
    rw [← loadLine_error_iff r l]
    constructor
    · rintro ⟨r', h⟩
      split at h
      · cases h
      · next r1 h1 => exact ⟨⟨r1, h1⟩, (ih r1).1 ⟨r', h⟩⟩
    · rintro ⟨⟨r1, h1⟩, h2⟩
      rw [h1]
      exact (ih r1).2 h2

theorem univ_of_clean {t : Text} (h : '\r' ∉ t) : univ false t = t := by
  induction t with
  | nil => rfl
  | cons x t ih =>
    simp only [List.mem_cons, not_or] at h
    unfold univ
    rw [if_neg (fun e => h.1 e.symm), if_neg (by simp), ih h.2]

theorem fileLines_append {l : Text} (h : '\n' ∉ l) (t : Text) :
    fileLines (l ++ '\n' :: t) = (l ++ ['\n']) :: fileLines t := by
  induction l with
  | nil => simp [fileLines]
  | cons x l ih =>
    simp only [List.mem_cons, not_or] at h
    rw [List.cons_append]
    conv_lhs => unfold fileLines
    rw [if_neg (fun e => h.1 e.symm), ih h.2]
    rfl

theorem rstrip_clean {t : Text} (h : '\n' ∉ t) : rstrip t = t := by
  unfold rstrip
  have : t.reverse.dropWhile (· = '\n') = t.reverse := by
    cases hr : t.reverse with
    | nil => rfl
    | cons x l =>
      have : x ∈ t := by rw [← List.mem_reverse, hr]; simp
      have hx : x ≠ '\n' := fun e => h (e ▸ this)
      simp [List.dropWhile, hx]
  rw [this, List.reverse_reverse]

theorem rstrip_newline {t : Text} (h : '\n' ∉ t) : rstrip (t ++ ['\n']) = t := by
  have := rstrip_clean h
  unfold rstrip at this ⊢
  rw [List.reverse_append]
  simpa [List.dropWhile] using this

/-- Fields of a record. -/
theorem Clean.fields {x : Rec} (h : Clean x) :
    ('|' ∉ x.directory ∧ '|' ∉ x.name ∧ '|' ∉ x.moddate ∧ '|' ∉ x.md5) ∧
    ('\n' ∉ x.directory ∧ '\n' ∉ x.name ∧ '\n' ∉ x.moddate ∧ '\n' ∉ x.md5) ∧
    ('\r' ∉ x.directory ∧ '\r' ∉ x.name ∧ '\r' ∉ x.moddate ∧ '\r' ∉ x.md5) := by
  have h1 := h x.directory (by simp)
  have h2 := h x.name (by simp)
  have h3 := h x.moddate (by simp)
  have h4 := h x.md5 (by simp)
  exact ⟨⟨h1.1, h2.1, h3.1, h4.1⟩, ⟨h1.2.1, h2.2.1, h3.2.1, h4.2.1⟩, ⟨h1.2.2, h2.2.2, h3.2.2, h4.2.2⟩⟩

/-- What one record does to a register. -/
def apply (r : Reg) (x : Rec) : Reg :=
  setEntry (setEntry r x.directory x.name MODDATE x.moddate) x.directory x.name MD5SUM x.md5

theorem body_no_newline {x : Rec} (h : Clean x) :
    '\n' ∉ join '|' [x.directory, x.name, x.moddate, x.md5] ∧
    '\r' ∉ join '|' [x.directory, x.name, x.moddate, x.md5] := by
  obtain ⟨_, ⟨n1, n2, n3, n4⟩, ⟨r1, r2, r3, r4⟩⟩ := h.fields
  simp [join, n1, n2, n3, n4, r1, r2, r3, r4]

theorem loadLine_recLine {x : Rec} (h : Clean x) (r : Reg) : loadLine r (recLine x) = .ok (apply r x) := by
  obtain ⟨⟨b1, b2, b3, b4⟩, ⟨n1, n2, n3, n4⟩, _⟩ := h.fields
  have hs : split '|' (recLine x) = [x.directory, x.name, x.moddate, x.md5 ++ ['\n']] := by
    have : recLine x = join '|' [x.directory, x.name, x.moddate, x.md5 ++ ['\n']] := by
      simp [recLine, join]
    rw [this]
    refine split_join (by simp) ?_
    intro w hw
    simp only [List.mem_cons, List.not_mem_nil, or_false] at hw
    rcases hw with rfl | rfl | rfl | rfl
    · exact b1
    · exact b2
    · exact b3
    · simp [b4]
  unfold loadLine
  rw [hs]
  simp only [rstrip_clean n3, rstrip_newline n4]
  rfl

theorem loadLines_content {l : List Rec} (h : ∀ x ∈ l, Clean x) (r : Reg) :
    loadLines r (fileLines (univ false (l.flatMap recLine))) = .ok (l.foldl apply r) := by
  have hu : univ false (l.flatMap recLine) = l.flatMap recLine := by
    apply univ_of_clean
    intro hm
    rw [List.mem_flatMap] at hm
    obtain ⟨x, hx, hm⟩ := hm
    have := (body_no_newline (h x hx)).2
    unfold recLine at hm
    simp only [List.mem_append, List.mem_singleton] at hm
    rcases hm with hm | hm
    · exact this hm
    · exact absurd hm (by decide)
  rw [hu]
  induction l generalizing r with
  | nil => rfl
  | cons x l ih =>
    have hx := h x (by simp)
    have hl : ∀ y ∈ l, Clean y := fun y hy => h y (List.mem_cons_of_mem _ hy)
    have e : (x :: l).flatMap recLine =
        join '|' [x.directory, x.name, x.moddate, x.md5] ++ '\n' :: l.flatMap recLine := by
      simp [recLine]
    rw [e, fileLines_append (body_no_newline hx).1]
    have hrl : join '|' [x.directory, x.name, x.moddate, x.md5] ++ ['\n'] = recLine x := rfl
    rw [hrl]
    simp only [loadLines, loadLine_recLine hx, List.foldl_cons]
    refine ih hl _ (univ_of_clean ?_)
    intro hm
    rw [List.mem_flatMap] at hm
    obtain ⟨y, hy, hm⟩ := hm
    have := (body_no_newline (hl y hy)).2
    unfold recLine at hm
    simp only [List.mem_append, List.mem_singleton] at hm
    rcases hm with hm | hm
    · exact this hm
    · exact absurd hm (by decide)

/-- The register agrees with a list of records. -/
def Agrees (r : Reg) (l : List Rec) : Prop := ∀ d f,
  getEntry r d f MODDATE = (lastRec l d f).map (·.moddate) ∧
  getEntry r d f MD5SUM = (lastRec l d f).map (·.md5)

theorem names_ne : MODDATE ≠ MD5SUM := by decide +kernel

theorem lastRec_append (l : List Rec) (x : Rec) (d f : Text) :
    lastRec (l ++ [x]) d f = if d = x.directory ∧ f = x.name then some x else lastRec l d f := by
  unfold lastRec
  simp only [List.reverse_append, List.reverse_cons, List.reverse_nil, List.nil_append,
    List.singleton_append, List.find?_cons]
  by_cases h : d = x.directory ∧ f = x.name
  · simp [h.1, h.2]
  · rw [if_neg h]
    have : ¬ (x.directory = d ∧ x.name = f) := fun e => h ⟨e.1.symm, e.2.symm⟩
    simp [this]

theorem get_apply (r : Reg) (x : Rec) (d f : Text) :
    (getEntry (apply r x) d f MODDATE = if d = x.directory ∧ f = x.name then some x.moddate
      else getEntry r d f MODDATE) ∧
    (getEntry (apply r x) d f MD5SUM = if d = x.directory ∧ f = x.name then some x.md5
      else getEntry r d f MD5SUM) := by
  unfold apply
  simp only [get_set, names_ne, names_ne.symm, and_false, and_true, if_false]

theorem agrees_apply {r : Reg} {l : List Rec} (h : Agrees r l) (x : Rec) : Agrees (apply r x) (l ++ [x]) := by
  intro d f
  rw [(get_apply r x d f).1, (get_apply r x d f).2, lastRec_append]
  split
  · exact ⟨rfl, rfl⟩
  · exact h d f

/-- Loading the whole file into a register that already agrees with it changes nothing. -/
theorem foldl_apply_get (l : List Rec) (r : Reg) (d f : Text) :
    (getEntry (l.foldl apply r) d f MODDATE = ((lastRec l d f).map (·.moddate)).or (getEntry r d f MODDATE)) ∧
    (getEntry (l.foldl apply r) d f MD5SUM = ((lastRec l d f).map (·.md5)).or (getEntry r d f MD5SUM)) := by
  induction l using List.reverseRecOn with
  | nil => simp [lastRec]
  | append_singleton l x ih =>
    rw [List.foldl_append]
    simp only [List.foldl_cons, List.foldl_nil]
    rw [(get_apply _ x d f).1, (get_apply _ x d f).2, lastRec_append]
    split
    · simp
    · exact ih

/-- State of the program between operations. -/
structure Inv (n : Text) (s : State) (l : List Rec) : Prop where
  dat : s.datfile = some n
  reg : Agrees s.reg l
  disk : s.disk n = if l = [] then none else some (l.flatMap recLine)
  clean : ∀ x ∈ l, Clean x

theorem step_inv {n : Text} (hn : n ≠ []) {s : State} {l : List Rec} (h : Inv n s l) {op : Op}
    (hop : ∀ x, op = .record x → Clean x) :
    ∃ s', step n s op = .ok s' ∧ Inv n s' (l ++ recorded [op]) := by
  cases op with
  | record x =>
    refine ⟨_, rfl, ?_⟩
    have hx := hop x rfl
    have hw : (write s x).1 = ⟨setEntry (setEntry s.reg x.directory x.name MD5SUM x.md5) x.directory x.name
        MODDATE x.moddate, some n, upd s.disk n ((s.disk n).getD [] ++ recLine x)⟩ := by
      simp [write, h.dat]
    rw [hw]
    refine ⟨rfl, ?_, ?_, ?_⟩
    · intro d f
      simp only [recorded, get_set, names_ne, names_ne.symm, and_false, and_true, if_false, lastRec_append]
      split
      · exact ⟨rfl, rfl⟩
      · exact h.reg d f
    · simp only [upd, if_true, recorded, h.disk]
      by_cases he : l = []
      · simp [he]
      · simp [he]
    · intro y hy
      simp only [recorded, List.mem_append, List.mem_singleton] at hy
      rcases hy with hy | rfl
      · exact h.clean y hy
      · exact hx
  | reload =>
    simp only [step, load, hn, if_false, h.disk, recorded, List.append_nil]
    by_cases he : l = []
    · subst he
      exact ⟨_, rfl, rfl, h.reg, h.disk, h.clean⟩
    · simp only [he, if_false, loadLines_content h.clean]
      refine ⟨_, rfl, rfl, ?_, h.disk, h.clean⟩
      intro d f
      have := foldl_apply_get l s.reg d f
      have hr := h.reg d f
      rw [this.1, this.2, hr.1, hr.2]
      simp
  | restart =>
    simp only [step, restart, load, hn, if_false, h.disk, recorded, List.append_nil]
    by_cases he : l = []
    · subst he
      refine ⟨_, rfl, rfl, ?_, h.disk, h.clean⟩
      intro d f
      simp [getEntry, emptyReg, lastRec]
    · simp only [he, if_false, loadLines_content h.clean]
      refine ⟨_, rfl, rfl, ?_, h.disk, h.clean⟩
      intro d f
      have := foldl_apply_get l emptyReg d f
      rw [this.1, this.2]
      simp [getEntry, emptyReg]

theorem run_inv {n : Text} (hn : n ≠ []) (ops : List Op) : ∀ {s : State} {l : List Rec}, Inv n s l →
    (∀ x, Op.record x ∈ ops → Clean x) → ∃ s', run n s ops = .ok s' ∧ Inv n s' (l ++ recorded ops) := by
  induction ops with
  | nil => intro s l h _; exact ⟨s, rfl, by simpa [recorded] using h⟩
  | cons op ops ih =>
    intro s l h hc
    obtain ⟨s1, h1, h2⟩ := step_inv hn h (op := op) (fun x hx => hc x (by simp [hx]))
    obtain ⟨s2, h3, h4⟩ := ih h2 (fun x hx => hc x (List.mem_cons_of_mem _ hx))
    refine ⟨s2, by simp only [run, h1, h3], ?_⟩
    have : recorded (op :: ops) = recorded [op] ++ recorded ops := by cases op <;> rfl
    rw [this, ← List.append_assoc]
    exact h4

/-- C28: start with no register file; after any history of records, reloads and restarts (all names and
attributes free of separators and line breaks), nothing has failed, and asking for a file's modification
date or checksum gives the last recorded value, or nothing if the file was never recorded. -/
theorem C28_register_is_map {n : Text} (hn : n ≠ []) {disk : Text → Option Text} (hd : disk n = none)
    {s : State} {k : ℕ} (hs : restart disk n = .ok (s, k)) (ops : List Op)
    (hc : ∀ x, Op.record x ∈ ops → Clean x) :
    ∃ s', run n s ops = .ok s' ∧ ∀ d f,
      getEntry s'.reg d f MODDATE = (lastRec (recorded ops) d f).map (·.moddate) ∧
      getEntry s'.reg d f MD5SUM = (lastRec (recorded ops) d f).map (·.md5) := by
  simp only [restart, load, hn, if_false, hd, Except.ok.injEq, Prod.mk.injEq] at hs
  obtain ⟨s', h1, h2⟩ := run_inv hn ops (s := s) (l := [])
    ⟨by rw [← hs.1], by rw [← hs.1]; intro d f; simp [getEntry, emptyReg, lastRec], by rw [← hs.1]; simp [hd],
      by simp⟩ hc
  rw [List.nil_append] at h2
  exact ⟨s', h1, h2.reg⟩

/-- C28: the return code says whether a register was read; reading changes no file, and without a register the entries
are as before. -/
theorem C28_return_code {s s' : State} {name : Option Text} {k : ℕ} (h : load s name = .ok (s', k)) :
    s'.disk = s.disk ∧ (k = 0 ∨ k = 1) ∧ (k = 1 ↔ ∃ n c, name = some n ∧ n ≠ [] ∧ s.disk n = some c) ∧
    (k = 0 → s'.reg = s.reg) := by
  unfold load at h
  cases name with
  | none => cases h; simp
  | some n =>
    by_cases hn : n = []
    · simp only [hn, if_true] at h; cases h; simp [hn]
    · simp only [hn, if_false] at h
      cases hd : s.disk n with
      | none => rw [hd] at h; cases h; simp [hd]
      | some c =>
        rw [hd] at h
        simp only at h
        split at h
        · cases h
        · cases h; simp [hn, hd]

/-- Records of a realistic run. -/
def exRec : Rec := ⟨"/data/windfield".toList, "gust.001-00001.nc".toList,
  "d41d8cd98f00b204e9800998ecf8427e".toList, "Mon Jan  2 10:11:12 2017".toList⟩
example : Clean exRec := by unfold Clean; decide +kernel
example : ∃ s k, restart (fun _ => none) ['r'] = .ok (s, k) ∧
    ∃ s', run ['r'] s [.record exRec, .restart, .reload] = .ok s' ∧
      alreadyProcessed s'.reg exRec.directory exRec.name MD5SUM exRec.md5 = true :=
  ⟨_, _, rfl, _, rfl, by decide +kernel⟩
/-- A register that is there -/
example : ∃ s s', load ⟨emptyReg, none, fun _ => some []⟩ (some ['r']) = .ok (s, 1) ∧
    load ⟨emptyReg, none, fun _ => none⟩ (some ['r']) = .ok (s', 0) := ⟨_, _, rfl, rfl⟩

theorem bars_recLine (x : Rec) : bars (recLine x) =
    bars x.directory + bars x.name + bars x.moddate + bars x.md5 + 3 := by
  simp only [bars, recLine, join, List.count_append, List.count_cons, List.count_nil]
  simp
  omega

/-- C28 fails for names with a separator: after any clean history, recording a file whose directory or
name contains '|' (and no line break) makes every later start of the program fail. -/
theorem C28_separator_fails {n : Text} (hn : n ≠ []) {s : State} {l : List Rec} (h : Inv n s l) {x : Rec}
    (hb : bars x.directory + bars x.name ≠ 0)
    (hl : ∀ t ∈ [x.directory, x.name, x.moddate, x.md5], '\n' ∉ t ∧ '\r' ∉ t) :
    restart (write s x).1.disk n = .error .valueError := by
  have h1 := hl x.directory (by simp)
  have h2 := hl x.name (by simp)
  have h3 := hl x.moddate (by simp)
  have h4 := hl x.md5 (by simp)
  have hw : (write s x).1.disk n = some (l.flatMap recLine ++ recLine x) := by
    simp only [write, h.dat, upd, if_true, h.disk]
    by_cases he : l = [] <;> simp [he]
  have hcr : '\r' ∉ l.flatMap recLine ++ recLine x := by
    intro hm
    rw [List.mem_append, List.mem_flatMap] at hm
    rcases hm with ⟨y, hy, hm⟩ | hm
    · have := (body_no_newline (h.clean y hy)).2
      unfold recLine at hm
      simp only [List.mem_append, List.mem_singleton] at hm
      rcases hm with hm | hm
      · exact this hm
      · exact absurd hm (by decide)
    · simp [recLine, join, h1.2, h2.2, h3.2, h4.2] at hm
  have hlines : ∀ l : List Rec, (∀ y ∈ l, Clean y) → recLine x ∈ fileLines (l.flatMap recLine ++ recLine x) := by
    intro l
    induction l with
    | nil =>
      intro _
      have : fileLines (recLine x) = [recLine x] := by
        have := fileLines_append (l := join '|' [x.directory, x.name, x.moddate, x.md5]) (by
          simp [join, h1.1, h2.1, h3.1, h4.1]) []
        simpa [recLine, fileLines] using this
      simp [this]
    | cons y l ih =>
      intro hc
      have e : (y :: l).flatMap recLine ++ recLine x =
          join '|' [y.directory, y.name, y.moddate, y.md5] ++ '\n' :: (l.flatMap recLine ++ recLine x) := by
        simp [recLine]
      rw [e, fileLines_append (body_no_newline (hc y (by simp))).1]
      exact List.mem_cons_of_mem _ (ih fun z hz => hc z (List.mem_cons_of_mem _ hz))
  have hno : ¬ ∃ r', loadLines emptyReg (fileLines (univ false (l.flatMap recLine ++ recLine x))) = .ok r' := by
    rw [C28_load_ok_iff, univ_of_clean hcr]
    intro hall
    have := hall _ (hlines l h.clean)
    rw [bars_recLine] at this
    omega
  simp only [restart, load, hn, if_false, hw]
  cases hres : loadLines emptyReg (fileLines (univ false (l.flatMap recLine ++ recLine x))) with
  | ok r => exact absurd ⟨r, hres⟩ hno
  | error e =>
    have : ∀ (ls : List Text) (r : Reg) (e : Err), loadLines r ls = .error e → e = .valueError := by
      intro ls
      induction ls with
      | nil => intro r e h; cases h
      | cons l ls ih =>
        intro r e h
        simp only [loadLines] at h
        split at h
        · next he =>
          unfold loadLine at he
          split at he
          · cases he
          · cases he; cases h; rfl
        · exact ih _ _ h
    rw [this _ _ _ hres]

/-! ### C62 -/

theorem loadLines_error {ls : List Text} {r : Reg} (h : ∃ l ∈ ls, bars l ≠ 3) :
    loadLines r ls = .error .valueError := by
  induction ls generalizing r with
  | nil => obtain ⟨l, hl, _⟩ := h; simp at hl
  | cons l ls ih =>
    simp only [loadLines]
    cases hll : loadLine r l with
    | error e =>
      unfold loadLine at hll
      split at hll
      · cases hll
      · cases hll; rfl
    | ok r' =>
      refine ih ?_
      obtain ⟨m, hm, hb⟩ := h
      simp only [List.mem_cons] at hm
      rcases hm with rfl | hm
      · exact absurd ((loadLine_error_iff r m).1 ⟨r', hll⟩) hb
      · exact ⟨m, hm, hb⟩

/-- The last, unfinished line of a file. -/
theorem fileLines_tail {l : List Rec} (hc : ∀ y ∈ l, Clean y) {t : Text} (hne : t ≠ [])
    (ht : '\n' ∉ t) : t ∈ fileLines (l.flatMap recLine ++ t) := by
  induction l with
  | nil =>
    have : ∀ t : Text, t ≠ [] → '\n' ∉ t → fileLines t = [t] := by
      intro t
      induction t with
      | nil => intro h; exact absurd rfl h
      | cons x t ih =>
        intro _ h
        simp only [List.mem_cons, not_or] at h
        unfold fileLines
        rw [if_neg (fun e => h.1 e.symm)]
        cases t with
        | nil => rfl
        | cons y t => rw [ih (by simp) h.2]
    simp [this t hne ht]
  | cons y l ih =>
    have e : (y :: l).flatMap recLine ++ t =
        join '|' [y.directory, y.name, y.moddate, y.md5] ++ '\n' :: (l.flatMap recLine ++ t) := by
      simp [recLine]
    rw [e, fileLines_append (body_no_newline (hc y (by simp))).1]
    exact List.mem_cons_of_mem _ (ih fun z hz => hc z (List.mem_cons_of_mem _ hz))

theorem clean_prefix {x : Rec} (hx : Clean x) {k : ℕ} (hk : k < (recLine x).length) :
    '\n' ∉ (recLine x).take k ∧ '\r' ∉ (recLine x).take k := by
  have hb := body_no_newline hx
  have : (recLine x).take k = (join '|' [x.directory, x.name, x.moddate, x.md5]).take k := by
    unfold recLine at hk ⊢
    simp only [List.length_append, List.length_singleton] at hk
    rw [List.take_append_of_le_length (by omega)]
  rw [this]
  exact ⟨fun h => hb.1 (List.mem_of_mem_take h), fun h => hb.2 (List.mem_of_mem_take h)⟩

theorem no_cr_content {l : List Rec} (hc : ∀ y ∈ l, Clean y) : '\r' ∉ l.flatMap recLine := by
  intro hm
  rw [List.mem_flatMap] at hm
  obtain ⟨y, hy, hm⟩ := hm
  have := (body_no_newline (hc y hy)).2
  unfold recLine at hm
  simp only [List.mem_append, List.mem_singleton] at hm
  rcases hm with hm | hm
  · exact this hm
  · exact absurd hm (by decide)

/-- C62 fails: if the program is stopped while the line of a record is being written, after at least one
character and before the third separator, no later start of the program can read the register: all
earlier entries are lost too. -/
theorem C62_interrupted_write_fails {n : Text} (hn : n ≠ []) {s : State} {l : List Rec} (h : Inv n s l)
    {x : Rec} (hx : Clean x) {k : ℕ} (hk : 0 < k) (hk' : k < (recLine x).length)
    (hb : bars ((recLine x).take k) < 3) : restart (crashedWrite s x k) n = .error .valueError := by
  obtain ⟨h1, h2⟩ := clean_prefix hx hk'
  have hne : (recLine x).take k ≠ [] := by
    intro e
    have := congrArg List.length e
    simp only [List.length_take, List.length_nil] at this
    omega
  have hw : crashedWrite s x k n = some (l.flatMap recLine ++ (recLine x).take k) := by
    simp only [crashedWrite, h.dat, upd, if_true, h.disk]
    by_cases he : l = [] <;> simp [he]
  have hcr : '\r' ∉ l.flatMap recLine ++ (recLine x).take k := by
    rw [List.mem_append, not_or]
    exact ⟨no_cr_content h.clean, h2⟩
  simp only [restart, load, hn, if_false, hw, univ_of_clean hcr]
  rw [loadLines_error ⟨_, fileLines_tail h.clean hne h1, by omega⟩]

/-- C62 fails, later: if the write was stopped after some separator and the newline is missing, the next
record is appended to the same line, and every start after that fails. (Opening the register and writing
the next record succeed if three separators had been written.) -/
theorem C62_next_record_fails {n : Text} (hn : n ≠ []) {s : State} {l : List Rec} (h : Inv n s l)
    {x y : Rec} (hx : Clean x) (hy : Clean y) {k : ℕ} (hk' : k < (recLine x).length)
    (hb : 0 < bars ((recLine x).take k)) {s' : State} (hd : s'.datfile = some n)
    (hdisk : s'.disk = crashedWrite s x k) : restart (write s' y).1.disk n = .error .valueError := by
  obtain ⟨h1, h2⟩ := clean_prefix hx hk'
  have hyb := body_no_newline hy
  have hw0 : crashedWrite s x k n = some (l.flatMap recLine ++ (recLine x).take k) := by
    simp only [crashedWrite, h.dat, upd, if_true, h.disk]
    by_cases he : l = [] <;> simp [he]
  have hw : (write s' y).1.disk n = some (l.flatMap recLine ++ ((recLine x).take k ++ recLine y)) := by
    simp [write, hd, upd, hdisk, hw0]
  have hcr : '\r' ∉ l.flatMap recLine ++ ((recLine x).take k ++ recLine y) := by
    simp only [List.mem_append, not_or]
    refine ⟨no_cr_content h.clean, h2, ?_⟩
    unfold recLine
    simp only [List.mem_append, List.mem_singleton, not_or]
    exact ⟨hyb.2, by decide⟩
  have hline : ∀ l : List Rec, (∀ z ∈ l, Clean z) →
      (recLine x).take k ++ recLine y ∈ fileLines (l.flatMap recLine ++ ((recLine x).take k ++ recLine y)) := by
    intro l
    induction l with
    | nil =>
      intro _
      have := fileLines_append (l := (recLine x).take k ++ join '|' [y.directory, y.name, y.moddate, y.md5])
        (by rw [List.mem_append, not_or]; exact ⟨h1, hyb.1⟩) []
      simp only [List.append_assoc] at this
      simp only [List.flatMap_nil, List.nil_append]
      unfold recLine at this ⊢
      simp only [this]
      exact List.mem_cons_self
    | cons z l ih =>
      intro hc
      have e : (z :: l).flatMap recLine ++ ((recLine x).take k ++ recLine y) =
          join '|' [z.directory, z.name, z.moddate, z.md5] ++
            '\n' :: (l.flatMap recLine ++ ((recLine x).take k ++ recLine y)) := by
        simp [recLine]
      rw [e, fileLines_append (body_no_newline (hc z (by simp))).1]
      exact List.mem_cons_of_mem _ (ih fun w hw => hc w (List.mem_cons_of_mem _ hw))
  have hbars : bars ((recLine x).take k ++ recLine y) ≠ 3 := by
    have := bars_recLine y
    unfold bars at this hb ⊢
    rw [List.count_append]
    omega
  simp only [restart, load, hn, if_false, hw, univ_of_clean hcr]
  rw [loadLines_error ⟨_, hline l h.clean, hbars⟩]

/-- C62 for stops before or after the write: nothing is lost. -/
theorem C62_complete_write_partial {n : Text} (hn : n ≠ []) {s : State} {l : List Rec} (h : Inv n s l)
    {x : Rec} (hx : Clean x) {k : ℕ} (hk : k = 0 ∨ (recLine x).length ≤ k) :
    ∃ s' c, restart (crashedWrite s x k) n = .ok (s', c) ∧
      Agrees s'.reg (if k = 0 then l else l ++ [x]) := by
  have hw : crashedWrite s x k n = some (l.flatMap recLine ++ (recLine x).take k) := by
    simp only [crashedWrite, h.dat, upd, if_true, h.disk]
    by_cases he : l = [] <;> simp [he]
  simp only [restart, load, hn, if_false, hw]
  have hpos : 0 < (recLine x).length := by simp [recLine]
  have agree : ∀ m : List Rec, Agrees (m.foldl apply emptyReg) m := by
    intro m d f
    have := foldl_apply_get m emptyReg d f
    rw [this.1, this.2]
    simp [getEntry, emptyReg]
  rcases hk with rfl | hk
  · simp only [List.take_zero, List.append_nil, loadLines_content h.clean, if_true]
    exact ⟨_, _, rfl, agree l⟩
  · have hc : ∀ y ∈ l ++ [x], Clean y := by
      intro y hy
      simp only [List.mem_append, List.mem_singleton] at hy
      rcases hy with hy | rfl
      · exact h.clean y hy
      · exact hx
    have e : l.flatMap recLine ++ (recLine x).take k = (l ++ [x]).flatMap recLine := by
      rw [List.take_of_length_le hk]; simp
    rw [e, loadLines_content hc, if_neg (by omega)]
    exact ⟨_, _, rfl, agree _⟩

example : 0 < 5 ∧ 5 < (recLine exRec).length ∧ bars ((recLine exRec).take 5) < 3 := by decide +kernel
example : 30 < (recLine exRec).length ∧ 0 < bars ((recLine exRec).take 30) := by decide +kernel
/-- States reached in the histories of C28 satisfy the hypothesis of these theorems. -/
theorem reachable_inv {n : Text} (hn : n ≠ []) {disk : Text → Option Text} (hd : disk n = none)
    {s : State} {k : ℕ} (hs : restart disk n = .ok (s, k)) (ops : List Op)
    (hc : ∀ x, Op.record x ∈ ops → Clean x) : ∃ s', run n s ops = .ok s' ∧ Inv n s' (recorded ops) := by
  simp only [restart, load, hn, if_false, hd, Except.ok.injEq, Prod.mk.injEq] at hs
  simpa using run_inv hn ops (s := s) (l := [])
    ⟨by rw [← hs.1], by rw [← hs.1]; intro d f; simp [getEntry, emptyReg, lastRec], by rw [← hs.1]; simp [hd],
      by simp⟩ hc

/-! ### C63 -/

/-- C63: deleting removes the file, so that a new process starts with an empty register. -/
theorem C63_deleted {s s' : State} {n : Text} {c : ℕ} (hn : n ≠ []) (hd : s.datfile = some n)
    (h : deleteDat s = .ok (s', c)) : s'.disk n = none ∧
      ∃ s'' c', restart s'.disk n = .ok (s'', c') ∧ ∀ d f a, getEntry s''.reg d f a = none := by
  simp only [deleteDat, hd] at h
  split at h
  · cases h
  · simp only [Except.ok.injEq, Prod.mk.injEq] at h
    have e : s'.disk n = none := by rw [← h.1]; simp
    refine ⟨e, ⟨emptyReg, some n, s'.disk⟩, 0, ?_, fun d f a => rfl⟩
    simp only [restart, load, hn, if_false, e]

/-- C63 fails: a successful deletion reports failure (0). -/
theorem C63_reports_failure {s s' : State} {c : ℕ} (h : deleteDat s = .ok (s', c)) : c = 0 := by
  unfold deleteDat at h
  split at h
  · cases h
  · split at h
    · cases h
    · simp only [Except.ok.injEq, Prod.mk.injEq] at h; exact h.2.symm

/-- C63 fails: in the running process the entries stay; files are still taken as processed. -/
theorem C63_entries_stay {s s' : State} {c : ℕ} (h : deleteDat s = .ok (s', c)) : s'.reg = s.reg := by
  unfold deleteDat at h
  split at h
  · cases h
  · split at h
    · cases h
    · simp only [Except.ok.injEq, Prod.mk.injEq] at h; rw [← h.1]

example : ∃ s' c, deleteDat ⟨emptyReg, some ['r'], fun _ => some []⟩ = .ok (s', c) := ⟨_, _, rfl⟩

/-- C62: a record is written if and only if a register is in use; the call says so. -/
theorem C62_written (s : State) (x : Rec) :
    ((write s x).2 = 1 ↔ s.datfile ≠ none) ∧ ((write s x).2 = 0 ↔ s.datfile = none) ∧
    (s.datfile = none → (write s x).1 = s) := by
  unfold write
  cases h : s.datfile with
  | none => simp
  | some n => simp

end Tcrm.Register
