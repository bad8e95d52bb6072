import Verif.Spec.Config
import Mathlib.Data.List.Induction
import Mathlib.Tactic.Common
/-!
C26 (the configuration is read once and shared) and C27 (defaults, list round trip).
-/
namespace Tcrm.Config

/-! ### Lookups -/

/-- Value of an option in a table. -/
def look (tab : Table) (s o : Text) : Option Val := (tab s).bind fun opts => opts (lower o)

theorem getOption_of_look {p : Parser} {s o : Text} {v : Val} :
    getOption p s o = .ok v ↔ look p.table s o = some v := by
  unfold getOption look
  cases p.table s with
  | none => simp
  | some opts => simp only [Option.bind_some]; cases opts (lower o) <;> simp

theorem foldl_putOption (l : List (Text × Text)) (t : Text → Option Val) (o : Text) :
    (l.foldl (fun t e => putOption t e.1 (.str e.2)) t) o =
      ((l.reverse.find? fun e => lower e.1 = o).map fun e => Val.str e.2).or (t o) := by
  induction l using List.reverseRecOn with
  | nil => simp
  | append_singleton l e ih =>
    rw [List.foldl_append]
    simp only [List.foldl_cons, List.foldl_nil, List.reverse_append, List.reverse_cons, List.reverse_nil,
      List.nil_append, List.singleton_append, List.find?_cons]
    unfold putOption
    by_cases h : o = lower e.1
    · simp [h]
    · rw [if_neg h]
      have : ¬ lower e.1 = o := fun e' => h e'.symm
      simp only [this, decide_false]
      exact ih

theorem fileSays_append (es : Entries) (sec : Text × List (Text × Text)) (s o : Text) :
    fileSays (es ++ [sec]) s o =
      (if s = sec.1 then (sec.2.reverse.find? fun e => lower e.1 = lower o).map fun e => e.2 else none).or
        (fileSays es s o) := by
  unfold fileSays settings
  rw [List.flatMap_append, List.reverse_append, List.find?_append]
  simp only [List.flatMap_cons, List.flatMap_nil, List.append_nil]
  rw [Option.map_or]
  congr 1
  rw [← List.map_reverse]
  by_cases h : s = sec.1
  · rw [if_pos h]
    induction sec.2.reverse with
    | nil => simp
    | cons e l ih =>
      simp only [List.map_cons, List.find?_cons]
      by_cases h' : lower e.1 = lower o
      · simp [h', h]
      · simp only [h', and_false, decide_false]
        exact ih
  · rw [if_neg h]
    induction sec.2.reverse with
    | nil => simp
    | cons e l ih =>
      simp only [List.map_cons, List.find?_cons]
      have : ¬ sec.1 = s := fun e' => h e'.symm
      simp only [this, false_and, decide_false]
      exact ih

theorem look_putSection (tab : Table) (sec : Text × List (Text × Text)) {s : Text} (h : s = sec.1) (o : Text) :
    look (putSection tab sec) s o =
      ((sec.2.reverse.find? fun e => lower e.1 = lower o).map fun e => Val.str e.2).or (look tab s o) := by
  unfold look putSection
  rw [if_pos h]
  simp only [Option.bind_some]
  rw [foldl_putOption]
  cases tab s with
  | none => rfl
  | some t => rfl

/-- Reading a file: the option has the last text the file gives, otherwise what it was. -/
theorem look_putEntries (tab : Table) (es : Entries) (s o : Text) :
    look (putEntries tab es) s o = ((fileSays es s o).map Val.str).or (look tab s o) := by
  unfold putEntries
  induction es using List.reverseRecOn with
  | nil => simp [fileSays, settings]
  | append_singleton es sec ih =>
    rw [List.foldl_append, fileSays_append]
    simp only [List.foldl_cons, List.foldl_nil]
    by_cases h : s = sec.1
    · have : look (putSection (List.foldl putSection tab es) sec) s o =
          ((sec.2.reverse.find? fun e => lower e.1 = lower o).map fun e => Val.str e.2).or
            (look (List.foldl putSection tab es) s o) := by
        exact look_putSection _ sec h o
      rw [this, ih, if_pos h, Option.map_or, Option.map_map, Option.or_assoc]
      rfl
    · have : look (putSection (List.foldl putSection tab es) sec) s o =
          look (List.foldl putSection tab es) s o := by
        unfold look putSection
        rw [if_neg h]
      rw [this, ih, if_neg h]
      simp

/-! ### C26 -/

/-- The state of the module as long as there is no reset: one object. -/
def Single (w : World) : Prop := w.current = 0 ∧ ∃ p, w.heap = [p]

theorem step_single {fs : Text → FileState} {d : Entries} {w : World} {op : Op} (h : Single w)
    (hr : op ≠ .reset) : Single (step fs d w op).1 := by
  obtain ⟨hc, p, hp⟩ := h
  cases op with
  | obtain => exact ⟨hc, p, hp⟩
  | read h path =>
    refine ⟨hc, ?_⟩
    simp only [step, hp]
    cases h with
    | zero => exact ⟨_, rfl⟩
    | succ n => exact ⟨p, rfl⟩
  | set h s o v =>
    refine ⟨hc, ?_⟩
    simp only [step, hp]
    cases h with
    | zero => exact ⟨_, rfl⟩
    | succ n => exact ⟨p, rfl⟩
  | get h s o => exact ⟨hc, p, hp⟩
  | reset => exact absurd rfl hr

theorem run_single {fs : Text → FileState} {d : Entries} {ops : List Op} :
    ∀ {w : World}, Single w → Op.reset ∉ ops → Single (run fs d w ops).1 := by
  induction ops with
  | nil => intro w h _; exact h
  | cons op ops ih =>
    intro w h hr
    simp only [List.mem_cons, not_or] at hr
    exact ih (step_single h (Ne.symm hr.1)) hr.2

/-- C26: without a reset all parts of the program obtain the same object. -/
theorem C26_one_handle {fs : Text → FileState} {d : Entries} {ops : List Op} (hr : Op.reset ∉ ops) {h : ℕ}
    (hh : Out.handle h ∈ (run fs d (start d) ops).2) : h = (start d).current := by
  have key : ∀ (ops : List Op) (w : World), Single w → Op.reset ∉ ops →
      Out.handle h ∈ (run fs d w ops).2 → h = 0 := by
    intro ops
    induction ops with
    | nil => intro w _ _ hm; simp [run] at hm
    | cons op ops ih =>
      intro w hw hr hm
      simp only [List.mem_cons, not_or] at hr
      simp only [run, List.mem_cons] at hm
      rcases hm with hm | hm
      · cases op with
        | obtain => simp only [step, Out.handle.injEq] at hm; rw [hm]; exact hw.1
        | _ => simp [step] at hm
      · exact ih _ (step_single hw (Ne.symm hr.1)) hr.2 hm
  exact key ops _ ⟨rfl, _, rfl⟩ hr hh

/-- The object in a state without resets. -/
def World.object (w : World) (d : Entries) : Parser := w.heap.getD w.current (newParser d)

theorem object_read {fs : Text → FileState} {d : Entries} {w : World} (hw : Single w) (h : ℕ)
    (path : Option Text) : (step fs d w (.read h path)).1.object d =
      if h = 0 then (readFile fs (w.object d) path).1 else w.object d := by
  obtain ⟨hc, p, hp⟩ := hw
  simp only [step, World.object, hc, hp]
  cases h with
  | zero => simp
  | succ n => simp

theorem object_set {fs : Text → FileState} {d : Entries} {w : World} (hw : Single w) (h : ℕ)
    (s o : Text) (v : Val) : (step fs d w (.set h s o v)).1.object d =
      if h = 0 then (setOption (w.object d) s o v).1 else w.object d := by
  obtain ⟨hc, p, hp⟩ := hw
  simp only [step, World.object, hc, hp]
  cases h with
  | zero => simp
  | succ n => simp

/-- The first file read in a history (through the shared handle) that exists. -/
def firstFile (fs : Text → FileState) : List Op → Option Entries
  | [] => none
  | .read 0 (some path) :: ops =>
    match fs path with
    | .good es => some es
    | _ => firstFile fs ops
  | _ :: ops => firstFile fs ops

/-- Operations that only read; files are readable or absent. -/
def Reading (fs : Text → FileState) : Op → Prop
  | .reset => False
  | .set _ _ _ _ => False
  | .read _ (some path) => fs path = .absent ∨ ∃ es, fs path = .good es
  | _ => True

/-- C26: after any history of obtaining and reading, with readable or absent files, an option has the
text the first existing file gives, or else the default. -/
theorem C26_first_file_wins {fs : Text → FileState} {d : Entries} {ops : List Op}
    (hops : ∀ op ∈ ops, Reading fs op) (s o : Text) :
    look ((run fs d (start d) ops).1.object d).table s o =
      ((((firstFile fs ops).bind fun es => fileSays es s o).or (fileSays d s o)).map Val.str) := by
  -- once a file has been read nothing changes
  have later : ∀ (ops : List Op) (w : World), Single w → (∀ op ∈ ops, Reading fs op) →
      (w.object d).readonce = true → (run fs d w ops).1.object d = w.object d := by
    intro ops
    induction ops with
    | nil => intro w _ _ _; rfl
    | cons op ops ih =>
      intro w hw hops hro
      have hop := hops op List.mem_cons_self
      have hne : op ≠ .reset := by rintro rfl; exact hop
      have hobj : (step fs d w op).1.object d = w.object d := by
        cases op with
        | obtain => rfl
        | get => rfl
        | reset => exact absurd rfl hne
        | set => exact absurd hop id
        | read h path =>
          rw [object_read hw]
          split
          · cases path with
            | none => rfl
            | some path => simp [readFile, hro]
          · rfl
      show (run fs d (step fs d w op).1 ops).1.object d = _
      rw [ih _ (step_single hw hne) (fun x hx => hops x (List.mem_cons_of_mem _ hx)) (by rw [hobj]; exact hro),
        hobj]
  have key : ∀ (ops : List Op) (w : World), Single w → (∀ op ∈ ops, Reading fs op) →
      w.object d = newParser d → look ((run fs d w ops).1.object d).table s o =
        ((((firstFile fs ops).bind fun es => fileSays es s o).or (fileSays d s o)).map Val.str) := by
    have hnew : look (newParser d).table s o = (fileSays d s o).map Val.str := by
      unfold newParser
      rw [look_putEntries]
      simp [look]
    intro ops
    induction ops with
    | nil => intro w _ _ hobj; show look (w.object d).table s o = _; rw [hobj, hnew]; simp [firstFile]
    | cons op ops ih =>
      intro w hw hops hobj
      have hop := hops op List.mem_cons_self
      have hne : op ≠ .reset := by rintro rfl; exact hop
      have hrest : ∀ x ∈ ops, Reading fs x := fun x hx => hops x (List.mem_cons_of_mem _ hx)
      have hsame : (step fs d w op).1.object d = newParser d → firstFile fs (op :: ops) = firstFile fs ops →
          look ((run fs d w (op :: ops)).1.object d).table s o =
          ((((firstFile fs (op :: ops)).bind fun es => fileSays es s o).or (fileSays d s o)).map Val.str) := by
        intro h1 h2
        rw [h2]
        exact ih _ (step_single hw hne) hrest h1
      cases op with
      | obtain => exact hsame hobj rfl
      | get => exact hsame hobj rfl
      | reset => exact absurd rfl hne
      | set => exact absurd hop id
      | read h path =>
        have hread := object_read (fs := fs) (d := d) hw h path
        rw [hobj] at hread
        cases h with
        | succ n =>
          exact hsame (by rw [hread]; simp) (by simp [firstFile])
        | zero =>
          cases path with
          | none => exact hsame (by rw [hread]; simp [readFile]) (by simp [firstFile])
          | some path =>
            rcases hop with ha | ⟨es, hg⟩
            · exact hsame (by rw [hread]; simp [readFile, ha, newParser]) (by simp [firstFile, ha])
            · have h1 : (step fs d w (.read 0 (some path))).1.object d = ⟨putEntries (newParser d).table es, true⟩ := by
                rw [hread]; simp [readFile, hg, newParser]
              show look ((run fs d (step fs d w (.read 0 (some path))).1 ops).1.object d).table s o = _
              rw [later ops _ (step_single hw hne) hrest (by rw [h1]), h1, look_putEntries, hnew]
              simp only [firstFile, hg, Option.bind_some, Option.map_or]
  exact key ops _ ⟨rfl, _, rfl⟩ hops rfl

/-- C26: a read after the first successful one reports success and changes nothing, whatever the path
is. -/
theorem C26_later_reads_ignored {fs : Text → FileState} {p : Parser} (h : p.readonce = true)
    (path : Option Text) : readFile fs p path = (p, .ok ()) := by
  cases path with
  | none => rfl
  | some path => simp [readFile, h]

/-- C26: an absent path is an error and changes nothing. -/
theorem C26_absent_path {fs : Text → FileState} {p : Parser} (h : p.readonce = false) {path : Text}
    (ha : fs path = .absent) : readFile fs p (some path) = (p, .error .valueError) := by
  simp [readFile, h, ha]

/-- C26 fails for a path that exists but cannot be opened: the read reports success, leaves the
defaults, and all later files are ignored. -/
theorem C26_unopenable_fails {fs : Text → FileState} {d : Entries} {path : Text}
    (hu : fs path = .unopenable) (later : Option Text) :
    (readFile fs (newParser d) (some path)).2 = .ok () ∧
    (readFile fs (newParser d) (some path)).1.table = (newParser d).table ∧
    (readFile fs (readFile fs (newParser d) (some path)).1 later).1.table = (newParser d).table := by
  have h1 : readFile fs (newParser d) (some path) = ({ newParser d with readonce := true }, .ok ()) := by
    simp [readFile, newParser, hu]
  rw [h1]
  refine ⟨rfl, rfl, ?_⟩
  rw [C26_later_reads_ignored rfl]

/-- C26: a setting made through one handle is seen through every other handle, and stays until the same
option is set again (the configuration having been read; no reset). -/
theorem C26_set_seen {fs : Text → FileState} {d : Entries} {before after : List Op} {s o : Text} {v : Val}
    (hb : Op.reset ∉ before) (ha : ∀ op ∈ after, op ≠ .reset ∧
      ∀ h s' o' v', op = .set h s' o' v' → ¬ (s' = s ∧ lower o' = lower o))
    (hread : ((run fs d (start d) before).1.object d).readonce = true) (hkey : key s o ∉ formatted)
    {w : World} (hw : w = (run fs d (start d) before).1)
    (hok : (setOption (w.object d) s o v).2 = .ok ())
    {h h' : ℕ} (hh : Out.handle h ∈ (run fs d (start d) before).2)
    (hh' : Out.handle h' ∈ (run fs d (start d) before).2) :
    (step fs d (run fs d w (.set h s o v :: after)).1 (.get h' s o)).2 = .value (.ok v) := by
  have e1 : h = 0 := C26_one_handle hb hh
  have e2 : h' = 0 := C26_one_handle hb hh'
  subst e1 e2
  have hs : Single w := by rw [hw]; exact run_single ⟨rfl, _, rfl⟩ hb
  rw [← hw] at hread
  -- the setting itself
  have h0 : look (setOption (w.object d) s o v).1.table s o = some v ∧
      (setOption (w.object d) s o v).1.readonce = true := by
    unfold setOption at hok ⊢
    simp only [if_neg hkey] at hok ⊢
    cases hsec : (w.object d).table s with
    | none => rw [hsec] at hok; cases hok
    | some opts => simp [look, putOption, hread]
  have persist : ∀ (after : List Op) (w : World), Single w → (∀ op ∈ after, op ≠ .reset ∧
      ∀ h s' o' v', op = .set h s' o' v' → ¬ (s' = s ∧ lower o' = lower o)) →
      look (w.object d).table s o = some v → (w.object d).readonce = true →
      Single (run fs d w after).1 ∧ look ((run fs d w after).1.object d).table s o = some v := by
    intro after
    induction after with
    | nil => intro w hw _ hl _; exact ⟨hw, hl⟩
    | cons op ops ih =>
      intro w hw hops hl hro
      have hop := hops op List.mem_cons_self
      have hobj : look ((step fs d w op).1.object d).table s o = some v ∧
          ((step fs d w op).1.object d).readonce = true := by
        cases op with
        | obtain => exact ⟨hl, hro⟩
        | get => exact ⟨hl, hro⟩
        | reset => exact absurd rfl hop.1
        | read h path =>
          rw [object_read hw]
          split
          · rw [C26_later_reads_ignored hro]; exact ⟨hl, hro⟩
          · exact ⟨hl, hro⟩
        | set h s' o' v' =>
          rw [object_set hw]
          split
          · have hne := hop.2 h s' o' v' rfl
            unfold setOption
            simp only
            split
            · exact ⟨hl, hro⟩
            · split
              · exact ⟨hl, hro⟩
              · next opts hsec =>
                refine ⟨?_, hro⟩
                unfold look at hl ⊢
                by_cases hss : s = s'
                · subst hss
                  simp only [if_true, Option.bind_some, putOption]
                  rw [if_neg (fun e => hne ⟨rfl, e.symm⟩)]
                  rw [hsec] at hl
                  exact hl
                · simp only [if_neg hss]
                  exact hl
          · exact ⟨hl, hro⟩
      exact ih _ (step_single hw hop.1) (fun x hx => hops x (List.mem_cons_of_mem _ hx)) hobj.1 hobj.2
  have hset := object_set (fs := fs) (d := d) hs 0 s o v
  rw [if_pos rfl] at hset
  obtain ⟨⟨hc, p, hp⟩, hl⟩ := persist after (step fs d w (.set 0 s o v)).1
    (step_single hs (by simp)) ha (by rw [hset]; exact h0.1) (by rw [hset]; exact h0.2)
  show Out.value (getOption ((run fs d (step fs d w (.set 0 s o v)).1 after).1.heap.getD 0 (newParser d)) s o) = _
  have hobj : (run fs d (step fs d w (.set 0 s o v)).1 after).1.heap.getD 0 (newParser d) =
      (run fs d (step fs d w (.set 0 s o v)).1 after).1.object d := by
    simp [World.object, hc]
  rw [hobj, getOption_of_look.2 hl]

/-- C26: a reset gives everyone who obtains the configuration afterwards a new object with the
defaults. -/
theorem C26_reset_defaults {fs : Text → FileState} {d : Entries} (w : World) :
    (step fs d (step fs d w .reset).1 .obtain).2 = .handle w.heap.length ∧
    (step fs d w .reset).1.object d = newParser d := by
  constructor
  · rfl
  · simp [step, World.object]

/-- C26: handles obtained before a reset are not updated by it: a setting made through a new handle is
not seen through an old one. -/
theorem C26_stale_handle_counterexample : ∃ (d : Entries) (fs : Text → FileState) (v : Val),
    let ops := [Op.obtain, .reset, .obtain, .set 1 ['A'] ['x'] v]
    (run fs d (start d) ops).2.getD 0 (.done (.ok ())) = .handle 0 ∧
    (run fs d (start d) ops).2.getD 2 (.done (.ok ())) = .handle 1 ∧
    (step fs d (run fs d (start d) ops).1 (.get 1 ['A'] ['x'])).2 = .value (.ok v) ∧
    (step fs d (run fs d (start d) ops).1 (.get 0 ['A'] ['x'])).2 = .value (.error .noOption) :=
  ⟨[(['A'], [])], fun _ => .absent, .int 5, rfl, rfl, by rfl, by rfl⟩

/-- A history in which a file is read, as in the theorems above. -/
def exFs : Text → FileState := fun p =>
  if p = ['f'] then .good [(['A'], [(['X'], ['1'])])] else if p = ['g'] then .good [(['A'], [(['x'], ['2'])])]
  else .absent
example : (run exFs [(['A'], [(['x'], ['0'])])] (start [(['A'], [(['x'], ['0'])])])
    [.obtain, .read 0 (some ['h']), .read 0 (some ['f']), .obtain, .read 0 (some ['g']), .get 0 ['A'] ['x']]).2 =
    [.handle 0, .done (.error .valueError), .done (.ok ()), .handle 0, .done (.ok ()),
      .value (.ok (.str ['1']))] := by rfl
example : ∀ op ∈ [Op.obtain, .read 0 (some ['h']), .read 0 (some ['f']), .obtain, .read 0 (some ['g'])],
    Reading exFs op := by
  intro op hop
  simp only [List.mem_cons, List.not_mem_nil, or_false] at hop
  rcases hop with rfl | rfl | rfl | rfl | rfl
  · trivial
  · exact Or.inl (by simp [exFs])
  · exact Or.inr ⟨_, rfl⟩
  · trivial
  · exact Or.inr ⟨[(['A'], [(['x'], ['2'])])], by simp [exFs]⟩

/-! ### C27 -/

/-- C27: the default is returned exactly if section or option is missing (any default). -/
theorem C27_default_if_missing (c : Conv) {p : Parser} {s o : Text} (default : Val)
    (h : look p.table s o = none) : iniValue c p s o default = .ok default := by
  unfold look at h
  unfold iniValue
  cases hs : p.table s with
  | none => rfl
  | some opts =>
    rw [hs] at h
    simp only [Option.bind_some] at h
    simp [h]

/-- C27: otherwise the default does not matter beyond its type. -/
theorem C27_default_ignored_if_present (c : Conv) {p : Parser} {s o : Text} {v : Val}
    (h : look p.table s o = some v) {d d' : Val} (ht : typeOf d = typeOf d') :
    iniValue c p s o d = iniValue c p s o d' := by
  unfold look at h
  unfold iniValue
  cases hs : p.table s with
  | none => rw [hs] at h; cases h
  | some opts =>
    rw [hs] at h
    simp only [Option.bind_some] at h
    simp only [h]
    cases d <;> cases d' <;> first | rfl | cases ht

/-- C27: with a default that is a text, a truth value, an integer or a float, a setting read from a file
comes back in the type of the default, or the call fails with ValueError. -/
theorem C27_typed_partial (c : Conv) {p : Parser} {s o t : Text} {d : Val}
    (h : look p.table s o = some (.str t))
    (ht : typeOf d = .str ∨ typeOf d = .bool ∨ typeOf d = .int ∨ typeOf d = .float) :
    (∃ v, iniValue c p s o d = .ok v ∧ typeOf v = typeOf d) ∨
      (iniValue c p s o d = .error .valueError ∧ typeOf d ≠ .str) := by
  unfold look at h
  unfold iniValue
  cases hs : p.table s with
  | none => rw [hs] at h; cases h
  | some opts =>
    rw [hs] at h
    simp only [Option.bind_some] at h
    simp only [h]
    cases d with
    | none => simp [typeOf] at ht
    | list => simp [typeOf] at ht
    | dict => simp [typeOf] at ht
    | obj => simp [typeOf] at ht
    | str => exact Or.inl ⟨_, rfl, rfl⟩
    | bool =>
      simp only [asBool, getBoolean]
      split
      · exact Or.inl ⟨_, rfl, rfl⟩
      · split
        · exact Or.inl ⟨_, rfl, rfl⟩
        · exact Or.inr ⟨rfl, by simp [typeOf]⟩
    | int =>
      simp only [asInt]
      split
      · exact Or.inl ⟨_, rfl, rfl⟩
      · exact Or.inr ⟨rfl, by simp [typeOf]⟩
    | float =>
      simp only [asFloat]
      split
      · exact Or.inl ⟨_, rfl, rfl⟩
      · exact Or.inr ⟨rfl, by simp [typeOf]⟩

/-- C27: the values themselves. A text is returned as it is; integers and floats are converted by the
standard conversion; truth values are the eight words in any case. -/
theorem C27_values (c : Conv) {p : Parser} {s o t : Text} (h : look p.table s o = some (.str t)) :
    (∀ d, iniValue c p s o (.str d) = .ok (.str t)) ∧
    (∀ d n, c.int t = some n → iniValue c p s o (.int d) = .ok (.int n)) ∧
    (∀ d x, c.float t = some x → iniValue c p s o (.float d) = .ok (.float x)) ∧
    (∀ d b, iniValue c p s o (.bool d) = .ok (.bool b) ↔
      lower t ∈ (if b then ["1", "yes", "true", "on"] else ["0", "no", "false", "off"]).map String.toList) := by
  unfold look at h
  unfold iniValue
  cases hs : p.table s with
  | none => rw [hs] at h; cases h
  | some opts =>
    rw [hs] at h
    simp only [Option.bind_some] at h
    simp only [h]
    refine ⟨fun _ => trivial, fun d n hn => by simp [asInt, hn], fun d x hx => by simp [asFloat, hx], fun d b => ?_⟩
    have hdis : ∀ x : Text, x ∈ ["1", "yes", "true", "on"].map String.toList →
        x ∉ ["0", "no", "false", "off"].map String.toList := by
      intro x hx
      simp only [List.map_cons, List.map_nil, List.mem_cons, List.not_mem_nil, or_false] at hx
      rcases hx with rfl | rfl | rfl | rfl <;> decide
    simp only [asBool, getBoolean]
    by_cases h1 : lower t ∈ ["1", "yes", "true", "on"].map String.toList
    · rw [if_pos h1]
      cases b with
      | true => simpa [Except.map] using h1
      | false => simpa [Except.map] using hdis _ h1
    · rw [if_neg h1]
      by_cases h2 : lower t ∈ ["0", "no", "false", "off"].map String.toList
      · rw [if_pos h2]
        cases b with
        | true => simpa [Except.map] using h1
        | false => simpa [Except.map] using h2
      · rw [if_neg h2]
        cases b with
        | true => simpa [Except.map] using h1
        | false => simpa [Except.map] using h2

/-- C27: numbers and truth values stored as such are converted likewise to the type of the default: a truth value is read
as 1 or 0, a number is cut towards zero to an integer. -/
theorem C27_stored (c : Conv) {p : Parser} {s o : Text} {v : Val} (h : look p.table s o = some v) :
    (∀ d, v = .bool true → iniValue c p s o (.float d) = .ok (.float 1)) ∧
    (∀ d, v = .bool false → iniValue c p s o (.float d) = .ok (.float 0)) ∧
    (∀ d, v = .bool true → iniValue c p s o (.int d) = .ok (.int 1)) ∧
    (∀ d, v = .bool false → iniValue c p s o (.int d) = .ok (.int 0)) ∧
    (∀ d n, v = .int n → iniValue c p s o (.float d) = .ok (.float n)) ∧
    (∀ d x, v = .float x → iniValue c p s o (.float d) = .ok (.float x)) ∧
    (∀ d n, v = .int n → iniValue c p s o (.int d) = .ok (.int n)) ∧
    (∀ d x, v = .float x → ∃ n : ℤ, iniValue c p s o (.int d) = .ok (.int n) ∧ |x - n| < 1 ∧ |(n : ℚ)| ≤ |x|) := by
  unfold look at h
  unfold iniValue
  cases hs : p.table s with
  | none => rw [hs] at h; cases h
  | some opts =>
    rw [hs] at h
    simp only [Option.bind_some] at h
    simp only [h]
    refine ⟨?_, ?_, ?_, ?_, ?_, ?_, ?_, ?_⟩
    · rintro d rfl; rfl
    · rintro d rfl; rfl
    · rintro d rfl; rfl
    · rintro d rfl; rfl
    · rintro d n rfl; rfl
    · rintro d x rfl; rfl
    · rintro d n rfl; rfl
    · rintro d x rfl
      refine ⟨_, rfl, ?_⟩
      split
      · rename_i h0
        have h1 := Int.floor_le x
        have h2 := Int.lt_floor_add_one x
        have h3 : (0 : ℚ) ≤ ⌊x⌋ := by exact_mod_cast Int.floor_nonneg.mpr h0
        rw [abs_of_nonneg h3, abs_of_nonneg h0, abs_of_nonneg (by linarith)]
        exact ⟨by linarith, h1⟩
      · rename_i h0
        push Not at h0
        have h1 := Int.le_ceil x
        have h2 := Int.ceil_lt_add_one x
        have h3 : ((⌈x⌉ : ℤ) : ℚ) ≤ 0 := by exact_mod_cast Int.ceil_le.mpr (by simpa using h0.le)
        rw [abs_of_nonpos h3, abs_of_neg h0, abs_of_nonpos (by linarith)]
        exact ⟨by linarith, by linarith⟩

/-- C27 fails for a default that is a list: an option that is present is returned as `None`. -/
theorem C27_list_default_fails (c : Conv) {p : Parser} {s o : Text} {v : Val}
    (h : look p.table s o = some v) (l : List Text) : iniValue c p s o (.list l) = .ok .none := by
  unfold look at h
  unfold iniValue
  cases hs : p.table s with
  | none => rw [hs] at h; cases h
  | some opts =>
    rw [hs] at h
    simp only [Option.bind_some] at h
    simp [h]

/-- C27 fails for a default that is a dictionary: the value is whatever the text evaluates to. -/
theorem C27_dict_default_untyped (c : Conv) {p : Parser} {s o t : Text}
    (h : look p.table s o = some (.str t)) (d : ℕ) : iniValue c p s o (.dict d) = c.eval t := by
  unfold look at h
  unfold iniValue
  cases hs : p.table s with
  | none => rw [hs] at h; cases h
  | some opts =>
    rw [hs] at h
    simp only [Option.bind_some] at h
    simp [h, asEval]

theorem split_ne_nil (c : Char) (t : Text) : split c t ≠ [] := by
  cases t with
  | nil => simp [split]
  | cons x t =>
    unfold split
    split
    · simp
    · split <;> simp

theorem split_no_sep {c : Char} {t w : Text} (h : w ∈ split c t) : c ∉ w := by
  induction t generalizing w with
  | nil => simp [split] at h; simp [h]
  | cons x t ih =>
    unfold split at h
    split at h
    · simp only [List.mem_cons] at h
      rcases h with rfl | h
      · simp
      · exact ih h
    · next hx =>
      split at h
      · simp only [List.mem_singleton] at h; subst h; simpa using fun e => hx e.symm
      · next w' ws hs =>
        simp only [List.mem_cons] at h
        rcases h with rfl | h
        · have := ih (w := w') (by rw [hs]; exact List.mem_cons_self)
          simp only [List.mem_cons, not_or]
          exact ⟨fun e => hx e.symm, this⟩
        · exact ih (by rw [hs]; exact List.mem_cons_of_mem _ h)

theorem split_of_no_sep {c : Char} {w : Text} (h : c ∉ w) : split c w = [w] := by
  induction w with
  | nil => rfl
  | cons x w ih =>
    simp only [List.mem_cons, not_or] at h
    unfold split
    rw [if_neg (fun e => h.1 e.symm), ih h.2]

theorem split_append {c : Char} {w : Text} (h : c ∉ w) (t : Text) : split c (w ++ c :: t) = w :: split c t := by
  induction w with
  | nil => simp [split]
  | cons x w ih =>
    simp only [List.mem_cons, not_or] at h
    rw [List.cons_append]
    conv_lhs => unfold split
    rw [if_neg (fun e => h.1 e.symm), ih h.2]

theorem split_join {c : Char} {l : List Text} (hl : l ≠ []) (h : ∀ w ∈ l, c ∉ w) : split c (join c l) = l := by
  induction l with
  | nil => exact absurd rfl hl
  | cons w l ih =>
    cases l with
    | nil => exact split_of_no_sep (h w (by simp))
    | cons w' ws =>
      show split c (w ++ c :: join c (w' :: ws)) = _
      rw [split_append (h w (by simp)), ih (by simp) (fun x hx => h x (List.mem_cons_of_mem _ hx))]

/-- C27: a list comes back the same if and only if it is not empty and no element contains a comma. -/
theorem C27_list_roundtrip (l : List Text) : parseList (formatList l) = l ↔ l ≠ [] ∧ ∀ w ∈ l, ',' ∉ w := by
  constructor
  · intro h
    refine ⟨fun e => split_ne_nil ',' (formatList l) (h.trans e), fun w hw => ?_⟩
    rw [← h] at hw
    exact split_no_sep hw
  · rintro ⟨h1, h2⟩
    exact split_join h1 h2

/-- The empty list comes back as a list with one empty text. -/
theorem C27_empty_list_fails : parseList (formatList []) = [[]] := rfl

/-- C27 for the two options stored as lists: what `set` stores, `items` returns, with the option name in
lower case. -/
theorem C27_set_items {p : Parser} {s o : Text} {l : List Text} (hk : key s o ∈ formatted)
    (hs : (p.table s).isSome) (hl : l ≠ []) (hc : ∀ w ∈ l, ',' ∉ w) :
    (setOption p s o (.list l)).2 = .ok () ∧ itemValue (setOption p s o (.list l)).1 s o = .ok (.list l) := by
  obtain ⟨opts, hopts⟩ := Option.isSome_iff_exists.1 hs
  have e : setOption p s o (.list l) = (⟨fun s' => if s' = s then some (putOption opts o (.str (formatList l))) else p.table s', p.readonce⟩,
        .ok ()) := by
    simp only [setOption, if_pos hk, hopts]
  rw [e]
  refine ⟨rfl, ?_⟩
  have hkey : key s o ∈ listParsed := by
    simp only [formatted, List.mem_cons, List.not_mem_nil, or_false] at hk
    simp only [listParsed, List.mem_cons, List.not_mem_nil, or_false]
    exact Or.inr hk
  simp only [itemValue, getOption, if_true, putOption, if_pos hkey]
  rw [(C27_list_roundtrip l).2 ⟨hl, hc⟩]

example : key "TCRM".toList "columns".toList ∈ formatted ∧ lower "columns".toList = "columns".toList := by
  decide +kernel

/-- C27 fails if the option name is written with capitals, as in the documentation: the list is stored
unchanged, and reading the section fails. -/
theorem C27_capitals_fail : ∀ l : List Text,
    let p := newParser [("Input".toList, [])]
    (setOption p "Input".toList "MSLPGrid".toList (.list l)).2 = .ok () ∧
    itemValue (setOption p "Input".toList "MSLPGrid".toList (.list l)).1 "Input".toList
      "mslpgrid".toList = .error .attributeError := by
  intro l
  have hk : key "Input".toList "MSLPGrid".toList ∉ formatted := by decide +kernel
  have hk' : key "Input".toList "mslpgrid".toList ∈ listParsed := by decide +kernel
  have hlow : lower "mslpgrid".toList = lower "MSLPGrid".toList := by decide +kernel
  have hs : (newParser [("Input".toList, [])]).table "Input".toList = some fun _ => none := by
    simp [newParser, putEntries, putSection]
  simp only
  have e : setOption (newParser [("Input".toList, [])]) "Input".toList "MSLPGrid".toList (.list l) =
      (⟨fun s' => if s' = "Input".toList then some (putOption (fun _ => none) "MSLPGrid".toList (.list l))
        else (newParser [("Input".toList, [])]).table s', false⟩, .ok ()) := by
    simp only [setOption, if_neg hk, hs]
    rfl
  rw [e]
  refine ⟨rfl, ?_⟩
  simp only [itemValue, getOption, if_true, putOption, hlow, if_pos hk']

/-- C27: the switches of a section are true exactly if the file has the word "True", whatever else is configured. -/
theorem C27_switches (p : Parser) (t : Text) : ∀ so ∈ [("Actions", "dataprocess"), ("Actions", "executehazard"),
    ("Actions", "executestat"), ("Actions", "executetrackgenerator"), ("Actions", "executewindfield"),
    ("Actions", "plotdata"), ("Actions", "plothazard"), ("Actions", "createdatabase"), ("Actions", "downloaddata"),
    ("Actions", "executeevaluate"), ("DataProcess", "filterseasons"), ("Hazard", "calculateci"),
    ("Logging", "progressbar"), ("Logging", "verbose"), ("Logging", "datestamp"), ("Process", "excludepastprocessed"),
    ("RMW", "getrmwdistfrominputdata"), ("WindfieldInterface", "plotoutput")],
    getOption p so.1.toList so.2.toList = .ok (.str t) →
      itemValue p so.1.toList so.2.toList = .ok (.bool (decide (t = "True".toList))) := by
  intro so hso h
  have hk : key so.1.toList so.2.toList ∈ boolParsed ∧ key so.1.toList so.2.toList ∉ listParsed := by
    revert hso
    exact (by decide +kernel : ∀ so ∈ [("Actions", "dataprocess"), ("Actions", "executehazard"),
      ("Actions", "executestat"), ("Actions", "executetrackgenerator"), ("Actions", "executewindfield"),
      ("Actions", "plotdata"), ("Actions", "plothazard"), ("Actions", "createdatabase"), ("Actions", "downloaddata"),
      ("Actions", "executeevaluate"), ("DataProcess", "filterseasons"), ("Hazard", "calculateci"),
      ("Logging", "progressbar"), ("Logging", "verbose"), ("Logging", "datestamp"), ("Process", "excludepastprocessed"),
      ("RMW", "getrmwdistfrominputdata"), ("WindfieldInterface", "plotoutput")],
      key so.1.toList so.2.toList ∈ boolParsed ∧ key so.1.toList so.2.toList ∉ listParsed) so
  simp only [itemValue, h, if_neg hk.2, if_pos hk.1, parseBool]

example : getOption (newParser [("Actions".toList, [("PlotHazard".toList, "True".toList)])]) "Actions".toList
    "plothazard".toList = .ok (.str "True".toList) := by
  rw [show "plothazard".toList = lower "PlotHazard".toList from by decide +kernel]
  simp [getOption, newParser, putEntries, putSection, putOption, lower]

/-- C27 fails for the three switches listed with capitals: names are in lower case when a section is read, so they are
never found in the list and remain texts, and the text "False" counts as true. -/
theorem C27_switches_fail (p : Parser) (t : Text) : ∀ so ∈ [("Hazard", "smoothplots"), ("Timeseries", "extract"),
    ("Timeseries", "windfields")], getOption p so.1.toList so.2.toList = .ok (.str t) →
      itemValue p so.1.toList so.2.toList = .ok (.str t) := by
  intro so hso h
  have hk : key so.1.toList so.2.toList ∉ boolParsed ∧ key so.1.toList so.2.toList ∉ listParsed := by
    revert hso
    exact (by decide +kernel : ∀ so ∈ [("Hazard", "smoothplots"), ("Timeseries", "extract"),
      ("Timeseries", "windfields")], key so.1.toList so.2.toList ∉ boolParsed ∧ key so.1.toList so.2.toList ∉ listParsed) so
  simp only [itemValue, h, if_neg hk.2, if_neg hk.1]

/-- Truth values of sections (`items`) and of single options (`getboolean`) differ for the texts that
are true in lower case only, e.g. "true" or "yes". -/
theorem C27_truth_values_differ : parseBool "true".toList = false ∧ getBoolean "true".toList = .ok true ∧
    parseBool "yes".toList = false ∧ getBoolean "yes".toList = .ok true := by decide +kernel

/-- C27: `cnfGetIniValue` with a file: if the configuration has not been read and the file exists, the
value of a text option is the file's, or else that of the defaults, or else the given default. -/
theorem C27_text_option {fs : Text → FileState} {c : Conv} {d : Entries} {path s o t : Text} {es : Entries}
    (hf : fs path = .good es) :
    (cnfGetIniValue fs c (newParser d) (some path) s o (.str t)).2 =
      .ok (.str (((fileSays es s o).or (fileSays d s o)).getD t)) := by
  have hr : readFile fs (newParser d) (some path) = (⟨putEntries (newParser d).table es, true⟩, .ok ()) := by
    simp [readFile, newParser, hf]
  have hl : look (putEntries (newParser d).table es) s o =
      ((fileSays es s o).or (fileSays d s o)).map Val.str := by
    rw [look_putEntries]
    unfold newParser
    rw [look_putEntries]
    simp [look, Option.map_or]
  unfold cnfGetIniValue
  rw [hr]
  simp only
  cases hv : (fileSays es s o).or (fileSays d s o) with
  | none =>
    rw [hv] at hl
    rw [C27_default_if_missing c _ hl]
    rfl
  | some u =>
    rw [hv] at hl
    rw [(C27_values c hl).1 t]
    rfl

end Tcrm.Config
