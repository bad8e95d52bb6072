import Verif.Spec.Defaults
import Verif.Props.Config
/-!
C142: settings left out, and the stages of a run.
-/
namespace Tcrm.Defaults

open Tcrm.Config

/-! ### Settings of a run -/

/-- The configuration of a run. -/
def loaded (file : Entries) : Parser := ⟨putEntries (putEntries (fun _ => none) defaults) file, true⟩

theorem look_loaded (file : Entries) (s o : Text) :
    look (loaded file).table s o = (setting file s o).map Val.str := by
  unfold loaded setting
  simp only
  rw [look_putEntries, look_putEntries]
  cases fileSays file s o <;> cases fileSays defaults s o <;> rfl

theorem getOption_ok {p : Parser} {s o : Text} {v : Val} (h : look p.table s o = some v) :
    getOption p s o = .ok v := getOption_of_look.2 h

theorem getOption_loaded_some {file : Entries} {s o x : Text} (h : setting file s o = some x) :
    getOption (loaded file) s o = .ok (.str x) := by
  refine getOption_ok ?_
  rw [look_loaded, h]
  rfl

theorem getOption_loaded_none {file : Entries} {s o : Text} (h : setting file s o = none) :
    ∃ e, getOption (loaded file) s o = .error e := by
  cases hg : getOption (loaded file) s o with
  | error e => exact ⟨e, rfl⟩
  | ok v =>
    have := getOption_of_look.1 hg
    rw [look_loaded, h] at this
    cases this

theorem map_ok {α : Type} {r : Except Err α} : r.map (fun _ => ()) = .ok () ↔ ∃ v, r = .ok v := by
  cases r with
  | error e => simp [Except.map]
  | ok v => simp [Except.map]

theorem useAs_iff (c : Conv) (k : Kind) (x : Text) : useAs c k (.str x) = .ok () ↔ Fits c k x := by
  cases k with
  | text => simp [useAs, Fits]
  | int =>
    simp only [useAs, Fits, asInt, map_ok]
    cases c.int x <;> simp
  | float =>
    simp only [useAs, Fits, asFloat, map_ok]
    cases c.float x <;> simp
  | bool =>
    simp only [useAs, Fits, asBool, map_ok, getBoolean]
    split
    · rename_i h
      simp only [List.map_cons, List.map_nil, List.mem_cons, List.not_mem_nil, or_false] at h ⊢
      simp only [Except.map, Except.ok.injEq, exists_eq', true_iff]
      tauto
    · split
      · rename_i h
        simp only [List.map_cons, List.map_nil, List.mem_cons, List.not_mem_nil, or_false] at h ⊢
        simp only [Except.map, Except.ok.injEq, exists_eq', true_iff]
        tauto
      · rename_i h h'
        simp only [List.map_cons, List.map_nil, List.mem_cons, List.not_mem_nil, or_false] at h h' ⊢
        simp only [Except.map, reduceCtorEq, exists_false, false_iff]
        tauto
  | eval => simp only [useAs, Fits, asEval, map_ok]
  | oneOf names =>
    simp only [useAs, Fits]
    split <;> simp_all
  | floats =>
    simp only [useAs, Fits]
    split
    · rename_i h
      rw [List.all_eq_true] at h
      simp only [true_iff]
      intro w hw
      exact Option.isSome_iff_exists.1 (h w hw)
    · rename_i h
      simp only [reduceCtorEq, false_iff]
      intro h'
      exact h (List.all_eq_true.2 fun w hw => Option.isSome_iff_exists.2 (h' w hw))

theorem useOption_iff (c : Conv) (file : Entries) (s o : Text) (k : Kind) :
    useOption c (loaded file) s o k = .ok () ↔ ∃ x, setting file s o = some x ∧ Fits c k x := by
  unfold useOption
  cases h : setting file s o with
  | none =>
    obtain ⟨e, he⟩ := getOption_loaded_none h
    rw [he]
    simp
  | some x =>
    rw [getOption_loaded_some h]
    simp [useAs_iff]

theorem fits_bool (c : Conv) (x : Text) : Fits c .bool x ↔ ∃ b, getBoolean x = .ok b := by
  rw [← useAs_iff]
  simp only [useAs, asBool, map_ok]
  cases getBoolean x <;> simp [Except.map]

theorem useItem_iff (c : Conv) (file : Entries) (i : Item) :
    useItem c (loaded file) i = .ok () ↔ Meets c file i := by
  cases i with
  | get s o k => exact useOption_iff c file s o k
  | ifSet s o k =>
    simp only [useItem, Meets]
    cases h : setting file s o with
    | none =>
      obtain ⟨e, he⟩ := getOption_loaded_none h
      rw [he]
      simp
    | some x =>
      rw [getOption_loaded_some h]
      simp [useAs_iff]
  | ifTrue s' o' s o k =>
    simp only [useItem, Meets]
    cases h : setting file s' o' with
    | none =>
      obtain ⟨e, he⟩ := getOption_loaded_none h
      rw [he]
      simp
    | some x =>
      rw [getOption_loaded_some h]
      simp only [asBool, Option.some.injEq, exists_eq_left', fits_bool]
      cases hb : getBoolean x with
      | error e => simp [Except.map]
      | ok b =>
        cases b with
        | true => simp [Except.map, useOption_iff]
        | false => simp [Except.map]
  | via s' o' o k =>
    simp only [useItem, Meets]
    cases h : setting file s' o' with
    | none =>
      obtain ⟨e, he⟩ := getOption_loaded_none h
      rw [he]
      simp
    | some x =>
      rw [getOption_loaded_some h]
      simp [useOption_iff]

theorem use_iff (c : Conv) (file : Entries) (is : List Item) :
    use c (loaded file) is = .ok () ↔ ∀ i ∈ is, Meets c file i := by
  induction is with
  | nil => simp [use]
  | cons i is ih =>
    rw [List.forall_mem_cons, ← ih, ← useItem_iff, use]
    cases useItem c (loaded file) i <;> simp

/-- C142: a stage reads its settings successfully exactly if every setting it uses has a text, from
the file or else by default, that fits its use. -/
theorem C142_stage_iff (c : Conv) (file : Entries) (st : Stage) :
    runStage c file st = .ok () ↔ ∀ i ∈ items st, Meets c file i := use_iff c file (items st)

/-! ### Defaults -/

/-- Digits, not none. -/
def digits (x : Text) : Bool := decide (x ≠ []) && x.all Char.isDigit

/-- Digits with a decimal point. -/
def decimal (x : Text) : Bool :=
  digits (x.takeWhile (· ≠ '.')) && (x.dropWhile (· ≠ '.')).head? == some '.' &&
    digits (x.dropWhile (· ≠ '.')).tail

/-- A pair of decimal numbers as in the defaults. -/
def pairs : List Text := [t "{'x':1.0,'y':1.0}", t "{'x':1.0,'y':0.5}"]

def plain : Kind → Text → Bool
  | .text, _ => true
  | .int, x => digits x
  | .float, x => digits x || decimal x
  | .bool, x => decide (lower x ∈ ["1", "yes", "true", "on", "0", "no", "false", "off"].map String.toList)
  | .eval, x => decide (x ∈ pairs)
  | .oneOf names, x => decide (x ∈ names)
  | .floats, x => (parseList x).all digits

theorem digits_iff {x : Text} : digits x = true ↔ x ≠ [] ∧ ∀ d ∈ x, d.isDigit := by
  simp [digits]

theorem fits_of_plain {c : Conv} (hc : Python c) {k : Kind} {x : Text} (h : plain k x = true) :
    Fits c k x := by
  cases k with
  | text => trivial
  | int =>
    have h' := digits_iff.1 h
    exact hc.int x h'.1 h'.2
  | float =>
    simp only [plain, Bool.or_eq_true] at h
    rcases h with h | h
    · have h' := digits_iff.1 h
      exact hc.float x h'.1 h'.2
    · simp only [decimal, Bool.and_eq_true, beq_iff_eq] at h
      obtain ⟨⟨h1, h2⟩, h3⟩ := h
      have h1' := digits_iff.1 h1
      have h3' := digits_iff.1 h3
      have e : x = x.takeWhile (· ≠ '.') ++ '.' :: (x.dropWhile (· ≠ '.')).tail := by
        conv_lhs => rw [← List.takeWhile_append_dropWhile (p := fun d => decide (d ≠ '.')) (l := x)]
        congr 1
        cases hd : x.dropWhile (· ≠ '.') with
        | nil => rw [hd] at h2; cases h2
        | cons d ds =>
          rw [hd] at h2
          simp only [List.head?_cons, Option.some.injEq] at h2
          rw [h2]
          rfl
      show ∃ q, c.float x = some q
      rw [e]
      exact hc.point _ _ h1'.1 h3'.1 h1'.2 h3'.2
  | bool => simpa [plain, Fits] using h
  | eval =>
    simp only [plain, decide_eq_true_eq, pairs, List.mem_cons, List.not_mem_nil, or_false] at h
    have d0 : (∀ d ∈ ['0'], d.isDigit) := by decide
    have d1 : (∀ d ∈ ['1'], d.isDigit) := by decide
    have d5 : (∀ d ∈ ['5'], d.isDigit) := by decide
    rcases h with rfl | rfl
    · exact hc.pair ['1'] ['0'] ['1'] ['0'] (by simp) (by simp) (by simp) (by simp) d1 d0 d1 d0
    · exact hc.pair ['1'] ['0'] ['0'] ['5'] (by simp) (by simp) (by simp) (by simp) d1 d0 d0 d5
  | oneOf names => simpa [plain, Fits] using h
  | floats =>
    intro w hw
    have h' := digits_iff.1 (List.all_eq_true.1 h w hw)
    exact hc.float w h'.1 h'.2

def defaultFits (s o : Text) (k : Kind) : Bool :=
  match fileSays defaults s o with
  | some d => plain k d
  | none => false

/-- There is no default, or one that the code does not know. -/
def badDefault (s o : Text) (k : Kind) : Bool :=
  match fileSays defaults s o with
  | some d => match k with
    | .oneOf names => decide (d ∉ names)
    | _ => false
  | none => true

theorem fits_default {c : Conv} (hc : Python c) {s o : Text} {k : Kind} (h : defaultFits s o k = true) :
    ∃ d, fileSays defaults s o = some d ∧ Fits c k d := by
  unfold defaultFits at h
  cases hd : fileSays defaults s o with
  | none => rw [hd] at h; cases h
  | some d => rw [hd] at h; exact ⟨d, rfl, fits_of_plain hc h⟩

theorem not_fits_default {c : Conv} {s o : Text} {k : Kind} (h : badDefault s o k = true) :
    ¬ ∃ d, fileSays defaults s o = some d ∧ Fits c k d := by
  rintro ⟨d, hd, hf⟩
  unfold badDefault at h
  rw [hd] at h
  cases k <;> simp_all [Fits]

theorem setting_fits_iff {c : Conv} {file : Entries} {s o : Text} {k : Kind}
    (hg : GivenFits c file s o k) : (∃ x, setting file s o = some x ∧ Fits c k x) ↔
      (fileSays file s o).isSome ∨ ∃ d, fileSays defaults s o = some d ∧ Fits c k d := by
  unfold setting
  cases h : fileSays file s o with
  | none => simp
  | some x => simp [hg x h]

theorem setting_fits {c : Conv} (hc : Python c) {file : Entries} {s o : Text} {k : Kind}
    (hg : GivenFits c file s o k) (hd : defaultFits s o k = true) :
    ∃ x, setting file s o = some x ∧ Fits c k x := (setting_fits_iff hg).2 (.inr (fits_default hc hd))

theorem toLower_idem (ch : Char) : ch.toLower.toLower = ch.toLower := by
  unfold Char.toLower
  split
  · rename_i h
    split
    · rename_i h'
      exfalso
      have h1 : ch.val.toNat ≥ 65 := h.1
      have h2 : ch.val.toNat ≤ 90 := h.2
      have h3 : (ch.val + ('a'.val - 'A'.val)).toNat ≤ 90 := h'.2
      rw [UInt32.toNat_add] at h3
      have h4 : ('a'.val - 'A'.val : UInt32).toNat = 32 := by decide
      rw [h4] at h3
      omega
    · rfl
  · rfl

theorem fileSays_lower (es : Entries) (s o : Text) : fileSays es s (lower o) = fileSays es s o := by
  have : lower (lower o) = lower o := by
    unfold lower
    rw [List.map_map]
    apply List.map_congr_left
    intro ch _
    simp only [Function.comp]
    exact toLower_idem ch
  unfold fileSays
  rw [this]

/-- The required settings with option names in lower case. -/
def needs (st : Stage) : List (Text × Text) := (required st).map fun r => (r.1, lower r.2)

/-- An item needs nothing, or a required setting. -/
def covered (st : Stage) : Item → Bool
  | .get s o k => defaultFits s o k || decide ((s, lower o) ∈ needs st)
  | .ifSet s o k => defaultFits s o k || decide (fileSays defaults s o = none)
  | .ifTrue s' o' s o k => defaultFits s' o' .bool && defaultFits s o k
  | .via s' o' o k => match fileSays defaults s' o' with
    | some s => defaultFits s o k
    | none => false

/-- A required setting is used by an item, and has no usable default. -/
def usedBy (r : Text × Text) : Item → Bool
  | .get s o k => decide (s = r.1 ∧ lower o = r.2) && badDefault s o k
  | _ => false

theorem covered_all (st : Stage) : ((items st).all (covered st)) = true := by
  cases st <;> decide +kernel

theorem needed_all (st : Stage) : ((needs st).all fun r => (items st).any (usedBy r)) = true := by
  cases st <;> decide +kernel

/-- C142, as far as it holds: if all the settings the file gives fit their uses, and it keeps the
format of the input data, then a stage accepts the configuration exactly if the file gives the
required settings; every other setting may be left out. -/
theorem C142_accepts_iff_partial {c : Conv} (hc : Python c) {file : Entries} {st : Stage}
    (hf : FileFits c file (items st)) : runStage c file st = .ok () ↔
      ∀ r ∈ required st, (fileSays file r.1 r.2).isSome := by
  rw [C142_stage_iff]
  constructor
  · intro h r hr
    have h1 := List.all_eq_true.1 (needed_all st) (r.1, lower r.2) (List.mem_map.2 ⟨r, hr, rfl⟩)
    obtain ⟨i, hi, hu⟩ := List.any_eq_true.1 h1
    cases i with
    | get s o k =>
      simp only [usedBy, Bool.and_eq_true, decide_eq_true_eq] at hu
      obtain ⟨⟨rfl, ho⟩, hb⟩ := hu
      have hm := h _ hi
      have hg : GivenFits c file r.1 o k := hf _ hi
      rcases (setting_fits_iff hg).1 hm with h2 | h2
      · rw [← fileSays_lower, ← ho, fileSays_lower]
        exact h2
      · exact absurd h2 (not_fits_default hb)
    | ifSet _ _ _ => cases hu
    | ifTrue _ _ _ _ _ => cases hu
    | via _ _ _ _ => cases hu
  · intro h i hi
    have hcov := List.all_eq_true.1 (covered_all st) i hi
    have hfi := hf i hi
    cases i with
    | get s o k =>
      simp only [covered, Bool.or_eq_true, decide_eq_true_eq] at hcov
      rcases hcov with hd | hn
      · exact setting_fits hc hfi hd
      · obtain ⟨r, hr, hre⟩ := List.mem_map.1 hn
        have hr' := h r hr
        simp only [Prod.mk.injEq] at hre
        rw [← fileSays_lower, hre.2, fileSays_lower, hre.1] at hr'
        exact (setting_fits_iff hfi).2 (.inl hr')
    | ifSet s o k =>
      intro x hx
      simp only [covered, Bool.or_eq_true, decide_eq_true_eq] at hcov
      rcases hcov with hd | hn
      · obtain ⟨y, hy, hfy⟩ := setting_fits hc hfi hd
        rw [hx] at hy
        cases hy
        exact hfy
      · refine hfi x ?_
        unfold setting at hx
        rw [hn] at hx
        simpa using hx
    | ifTrue s' o' s o k =>
      simp only [covered, Bool.and_eq_true] at hcov
      obtain ⟨b, hb, hbf⟩ := setting_fits hc hfi.1 hcov.1
      exact ⟨b, hb, hbf, fun _ => setting_fits hc hfi.2 hcov.2⟩
    | via s' o' o k =>
      simp only [covered] at hcov
      cases hd : fileSays defaults s' o' with
      | none => rw [hd] at hcov; cases hcov
      | some s =>
        rw [hd] at hcov
        have hs : setting file s' o' = some s := hfi.1.trans hd
        exact ⟨s, hs, setting_fits hc (hfi.2 s hd) hcov⟩

/-! ### Settings without usable default -/

theorem not_ok {c : Conv} {file : Entries} {st : Stage} {s o : Text} {k : Kind}
    (hi : Item.get s o k ∈ items st) (hb : badDefault s o k = true) (hn : fileSays file s o = none) :
    runStage c file st ≠ .ok () := by
  rw [Ne, C142_stage_iff]
  intro h
  obtain ⟨x, hx, hf⟩ := h _ hi
  unfold setting at hx
  rw [hn] at hx
  exact not_fits_default hb ⟨x, by simpa using hx, hf⟩

/-- C142 fails for the calibration: a run that leaves out the type of kernel fails, because the
default is not the name of a kernel.  (The example configuration leaves it out.) -/
theorem C142_kernel_fails (c : Conv) {file : Entries}
    (hn : fileSays file (t "StatInterface") (t "kdeType") = none) :
    runStage c file .calibration ≠ .ok () :=
  not_ok (s := t "StatInterface") (o := t "kdeType") (k := .oneOf kernels) (by simp [items, calibration])
    (by decide +kernel) hn

/-- Nor does the calibration accept any of the kernels that the documentation names. -/
theorem C142_documented_kernels_fails (c : Conv) {file : Entries} {x : Text}
    (hx : x ∈ [t "Epanechnikov", t "Gaussian", t "Biweight", t "Triangular"])
    (hn : fileSays file (t "StatInterface") (t "kdeType") = some x) :
    runStage c file .calibration ≠ .ok () := by
  rw [Ne, C142_stage_iff]
  intro h
  obtain ⟨y, hy, hf⟩ := h (.get (t "StatInterface") (t "kdeType") (.oneOf kernels))
    (by simp [items, calibration])
  unfold setting at hy
  rw [hn] at hy
  simp only [Option.some_or, Option.some.injEq] at hy
  subst hy
  have hk : x ∈ kernels := hf
  revert hk
  have : ∀ x ∈ [t "Epanechnikov", t "Gaussian", t "Biweight", t "Triangular"], x ∉ kernels := by
    decide +kernel
  exact this x hx

/-- C142 fails for the number of years in a simulation: the generation of tracks takes it to be one
when it is left out, but then neither the hazard nor the evaluations run. -/
theorem C142_years_fails (c : Conv) {file : Entries}
    (hn : fileSays file (t "TrackGenerator") (t "YearsPerSimulation") = none) :
    runStage c file .hazard ≠ .ok () ∧ runStage c file .evaluation ≠ .ok () ∧
      runStage c file .landfallRates ≠ .ok () := by
  have hn' : fileSays file (t "TrackGenerator") (t "yearspersimulation") = none := by
    have e : lower (t "yearspersimulation") = lower (t "YearsPerSimulation") := by decide +kernel
    rw [← fileSays_lower, e, fileSays_lower]
    exact hn
  exact ⟨not_ok (s := t "TrackGenerator") (o := t "YearsPerSimulation") (k := .int)
      (by simp [items, hazard]) (by decide +kernel) hn,
    not_ok (s := t "TrackGenerator") (o := t "yearspersimulation") (k := .int)
      (by simp [items, evaluation]) (by decide +kernel) hn',
    not_ok (s := t "TrackGenerator") (o := t "yearspersimulation") (k := .int)
      (by simp [items, landfallRates]) (by decide +kernel) hn'⟩

/-- C142 fails for the list of processed files: without it neither the database nor the plots of the
hazard are made. -/
theorem C142_database_fails (c : Conv) {file : Entries}
    (hn : fileSays file (t "Process") (t "DatFile") = none ∨
      fileSays file (t "Process") (t "ExcludePastProcessed") = none) :
    runStage c file .database ≠ .ok () ∧ runStage c file .hazardPlots ≠ .ok () := by
  rcases hn with hn | hn
  · exact ⟨not_ok (s := t "Process") (o := t "DatFile") (k := .text) (by simp [items, database])
        (by decide +kernel) hn,
      not_ok (s := t "Process") (o := t "DatFile") (k := .text)
        (by simp [items, hazardPlots, database]) (by decide +kernel) hn⟩
  · exact ⟨not_ok (s := t "Process") (o := t "ExcludePastProcessed") (k := .bool)
        (by simp [items, database]) (by decide +kernel) hn,
      not_ok (s := t "Process") (o := t "ExcludePastProcessed") (k := .bool)
        (by simp [items, hazardPlots, database]) (by decide +kernel) hn⟩

/-- C142 fails for the format of input data: the defaults of section `Source` are not those of the
formats; a format of the user's own has to give its delimiter. -/
theorem C142_source_fails (c : Conv) {file : Entries} {src : Text}
    (hs : fileSays file (t "DataProcess") (t "Source") = some src) (h1 : src ≠ t "Source")
    (h2 : src ≠ t "IBTRACS") (hn : fileSays file src (t "FieldDelimiter") = none) :
    runStage c file .dataProcess ≠ .ok () := by
  rw [Ne, C142_stage_iff]
  intro h
  obtain ⟨s, hs', x, hx, -⟩ := h (.via (t "DataProcess") (t "Source") (t "FieldDelimiter") .text)
    (by simp [items, dataProcess])
  unfold setting at hs' hx
  rw [hs] at hs'
  simp only [Option.some_or, Option.some.injEq] at hs'
  subst hs'
  rw [hn, Option.none_or] at hx
  have hm : (src, lower (t "FieldDelimiter"), x) ∈ settings defaults := by
    unfold fileSays at hx
    obtain ⟨e, he, hex⟩ := Option.map_eq_some_iff.1 hx
    have h3 := List.find?_some he
    have h4 := List.mem_of_find?_eq_some he
    simp only [decide_eq_true_eq] at h3
    obtain ⟨rfl, h5⟩ := h3
    rw [← h5, ← hex]
    exact List.mem_reverse.1 h4
  have key : ∀ e ∈ settings defaults, e.2.1 = lower (t "FieldDelimiter") →
      e.1 = t "Source" ∨ e.1 = t "IBTRACS" := by decide +kernel
  rcases key _ hm rfl with h | h
  · exact h1 h
  · exact h2 h

/-- A file that only gives the region. -/
def regionOnly : Entries :=
  [(t "Region", [(t "gridLimit", t "{'xMin':113.0,'xMax':124.0,'yMin':-26.0,'yMax':-15.0}")])]

/-- A complete file. -/
def fullFile : Entries := regionOnly ++
  [(t "StatInterface", [(t "kdeType", t "gau")]), (t "TrackGenerator", [(t "YearsPerSimulation", t "1")]),
    (t "Process", [(t "DatFile", t "dat"), (t "ExcludePastProcessed", t "True")]),
    (t "Input", [(t "CoastlineGates", t "gates.txt")])]

/-- Conversions that accept everything. -/
def lenient : Conv := ⟨fun _ => some 0, fun _ => some 0, fun _ => .ok .none⟩

theorem lenient_python : Python lenient :=
  ⟨fun _ _ _ => ⟨0, rfl⟩, fun _ _ _ => ⟨0, rfl⟩, fun _ _ _ _ _ _ => ⟨0, rfl⟩,
    fun _ _ _ _ _ _ _ _ _ _ _ _ => ⟨.none, rfl⟩⟩

theorem givenFits_of_plain {file : Entries} {s o : Text} {k : Kind}
    (h : ((fileSays file s o).all fun x => plain k x) = true) : GivenFits lenient file s o k := by
  intro x hx
  rw [hx] at h
  exact fits_of_plain lenient_python h

theorem givenFits_lenient {file : Entries} {s o : Text} : GivenFits lenient file s o .eval :=
  fun _ _ => ⟨.none, rfl⟩

example : FileFits lenient fullFile (items .hazard) := by
  intro i hi
  simp only [items, hazard, List.mem_cons, List.not_mem_nil, or_false] at hi
  rcases hi with rfl | rfl | rfl | rfl | rfl | rfl | rfl | rfl | rfl | rfl | rfl
  · exact givenFits_of_plain (by decide +kernel)
  · exact givenFits_lenient
  · exact givenFits_of_plain (by decide +kernel)
  · exact givenFits_of_plain (by decide +kernel)
  · exact givenFits_of_plain (by decide +kernel)
  · exact givenFits_of_plain (by decide +kernel)
  · exact givenFits_of_plain (by decide +kernel)
  · exact givenFits_of_plain (by decide +kernel)
  · exact ⟨givenFits_of_plain (by decide +kernel), givenFits_of_plain (by decide +kernel)⟩
  · exact ⟨givenFits_of_plain (by decide +kernel), givenFits_of_plain (by decide +kernel)⟩
  · exact givenFits_of_plain (by decide +kernel)

example : ∀ st, (runStage lenient fullFile st).toOption = some () := by
  intro st
  cases st <;> decide +kernel

example : (runStage lenient regionOnly .dataProcess).toOption = some () ∧
    (runStage lenient regionOnly .trackGeneration).toOption = some () ∧
    (runStage lenient regionOnly .windFields).toOption = some () ∧
    (runStage lenient regionOnly .calibration).toOption = none ∧
    (runStage lenient regionOnly .hazard).toOption = none ∧
    (runStage lenient regionOnly .database).toOption = none := by decide +kernel

end Tcrm.Defaults
