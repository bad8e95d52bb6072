import Verif.Spec.Startup
import Mathlib.Tactic.Common
import Mathlib.Data.Nat.Digits.Defs
/-!
C143 (a failed run says so), C144 (the configuration file named is used), C145 (log files).
-/
namespace Tcrm.Startup

open Tcrm.Config (Text Entries)
open Tcrm.Pipeline (Stage Actions Wanted number calls enabled)

theorem wanted_iff (a : Actions) (s : Stage) : Wanted a s ↔ enabled a s = true := by
  cases s <;> simp [Wanted, enabled]

theorem mem_calls (s : Stage) : s ∈ calls := by cases s <;> decide

theorem calls_sorted : calls.Pairwise fun s s' => number s < number s' := by decide

/-- The stages to perform, in order. -/
def todo (a : Actions) : List Stage := calls.filter (enabled a)

theorem mem_todo (a : Actions) (s : Stage) : s ∈ todo a ↔ Wanted a s := by
  rw [todo, List.mem_filter, wanted_iff]
  simp [mem_calls]

theorem todo_sorted (a : Actions) : (todo a).Pairwise fun s s' => number s < number s' :=
  calls_sorted.filter _

theorem perform_begun (ending : Stage → Ending) (l : List Stage)
    (h : l.Pairwise fun s s' => number s < number s') (s : Stage) :
    s ∈ (perform ending l).1 ↔ s ∈ l ∧ ∀ s' ∈ l, number s' < number s → ending s' = .done := by
  induction l with
  | nil => simp [perform]
  | cons x l ih =>
    rw [List.pairwise_cons] at h
    have ih := ih h.2
    simp only [perform]
    cases hx : ending x with
    | done =>
      simp only [List.mem_cons, ih]
      constructor
      · rintro (rfl | ⟨h1, h2⟩)
        · refine ⟨.inl rfl, ?_⟩
          rintro s' (rfl | hs') hn
          · exact hx
          · exact absurd (h.1 s' hs') (by omega)
        · refine ⟨.inr h1, ?_⟩
          rintro s' (rfl | hs') hn
          · exact hx
          · exact h2 s' hs' hn
      · rintro ⟨rfl | h1, h2⟩
        · exact .inl rfl
        · exact .inr ⟨h1, fun s' hs' => h2 s' (.inr hs')⟩
    | raises =>
      simp only [List.mem_cons, List.not_mem_nil, or_false]
      constructor
      · rintro rfl
        refine ⟨.inl rfl, ?_⟩
        rintro s' (rfl | hs') hn
        · omega
        · exact absurd (h.1 s' hs') (by omega)
      · rintro ⟨rfl | h1, h2⟩
        · rfl
        · have := h2 x (.inl rfl) (h.1 s h1)
          rw [hx] at this
          cases this
    | exits n =>
      simp only [List.mem_cons, List.not_mem_nil, or_false]
      constructor
      · rintro rfl
        refine ⟨.inl rfl, ?_⟩
        rintro s' (rfl | hs') hn
        · omega
        · exact absurd (h.1 s' hs') (by omega)
      · rintro ⟨rfl | h1, h2⟩
        · rfl
        · have := h2 x (.inl rfl) (h.1 s h1)
          rw [hx] at this
          cases this

theorem perform_ending (ending : Stage → Ending) (l : List Stage) :
    (perform ending l).2 = .done ∧ (∀ s ∈ l, ending s = .done) ∨
      (perform ending l).2 ≠ .done ∧ ∃ s ∈ (perform ending l).1, s ∈ l ∧
        ending s = (perform ending l).2 := by
  induction l with
  | nil => left; simp [perform]
  | cons x l ih =>
    simp only [perform]
    cases hx : ending x with
    | done =>
      rcases ih with ⟨h1, h2⟩ | ⟨h1, s, h2, h3, h4⟩
      · left
        refine ⟨h1, ?_⟩
        intro s hs
        rcases List.mem_cons.1 hs with rfl | hs
        · exact hx
        · exact h2 s hs
      · right
        exact ⟨h1, s, List.mem_cons_of_mem _ h2, List.mem_cons_of_mem _ h3, h4⟩
    | raises => right; exact ⟨by simp, x, by simp, by simp, hx⟩
    | exits n => right; exact ⟨by simp, x, by simp, by simp, hx⟩

variable {w : World} {actions : Option Text → Actions} {level : Option Text → Bool}
  {ending : Stage → Ending} {name : Option Text} {debug : Bool}

theorem tcrm_started {c : Option Text} (hc : configFile w.files w.root name = some c)
    (hl : level c = true) : tcrm w actions level ending name debug =
      conclude c debug (perform ending (todo (actions c))) := by
  simp [tcrm, hc, hl, todo]

theorem conclude_begun (c : Option Text) (r : List Stage × Ending) :
    (conclude c debug r).begun = r.1 := by
  unfold conclude
  cases r.2 <;> simp
  cases debug <;> simp

theorem conclude_config (c : Option Text) (r : List Stage × Ending) :
    (conclude c debug r).config = c := by
  unfold conclude
  cases r.2 <;> simp
  cases debug <;> simp

/-- C143: once the settings are read, a stage is begun exactly if it is wanted and all wanted stages
before it have ended regularly. -/
theorem C143_begun {c : Option Text} (hc : configFile w.files w.root name = some c)
    (hl : level c = true) (s : Stage) :
    s ∈ (tcrm w actions level ending name debug).begun ↔
      Wanted (actions c) s ∧ ∀ s', Wanted (actions c) s' → number s' < number s → ending s' = .done := by
  rw [tcrm_started hc hl, conclude_begun, perform_begun ending _ (todo_sorted _), mem_todo]
  simp only [mem_todo]

/-- C143, as far as it holds: with the option `--debug` the exit status is zero exactly if every wanted
stage ended regularly (unless a stage itself ends the program with status zero). -/
theorem C143_status_partial {c : Option Text} (hc : configFile w.files w.root name = some c)
    (hl : level c = true) (hd : debug = true) (h0 : ∀ s, ending s ≠ .exits 0) :
    (tcrm w actions level ending name debug).status = 0 ↔
      ∀ s, Wanted (actions c) s → ending s = .done := by
  rw [tcrm_started hc hl]
  rcases perform_ending ending (todo (actions c)) with ⟨h1, h2⟩ | ⟨h1, s, h2, h3, h4⟩
  · simp only [conclude, h1, true_iff]
    intro s hs
    exact h2 s ((mem_todo _ _).2 hs)
  · have hs : (conclude c debug (perform ending (todo (actions c)))).status ≠ 0 := by
      unfold conclude
      cases he : (perform ending (todo (actions c))).2 with
      | done => exact absurd he h1
      | raises => simp [hd]
      | exits n =>
        simp only
        rintro rfl
        exact h0 s (h4.trans he)
    refine ⟨fun h => absurd h hs, fun h => ?_⟩
    have := h s ((mem_todo _ _).1 h3)
    rw [h4] at this
    exact absurd this h1

/-- C143 fails: without that option an exception in any stage ends the run with status zero; it is
written to the log, and later stages are not begun. -/
theorem C143_status_fails {c : Option Text} (hc : configFile w.files w.root name = some c)
    (hl : level c = true) {s : Stage} (hs : Wanted (actions c) s) (hr : ending s = .raises)
    (hb : ∀ s', Wanted (actions c) s' → number s' < number s → ending s' = .done) :
    (tcrm w actions level ending name false).status = 0 ∧
      (tcrm w actions level ending name false).logged = true ∧
      ∀ s', number s < number s' → s' ∉ (tcrm w actions level ending name false).begun := by
  have key : (perform ending (todo (actions c))).2 = .raises := by
    rcases perform_ending ending (todo (actions c)) with ⟨h1, h2⟩ | ⟨h1, s', h2, h3, h4⟩
    · have := h2 s ((mem_todo _ _).2 hs)
      rw [hr] at this
      cases this
    · rw [perform_begun ending _ (todo_sorted _)] at h2
      have h5 : ¬ number s < number s' := by
        intro hn
        have := h2.2 s ((mem_todo _ _).2 hs) hn
        rw [hr] at this
        cases this
      have h6 : ¬ number s' < number s := by
        intro hn
        have := hb s' ((mem_todo _ _).1 h3) hn
        rw [h4] at this
        exact h1 this
      have h7 : number s = number s' := by omega
      have h8 : s = s' := by
        revert h7
        cases s <;> cases s' <;> simp [number]
      rw [← h4, ← h8, hr]
  refine ⟨?_, ?_, ?_⟩
  · rw [tcrm_started hc hl]
    simp [conclude, key]
  · rw [tcrm_started hc hl]
    simp [conclude, key]
  · intro s' hn hm
    have := ((C143_begun hc hl s').1 hm).2 s hs hn
    rw [hr] at this
    cases this

/-- The same for the simulation of single events. -/
theorem C143_event_fails {c : Option Text} (hc : configFile w.files w.cwd name = some c)
    (hl : level c = true) : (tcevent w level .raises name false).status = 0 ∧
      (tcevent w level .raises name true).status ≠ 0 := by
  simp [tcevent, hc, hl, conclude]

/-- A missing configuration file is reported. -/
theorem C143_missing (hn : configFile w.files w.root name = none) :
    (tcrm w actions level ending name debug).status = 1 ∧
      (tcrm w actions level ending name debug).begun = [] := by
  simp [tcrm, hn]

/-- So it is for single events; and where the level of the log does not exist, neither program does anything. -/
theorem C143_refused {ending' : Ending} :
    (configFile w.files w.cwd name = none → (tcevent w level ending' name debug).status = 1) ∧
    (∀ c, configFile w.files w.cwd name = some c → level c = false → (tcevent w level ending' name debug).status = 1) ∧
    ∀ c, configFile w.files w.root name = some c → level c = false →
      (tcrm w actions level ending name debug).status = 1 ∧ (tcrm w actions level ending name debug).begun = [] := by
  refine ⟨fun h => ?_, fun c h hl => ?_, fun c h hl => ?_⟩
  · simp [tcevent, h]
  · simp [tcevent, h, hl]
  · simp [tcrm, h, hl]

/-- The log holds an exception exactly if the settings could be read, `--debug` was not given, and a wanted stage raised after all wanted
stages before it had ended regularly. -/
theorem C143_logged : (tcrm w actions level ending name debug).logged = true ↔
    debug = false ∧ ∃ c, configFile w.files w.root name = some c ∧ level c = true ∧
      ∃ s, Wanted (actions c) s ∧ ending s = .raises ∧ ∀ s', Wanted (actions c) s' → number s' < number s → ending s' = .done := by
  cases hc : configFile w.files w.root name with
  | none => simp [tcrm, hc]
  | some c =>
    simp only [Option.some.injEq, exists_eq_left']
    by_cases hl : level c = true
    · rw [tcrm_started hc hl]
      have hb : ∀ s, s ∈ (perform ending (todo (actions c))).1 ↔
          Wanted (actions c) s ∧ ∀ s', Wanted (actions c) s' → number s' < number s → ending s' = .done := by
        intro s
        rw [perform_begun ending _ (todo_sorted _), mem_todo]
        simp only [mem_todo]
      have key : (conclude c debug (perform ending (todo (actions c)))).logged = true ↔
          debug = false ∧ (perform ending (todo (actions c))).2 = .raises := by
        unfold conclude
        cases (perform ending (todo (actions c))).2 <;> cases debug <;> simp
      rw [key]
      refine and_congr_right fun hd => ?_
      constructor
      · intro hr
        rcases perform_ending ending (todo (actions c)) with ⟨h1, _⟩ | ⟨_, s, h2, _, h4⟩
        · rw [hr] at h1; cases h1
        · exact ⟨hl, s, ((hb s).1 h2).1, h4.trans hr, ((hb s).1 h2).2⟩
      · rintro ⟨_, s, hs, hr, hbef⟩
        have := (C143_status_fails hc hl hs hr hbef).2.1
        rw [tcrm_started hc hl] at this
        unfold conclude at this
        cases h : (perform ending (todo (actions c))).2 with
        | raises => rfl
        | done => rw [h] at this; simp at this
        | exits n => rw [h] at this; simp at this
    · simp [tcrm, hc, hl]

/-- So it is for single events. -/
theorem C143_event_logged {ending' : Ending} : (tcevent w level ending' name debug).logged = true ↔
    debug = false ∧ ending' = .raises ∧ ∃ c, configFile w.files w.cwd name = some c ∧ level c = true := by
  cases hc : configFile w.files w.cwd name with
  | none => simp [tcevent, hc]
  | some c =>
    by_cases hl : level c = true
    · cases ending' <;> cases debug <;> simp [tcevent, hc, hl, conclude]
    · simp [tcevent, hc, hl]

/-! ### C144 -/

/-- C144: the simulation of events uses the file that was named, or fails if there is none. -/
theorem C144_event {ending : Ending} {n : Text} :
    ((w.files (meant w n)).isSome → level (some (meant w n)) = true →
      (tcevent w level ending (some n) debug).config = some (meant w n)) ∧
    (w.files (meant w n) = none → (tcevent w level ending (some n) debug).status = 1) := by
  constructor
  · intro h hl
    have h' : (w.files (resolve w.cwd n)).isSome := h
    have e : resolve w.cwd n = meant w n := rfl
    rw [e] at h'
    simp only [tcevent, configFile, e, h', if_true, hl]
    exact conclude_config _ _
  · intro h
    have h' : w.files (resolve w.cwd n) = none := h
    simp [tcevent, configFile, h']

/-- C144, as far as it holds for the main program: absolute names, and names given in the directory
of the program. -/
theorem C144_main_partial {n : Text} (hn : n.head? = some '/' ∨ w.cwd = w.root) :
    ((w.files (meant w n)).isSome → level (some (meant w n)) = true →
      (tcrm w actions level ending (some n) debug).config = some (meant w n)) ∧
    (w.files (meant w n) = none → (tcrm w actions level ending (some n) debug).status = 1) := by
  have e : resolve w.root n = meant w n := by
    unfold resolve meant
    rcases hn with h | h
    · rw [if_pos h, if_pos h]
    · rw [h]
  constructor
  · intro h hl
    simp only [tcrm, configFile, e, h, if_true, hl]
    exact conclude_config _ _
  · intro h
    simp [tcrm, configFile, e, h]

/-- C144 fails for the main program: a name is looked up in the directory of the program, so that
another file of that name there is used instead of the one that is meant; without one the program
fails although the file is there. -/
theorem C144_main_fails {n : Text} (hn : n.head? ≠ some '/') (hw : w.cwd ≠ w.root) :
    ((w.files (w.root ++ '/' :: n)).isSome → level (some (w.root ++ '/' :: n)) = true →
      (tcrm w actions level ending (some n) debug).config = some (w.root ++ '/' :: n) ∧
      w.root ++ '/' :: n ≠ meant w n) ∧
    (w.files (w.root ++ '/' :: n) = none →
      (tcrm w actions level ending (some n) debug).status = 1) := by
  have e : resolve w.root n = w.root ++ '/' :: n := by
    unfold resolve
    rw [if_neg hn]
  constructor
  · intro h hl
    constructor
    · simp only [tcrm, configFile, e, h, if_true, hl]
      exact conclude_config _ _
    · unfold meant
      rw [if_neg hn]
      intro e
      exact hw (List.append_cancel_right e).symm
  · intro h
    simp [tcrm, configFile, e, h]

example : (tcrm ⟨"/home/user".toList, "/opt/tcrm".toList, fun p =>
    if p = "/home/user/a.ini".toList ∨ p = "/opt/tcrm/a.ini".toList then some [] else none⟩
    (fun _ => ⟨true, true, true, true, true, true, true, true, true, true⟩) (fun _ => true)
    (fun s => if s = .stat then .raises else .done) (some "a.ini".toList) false) =
    ⟨some "/opt/tcrm/a.ini".toList, [.directories, .download, .data, .stat], true, 0⟩ := by
  decide +kernel

/-! ### C145 -/

theorem numeral_inj {r s : ℕ} (h : numeral r = numeral s) : r = s := by
  have e := congrArg (fun l => Nat.ofDigitChars 10 l 0) h
  simpa [numeral] using e

theorem not_mem_numeral (r : ℕ) {c : Char} (hc : c.isDigit = false) : c ∉ numeral r := by
  intro h
  have := Nat.isDigit_of_mem_toDigits (by decide) (by decide) h
  rw [hc] at this
  cases this

theorem takeWhile_suffix (l suf : Text) {c : Char} (h : c ∉ suf) :
    ((l ++ suf).reverse.takeWhile (· ≠ c)).reverse = (l.reverse.takeWhile (· ≠ c)).reverse ++ suf := by
  rw [List.reverse_append, List.takeWhile_append_of_pos, List.reverse_append, List.reverse_reverse]
  intro a ha
  simp only [List.mem_reverse] at ha
  simp only [ne_eq, decide_not, Bool.not_eq_eq_eq_not, Bool.not_true, decide_eq_false_iff_not]
  rintro rfl
  exact h ha

theorem dirLength_suffix (l suf : Text) (h : '/' ∉ suf) : dirLength (l ++ suf) = dirLength l := by
  have e := congrArg List.length (takeWhile_suffix l suf h)
  simp only [List.length_reverse, List.length_append] at e
  unfold dirLength
  rw [e, List.length_append]
  omega

theorem dirLength_le (l : Text) : dirLength l ≤ l.length := by
  unfold dirLength
  omega

/-- A suffix without full stops and slashes goes to the extension if there is one. -/
theorem splitext_suffix (l suf : Text) (h : '/' ∉ suf) (h' : '.' ∉ suf) :
    splitext (l ++ suf) = if (splitext l).2 = [] then (l ++ suf, []) else
      ((splitext l).1, (splitext l).2 ++ suf) := by
  have e : (l ++ suf).drop (dirLength (l ++ suf)) = l.drop (dirLength l) ++ suf := by
    rw [dirLength_suffix l suf h, List.drop_append_of_le_length (dirLength_le l)]
  unfold splitext
  simp only [e, takeWhile_suffix _ suf h']
  set base := l.drop (dirLength l) with hb
  set ext := (base.reverse.takeWhile (· ≠ '.')).reverse with he
  have hlen : ext.length ≤ base.length := by
    rw [he, List.length_reverse]
    exact (List.takeWhile_prefix _).length_le.trans (by simp)
  have e1 : (base ++ suf).length - (ext ++ suf).length - 1 = base.length - ext.length - 1 := by
    simp only [List.length_append]
    omega
  have e2 : (base ++ suf).take (base.length - ext.length - 1) =
      base.take (base.length - ext.length - 1) := by
    rw [List.take_append_of_le_length (by omega)]
  have hl : base.length ≤ l.length := by rw [hb]; simp
  have e3 : (l ++ suf).length - (ext ++ suf).length - 1 = l.length - ext.length - 1 := by
    simp only [List.length_append]
    omega
  have e4 : (l ++ suf).take (l.length - ext.length - 1) = l.take (l.length - ext.length - 1) := by
    rw [List.take_append_of_le_length (by omega)]
  have e5 : '.' ∈ base ++ suf ↔ '.' ∈ base := by simp [h']
  rw [e1, e2, e3, e4]
  simp only [e5]
  by_cases hc : '.' ∈ base ∧ (base.take (base.length - ext.length - 1)).any (· ≠ '.') = true
  · rw [if_pos hc, if_pos hc, if_neg (by simp)]
    rfl
  · rw [if_neg hc, if_neg hc, if_pos rfl]

theorem dropWhile_dot (x : Text) (h : '.' ∉ x) : ('.' :: x).dropWhile (· = '.') = x := by
  rw [List.dropWhile_cons_of_pos (by simp)]
  cases x with
  | nil => rfl
  | cons a x =>
    rw [List.dropWhile_cons_of_neg]
    simp only [List.mem_cons, not_or] at h
    simpa using fun e => h.1 e.symm

/-- An extension begins with its only full stop. -/
theorem splitext_ext (l : Text) (h : (splitext l).2 ≠ []) :
    ∃ x, (splitext l).2 = '.' :: x ∧ '.' ∉ x := by
  unfold splitext at h ⊢
  simp only at h ⊢
  split at h
  · rename_i hc
    rw [if_pos hc]
    refine ⟨_, rfl, ?_⟩
    intro hm
    rw [List.mem_reverse] at hm
    have := List.all_takeWhile (p := fun x : Char => decide (x ≠ '.')) (l := ((l.drop (dirLength l)).reverse))
    rw [List.all_eq_true] at this
    have := this _ hm
    simp at this
  · exact absurd rfl h

theorem dated_suffix (date l suf : Text) (h : '/' ∉ suf) (h' : '.' ∉ suf) :
    dated date (l ++ suf) = if (splitext l).2 = [] then l ++ suf ++ '.' :: date ++ ['.'] else
      (splitext l).1 ++ '.' :: date ++ '.' :: ((splitext l).2.drop 1 ++ suf) := by
  unfold dated
  rw [splitext_suffix l suf h h']
  split
  · simp
  · rename_i hx
    obtain ⟨x, hx, hd⟩ := splitext_ext l hx
    simp only [hx, List.cons_append, List.drop_succ_cons, List.drop_zero]
    rw [dropWhile_dot]
    simp [hd, h']

/-- The part of the name that depends on the rank. -/
theorem rankLog_eq (size rank : ℕ) (h : rank < size) (l : Text) :
    ∃ suf : Text, rankLog size rank l = l ++ suf ∧ '/' ∉ suf ∧ '.' ∉ suf ∧
      (rank = 0 ∧ suf = [] ∨ 0 < rank ∧ suf = '-' :: numeral rank) := by
  unfold rankLog
  split
  · rename_i hr
    refine ⟨_, rfl, ?_, ?_, .inr ⟨hr.2, rfl⟩⟩
    · simp [not_mem_numeral]
    · simp [not_mem_numeral]
  · rename_i hr
    exact ⟨[], by simp, by simp, by simp, .inl ⟨by omega, rfl⟩⟩

/-- C145: two processes of a run write different log files, with or without the date in the name; the
processes may be started at different minutes. -/
theorem C145_log_files (datestamp : Bool) {date date' : Text} (hd : date.length = date'.length)
    {size r s : ℕ} (hr : r < size) (hs : s < size) (hrs : r ≠ s) (logfile : Text) :
    logName datestamp date size r logfile ≠ logName datestamp date' size s logfile := by
  obtain ⟨u, hu, hu1, hu2, hu3⟩ := rankLog_eq size r hr logfile
  obtain ⟨v, hv, hv1, hv2, hv3⟩ := rankLog_eq size s hs logfile
  have huv : u ≠ v := by
    rintro rfl
    rcases hu3 with ⟨h1, h2⟩ | ⟨h1, h2⟩ <;> rcases hv3 with ⟨h3, h4⟩ | ⟨h3, h4⟩
    · omega
    · rw [h2] at h4; cases h4
    · rw [h2] at h4; cases h4
    · rw [h2] at h4
      exact hrs (numeral_inj (List.cons.inj h4).2)
  unfold logName
  rw [hu, hv]
  cases datestamp with
  | false =>
    simp only [Bool.false_eq_true, if_false]
    exact fun e => huv (List.append_cancel_left e)
  | true =>
    simp only [if_true]
    rw [dated_suffix _ _ _ hu1 hu2, dated_suffix _ _ _ hv1 hv2]
    split
    · intro e
      have e := List.append_inj' e rfl
      have e := List.append_inj' e.1 (by simp [hd])
      exact huv (List.append_cancel_left e.1)
    · intro e
      have e := List.append_inj e (by simp [hd])
      have := (List.cons.inj e.2).2
      exact huv (List.append_cancel_left this)

/-- The first process writes the file that was named. -/
theorem C145_first (date : Text) (size : ℕ) (logfile : Text) :
    logName false date size 0 logfile = logfile := by
  simp [logName, rankLog]

/-- With an extension the date goes before it. -/
theorem C145_dated (date dir stem ext : Text) (size : ℕ) (hs : ∃ c ∈ stem, c ≠ '.') (h1 : '/' ∉ stem)
    (h2 : '/' ∉ ext) (h3 : '.' ∉ ext) :
    logName true date size 0 (dir ++ '/' :: stem ++ '.' :: ext) =
      dir ++ '/' :: stem ++ '.' :: date ++ '.' :: ext := by
  have hd : dirLength (dir ++ '/' :: stem ++ '.' :: ext) = dir.length + 1 := by
    have e : dir ++ '/' :: stem ++ '.' :: ext = (dir ++ ['/']) ++ (stem ++ '.' :: ext) := by simp
    rw [e, dirLength_suffix _ _ (by simp [h1, h2])]
    simp [dirLength]
  have hb : (dir ++ '/' :: stem ++ '.' :: ext).drop (dir.length + 1) = stem ++ '.' :: ext := by
    have e : dir ++ '/' :: stem ++ '.' :: ext = (dir ++ ['/']) ++ (stem ++ '.' :: ext) := by simp
    rw [e, List.drop_left' (by simp)]
  have he : ((stem ++ '.' :: ext).reverse.takeWhile (· ≠ '.')).reverse = ext := by
    have := takeWhile_suffix (stem ++ ['.']) ext h3
    simpa using this
  have hsp : splitext (dir ++ '/' :: stem ++ '.' :: ext) = (dir ++ '/' :: stem, '.' :: ext) := by
    unfold splitext
    simp only [hd, hb, he]
    have e1 : (stem ++ '.' :: ext).length - ext.length - 1 = stem.length := by simp; omega
    have e2 : (dir ++ '/' :: stem ++ '.' :: ext).length - ext.length - 1 =
        (dir ++ '/' :: stem).length := by simp; omega
    rw [e1, List.take_left' rfl, if_pos, e2, List.take_left' rfl]
    refine ⟨by simp, ?_⟩
    rw [List.any_eq_true]
    obtain ⟨c, h, h'⟩ := hs
    exact ⟨c, h, by simpa using h'⟩
  have hr : rankLog size 0 (dir ++ '/' :: stem ++ '.' :: ext) = dir ++ '/' :: stem ++ '.' :: ext := by
    simp [rankLog]
  simp only [logName, if_true, hr, dated, hsp, dropWhile_dot ext h3]

example : logName true "202601010000".toList 16 11 "/log/tcrm.log".toList =
    "/log/tcrm.202601010000.log-11".toList := by decide +kernel

end Tcrm.Startup
