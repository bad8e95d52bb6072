import Verif.Model.Impact
import Verif.Spec.Impact
import Verif.Props.Defaults
import Verif.Lemmas.GustFiles
import Mathlib.Data.List.Nodup
/-!
C175: the impact of an event is calculated for each of its wind fields.
-/
namespace Tcrm.Impact

open Tcrm.GustFiles Tcrm.Config

theorem gustPattern_iff (n : Name) : fnmatch gustPattern n = true ↔ ∃ stem, IsGust n stem := by
  unfold gustPattern IsGust
  rw [List.append_assoc, fnmatch_lit_append]
  simp only [List.singleton_append, fnmatch_star, fnmatch_lit]
  constructor
  · rintro ⟨r, rfl, m, r', rfl, rfl⟩
    exact ⟨m, by rw [List.append_assoc]; rfl⟩
  · rintro ⟨m, rfl⟩
    exact ⟨m ++ ['.', 'n', 'c'], by rw [List.append_assoc]; rfl, m, _, rfl, rfl⟩

theorem outputName_gust (stem : List Char) :
    outputName (['g', 'u', 's', 't', '.'] ++ stem ++ ['.', 'n', 'c']) =
      ['g', 'u', 's', 't', '.'] ++ stem ++ ['.', 'c', 's', 'v'] := by
  unfold outputName
  congr 1
  rw [List.take_append_of_le_length (by simp), List.take_of_length_le (by simp)]

theorem call_eq {n : Name} {stem : List Char} (h : IsGust n stem) (exposure : Text) :
    (⟨n, exposure, outputName n⟩ : Call) = callFor exposure stem := by
  rw [h, outputName_gust]; rfl

theorem callFor_output_inj {e : Text} {s s' : List Char} (h : (callFor e s).output = (callFor e s').output) : s = s' := by
  simp only [callFor, List.append_assoc, List.append_cancel_left_eq] at h
  exact List.append_cancel_right h

theorem calls_spec {R : Type} (hazimp : Call → Option R) (exposure : Text) (l : List Name) (d : Folder R)
    (hg : ∀ n ∈ l, ∃ stem, IsGust n stem) (hn : l.Nodup) (hok : ∀ n ∈ l, (hazimp ⟨n, exposure, outputName n⟩).isSome) :
    (calls hazimp exposure l d).2.2 = .done ∧
    (calls hazimp exposure l d).2.1 = l.map (fun n => (⟨n, exposure, outputName n⟩ : Call)) ∧
    (∀ n ∈ l, (calls hazimp exposure l d).1 (outputName n) = hazimp ⟨n, exposure, outputName n⟩) ∧
    ∀ m, (∀ n ∈ l, m ≠ outputName n) → (calls hazimp exposure l d).1 m = d m := by
  induction l generalizing d with
  | nil => simp [calls]
  | cons n l ih =>
    obtain ⟨r, hr⟩ := Option.isSome_iff_exists.1 (hok n (by simp))
    obtain ⟨hnl, hn⟩ := List.nodup_cons.1 hn
    obtain ⟨h1, h2, h3, h4⟩ := ih (fun m => if m = outputName n then some r else d m)
      (fun m hm => hg m (by simp [hm])) hn (fun m hm => hok m (by simp [hm]))
    simp only [calls, hr]
    refine ⟨h1, by rw [h2]; rfl, ?_, ?_⟩
    · intro m hm
      rcases List.mem_cons.1 hm with rfl | hm
      · rw [h4, if_pos rfl, hr]
        intro k hk e
        obtain ⟨s, hs⟩ := hg m (by simp)
        obtain ⟨s', hs'⟩ := hg k (by simp [hk])
        have e' : (callFor exposure s).output = (callFor exposure s').output := by
          rw [← call_eq hs, ← call_eq hs']; exact e
        have := callFor_output_inj e'
        subst this
        exact hnl (by rw [hs, ← hs']; exact hk)
      · exact h3 m hm
    · intro m hm
      rw [h4 m fun k hk => hm k (by simp [hk]), if_neg (hm n (by simp))]

theorem filter_gust (listing : List Name) (n : Name) :
    n ∈ (listing.filter fun n => fnmatch gustPattern n) ↔ n ∈ listing ∧ ∃ stem, IsGust n stem := by
  rw [List.mem_filter, gustPattern_iff]

/-- If hazimp succeeds for every wind-field file, each of them is handed to it once, with the configured exposure data, and
nothing else is; for each there is an impact file of the same stem holding its own result, and no other file of the folder
is touched. -/
theorem C175_each {R : Type} (hazimp : Call → Option R) (exposure : Text) (listing : List Name) (hn : listing.Nodup)
    (d : Folder R)
    (hok : ∀ stem, (['g', 'u', 's', 't', '.'] ++ stem ++ ['.', 'n', 'c']) ∈ listing → (hazimp (callFor exposure stem)).isSome) :
    ∃ d' made, run hazimp exposure listing d = (d', made, .done) ∧
      made.Nodup ∧
      (∀ c, c ∈ made ↔ ∃ stem, (['g', 'u', 's', 't', '.'] ++ stem ++ ['.', 'n', 'c']) ∈ listing ∧ c = callFor exposure stem) ∧
      (∀ stem, (['g', 'u', 's', 't', '.'] ++ stem ++ ['.', 'n', 'c']) ∈ listing →
        d' (['g', 'u', 's', 't', '.'] ++ stem ++ ['.', 'c', 's', 'v']) = hazimp (callFor exposure stem)) ∧
      ∀ m, (∀ stem, (['g', 'u', 's', 't', '.'] ++ stem ++ ['.', 'n', 'c']) ∈ listing →
        m ≠ ['g', 'u', 's', 't', '.'] ++ stem ++ ['.', 'c', 's', 'v']) → d' m = d m := by
  have hg : ∀ n ∈ (listing.filter fun n => fnmatch gustPattern n), ∃ stem, IsGust n stem :=
    fun n h => ((filter_gust _ _).1 h).2
  have mem : ∀ stem, (['g', 'u', 's', 't', '.'] ++ stem ++ ['.', 'n', 'c']) ∈ listing →
      (['g', 'u', 's', 't', '.'] ++ stem ++ ['.', 'n', 'c']) ∈ (listing.filter fun n => fnmatch gustPattern n) :=
    fun stem h => (filter_gust _ _).2 ⟨h, stem, rfl⟩
  obtain ⟨h1, h2, h3, h4⟩ := calls_spec hazimp exposure (listing.filter fun n => fnmatch gustPattern n) d hg
    (hn.filter _) (by
      intro n h
      obtain ⟨hl, stem, hs⟩ := (filter_gust _ _).1 h
      rw [call_eq hs]
      exact hok stem (hs ▸ hl))
  unfold run
  generalize calls hazimp exposure (listing.filter fun n => fnmatch gustPattern n) d = q at h1 h2 h3 h4
  refine ⟨q.1, q.2.1, by rw [← h1], ?_, ?_, ?_, ?_⟩
  · rw [h2]
    exact List.Nodup.map (fun a b h => congrArg Call.gust h) (hn.filter _)
  · intro c
    rw [h2, List.mem_map]
    constructor
    · rintro ⟨n, hn, rfl⟩
      obtain ⟨hl, stem, hs⟩ := (filter_gust _ _).1 hn
      exact ⟨stem, hs ▸ hl, call_eq hs _⟩
    · rintro ⟨stem, h, rfl⟩
      exact ⟨_, mem stem h, call_eq rfl _⟩
  · intro stem h
    have := h3 _ (mem stem h)
    rw [outputName_gust] at this
    exact this
  · intro m h
    refine h4 m fun n hn e => ?_
    obtain ⟨hl, stem, hs⟩ := (filter_gust _ _).1 hn
    rw [hs, outputName_gust] at e
    exact h stem (hs ▸ hl) e

theorem calls_failure {R : Type} (hazimp : Call → Option R) (exposure : Text) (l : List Name) (d : Folder R)
    (h : ∃ n ∈ l, hazimp ⟨n, exposure, outputName n⟩ = none) :
    ∃ d' made c, calls hazimp exposure l d = (d', made ++ [c], .failed) ∧ hazimp c = none ∧
      ∀ c ∈ made, (hazimp c).isSome := by
  induction l generalizing d with
  | nil => obtain ⟨n, hn, -⟩ := h; cases hn
  | cons n l ih =>
    cases hr : hazimp ⟨n, exposure, outputName n⟩ with
    | none => exact ⟨d, [], _, by simp [calls, hr], hr, by simp⟩
    | some r =>
      obtain ⟨d', made, c, h1, h2, h3⟩ := ih (fun m => if m = outputName n then some r else d m) (by
        obtain ⟨m, hm, hf⟩ := h
        rcases List.mem_cons.1 hm with rfl | hm
        · rw [hf] at hr; cases hr
        · exact ⟨m, hm, hf⟩)
      refine ⟨d', ⟨n, exposure, outputName n⟩ :: made, c, by simp only [calls, hr, h1]; rfl, h2, ?_⟩
      intro c hc
      rcases List.mem_cons.1 hc with rfl | hc
      · rw [hr]; rfl
      · exact h3 c hc

/-- If hazimp fails for a wind-field file, the event ends with an error after the first such file; it succeeded for all
before. -/
theorem C175_failure {R : Type} (hazimp : Call → Option R) (exposure : Text) (listing : List Name) (d : Folder R)
    (stem : List Char) (hl : (['g', 'u', 's', 't', '.'] ++ stem ++ ['.', 'n', 'c']) ∈ listing)
    (hf : hazimp (callFor exposure stem) = none) :
    ∃ d' made c, run hazimp exposure listing d = (d', made ++ [c], .failed) ∧ hazimp c = none ∧
      ∀ c ∈ made, (hazimp c).isSome :=
  calls_failure hazimp exposure _ d ⟨_, (filter_gust _ _).2 ⟨hl, stem, rfl⟩, by rw [call_eq rfl]; exact hf⟩

/-- The files written by the wind-field stage are among those; its files of time series are not. -/
theorem C175_event_files (id : ℕ × ℕ) : (∃ stem, IsGust (gustName id) stem) ∧ ¬ ∃ stem, IsGust (evolutionName id) stem := by
  have h1 : "gust.".toList = ['g', 'u', 's', 't', '.'] := by decide +kernel
  have h2 : ".nc".toList = ['.', 'n', 'c'] := by decide +kernel
  have h3 : "evolution.".toList = 'e' :: ['v', 'o', 'l', 'u', 't', 'i', 'o', 'n', '.'] := by decide +kernel
  unfold IsGust gustName evolutionName
  rw [h1, h2, h3]
  generalize pad 3 id.1 = a
  generalize pad 5 id.2 = b
  constructor
  · exact ⟨a ++ "-".toList ++ b, by simp only [List.append_assoc]⟩
  · rintro ⟨stem, h⟩
    simp only [List.cons_append, List.cons.injEq] at h
    exact absurd h.1 (by decide)

/-! ### Whether the impact is calculated -/

theorem configured_eq (file : Entries) : configured file = Defaults.loaded file := rfl

theorem actions_there (file : Entries) : ∃ opts, (configured file).table (Defaults.t "Actions") = some opts := by
  have h : look (configured file).table (Defaults.t "Actions") (Defaults.t "DataProcess") ≠ none := by
    rw [configured_eq, Defaults.look_loaded]
    have : fileSays Defaults.defaults (Defaults.t "Actions") (Defaults.t "DataProcess") = some (Defaults.t "True") := by
      decide +kernel
    rw [Defaults.setting, this]
    cases fileSays file (Defaults.t "Actions") (Defaults.t "DataProcess") <;> simp
  cases ht : (configured file).table (Defaults.t "Actions") with
  | none => rw [look, ht] at h; exact absurd rfl h
  | some opts => exact ⟨opts, rfl⟩

theorem wanted_eq (file : Entries) : wanted (configured file) =
    match fileSays file (Defaults.t "Actions") (Defaults.t "ExecuteImpact") with
    | none => .ok false
    | some x => getBoolean x := by
  obtain ⟨opts, ho⟩ := actions_there file
  have hl : opts (lower (Defaults.t "ExecuteImpact")) =
      (fileSays file (Defaults.t "Actions") (Defaults.t "ExecuteImpact")).map Val.str := by
    have := Defaults.look_loaded file (Defaults.t "Actions") (Defaults.t "ExecuteImpact")
    rw [← configured_eq, look, ho, Option.bind_some] at this
    rw [this, Defaults.setting, show fileSays Defaults.defaults (Defaults.t "Actions") (Defaults.t "ExecuteImpact") = none by
      decide +kernel, Option.or_none]
  simp only [wanted, ho, hl]
  cases fileSays file (Defaults.t "Actions") (Defaults.t "ExecuteImpact") <;> rfl

/-- The impact is calculated if it is switched on and the exposure data are named. -/
theorem C175_wanted {R : Type} (file : Entries) (x e : Text)
    (hx : fileSays file (Defaults.t "Actions") (Defaults.t "ExecuteImpact") = some x)
    (he : fileSays file (Defaults.t "Impact") (Defaults.t "Exposure") = some e) (hazimp : Call → Option R)
    (listing : List Name) (d : Folder R) :
    (lower x ∈ ["1", "yes", "true", "on"].map String.toList →
      runOptional (configured file) hazimp listing d = run hazimp e listing d) ∧
    (lower x ∈ ["0", "no", "false", "off"].map String.toList →
      runOptional (configured file) hazimp listing d = (d, [], .done)) ∧
    (lower x ∉ ["1", "yes", "true", "on", "0", "no", "false", "off"].map String.toList →
      runOptional (configured file) hazimp listing d = (d, [], .config .valueError)) := by
  have hw : wanted (configured file) = getBoolean x := by rw [wanted_eq, hx]
  have hg : getOption (configured file) (Defaults.t "Impact") (Defaults.t "Exposure") = .ok (.str e) :=
    Defaults.getOption_loaded_some (by rw [Defaults.setting, he]; rfl)
  have hdis : lower x ∈ ["0", "no", "false", "off"].map String.toList →
      lower x ∉ ["1", "yes", "true", "on"].map String.toList := by
    intro h
    simp only [List.map_cons, List.map_nil, List.mem_cons, List.not_mem_nil, or_false] at h
    rcases h with h | h | h | h <;> rw [h] <;> decide +kernel
  refine ⟨fun h => ?_, fun h => ?_, fun h => ?_⟩
  · have : getBoolean x = .ok true := by rw [getBoolean, if_pos h]
    simp only [runOptional, hw, this, hg]
  · have : getBoolean x = .ok false := by rw [getBoolean, if_neg (hdis h), if_pos h]
    simp only [runOptional, hw, this]
  · have : getBoolean x = .error .valueError := by
      rw [getBoolean, if_neg (fun h' => h ?_), if_neg (fun h' => h ?_)]
      · simp only [List.map_cons, List.map_nil, List.mem_cons, List.not_mem_nil, or_false] at h' ⊢; tauto
      · simp only [List.map_cons, List.map_nil, List.mem_cons, List.not_mem_nil, or_false] at h' ⊢; tauto
    simp only [runOptional, hw, this]

/-- C175 (the failure): exposure data alone do not do it. Without the switch in the file nothing is calculated and no error
is reported, since the defaults always have a section of actions. -/
theorem C175_section_fails {R : Type} (file : Entries) (e : Text)
    (hx : fileSays file (Defaults.t "Actions") (Defaults.t "ExecuteImpact") = none)
    (_he : fileSays file (Defaults.t "Impact") (Defaults.t "Exposure") = some e) (hazimp : Call → Option R)
    (listing : List Name) (d : Folder R) : runOptional (configured file) hazimp listing d = (d, [], .done) := by
  have hw : wanted (configured file) = .ok false := by rw [wanted_eq, hx]
  simp only [runOptional, hw]

/-- C175 (the failure): switched on without exposure data, the event ends with an error after its wind fields have been
calculated. -/
theorem C175_exposure_fails {R : Type} (file : Entries) (x : Text)
    (hx : fileSays file (Defaults.t "Actions") (Defaults.t "ExecuteImpact") = some x)
    (ht : lower x ∈ ["1", "yes", "true", "on"].map String.toList)
    (he : fileSays file (Defaults.t "Impact") (Defaults.t "Exposure") = none) (hazimp : Call → Option R)
    (listing : List Name) (d : Folder R) :
    ∃ err, runOptional (configured file) hazimp listing d = (d, [], .config err) := by
  have hw : wanted (configured file) = .ok true := by rw [wanted_eq, hx]; simp only [getBoolean, if_pos ht]
  obtain ⟨err, hg⟩ := Defaults.getOption_loaded_none (file := file) (s := Defaults.t "Impact") (o := Defaults.t "Exposure")
    (by rw [Defaults.setting, he]; decide +kernel)
  rw [← configured_eq] at hg
  exact ⟨err, by simp only [runOptional, hw, hg]⟩

/-- C175: where there is no section of actions at all (a parser without the defaults), the section of the impact
decides. -/
theorem C175_without_actions {R : Type} (p : Parser) (h : p.table (Defaults.t "Actions") = none) (hazimp : Call → Option R)
    (listing : List Name) (d : Folder R) :
    (p.table (Defaults.t "Impact") = none → runOptional p hazimp listing d = (d, [], .done)) ∧
    ∀ e, getOption p (Defaults.t "Impact") (Defaults.t "Exposure") = .ok (.str e) →
      runOptional p hazimp listing d = run hazimp e listing d := by
  constructor
  · intro hi
    simp [runOptional, wanted, h, hi]
  · intro e he
    obtain ⟨o, ho⟩ : ∃ o, p.table (Defaults.t "Impact") = some o := by
      cases hi : p.table (Defaults.t "Impact") with
      | none => simp [getOption, hi] at he
      | some o => exact ⟨o, rfl⟩
    simp only [runOptional, wanted, h, ho, Option.isSome_some, he]

/-! ### Cases -/

/-- A folder with two wind fields, a file of time series and an image. -/
example : (run (fun c => some c.gust) ['e'] [gustName (0, 1), evolutionName (0, 1), gustName (2, 0), ['m', 'a', 'p']]
    fun _ => none).2 = ([callFor ['e'] "000-00001".toList, callFor ['e'] "002-00000".toList], Outcome.done) := by
  decide +kernel

example : fileSays [(Defaults.t "Actions", [(Defaults.t "executeimpact", Defaults.t "Yes")]),
    (Defaults.t "Impact", [(Defaults.t "Exposure", Defaults.t "houses.csv")])] (Defaults.t "Actions")
    (Defaults.t "ExecuteImpact") = some (Defaults.t "Yes") := by decide +kernel

end Tcrm.Impact
