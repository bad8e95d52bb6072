import Verif.Model.EventTable
import Verif.Props.Database
/-!
C215: the table of events lists the wind fields of the folder.
-/
namespace Tcrm.Database
open Tcrm.GustFiles (Name)

/-- The event `e` is what the file of its name says. -/
def FromFile (content : Name → Option Field) (e : Event) : Prop :=
  eventIdOf e.file = .ok e.eventId ∧ ∃ f, content e.file = some f ∧ e.maxWind = f.maxWind ∧ e.minPressure = f.minPressure

/-- A file that can be recorded: two numbers in its name, and the content of a wind field -/
def Recordable (content : Name → Option Field) (file : Name) : Prop :=
  (∃ eventId, eventIdOf file = .ok eventId) ∧ ∃ f, content file = some f

theorem eventRecord_ok {content : Name → Option Field} {n : ℕ} {file : Name} {e : Event}
    (h : eventRecord content n file = .ok e) : e.number = n ∧ e.file = file ∧ FromFile content e := by
  unfold eventRecord at h
  cases hi : eventIdOf file with
  | error x => simp [hi] at h
  | ok eventId =>
    cases hc : content file with
    | none => simp [hi, hc] at h
    | some f =>
      simp only [hi, hc, Except.ok.injEq] at h
      subst h
      exact ⟨rfl, rfl, hi, f, hc, rfl, rfl⟩

theorem eventRecord_iff {content : Name → Option Field} {n : ℕ} {file : Name} :
    (∃ e, eventRecord content n file = .ok e) ↔ Recordable content file := by
  unfold eventRecord Recordable
  cases hi : eventIdOf file with
  | error x => simp
  | ok eventId => cases hc : content file <;> simp

theorem eventRecords_ok {content : Name → Option Field} : ∀ {files : List Name} {n : ℕ} {es : List Event},
    eventRecords content n files = .ok es →
      es.map (·.number) = List.range' n files.length ∧ es.map (·.file) = files ∧ ∀ e ∈ es, FromFile content e
  | [], n, es, h => by
    simp only [eventRecords, Except.ok.injEq] at h
    subst h
    simp
  | file :: files, n, es, h => by
    simp only [eventRecords] at h
    cases hr : eventRecord content n file with
    | error x => simp [hr] at h
    | ok r =>
      cases hs : eventRecords content (n + 1) files with
      | error x => simp [hr, hs] at h
      | ok rs =>
        simp only [hr, hs, Except.ok.injEq] at h
        subst h
        obtain ⟨h1, h2, h3⟩ := eventRecords_ok hs
        obtain ⟨g1, g2, g3⟩ := eventRecord_ok hr
        refine ⟨by simp [h1, g1, List.range'_succ], by simp [h2, g2], ?_⟩
        intro e he
        rcases List.mem_cons.1 he with rfl | he
        · exact g3
        · exact h3 e he

theorem eventRecords_iff {content : Name → Option Field} : ∀ {files : List Name} {n : ℕ},
    (∃ es, eventRecords content n files = .ok es) ↔ ∀ file ∈ files, Recordable content file
  | [], n => by simp [eventRecords]
  | file :: files, n => by
    have ih := eventRecords_iff (content := content) (files := files) (n := n + 1)
    have h0 := eventRecord_iff (content := content) (n := n) (file := file)
    simp only [eventRecords, List.mem_cons, forall_eq_or_imp, ← ih, ← h0]
    cases hr : eventRecord content n file with
    | error x => simp
    | ok r => cases hs : eventRecords content (n + 1) files <;> simp

theorem sorted_perm (names : List Name) : (names.insertionSort fun a b => a ≤ b).Perm names :=
  List.perm_insertionSort _ _

theorem sorted_pairwise (names : List Name) :
    (names.insertionSort fun a b => a ≤ b).Pairwise (fun a b => a ≤ b) :=
  List.pairwise_insertionSort _ _

theorem insertMany_ok : ∀ {es table : List Event}, (∀ e ∈ es, ∀ x ∈ table, x.number ≠ e.number) →
    (es.map (·.number)).Nodup → insertMany es table = (table ++ es, true)
  | [], table, _, _ => by simp [insertMany]
  | e :: es, table, h, hn => by
    have h1 : (table.any fun x => decide (x.number = e.number)) = false := by
      rw [Bool.eq_false_iff]
      intro hc
      obtain ⟨x, hx, hxe⟩ := List.any_eq_true.1 hc
      exact h e (by simp) x hx (by simpa using hxe)
    rw [List.map_cons, List.nodup_cons] at hn
    rw [insertMany, h1, if_neg (by simp), insertMany_ok ?_ hn.2]
    · simp
    · intro e' he' x hx
      rcases List.mem_append.1 hx with hx | hx
      · exact h e' (by simp [he']) x hx
      · rw [List.mem_singleton.1 hx]
        intro hc
        exact hn.1 (hc ▸ List.mem_map.2 ⟨e', he', rfl⟩)

theorem insertMany_prefix : ∀ (es table : List Event), ∃ k, (insertMany es table).1 = table ++ es.take k
  | [], table => ⟨0, by simp [insertMany]⟩
  | e :: es, table => by
    rw [insertMany]
    split
    · exact ⟨0, by simp⟩
    · obtain ⟨k, hk⟩ := insertMany_prefix es (table ++ [e])
      exact ⟨k + 1, by simp [hk]⟩

theorem insertMany_true : ∀ {es table : List Event}, (insertMany es table).2 = true →
    ∀ e ∈ es, ∀ x ∈ table, x.number ≠ e.number
  | [], _, _ => by simp
  | e :: es, table, h => by
    rw [insertMany] at h
    split at h
    · simp at h
    · next hn =>
      intro e' he' x hx
      rcases List.mem_cons.1 he' with rfl | he'
      · intro hc
        exact hn (List.any_eq_true.2 ⟨x, hx, by simpa using hc⟩)
      · exact insertMany_true h e' he' x (by simp [hx])

/-- C215: into a table without events the files of a folder, all of them wind fields, are recorded: one event for each file,
numbered from 0 in the order of the names, with the identifier found from the name and the values of the file; the table is
committed. -/
theorem C215_events (names : List Name) (content : Name → Option Field) (h : ∀ f ∈ names, Recordable content f) :
    ∃ es, generateEventTable names content ⟨[], []⟩ = (⟨es, es⟩, none) ∧
      (es.map (·.file)).Perm names ∧ (es.map (·.file)).Pairwise (fun a b => a ≤ b) ∧
      es.map (·.number) = List.range names.length ∧ ∀ e ∈ es, FromFile content e := by
  have hp := sorted_perm names
  obtain ⟨es, he⟩ := (eventRecords_iff (n := 0)).2 fun f hf => h f (hp.mem_iff.1 hf)
  obtain ⟨h1, h2, h3⟩ := eventRecords_ok he
  have hn : (es.map (·.number)).Nodup := by rw [h1]; exact List.nodup_range'
  refine ⟨es, ?_, ?_, ?_, ?_, h3⟩
  · simp [generateEventTable, he, insertMany_ok (es := es) (table := []) (by simp) hn]
  · rw [h2]; exact hp
  · rw [h2]; exact sorted_pairwise names
  · rw [h1, hp.length_eq, List.range_eq_range']

/-- C215: the order in which the system lists the folder does not matter. -/
theorem C215_order (names names' : List Name) (hp : names.Perm names') (content : Name → Option Field) (s : Session) :
    generateEventTable names content s = generateEventTable names' content s := by
  have : (names.insertionSort fun a b => a ≤ b) = names'.insertionSort fun a b => a ≤ b :=
    List.Perm.eq_of_pairwise (le := fun a b : Name => a ≤ b) (fun a b _ _ h1 h2 => le_antisymm h1 h2)
      (sorted_pairwise names) (sorted_pairwise names') (((sorted_perm names).trans hp).trans (sorted_perm names').symm)
  simp only [generateEventTable, this]

/-- C215: the call fails for a file just if some file of the folder is not a wind field with two numbers in its name; then
nothing is changed. -/
theorem C215_bad_file (names : List Name) (content : Name → Option Field) (s : Session) :
    ((∃ e, (generateEventTable names content s).2 = some (.file e)) ↔ ∃ f ∈ names, ¬ Recordable content f) ∧
    ((∃ e, (generateEventTable names content s).2 = some (.file e)) → (generateEventTable names content s).1 = s) := by
  have hi := eventRecords_iff (content := content) (files := names.insertionSort fun a b => a ≤ b) (n := 0)
  have hm : (∃ f ∈ names, ¬ Recordable content f) ↔
      ¬ ∀ f ∈ names.insertionSort fun a b => a ≤ b, Recordable content f := by
    push Not
    constructor <;> rintro ⟨f, hf, h⟩
    · exact ⟨f, (sorted_perm names).mem_iff.2 hf, h⟩
    · exact ⟨f, (sorted_perm names).mem_iff.1 hf, h⟩
  rw [hm, ← hi]
  unfold generateEventTable
  cases he : eventRecords content 0 (names.insertionSort fun a b => a ≤ b) with
  | error e => simp
  | ok es =>
    dsimp only
    split <;> simp

/-- C215 (part): whatever goes wrong, the committed table is as before, and otherwise it is what the connection sees. -/
theorem C215_committed_partial (names : List Name) (content : Name → Option Field) (s : Session) :
    ((generateEventTable names content s).2 ≠ none → (generateEventTable names content s).1.saved = s.saved) ∧
    ((generateEventTable names content s).2 = none →
      (generateEventTable names content s).1.saved = (generateEventTable names content s).1.working ∧
      (generateEventTable names content s).1.working.length = s.working.length + names.length) := by
  unfold generateEventTable
  cases he : eventRecords content 0 (names.insertionSort fun a b => a ≤ b) with
  | error e => simp
  | ok es =>
    obtain ⟨h1, h2, _⟩ := eventRecords_ok he
    have hn : (es.map (·.number)).Nodup := by rw [h1]; exact List.nodup_range'
    have hl : es.length = names.length := by
      rw [← (sorted_perm names).length_eq, ← h2, List.length_map]
    dsimp only
    cases hb : (insertMany es s.working).2 with
    | false => simp
    | true =>
      refine ⟨by simp, fun _ => ⟨by simp, ?_⟩⟩
      rw [if_pos rfl, insertMany_ok (insertMany_true hb) hn]
      simp [hl]

/-- C215 (the failure): a table that has been filled cannot be brought up to date: for every folder with a file, the call
fails, whatever the files are now. -/
theorem C215_again_fails (names names' : List Name) (content content' : Name → Option Field) (hne : names ≠ [])
    (hne' : names' ≠ []) (h : ∀ f ∈ names, Recordable content f) (h' : ∀ f ∈ names', Recordable content' f) :
    ∃ es, generateEventTable names content ⟨[], []⟩ = (⟨es, es⟩, none) ∧
      generateEventTable names' content' ⟨es, es⟩ = (⟨es, es⟩, some .integrity) := by
  obtain ⟨es, he, -, -, hnum, -⟩ := C215_events names content h
  refine ⟨es, he, ?_⟩
  have hp := sorted_perm names'
  obtain ⟨es', he'⟩ := (eventRecords_iff (n := 0)).2 fun f hf => h' f (hp.mem_iff.1 hf)
  obtain ⟨h1, -, -⟩ := eventRecords_ok he'
  rw [generateEventTable, he']
  have hl : 0 < names.length := List.length_pos_iff.2 hne
  have hl' : 0 < (names'.insertionSort fun a b => a ≤ b).length := by
    rw [hp.length_eq]; exact List.length_pos_iff.2 hne'
  obtain ⟨m, hm⟩ := Nat.exists_eq_succ_of_ne_zero hl'.ne'
  have : ∃ x ∈ es, x.number = 0 := by
    have : 0 ∈ es.map (·.number) := by rw [hnum]; simpa using hl
    obtain ⟨x, hx, h0⟩ := List.mem_map.1 this
    exact ⟨x, hx, h0⟩
  obtain ⟨x, hx, hx0⟩ := this
  cases es' with
  | nil => rw [hm] at h1; simp [List.range'_succ] at h1
  | cons e es' =>
    have he0 : e.number = 0 := by
      rw [hm] at h1
      simpa [List.range'_succ] using (List.cons.inj h1).1
    have hany : (es.any fun x => decide (x.number = e.number)) = true :=
      List.any_eq_true.2 ⟨x, hx, by simp [hx0, he0]⟩
    simp [insertMany, hany]

/-- C215 (the failure): if a later number is known the events before it are inserted, and are kept by the next commit of the
connection although the call has failed. -/
theorem C215_leftover_fails (names : List Name) (content : Name → Option Field) (h : ∀ f ∈ names, Recordable content f)
    (x : Event) (hx0 : 0 < x.number) (hx : x.number < names.length) :
    ∃ es, (generateEventTable names content ⟨[], []⟩).1 = ⟨es, es⟩ ∧
      generateEventTable names content ⟨[x], [x]⟩ = (⟨[x], x :: es.take x.number⟩, some .integrity) ∧
      (commit (generateEventTable names content ⟨[x], [x]⟩).1).saved ≠ [x] := by
  obtain ⟨es, he, hpf, -, hnum, -⟩ := C215_events names content h
  have hlen : es.length = names.length := by
    have := congrArg List.length hnum
    simpa using this
  have key : ∀ (l : List Event) (n : ℕ) (t : List Event), l.map (·.number) = List.range' n l.length → n ≤ x.number →
      x.number < n + l.length → (∀ y ∈ t, y.number < n ∨ y = x) → x ∈ t →
      insertMany l t = (t ++ l.take (x.number - n), false) := by
    intro l
    induction l with
    | nil => intro n t _ h1 h2; simp at h2; omega
    | cons e l ih =>
      intro n t hn h1 h2 ht hxt
      rw [List.length_cons, List.range'_succ, List.map_cons] at hn
      obtain ⟨hen, hn⟩ := List.cons.inj hn
      rw [insertMany]
      by_cases hc : x.number = n
      · have : (t.any fun y => decide (y.number = e.number)) = true :=
          List.any_eq_true.2 ⟨x, hxt, by simp [hc, hen]⟩
        rw [this, if_pos rfl, hc]
        simp
      · have : ¬ (t.any fun y => decide (y.number = e.number)) = true := by
          intro hany
          obtain ⟨y, hy, hye⟩ := List.any_eq_true.1 hany
          have hye : y.number = e.number := by simpa using hye
          rcases ht y hy with h' | rfl
          · omega
          · exact hc (by omega)
        rw [if_neg this, ih (n + 1) (t ++ [e]) hn (by omega) (by simp at h2; omega) ?_ (by simp [hxt])]
        · obtain ⟨d, hd⟩ : ∃ d, x.number - n = d + 1 := ⟨x.number - n - 1, by omega⟩
          rw [hd, show x.number - (n + 1) = d by omega]
          simp
        · intro y hy
          rcases List.mem_append.1 hy with hy | hy
          · rcases ht y hy with h' | h'
            · exact Or.inl (by omega)
            · exact Or.inr h'
          · rw [List.mem_singleton.1 hy]; exact Or.inl (by omega)
  have hrec : eventRecords content 0 (names.insertionSort fun a b => a ≤ b) = .ok es := by
    obtain ⟨es', he'⟩ := (eventRecords_iff (n := 0)).2 fun f hf => h f ((sorted_perm names).mem_iff.1 hf)
    obtain ⟨h1, _, _⟩ := eventRecords_ok he'
    have hn : (es'.map (·.number)).Nodup := by rw [h1]; exact List.nodup_range'
    have : generateEventTable names content ⟨[], []⟩ = (⟨es', es'⟩, none) := by
      simp [generateEventTable, he', insertMany_ok (es := es') (table := []) (by simp) hn]
    rw [this] at he
    have : es' = es := by
      have := congrArg (fun r : Session × Option TableErr => r.1.saved) he
      simpa using this
    rw [he', this]
  have hrun : generateEventTable names content ⟨[x], [x]⟩ = (⟨[x], x :: es.take x.number⟩, some .integrity) := by
    have := key es 0 [x] (by rw [hnum, hlen, List.range_eq_range']) (by omega) (by omega) (by simp) (by simp)
    simp [generateEventTable, hrec, this]
  refine ⟨es, by rw [he], hrun, ?_⟩
  rw [hrun]
  intro hc
  have := congrArg List.length hc
  simp only [commit, List.length_cons, List.length_take, List.length_nil] at this
  omega

/-- C215: the listing of the events has every file of the folder once, ordered by the maximum wind. -/
theorem C215_listing (names : List Name) (content : Name → Option Field) (h : ∀ f ∈ names, Recordable content f)
    (res : List Event) (hr : selectEvents (generateEventTable names content ⟨[], []⟩).1 res) :
    (res.map (·.file)).Perm names ∧ (∀ e ∈ res, FromFile content e) ∧
      res.Pairwise fun a b => before a.maxWind b.maxWind := by
  obtain ⟨es, he, hf, -, -, hfrom⟩ := C215_events names content h
  rw [he] at hr
  exact ⟨(hr.1.map _).trans hf, fun e h' => hfrom e (hr.1.mem_iff.1 h'), hr.2⟩

/-! ### Cases -/

def exField (w : ℚ) : Field := ⟨[150], [-20], fun _ _ => some w, fun _ _ => some 0, fun _ _ => some w, some w, some 950⟩

def exNames : List Name := ["gust.002-00001.nc".toList, "gust.001-00001.nc".toList]

def exContent (f : Name) : Option Field :=
  if f = "gust.001-00001.nc".toList then some (exField 40)
  else if f = "gust.002-00001.nc".toList then some (exField 30) else none

example : ∀ f ∈ exNames, Recordable exContent f := by
  intro f hf
  simp only [exNames, List.mem_cons, List.not_mem_nil, or_false] at hf
  rcases hf with rfl | rfl
  · exact ⟨⟨"002-00001".toList, by decide +kernel⟩, _, rfl⟩
  · exact ⟨⟨"001-00001".toList, by decide +kernel⟩, _, rfl⟩

example : (generateEventTable exNames exContent ⟨[], []⟩).1.saved =
    [⟨0, "001-00001".toList, "gust.001-00001.nc".toList, some 40, some 950⟩,
     ⟨1, "002-00001".toList, "gust.002-00001.nc".toList, some 30, some 950⟩] := by decide +kernel

example : (generateEventTable ("local_wind.tif".toList :: exNames) exContent ⟨[], []⟩) =
    (⟨[], []⟩, some (.file .valueError)) := by decide +kernel

-- `C215_leftover_fails`: the event with number 1 is there
example : (generateEventTable exNames exContent ⟨[⟨1, [], [], none, none⟩], [⟨1, [], [], none, none⟩]⟩).1.working.length = 2 := by
  decide +kernel

-- `C215_again_fails`
example : (generateEventTable exNames exContent (generateEventTable exNames exContent ⟨[], []⟩).1).2 = some .integrity := by
  decide +kernel

end Tcrm.Database
