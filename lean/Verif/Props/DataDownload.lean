import Verif.Spec.DataDownload
import Verif.Props.Datasets
import Verif.Props.Config
/-!
C207: the download stage fetches the datasets listed in the configuration.
-/
namespace Tcrm.DataDownload
open Tcrm.Datasets

variable {B : Type} (tools : Tools B)

theorem join_eq (c : Char) : ∀ l : List Name, Config.join c l = List.intercalate [c] l
  | [] => rfl
  | [w] => by simp [Config.join, List.intercalate]
  | w :: w' :: ws => by
    have := join_eq c (w' :: ws)
    simp only [Config.join, this]
    simp [List.intercalate]

theorem split_lists {text : Name} {names : List Name} (h : Spec.Lists text names) : Config.split ',' text = names := by
  rw [h.2.2, ← join_eq]
  exact Config.split_join h.1 h.2.1

seal Datasets.make in
theorem entry_eq_some {get : Settings} {n : Name} {e : Entry} : entry get n = some e ↔
    ∃ url path, Spec.Described get n url path ∧ e = ⟨url, make url path (get n "filename".toList)⟩ := by
  unfold entry Spec.Described
  cases h : get n "URL".toList with
  | none => simp
  | some url =>
    cases h' : get n "path".toList with
    | none => simp
    | some path =>
      simp only [Option.some.injEq]
      constructor
      · rintro rfl; exact ⟨url, path, ⟨rfl, rfl⟩, rfl⟩
      · rintro ⟨url', path', ⟨rfl, rfl⟩, rfl⟩; rfl

theorem entry_eq_none {get : Settings} {n : Name} : entry get n = none ↔ ∀ url path, ¬ Spec.Described get n url path := by
  constructor
  · intro h url path hd
    have := entry_eq_some.2 ⟨url, path, hd, rfl⟩
    rw [h] at this; cases this
  · intro h
    cases e : entry get n with
    | none => rfl
    | some x =>
      obtain ⟨url, path, hd, -⟩ := entry_eq_some.1 e
      exact absurd hd (h url path)

theorem register_spec (get : Settings) : ∀ (names : List Name) (known : List Entry),
    ((register get names known).2 = .done ↔ ∀ n ∈ names, ∃ url path, Spec.Described get n url path) ∧
    ((register get names known).2 = .done → ∃ es, (register get names known).1 = known ++ es ∧
      es.map some = names.map (entry get))
  | [], known => by simp [register]
  | n :: rest, known => by
    unfold register
    cases h : entry get n with
    | none =>
      have := entry_eq_none.1 h
      simp only [List.mem_cons, forall_eq_or_imp, reduceCtorEq, false_iff, not_and, false_implies, and_true]
      rintro ⟨url, path, hd⟩
      exact absurd hd (this url path)
    | some e =>
      obtain ⟨url, path, hd, -⟩ := entry_eq_some.1 h
      obtain ⟨h1, h2⟩ := register_spec get rest (known ++ [e])
      refine ⟨?_, fun hdone => ?_⟩
      · simp only [h1, List.mem_cons, forall_eq_or_imp]
        exact ⟨fun x => ⟨⟨url, path, hd⟩, x⟩, fun x => x.2⟩
      · obtain ⟨es, e1, e2⟩ := h2 hdone
        exact ⟨e :: es, by simp only [e1, List.append_assoc, List.singleton_append], by simp [e2, h]⟩

/-- The disk at the end of one download -/
theorem download_last (s : DataSet) (r : Option (List B)) (d : Disk B) :
    (∀ f, f ≠ s.file → ((download tools s r d).1.getLastD d) f = d f) ∧
    ((download tools s r d).2 = .done → ((download tools s r d).1.getLastD d) s.file ≠ none ∧
      (d s.file = none → ∃ sent data, r = some sent ∧ Unpacks tools s.compression sent data ∧
        ((download tools s r d).1.getLastD d) s.file = some data)) ∧
    (∀ c, d s.file = some c → download tools s r d = ([d], .done)) := by
  refine ⟨fun f hf => ?_, fun hdone => ?_, fun c hc => download_present tools s r hc⟩
  · have key : ∀ x ∈ (download tools s r d).1, x f = d f := by
      intro x hx
      unfold download at hx
      split at hx
      · rw [List.mem_singleton] at hx; rw [hx]
      · split at hx
        · rw [List.mem_singleton] at hx; rw [hx]
        · split at hx
          · rw [List.mem_singleton] at hx; rw [hx]
          · split at hx
            · simp only [List.mem_cons, List.not_mem_nil, or_false] at hx
              rcases hx with rfl | rfl
              · rfl
              · rw [Function.update_of_ne hf]
            · simp only [List.mem_cons, List.mem_map] at hx
              rcases hx with rfl | ⟨p, -, rfl⟩
              · rfl
              · rw [Function.update_of_ne hf]
    rcases List.eq_nil_or_concat (download tools s r d).1 with h | ⟨l', x, h⟩
    · rw [h]; rfl
    · rw [h, List.concat_eq_append, List.getLastD_concat]
      exact key x (by rw [h]; simp)
  · cases hd : d s.file with
    | some c =>
      rw [download_present tools s r hd]
      exact ⟨by simp [hd], by simp⟩
    | none =>
      cases r with
      | none => simp [download, hd] at hdone
      | some sent =>
        cases hz : content tools s.compression sent with
        | none =>
          exfalso
          revert hdone
          unfold download
          rw [hd]
          simp only [Option.isSome_none, Bool.false_eq_true, if_false, hz]
          split <;> simp
        | some c =>
          rw [download_absent tools s hz hd]
          have hl := inits_getLast d s.file d c
          refine ⟨by rw [hl]; simp, fun _ => ⟨sent, c, rfl, ?_, hl⟩⟩
          cases hcomp : s.compression with
          | plain => rw [hcomp] at hz; simp only [content, Option.some.injEq] at hz; exact hz.symm
          | gz => rw [hcomp] at hz; exact hz
          | zip => rw [hcomp] at hz; simp [content] at hz

theorem checkAll_spec : ∀ (l : List (DataSet × Option (List B))) (d : Disk B),
    (∀ f, (∀ x ∈ l, x.1.file ≠ f) → (checkAll tools l d).1 f = d f) ∧
    (∀ f c, d f = some c → (checkAll tools l d).1 f = some c) ∧
    ((checkAll tools l d).2 = .done → ∀ x ∈ l, (checkAll tools l d).1 x.1.file ≠ none ∧
      (d x.1.file = none → ∃ y ∈ l, y.1.file = x.1.file ∧ ∃ sent data, y.2 = some sent ∧
        Unpacks tools y.1.compression sent data ∧ (checkAll tools l d).1 x.1.file = some data))
  | [], d => by simp [checkAll]
  | (s, r) :: rest, d => by
    obtain ⟨k1, k2, k3⟩ := download_last tools s r d
    have keep : ∀ f c, d f = some c → ((download tools s r d).1.getLastD d) f = some c := by
      intro f c hc
      by_cases e : f = s.file
      · subst e; rw [k3 c hc]; simpa using hc
      · rw [k1 f e, hc]
    unfold checkAll
    rcases hx : download tools s r d with ⟨states, o⟩
    rw [hx] at k1 k2 keep
    cases o with
    | raised =>
      refine ⟨fun f hf => k1 f (fun e => hf (s, r) List.mem_cons_self e.symm), fun f c hc => keep f c hc, by simp⟩
    | done =>
      obtain ⟨i1, i2, i3⟩ := checkAll_spec rest (states.getLastD d)
      obtain ⟨k2, k2'⟩ := k2 rfl
      refine ⟨fun f hf => ?_, fun f c hc => i2 f c (keep f c hc), fun hdone x hxm => ?_⟩
      · simp only
        rw [i1 f fun x hx => hf x (List.mem_cons_of_mem _ hx)]
        exact k1 f (fun e => hf (s, r) List.mem_cons_self e.symm)
      · rcases hv : (states.getLastD d) x.1.file with _ | c
        · rcases List.mem_cons.1 hxm with rfl | hxr
          · exact absurd hv k2
          · obtain ⟨a, b⟩ := i3 hdone x hxr
            refine ⟨a, fun _ => ?_⟩
            obtain ⟨y, hy, h⟩ := b hv
            exact ⟨y, List.mem_cons_of_mem _ hy, h⟩
        · have e := i2 _ _ hv
          refine ⟨by rw [e]; simp, fun hn => ?_⟩
          have hf : x.1.file = s.file := by
            by_contra hne
            rw [k1 _ hne, hn] at hv; cases hv
          rw [hf] at hn hv
          obtain ⟨sent, data, h1, h2, h3⟩ := k2' hn
          refine ⟨(s, r), List.mem_cons_self, hf.symm, sent, data, h1, h2, ?_⟩
          rw [hf] at e ⊢
          simp only at h3
          rw [hv] at h3
          rw [e]; exact h3

theorem checkAll_present : ∀ (l : List (DataSet × Option (List B))) (d : Disk B), (∀ x ∈ l, d x.1.file ≠ none) →
    checkAll tools l d = (d, .done)
  | [], _, _ => rfl
  | (s, r) :: rest, d, h => by
    obtain ⟨c, hc⟩ := Option.ne_none_iff_exists'.1 (h (s, r) List.mem_cons_self)
    unfold checkAll
    rw [download_present tools s r hc]
    exact checkAll_present rest d fun x hx => h x (List.mem_cons_of_mem _ hx)

theorem load_lists {get : Settings} {text : Name} {names : List Name} (ht : get "Input".toList "Datasets".toList = some text)
    (hn : Spec.Lists text names) (known : List Entry) : loadDatasets get known = register get names known := by
  unfold loadDatasets; rw [ht]; simp only; rw [split_lists hn]

theorem mem_entries {get : Settings} {names : List Name} {es : List Entry} (h : es.map some = names.map (entry get)) :
    (∀ e ∈ es, ∃ n ∈ names, ∃ url path, Spec.Described get n url path ∧ e = ⟨url, make url path (get n "filename".toList)⟩) ∧
    ∀ n ∈ names, ∀ url path, Spec.Described get n url path → (⟨url, make url path (get n "filename".toList)⟩ : Entry) ∈ es := by
  constructor
  · intro e he
    have : some e ∈ names.map (entry get) := by rw [← h]; exact List.mem_map_of_mem he
    obtain ⟨n, hn, e'⟩ := List.mem_map.1 this
    obtain ⟨url, path, hd⟩ := entry_eq_some.1 e'
    exact ⟨n, hn, url, path, hd⟩
  · intro n hn url path hd
    have : some (⟨url, make url path (get n "filename".toList)⟩ : Entry) ∈ es.map some := by
      rw [h]
      exact List.mem_map.2 ⟨n, hn, entry_eq_some.2 ⟨url, path, hd, rfl⟩⟩
    simpa using this

/-- What the download stage of a run does to the disk, names being listed with nothing but commas between them: if it succeeds, every
listed dataset is there, and one that was not there before is what the server sent for a listed dataset of that place, unpacked; no
file that was there is changed, and no file that is not the place of a listed dataset comes to be, even if it fails. -/
theorem C207_fetched_partial (get : Settings) (server : Name → Option (List B)) (text : Name) (names : List Name)
    (ht : get "Input".toList "Datasets".toList = some text) (hn : Spec.Lists text names) (d : Disk B) :
    ((doDataDownload tools get server [] d).2.2 = .done →
      ∀ n ∈ names, ∃ url path, Spec.Described get n url path ∧
        (doDataDownload tools get server [] d).2.1 (Spec.place get n url path) ≠ none ∧
        (d (Spec.place get n url path) = none → ∃ n' ∈ names, ∃ url' path', Spec.Described get n' url' path' ∧
          Spec.place get n' url' path' = Spec.place get n url path ∧ ∃ sent data, server url' = some sent ∧
          Spec.Holds tools get n' url' path' sent data ∧
          (doDataDownload tools get server [] d).2.1 (Spec.place get n url path) = some data)) ∧
    (∀ f c, d f = some c → (doDataDownload tools get server [] d).2.1 f = some c) ∧
    (∀ f, (∀ n ∈ names, ∀ url path, Spec.Described get n url path → Spec.place get n url path ≠ f) →
      (doDataDownload tools get server [] d).2.1 f = d f) := by
  obtain ⟨r1, r2⟩ := register_spec get names []
  unfold doDataDownload
  rw [load_lists ht hn]
  rcases hr : register get names [] with ⟨known, o⟩
  rw [hr] at r1 r2
  cases o with
  | raised => simp
  | done =>
    obtain ⟨es, e1, e2⟩ := r2 rfl
    rw [List.nil_append] at e1
    simp only at e1
    subst e1
    obtain ⟨m1, m2⟩ := mem_entries e2
    obtain ⟨c1, c2, c3⟩ := checkAll_spec tools (known.map fun e => (e.dataset, server e.url)) d
    refine ⟨fun hdone n hnm => ?_, c2, fun f hf => c1 f ?_⟩
    · obtain ⟨url, path, hd⟩ := r1.1 rfl n hnm
      obtain ⟨a, b⟩ := c3 hdone _ (List.mem_map_of_mem (m2 n hnm url path hd))
      refine ⟨url, path, hd, a, fun hnone => ?_⟩
      obtain ⟨y, hy, hyf, sent, data, h1, h2, h3⟩ := b hnone
      obtain ⟨e, he, rfl⟩ := List.mem_map.1 hy
      obtain ⟨n', hn', url', path', hd', rfl⟩ := m1 e he
      exact ⟨n', hn', url', path', hd', hyf, sent, data, h1, h2, h3⟩
    · intro x hx
      obtain ⟨e, he, rfl⟩ := List.mem_map.1 hx
      obtain ⟨n, hnm, url, path, hd, rfl⟩ := m1 e he
      exact hf n hnm url path hd

/-- If a listed name has no section with an address and a directory, the stage fails and nothing is fetched, not even the datasets
listed before it. -/
theorem C207_unknown (get : Settings) (server : Name → Option (List B)) (text : Name) (names : List Name)
    (ht : get "Input".toList "Datasets".toList = some text) (hn : Spec.Lists text names)
    (h : ∃ n ∈ names, ∀ url path, ¬ Spec.Described get n url path) (known : List Entry) (d : Disk B) :
    (doDataDownload tools get server known d).2 = (d, .raised) := by
  obtain ⟨r1, -⟩ := register_spec get names known
  unfold doDataDownload
  rw [load_lists ht hn]
  rcases hr : register get names known with ⟨known', o⟩
  rw [hr] at r1
  cases o with
  | raised => rfl
  | done =>
    obtain ⟨n, hnm, hno⟩ := h
    obtain ⟨url, path, hd⟩ := r1.1 rfl n hnm
    exact absurd hd (hno url path)

/-- If all listed names have such sections and the server sends all of every dataset, none of them zipped, the stage succeeds. -/
theorem C207_succeeds (get : Settings) (server : Name → Option (List B)) (text : Name) (names : List Name)
    (ht : get "Input".toList "Datasets".toList = some text) (hn : Spec.Lists text names)
    (h : ∀ n ∈ names, ∃ url path sent data, Spec.Described get n url path ∧ server url = some sent ∧
      Spec.Holds tools get n url path sent data) (d : Disk B) :
    (doDataDownload tools get server [] d).2.2 = .done := by
  obtain ⟨r1, r2⟩ := register_spec get names []
  unfold doDataDownload
  rw [load_lists ht hn]
  rcases hr : register get names [] with ⟨known, o⟩
  rw [hr] at r1 r2
  cases o with
  | raised =>
    have := r1.2 fun n hnm => by
      obtain ⟨url, path, -, -, hd, -⟩ := h n hnm
      exact ⟨url, path, hd⟩
    cases this
  | done =>
    obtain ⟨es, e1, e2⟩ := r2 rfl
    rw [List.nil_append] at e1
    simp only at e1
    subst e1
    obtain ⟨m1, -⟩ := mem_entries e2
    have good : ∀ x ∈ known.map (fun e => (e.dataset, server e.url)), ∃ sent data, x.2 = some sent ∧
        Unpacks tools x.1.compression sent data := by
      intro x hx
      obtain ⟨e, he, rfl⟩ := List.mem_map.1 hx
      obtain ⟨n, hnm, url, path, hd, rfl⟩ := m1 e he
      obtain ⟨url', path', sent, data, hd', hs, hu⟩ := h n hnm
      have eu : url' = url := Option.some.inj (hd'.1.symm.trans hd.1)
      have ep : path' = path := Option.some.inj (hd'.2.symm.trans hd.2)
      subst eu ep
      exact ⟨sent, data, hs, hu⟩
    simp only
    generalize known.map (fun e => (e.dataset, server e.url)) = l at good
    clear e2 hr r1 r2 m1
    induction l generalizing d with
    | nil => rfl
    | cons x l ih =>
      obtain ⟨s, r⟩ := x
      obtain ⟨sent, data, hs, hu⟩ := good _ List.mem_cons_self
      simp only at hs hu
      subst hs
      unfold checkAll
      have hdone : (download tools s (some sent) d).2 = .done := by
        cases hd : d s.file with
        | some c => rw [download_present tools s _ hd]
        | none => rw [download_absent tools s (content_of_unpacks tools hu) hd]
      rcases hx : download tools s (some sent) d with ⟨states, o⟩
      rw [hx] at hdone
      simp only at hdone
      subst hdone
      exact ih (states.getLastD d) fun x hx => good x (List.mem_cons_of_mem _ hx)

/-- A second run in the same process, whose list of datasets has then every dataset twice, succeeds without the server and changes
nothing. -/
theorem C207_again (get : Settings) (server server' : Name → Option (List B)) (known : List Entry) (d : Disk B)
    (h : (doDataDownload tools get server known d).2.2 = .done) :
    (doDataDownload tools get server' (doDataDownload tools get server known d).1
      (doDataDownload tools get server known d).2.1).2 = ((doDataDownload tools get server known d).2.1, .done) := by
  cases ht : get "Input".toList "Datasets".toList with
  | none =>
    unfold doDataDownload loadDatasets at h
    rw [ht] at h
    cases h
  | some text =>
    have hload : ∀ k, loadDatasets get k = register get (Config.split ',' text) k := by
      intro k; unfold loadDatasets; rw [ht]
    obtain ⟨r1, r2⟩ := register_spec get (Config.split ',' text) known
    have hreg : (register get (Config.split ',' text) known).2 = .done := by
      rcases hr : register get (Config.split ',' text) known with ⟨known', o⟩
      cases o with
      | raised => simp [doDataDownload, hload, hr] at h
      | done => rfl
    obtain ⟨es, e1, e2⟩ := r2 hreg
    have hr : register get (Config.split ',' text) known = (known ++ es, .done) := Prod.ext e1 hreg
    obtain ⟨r1', r2'⟩ := register_spec get (Config.split ',' text) (known ++ es)
    have hreg' := r1'.2 (r1.1 hreg)
    obtain ⟨es', e1', e2'⟩ := r2' hreg'
    have hes : es' = es := List.map_injective_iff.2 (Option.some_injective _) (e2'.trans e2.symm)
    subst hes
    have hr' : register get (Config.split ',' text) (known ++ es') = (known ++ es' ++ es', .done) := Prod.ext e1' hreg'
    have first : doDataDownload tools get server known d =
        (known ++ es', checkAll tools ((known ++ es').map fun e => (e.dataset, server e.url)) d) := by
      unfold doDataDownload; rw [hload, hr]
    rw [first] at h ⊢
    simp only at h ⊢
    have second : ∀ D, doDataDownload tools get server' (known ++ es') D =
        (known ++ es' ++ es', checkAll tools ((known ++ es' ++ es').map fun e => (e.dataset, server' e.url)) D) := by
      intro D; unfold doDataDownload; rw [hload, hr']
    rw [second]
    simp only
    refine checkAll_present tools _ _ fun x hx => ?_
    obtain ⟨e, he, rfl⟩ := List.mem_map.1 hx
    have he' : e ∈ known ++ es' := by
      rcases List.mem_append.1 he with h | h
      · exact h
      · exact List.mem_append_right _ h
    exact ((checkAll_spec tools _ d).2.2 h (e.dataset, server e.url) (List.mem_map_of_mem he')).1

/-- A blank after the comma: the datasets of two sections that are there, with a server that sends everything, are not fetched. -/
theorem C207_blank_fails (a b urlA pathA urlB pathB : Name) (ha : ',' ∉ a) (hb : ',' ∉ b) (get : Settings)
    (ht : get "Input".toList "Datasets".toList = some (a ++ ", ".toList ++ b))
    (_hA : Spec.Described get a urlA pathA) (_hB : Spec.Described get b urlB pathB)
    (hno : ∀ o, get (' ' :: b) o = none) (server : Name → Option (List B)) (d : Disk B) :
    (doDataDownload tools get server [] d).2 = (d, .raised) := by
  refine C207_unknown tools get server _ [a, ' ' :: b] ht ⟨by simp, ?_, by simp [List.intercalate]⟩ ⟨' ' :: b, by simp, ?_⟩ [] d
  · intro n hn
    simp only [List.mem_cons, List.not_mem_nil, or_false] at hn
    rcases hn with rfl | rfl
    · exact ha
    · simpa using hb
  · intro url path h
    have := h.1
    rw [hno] at this; cases this

/-! ### Examples -/

/-- Two datasets -/
def settings (list : String) : Settings := fun s o =>
  if s = "Input".toList ∧ o = "Datasets".toList then some list.toList
  else if s = "IBTRACS".toList then
    (if o = "URL".toList then some "ftp://h/a.csv.gz".toList else if o = "path".toList then some "input".toList else none)
  else if s = "LTMSLP".toList then
    (if o = "URL".toList then some "ftp://h/slp.1981.nc".toList else if o = "path".toList then some "MSLP".toList
     else if o = "filename".toList then some "slp.nc".toList else none)
  else none

def exTools : Tools ℕ := ⟨fun s => some (s ++ s), fun _ => true⟩

example : Spec.Lists "IBTRACS,LTMSLP".toList ["IBTRACS".toList, "LTMSLP".toList] := by
  unfold Spec.Lists; decide +kernel

-- The hypotheses of `C207_succeeds`
example : ∀ n ∈ ["IBTRACS".toList, "LTMSLP".toList], ∃ url path sent data, Spec.Described (settings "IBTRACS,LTMSLP") n url path ∧
    (fun _ => some [1]) url = some sent ∧ Spec.Holds exTools (settings "IBTRACS,LTMSLP") n url path sent data := by
  intro n hn
  simp only [List.mem_cons, List.not_mem_nil, or_false] at hn
  rcases hn with rfl | rfl
  · exact ⟨"ftp://h/a.csv.gz".toList, "input".toList, [1], [1, 1], by unfold Spec.Described; decide +kernel, rfl, by
      have : (make "ftp://h/a.csv.gz".toList "input".toList (settings "IBTRACS,LTMSLP" "IBTRACS".toList "filename".toList)).compression = .gz := by
        decide +kernel
      unfold Spec.Holds; rw [this]; rfl⟩
  · exact ⟨"ftp://h/slp.1981.nc".toList, "MSLP".toList, [1], [1], by unfold Spec.Described; decide +kernel, rfl, by
      have : (make "ftp://h/slp.1981.nc".toList "MSLP".toList (settings "IBTRACS,LTMSLP" "LTMSLP".toList "filename".toList)).compression = .plain := by
        decide +kernel
      unfold Spec.Holds; rw [this]; rfl⟩

example : let r := doDataDownload exTools (settings "IBTRACS,LTMSLP") (fun _ => some [1]) [] (fun _ => none)
    r.2.2 = .done ∧ r.2.1 ("input".toList, "a.csv".toList) = some [1, 1] ∧ r.2.1 ("MSLP".toList, "slp.nc".toList) = some [1] ∧
    r.2.1 ("input".toList, "a.csv.gz".toList) = none ∧ r.1.length = 2 := by decide +kernel

-- The hypotheses of `C207_blank_fails`
example : ',' ∉ "IBTRACS".toList ∧ ',' ∉ "LTMSLP".toList ∧
    settings "IBTRACS, LTMSLP" "Input".toList "Datasets".toList = some ("IBTRACS".toList ++ ", ".toList ++ "LTMSLP".toList) := by
  decide +kernel

example : ∀ o, settings "IBTRACS, LTMSLP" (' ' :: "LTMSLP".toList) o = none := by
  intro o
  have h1 : ' ' :: "LTMSLP".toList ≠ "Input".toList := by decide
  have h2 : ' ' :: "LTMSLP".toList ≠ "IBTRACS".toList := by decide
  have h3 : ' ' :: "LTMSLP".toList ≠ "LTMSLP".toList := by decide
  unfold settings
  rw [if_neg (fun h => h1 h.1), if_neg h2, if_neg h3]

-- A name without section, listed second: the first is not fetched either.
example : let r := doDataDownload exTools (settings "IBTRACS,MSLP") (fun _ => some [1]) [] (fun _ => none)
    r.2.2 = .raised ∧ r.2.1 ("input".toList, "a.csv".toList) = none := by decide +kernel

end Tcrm.DataDownload
