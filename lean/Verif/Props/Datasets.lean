import Verif.Spec.Datasets
/-!
C141: a dataset reported as downloaded is there and complete.
-/
namespace Tcrm.Datasets

variable {B : Type} (tools : Tools B)

theorem download_present (s : DataSet) (r : Option (List B)) {d : Disk B} {c : List B} (h : d s.file = some c) :
    download tools s r d = ([d], .done) := by
  unfold download; rw [h]; rfl

theorem after_present (s : DataSet) {d : Disk B} {c : List B} (h : d s.file = some c) (a : Attempt B) :
    after tools s d a = d := by
  unfold after
  simp only [download_present tools s a.response h]
  cases a.stop <;> simp

/-- A file that is there is never changed, in any history of attempts of any datasets. -/
theorem C141_never_changed : ∀ (history : List (DataSet × Attempt B)) (d : Disk B) (file : Name × Name) (c : List B),
    d file = some c → (history.foldl (fun d x => after tools x.1 d x.2) d) file = some c
  | [], _, _, _, h => h
  | (s, a) :: rest, d, file, c, h => by
    rw [List.foldl_cons]
    apply C141_never_changed rest
    by_cases e : s.file = file
    · subst e
      rw [after_present tools s h a]; exact h
    · have key : ∀ x ∈ (download tools s a.response d).1, x file = some c := by
        intro x hx
        unfold download at hx
        split at hx
        · rw [List.mem_singleton] at hx; rw [hx]; exact h
        · split at hx
          · rw [List.mem_singleton] at hx; rw [hx]; exact h
          · split at hx
            · rw [List.mem_singleton] at hx; rw [hx]; exact h
            · split at hx
              · simp only [List.mem_cons, List.not_mem_nil, or_false] at hx
                rcases hx with rfl | rfl
                · exact h
                · rw [Function.update_of_ne (Ne.symm e)]; exact h
              · simp only [List.mem_cons, List.mem_map] at hx
                rcases hx with rfl | ⟨p, -, rfl⟩
                · exact h
                · rw [Function.update_of_ne (Ne.symm e)]; exact h
      have last : ∀ l : List (Disk B), (∀ x ∈ l, x file = some c) → (l.getLastD d) file = some c := by
        intro l hl
        rcases List.eq_nil_or_concat l with rfl | ⟨l', x, rfl⟩
        · exact h
        · simp only [List.concat_eq_append, List.getLastD_concat]
          exact hl x (by simp)
      unfold after
      cases a.stop with
      | none => exact last _ key
      | some k => exact last _ fun x hx => key x (List.mem_of_mem_take hx)

/-- A dataset that can be unpacked is written byte by byte. -/
theorem download_absent (s : DataSet) {received c : List B} (hc : content tools s.compression received = some c)
    {d : Disk B} (hd : d s.file = none) :
    download tools s (some received) d = (d :: c.inits.map fun p => Function.update d s.file (some p), .done) := by
  have hz : s.compression ≠ .zip := by
    intro e; rw [e] at hc; exact absurd hc (by simp [content])
  unfold download
  rw [hd]
  simp [hz, hc]

theorem inits_getLast (d : Disk B) (f : Name × Name) (x : Disk B) (c : List B) :
    ((x :: c.inits.map fun p => Function.update d f (some p)).getLastD d) f = some c := by
  have : c.inits = c.inits.dropLast ++ [c] := by
    induction c with
    | nil => rfl
    | cons a c ih =>
      rw [List.inits_cons, List.dropLast_cons_of_ne_nil (by cases c <;> simp), List.cons_append]
      congr 1
      conv_lhs => rw [ih]
      simp [List.map_dropLast]
  rw [this, List.map_append, ← List.cons_append, List.map_singleton, List.getLastD_concat]
  simp

theorem content_of_unpacks {c : Compression} {sent data : List B} (h : Unpacks tools c sent data) :
    content tools c sent = some data := by
  cases c with
  | plain => exact congrArg some (Eq.symm h)
  | gz => exact h
  | zip => exact h.elim

/-- Attempts at a dataset that is not zipped, not stopped while writing, in which the server cannot be reached or sends all of it: the
file is absent as long as the server cannot be reached, and afterwards it is the dataset. -/
theorem C141_complete_partial (s : DataSet) (whole c : List B) (hc' : Unpacks tools s.compression whole c)
    (history : List (Attempt B)) (hh : ∀ a ∈ history, a.stop = none ∧ (a.response = none ∨ a.response = some whole))
    (d : Disk B) (hd : d s.file = none) :
    (run tools s d history) s.file = if (∃ a ∈ history, a.response ≠ none) then some c else none := by
  have hc := content_of_unpacks tools hc'
  induction history generalizing d with
  | nil => simpa [run] using hd
  | cons a rest ih =>
    obtain ⟨h1, h2⟩ := hh a List.mem_cons_self
    have hrest := fun x hx => hh x (List.mem_cons_of_mem _ hx)
    rcases h2 with h2 | h2
    · have e : after tools s d a = d := by
        unfold after download
        rw [h1, h2, hd]; simp
      have := ih hrest d hd
      unfold run at this ⊢
      rw [List.foldl_cons, e, this]
      simp [h2]
    · have e : (after tools s d a) s.file = some c := by
        unfold after
        rw [h1, h2, download_absent tools s hc hd]
        exact inits_getLast d s.file d c
      have hk := C141_never_changed tools (rest.map fun a => (s, a)) _ _ _ e
      rw [List.foldl_map] at hk
      unfold run
      rw [List.foldl_cons, hk, if_pos ⟨a, List.mem_cons_self, by simp [h2]⟩]

/-- A transfer that breaks off leaves a part of the dataset, and every later call reports success without fetching the rest. -/
theorem C141_broken_transfer_fails (s : DataSet) (hs : s.compression = .plain) (received : List B) (d : Disk B)
    (hd : d s.file = none) :
    (download tools s (some received) d).2 = .done ∧
    ∀ later : List (Attempt B), (run tools s d (⟨some received, none⟩ :: later)) s.file = some received ∧
      ∀ r, download tools s r (run tools s d (⟨some received, none⟩ :: later)) =
        ([run tools s d (⟨some received, none⟩ :: later)], .done) := by
  have hc : content tools s.compression received = some received := by rw [hs]; rfl
  have e : (after tools s d ⟨some received, none⟩) s.file = some received := by
    unfold after
    rw [download_absent tools s hc hd]
    exact inits_getLast d s.file d received
  refine ⟨?_, fun later => ?_⟩
  · rw [download_absent tools s hc hd]
  · have hk := C141_never_changed tools (later.map fun a => (s, a)) _ _ _ e
    rw [List.foldl_map] at hk
    have hk' : (run tools s d (⟨some received, none⟩ :: later)) s.file = some received := by
      unfold run; rw [List.foldl_cons]; exact hk
    exact ⟨hk', fun r => download_present tools s r hk'⟩

/-- A program stopped while writing leaves any part of the dataset, which every later call keeps and reports as downloaded. -/
theorem C141_interrupted_fails (s : DataSet) (whole c : List B) (hc' : Unpacks tools s.compression whole c)
    (d : Disk B) (hd : d s.file = none) (k : ℕ) (hk : k ≤ c.length) :
    ∃ stop, ∀ later : List (Attempt B), (run tools s d (⟨some whole, some stop⟩ :: later)) s.file = some (c.take k) ∧
      ∀ r, (download tools s r (run tools s d (⟨some whole, some stop⟩ :: later))).2 = .done := by
  have hc := content_of_unpacks tools hc'
  refine ⟨k + 1, fun later => ?_⟩
  have e : (after tools s d ⟨some whole, some (k + 1)⟩) s.file = some (c.take k) := by
    unfold after
    rw [download_absent tools s hc hd]
    simp only
    have hl : k < (c.inits).length := by simp; omega
    have : (d :: c.inits.map fun p => Function.update d s.file (some p)).take (k + 1 + 1) =
        (d :: (c.inits.map fun p => Function.update d s.file (some p)).take k) ++ [Function.update d s.file (some (c.take k))] := by
      rw [List.take_succ_cons, List.cons_append]
      congr 1
      rw [List.take_succ_eq_append_getElem (by simpa using hl)]
      simp
    rw [this, List.getLastD_concat]
    simp
  have hk' := C141_never_changed tools (later.map fun a => (s, a)) _ _ _ e
  rw [List.foldl_map] at hk'
  have hk2 : (run tools s d (⟨some whole, some (k + 1)⟩ :: later)) s.file = some (c.take k) := by
    unfold run; rw [List.foldl_cons]; exact hk'
  exact ⟨hk2, fun r => by rw [download_present tools s r hk2]⟩

/-- A zipped dataset is never unpacked: the first call raises and leaves an empty file, all later calls report success. -/
theorem C141_zip_fails (s : DataSet) (hs : s.compression = .zip) (received : List B) (hz : tools.isZip received = true) (d : Disk B) (hd : d s.file = none) :
    (download tools s (some received) d).2 = .raised ∧
    ∀ later : List (Attempt B), (run tools s d (⟨some received, none⟩ :: later)) s.file = some [] ∧
      ∀ r, (download tools s r (run tools s d (⟨some received, none⟩ :: later))).2 = .done := by
  have hc : content tools s.compression received = none := by rw [hs]; rfl
  have e : (after tools s d ⟨some received, none⟩) s.file = some [] := by
    unfold after download
    rw [hd]
    simp [hc, hz]
  refine ⟨?_, fun later => ?_⟩
  · unfold download
    rw [hd]
    simp [hc, hz]
  · have hk := C141_never_changed tools (later.map fun a => (s, a)) _ _ _ e
    rw [List.foldl_map] at hk
    have hk2 : (run tools s d (⟨some received, none⟩ :: later)) s.file = some [] := by
      unfold run; rw [List.foldl_cons]; exact hk
    exact ⟨hk2, fun r => by rw [download_present tools s r hk2]⟩

/-- Two datasets stored under one name: the second is never fetched, and its name holds the first. -/
theorem C141_same_name_fails (s t : DataSet) (h : s.file = t.file) (a b : List B) (c : List B)
    (hc' : Unpacks tools s.compression a c) (d : Disk B) (hd : d s.file = none) :
    (checkAll tools [(s, some a), (t, some b)] d).2 = .done ∧ (checkAll tools [(s, some a), (t, some b)] d).1 t.file = some c := by
  have hc := content_of_unpacks tools hc'
  have e1 : download tools s (some a) d = (d :: c.inits.map fun p => Function.update d s.file (some p), .done) := by
    exact download_absent tools s hc hd
  have e2 : ((d :: c.inits.map fun p => Function.update d s.file (some p)).getLastD d) t.file = some c := by
    rw [← h]; exact inits_getLast d s.file d c
  unfold checkAll
  rw [e1]
  simp only
  unfold checkAll
  rw [download_present tools t (some b) e2]
  simp only
  unfold checkAll
  exact ⟨rfl, by simpa using e2⟩

theorem download_elsewhere (s : DataSet) (r : Option (List B)) (d : Disk B) {f : Name × Name} (hf : f ≠ s.file) :
    ((download tools s r d).1.getLastD d) f = d f := by
  have key : ∀ x ∈ (download tools s r d).1, x f = d f := by
    intro x hx
    unfold download at hx
    split at hx
    · rw [List.mem_singleton] at hx; rw [hx]
    · split at hx
      · rw [List.mem_singleton] at hx; rw [hx]
      · split at hx
        · rw [List.mem_singleton] at hx; rw [hx]
        · split at hx
          · simp only [List.mem_cons, List.not_mem_nil, or_false] at hx
            rcases hx with rfl | rfl
            · rfl
            · rw [Function.update_of_ne hf]
          · simp only [List.mem_cons, List.mem_map] at hx
            rcases hx with rfl | ⟨p, -, rfl⟩
            · rfl
            · rw [Function.update_of_ne hf]
  rcases List.eq_nil_or_concat (download tools s r d).1 with e | ⟨l', x, e⟩
  · rw [e]; rfl
  · rw [e] at key ⊢
    simp only [List.concat_eq_append, List.getLastD_concat]
    exact key x (by simp)

theorem checkAll_elsewhere : ∀ (items : List (Item B)) (d : Disk B) (f : Name × Name),
    (∀ x ∈ items, f ≠ x.dataset.file) → (checkAll tools (items.map fun x => (x.dataset, x.response)) d).1 f = d f
  | [], _, _, _ => rfl
  | x :: rest, d, f, h => by
    have h1 := download_elsewhere tools x.dataset x.response d (h x List.mem_cons_self)
    rw [List.map_cons]
    unfold checkAll
    split
    · rename_i states e
      rw [e] at h1; exact h1
    · rename_i states e
      rw [e] at h1
      rw [checkAll_elsewhere rest _ f fun y hy => h y (List.mem_cons_of_mem _ hy)]
      exact h1

/-- Downloading all datasets, none of them zipped, into files of their own that are absent or complete, from servers that are
unreachable or send everything: success is reported exactly if every dataset was there or its server could be reached, and then all
are there and complete. If not, every dataset is absent or complete. Other files are left alone. -/
theorem C141_all_partial (items : List (Item B)) (hgood : ∀ x ∈ items, x.Good tools)
    (hfiles : (items.map fun x => x.dataset.file).Nodup) (d : Disk B)
    (hd : ∀ x ∈ items, d x.dataset.file = none ∨ d x.dataset.file = some x.data) :
    ((checkAll tools (items.map fun x => (x.dataset, x.response)) d).2 = .done ↔
      ∀ x ∈ items, d x.dataset.file = some x.data ∨ x.response ≠ none) ∧
    ((checkAll tools (items.map fun x => (x.dataset, x.response)) d).2 = .done →
      ∀ x ∈ items, (checkAll tools (items.map fun x => (x.dataset, x.response)) d).1 x.dataset.file = some x.data) ∧
    (∀ x ∈ items, (checkAll tools (items.map fun x => (x.dataset, x.response)) d).1 x.dataset.file = none ∨
      (checkAll tools (items.map fun x => (x.dataset, x.response)) d).1 x.dataset.file = some x.data) ∧
    (∀ f, (∀ x ∈ items, f ≠ x.dataset.file) → (checkAll tools (items.map fun x => (x.dataset, x.response)) d).1 f = d f) := by
  refine ⟨?_, ?_, ?_, fun f hf => checkAll_elsewhere tools items d f hf⟩ <;>
  induction items generalizing d with
  | nil => simp [checkAll]
  | cons x rest ih =>
    have hg := hgood x List.mem_cons_self
    have hgr := fun y hy => hgood y (List.mem_cons_of_mem _ hy)
    rw [List.map_cons, List.nodup_cons] at hfiles
    obtain ⟨hnot, hnd⟩ := hfiles
    have hne : ∀ y ∈ rest, x.dataset.file ≠ y.dataset.file := by
      intro y hy e
      exact hnot (List.mem_map.2 ⟨y, hy, e.symm⟩)
    rw [List.map_cons]
    -- the first dataset
    have first : (d x.dataset.file = none ∧ x.response = none ∧ download tools x.dataset x.response d = ([d], .raised)) ∨
        ((d x.dataset.file = some x.data ∨ x.response ≠ none) ∧ ∃ states, download tools x.dataset x.response d = (states, .done) ∧
          (states.getLastD d) x.dataset.file = some x.data) := by
      rcases hd x List.mem_cons_self with h0 | h0
      · rcases hg with h1 | ⟨sent, h1, h2⟩
        · left
          refine ⟨h0, h1, ?_⟩
          unfold download
          rw [h0, h1]; rfl
        · right
          have e := download_absent tools x.dataset (content_of_unpacks tools h2) h0
          rw [h1]
          exact ⟨Or.inr (by simp), _, e, inits_getLast d x.dataset.file d x.data⟩
      · right
        exact ⟨Or.inl h0, [d], download_present tools x.dataset x.response h0, by simpa using h0⟩
    have elsewhere : ∀ y ∈ rest, ((download tools x.dataset x.response d).1.getLastD d) y.dataset.file = d y.dataset.file :=
      fun y hy => download_elsewhere tools x.dataset x.response d (hne y hy).symm
    unfold checkAll
    rcases first with ⟨h0, h1, e⟩ | ⟨h01, states, e, hs⟩
    · rw [e]
      simp only [List.getLastD_cons, List.getLastD_nil]
      first
        | (constructor
           · intro h; exact absurd h (by decide)
           · intro h
             rcases h x List.mem_cons_self with h' | h'
             · rw [h0] at h'; exact absurd h' (by simp)
             · exact absurd h1 h')
        | (intro h; exact absurd h (by decide))
        | exact hd
    · rw [e]
      rw [e] at elsewhere
      simp only at elsewhere ⊢
      have hd' : ∀ y ∈ rest, (states.getLastD d) y.dataset.file = none ∨ (states.getLastD d) y.dataset.file = some y.data := by
        intro y hy
        rw [elsewhere y hy]
        exact hd y (List.mem_cons_of_mem _ hy)
      have := ih hgr hnd (states.getLastD d) hd'
      have keep := checkAll_elsewhere tools rest (states.getLastD d) x.dataset.file hne
      first
        | (rw [this]
           constructor
           · intro h y hy
             rcases List.mem_cons.1 hy with rfl | hy
             · exact h01
             · rw [← elsewhere y hy]; exact h y hy
           · intro h y hy
             rw [elsewhere y hy]; exact h y (List.mem_cons_of_mem _ hy))
        | (intro h y hy
           rcases List.mem_cons.1 hy with rfl | hy
           · rw [keep]; exact hs
           · exact this h y hy)
        | (intro y hy
           rcases List.mem_cons.1 hy with rfl | hy
           · rw [keep]; exact Or.inr hs
           · exact this y hy)

theorem takeWhile_reverse_append (a b : Name) (x : Char) (h : x ∉ b) :
    (((a ++ x :: b).reverse).takeWhile (· ≠ x)).reverse = b := by
  have e : (a ++ x :: b).reverse = b.reverse ++ x :: a.reverse := by simp
  rw [e, List.takeWhile_append_of_pos (by
    intro y hy
    rw [List.mem_reverse] at hy
    simp only [ne_eq, decide_not, Bool.not_eq_eq_eq_not, Bool.not_true, decide_eq_false_iff_not]
    rintro rfl; exact h hy)]
  simp

theorem splitext_append (base ext : Name) (hb : ∃ ch ∈ base, ch ≠ '.') (he : '.' ∉ ext) :
    splitext (base ++ '.' :: ext) = (base, '.' :: ext) := by
  unfold splitext
  rw [takeWhile_reverse_append base ext '.' he]
  have e : (base ++ '.' :: ext).length - ext.length - 1 = base.length := by simp; omega
  simp only [e, List.take_left']
  rw [if_neg]
  simpa using hb

/-- The name under which a dataset is stored: the given name, or else the last part of the address, without the extension of a
compressed file. -/
theorem C141_stored_name (dir base ext path : Name) (given : Name) (hg : given ≠ []) (hb : '/' ∉ base) (hn : ∃ ch ∈ base, ch ≠ '.')
    (he : '.' ∉ ext) (he' : '/' ∉ ext) :
    make (dir ++ '/' :: (base ++ '.' :: ext)) path none =
      (if ext = "gz".toList then ⟨(path, base), .gz⟩ else if ext = "zip".toList then ⟨(path, base), .zip⟩
       else ⟨(path, base ++ '.' :: ext), .plain⟩) ∧
    make (dir ++ '/' :: (base ++ '.' :: ext)) path (some given) =
      (if ext = "gz".toList then ⟨(path, given), .gz⟩ else if ext = "zip".toList then ⟨(path, given), .zip⟩
       else ⟨(path, given), .plain⟩) := by
  have h1 : lastPart (dir ++ '/' :: (base ++ '.' :: ext)) = base ++ '.' :: ext := by
    unfold lastPart
    exact takeWhile_reverse_append dir _ '/' (by simp [hb, he'])
  have g : (".gz".toList : Name) = '.' :: "gz".toList := rfl
  have z : (".zip".toList : Name) = '.' :: "zip".toList := rfl
  unfold make
  rw [h1, splitext_append base ext hn he, g, z]
  simp only [List.cons.injEq, true_and]
  constructor
  · rfl
  · have : (some given).filter (· ≠ []) = some given := by rw [Option.filter_some, if_pos (by exact decide_eq_true hg)]
    rw [this]; rfl

/-! ### Examples -/

example : make "http://x.org/a/slp.nc".toList "in".toList none = ⟨("in".toList, "slp.nc".toList), .plain⟩ ∧
    make "http://x.org/a/tracks.csv.gz".toList "in".toList none = ⟨("in".toList, "tracks.csv".toList), .gz⟩ ∧
    make "http://x.org/a/Allstorms.zip".toList "in".toList (some "tracks.csv".toList) = ⟨("in".toList, "tracks.csv".toList), .zip⟩ := by
  decide +kernel

-- Two addresses with the same last part share a file: the hypothesis of `C141_same_name_fails`.
example : (make "http://x.org/2019/slp.nc".toList "in".toList none).file = (make "http://x.org/2020/slp.nc".toList "in".toList none).file := by
  decide +kernel

-- The hypotheses of `C141_stored_name`
example : '/' ∉ "tracks.v4".toList ∧ (∃ ch ∈ "tracks.v4".toList, ch ≠ '.') ∧ '.' ∉ "gz".toList ∧ '/' ∉ "gz".toList ∧
    "http://x.org/a/tracks.v4.gz".toList = "http://x.org/a".toList ++ '/' :: ("tracks.v4".toList ++ '.' :: "gz".toList) := by
  decide +kernel

-- The hypotheses of `C141_all_partial`, with an unreachable server
example : (∀ x ∈ ([⟨⟨([], "a".toList), .gz⟩, some [1], [2, 3]⟩, ⟨⟨([], "b".toList), .plain⟩, none, [7]⟩] : List (Item ℕ)),
    x.Good ⟨fun s => if s = [1] then some [2, 3] else none, fun _ => true⟩) ∧
    ((([⟨⟨([], "a".toList), .gz⟩, some [1], [2, 3]⟩, ⟨⟨([], "b".toList), .plain⟩, none, [7]⟩] : List (Item ℕ)).map
      fun x => x.dataset.file).Nodup) := by
  refine ⟨?_, by decide⟩
  intro x hx
  simp only [List.mem_cons, List.not_mem_nil, or_false] at hx
  rcases hx with rfl | rfl
  · exact Or.inr ⟨[1], rfl, by simp [Unpacks]⟩
  · exact Or.inl rfl

-- A history of two attempts
example : run (B := ℕ) ⟨some, fun _ => true⟩ ⟨([], "f".toList), .plain⟩ (fun _ => none) [⟨none, none⟩, ⟨some [1, 2], none⟩] ([], "f".toList) = some [1, 2] := by
  decide +kernel

end Tcrm.Datasets
