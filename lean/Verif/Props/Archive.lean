import Verif.Model.Archive
import Verif.Props.Datasets
/-!
C161: archived files are kept.
-/
namespace Tcrm.Archive

open Tcrm.Datasets (Name splitext)

variable {C : Type}

/-- The name of a file with a stem and an extension -/
def named (stem ext : Name) : Name := stem ++ '.' :: ext

/-- A stem: some character is not a full stop. -/
def Stem (stem : Name) : Prop := ∃ ch ∈ stem, ch ≠ '.'

theorem dropWhile_dot {ext : Name} (h : '.' ∉ ext) : ('.' :: ext).dropWhile (· = '.') = ext := by
  cases ext with
  | nil => rfl
  | cons c t =>
    have : c ≠ '.' := fun e => h (by simp [e])
    simp [List.dropWhile_cons, this]

theorem target_named (s : State C) (hs : s.timestamp = true) {stem ext : Name} (h : Stem stem) (he : '.' ∉ ext) (t : ℕ) :
    target s (named stem ext) t = (s.archDir, stem ++ '.' :: s.fmt t ++ '.' :: ext) := by
  simp only [target, named, Datasets.splitext_append stem ext h he, hs, if_true, dropWhile_dot he]

/-- C161: in every history of calls the names in the archive have dates. -/
theorem C161_dated (can : Path → Path → Bool) (disk : Path → Option (File C)) (fmt : ℕ → Name) (ops : List (Op C)) :
    (run can (start disk fmt) ops).timestamp = true := by
  have h : ∀ (ops : List (Op C)) (s : State C), s.timestamp = true → (run can s ops).timestamp = true := by
    intro ops
    induction ops with
    | nil => exact fun s h => h
    | cons op ops ih =>
      intro s hs
      refine ih _ ?_
      cases op with
      | dir d => simp only [step, setDir]; split_ifs <;> exact hs
      | stamp b => simp only [step, setTimestamp]; split_ifs <;> simp [hs]
      | format f => exact hs
      | archive p =>
        simp only [step, archive, hs, if_true]
        split
        · exact hs
        · rfl
      | write p f => exact hs
      | remove p => exact hs
  exact h ops _ rfl

/-- The folders asked for in a history -/
def folders : List (Op C) → List Name
  | [] => []
  | .dir d :: ops => d :: folders ops
  | _ :: ops => folders ops

/-- C161: the archive is the folder that was set last; asking with an empty text changes nothing, and without any setting
it is the current folder. -/
theorem C161_folder (can : Path → Path → Bool) (disk : Path → Option (File C)) (fmt : ℕ → Name) (ops : List (Op C)) :
    (run can (start disk fmt) ops).archDir = (((folders ops).filter (· ≠ [])).getLast?).getD [] := by
  have h : ∀ (ops : List (Op C)) (s : State C),
      (run can s ops).archDir = (((folders ops).filter (· ≠ [])).getLast?).getD s.archDir := by
    intro ops
    induction ops with
    | nil => exact fun s => rfl
    | cons op ops ih =>
      intro s
      rw [run, List.foldl_cons]
      change (run can (step can s op) ops).archDir = _
      rw [ih]
      cases op with
      | dir d =>
        by_cases hd : d = []
        · simp [step, setDir, folders, hd]
        · simp only [step, setDir, folders, hd, if_false]
          rw [List.filter_cons, if_pos (by simpa using hd), List.getLast?_cons]
          rfl
      | stamp b => cases b <;> rfl
      | format f => rfl
      | archive p =>
        have : (step can s (.archive p)).archDir = s.archDir := by
          simp only [step, archive]
          split
          · split <;> rfl
          · rfl
        rw [this]; rfl
      | write p f => rfl
      | remove p => rfl
  exact h ops _

example : folders [Op.dir "arch".toList, .stamp false, .dir [], .write ("a".toList, []) ⟨0, 1⟩] =
    ["arch".toList, []] := by decide

/-- C161 (the failure): the date cannot be turned off: asking for names without dates changes nothing. -/
theorem C161_undated_fails (s : State C) : setTimestamp s false = s := rfl

/-- C161: archiving an existing file moves it, with its content and time, into the archive, under its name with the date
before the extension; other files are as before. -/
theorem C161_archived (can : Path → Path → Bool) (s : State C) (hs : s.timestamp = true) (folder stem ext : Name)
    (h : Stem stem) (he : '.' ∉ ext) (f : File C) (hf : s.disk (folder, named stem ext) = some f)
    (hc : ∀ p q, can p q = true) :
    let q : Path := (s.archDir, stem ++ '.' :: s.fmt f.mtime ++ '.' :: ext)
    (archive can s (folder, named stem ext)).2 = .moved ∧
      (archive can s (folder, named stem ext)).1.disk q = some f ∧
      ((folder, named stem ext) ≠ q → (archive can s (folder, named stem ext)).1.disk (folder, named stem ext) = none) ∧
      ∀ p, p ≠ q → p ≠ (folder, named stem ext) → (archive can s (folder, named stem ext)).1.disk p = s.disk p := by
  intro q
  have e : archive can s (folder, named stem ext) =
      ({ s with disk := Function.update (Function.update s.disk (folder, named stem ext) none) q (some f) }, .moved) := by
    simp only [archive, hf, move, hc, if_true, target_named s hs h he, q]
  rw [e]
  refine ⟨rfl, by simp, fun hne => ?_, fun p h1 h2 => ?_⟩
  · simp [Function.update_of_ne hne]
  · simp [Function.update_of_ne h1, Function.update_of_ne h2]

/-- C161: a file that is not there raises an exception, and one that the system does not let be moved stays; nothing
changes. -/
theorem C161_not_archived (can : Path → Path → Bool) (s : State C) (hs : s.timestamp = true) (p : Path) :
    (s.disk p = none → archive can s p = (s, .raised)) ∧
      (∀ f, s.disk p = some f → (∀ q, can p q = false) → archive can s p = (s, .notMoved)) := by
  refine ⟨fun h => by simp [archive, h, hs], fun f h hc => ?_⟩
  simp [archive, h, move, hc]

/-- A step leaves the file at a path alone. -/
def LeavesAlone (s : State C) (q : Path) : Op C → Prop
  | .archive p => p ≠ q ∧ ∀ f, s.disk p = some f → target s p.2 f.mtime ≠ q
  | .write p _ => p ≠ q
  | .remove p => p ≠ q
  | _ => True

/-- A history leaves the file at a path alone. -/
def AllAlone (can : Path → Path → Bool) (q : Path) : State C → List (Op C) → Prop
  | _, [] => True
  | s, op :: ops => LeavesAlone s q op ∧ AllAlone can q (step can s op) ops

/-- C161 (part): an archived file stays in every history in which no other file gets its name in the archive, and in
which it is not itself removed or overwritten. -/
theorem C161_kept_partial (can : Path → Path → Bool) (q : Path) (ops : List (Op C)) (s : State C) (hs : s.timestamp = true)
    (h : AllAlone can q s ops) : (run can s ops).disk q = s.disk q := by
  induction ops generalizing s with
  | nil => rfl
  | cons op ops ih =>
    obtain ⟨h1, h2⟩ := h
    have hts : (step can s op).timestamp = true := by
      cases op with
      | dir d => simp only [step, setDir]; split_ifs <;> exact hs
      | stamp b => simp only [step, setTimestamp]; split_ifs <;> simp [hs]
      | format f => exact hs
      | archive p =>
        simp only [step, archive, hs, if_true]
        split
        · exact hs
        · rfl
      | write p f => exact hs
      | remove p => exact hs
    refine (ih _ hts h2).trans ?_
    cases op with
    | dir d => simp only [step, setDir]; split_ifs <;> rfl
    | stamp b => simp only [step, setTimestamp]; split_ifs <;> rfl
    | format f => rfl
    | archive p =>
      simp only [step, archive, hs, if_true]
      split
      · rfl
      · rename_i f hf
        simp only [move, hf]
        split_ifs
        · simp [Function.update_of_ne (h1.2 f hf).symm, Function.update_of_ne (Ne.symm h1.1)]
        · rfl
    | write p f => simp [step, Function.update_of_ne (Ne.symm h1)]
    | remove p => simp [step, Function.update_of_ne (Ne.symm h1)]

theorem append_dot_inj {a b x y : Name} (hx : '.' ∉ x) (hy : '.' ∉ y) (h : a ++ '.' :: x = b ++ '.' :: y) : a = b ∧ x = y := by
  have key : ∀ (a x : Name), '.' ∉ x → (a ++ '.' :: x).reverse.takeWhile (· ≠ '.') = x.reverse := by
    intro a x hx
    rw [List.reverse_append, List.reverse_cons, List.append_assoc, List.takeWhile_append_of_pos]
    · simp
    · intro c hc
      simp only [decide_eq_true_eq]
      rintro rfl
      exact hx (List.mem_reverse.1 hc)
  have h1 := key a x hx
  rw [h, key b y hy] at h1
  have e : x = y := (List.reverse_injective h1).symm
  subst e
  exact ⟨List.append_cancel_right h, rfl⟩

/-- C161: two files have the same name in the archive just if their names and dates are the same. -/
theorem C161_names (s : State C) (hs : s.timestamp = true) {stem ext stem' ext' : Name} (h : Stem stem) (he : '.' ∉ ext)
    (h' : Stem stem') (he' : '.' ∉ ext') (t t' : ℕ) (hd : ∀ t, '.' ∉ s.fmt t) :
    target s (named stem ext) t = target s (named stem' ext') t' ↔ named stem ext = named stem' ext' ∧ s.fmt t = s.fmt t' := by
  rw [target_named s hs h he, target_named s hs h' he', Prod.mk.injEq]
  constructor
  · rintro ⟨-, e⟩
    obtain ⟨e1, rfl⟩ := append_dot_inj he he' e
    obtain ⟨rfl, e2⟩ := append_dot_inj (hd t) (hd t') e1
    exact ⟨rfl, e2⟩
  · rintro ⟨e1, e2⟩
    obtain ⟨rfl, rfl⟩ := append_dot_inj he he' e1
    exact ⟨rfl, by rw [e2]⟩

/-- C161 (the failure): two files of the same name in different folders, last changed at times with the same date by the
format in use (the minute, by default): both are archived, both calls report success, and the first is gone. -/
theorem C161_overwritten_fails (can : Path → Path → Bool) (s : State C) (hs : s.timestamp = true) (hc : ∀ p q, can p q = true)
    (folder folder' stem ext : Name) (hne : folder ≠ folder') (h : Stem stem) (he : '.' ∉ ext)
    (ha : s.archDir ≠ folder') (f f' : File C) (hff : f ≠ f')
    (hf : s.disk (folder, named stem ext) = some f) (hf' : s.disk (folder', named stem ext) = some f')
    (hd : s.fmt f.mtime = s.fmt f'.mtime) (honly : ∀ p, s.disk p = some f → p = (folder, named stem ext)) :
    let s1 := (archive can s (folder, named stem ext))
    let s2 := (archive can s1.1 (folder', named stem ext))
    s1.2 = .moved ∧ s2.2 = .moved ∧ ∀ p, s2.1.disk p ≠ some f := by
  intro s1 s2
  set q : Path := (s.archDir, stem ++ '.' :: s.fmt f.mtime ++ '.' :: ext) with hq
  have e1 : s1 =
      ({ s with disk := Function.update (Function.update s.disk (folder, named stem ext) none) q (some f) }, .moved) := by
    simp only [s1, archive, hf, move, hc, if_true, target_named s hs h he, q]
  have hq' : (folder', named stem ext) ≠ q := fun e => ha (congrArg Prod.fst e).symm
  have hp' : ((folder', named stem ext) : Path) ≠ (folder, named stem ext) := fun e => hne (congrArg Prod.fst e).symm
  have hd1 : s1.1.disk (folder', named stem ext) = some f' := by
    rw [e1]
    simp only [Function.update_of_ne hq', Function.update_of_ne hp', hf']
  have hs1 : s1.1.timestamp = true := by rw [e1]; exact hs
  have e2 : s2 = ({ s1.1 with disk := Function.update (Function.update s1.1.disk (folder', named stem ext) none) q (some f') },
      .moved) := by
    have ht : target s1.1 (named stem ext) f'.mtime = q := by
      rw [target_named _ hs1 h he, e1, hq, hd]
    simp only [s2, archive, hd1, move, hc, if_true, ht]
  refine ⟨by rw [e1], by rw [e2], fun p hp => ?_⟩
  rw [e2] at hp
  by_cases h1 : p = q
  · subst h1
    simp only [Function.update_self, Option.some.injEq] at hp
    exact hff hp.symm
  · simp only [Function.update_of_ne h1] at hp
    by_cases h2 : p = (folder', named stem ext)
    · subst h2
      simp at hp
    · rw [Function.update_of_ne h2, e1] at hp
      simp only [Function.update_of_ne h1] at hp
      by_cases h3 : p = (folder, named stem ext)
      · subst h3
        simp at hp
      · rw [Function.update_of_ne h3] at hp
        exact h3 (honly p hp)

/-- C161 (the failure): without an archive folder, files are not left where they are, but moved into the current
folder. -/
theorem C161_no_folder_fails (can : Path → Path → Bool) (hc : ∀ p q, can p q = true) (disk : Path → Option (File C))
    (fmt : ℕ → Name) (folder stem ext : Name) (hfo : folder ≠ []) (h : Stem stem) (he : '.' ∉ ext) (f : File C)
    (hf : disk (folder, named stem ext) = some f) :
    let s := (archive can (start disk fmt) (folder, named stem ext)).1
    s.disk (folder, named stem ext) = none ∧ s.disk ([], stem ++ '.' :: fmt f.mtime ++ '.' :: ext) = some f := by
  obtain ⟨_, h1, h2, _⟩ := C161_archived can (start disk fmt) rfl folder stem ext h he f hf hc
  exact ⟨h2 fun e => hfo (congrArg Prod.fst e), h1⟩

/-- A disk with two results of the same name -/
def exDisk : Path → Option (File String) := fun p =>
  if p = ("a".toList, "tracks.csv".toList) then some ⟨"first", 100⟩
  else if p = ("b".toList, "tracks.csv".toList) then some ⟨"second", 110⟩ else none

/-- The minute of modification -/
def exFmt : ℕ → Name := fun t => Nat.toDigits 10 (t / 60)

def exState : State String := run (fun _ _ => true) (start exDisk exFmt) [.dir "arch".toList, .stamp false]

/-- Both are archived, one is left. -/
example : ((run (fun _ _ => true) exState [.archive ("a".toList, "tracks.csv".toList),
      .archive ("b".toList, "tracks.csv".toList)]).disk ("arch".toList, "tracks.1.csv".toList)) = some ⟨"second", 110⟩ ∧
    exState.disk ("a".toList, named "tracks".toList "csv".toList) = some ⟨"first", 100⟩ ∧ Stem "tracks".toList := by
  refine ⟨by decide +kernel, by decide +kernel, 't', by decide, by decide⟩

/-- With names that differ both are kept. -/
example : AllAlone (fun _ _ => true) ("arch".toList, "tracks.1.csv".toList) (C := String)
    ((archive (fun _ _ => true) exState ("a".toList, "tracks.csv".toList)).1)
    [.write ("b".toList, "rates.csv".toList) ⟨"third", 100⟩, .archive ("b".toList, "rates.csv".toList)] := by
  refine ⟨show _ ≠ _ by decide, ⟨by decide, ?_⟩, trivial⟩
  intro f hf
  have : f = ⟨"third", 100⟩ := by
    have e : (step (fun _ _ => true) (archive (fun _ _ => true) exState ("a".toList, "tracks.csv".toList)).1
      (.write ("b".toList, "rates.csv".toList) ⟨"third", 100⟩)).disk ("b".toList, "rates.csv".toList) =
        some ⟨"third", 100⟩ := by simp [step]
    rw [e] at hf
    exact (Option.some.inj hf).symm
  subst this
  decide +kernel

end Tcrm.Archive
