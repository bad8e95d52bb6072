import Verif.Model.RemoteRun
import Verif.Props.MultiplierFiles
/-!
C212: local wind with input and output in remote storage.
-/
namespace Tcrm.RemoteRun
open Tcrm.Config (Text)
open Tcrm.MultiplierFiles (s3Segments s3File vsis3)

variable {C : Type}

/-- What is read from the gust file of the settings: what is stored remotely under the key written after the bucket, or in
the local file of that name -/
def GustContent (w : World C) (s : Settings) (c : Option C) : Prop :=
  (∃ bucket key, '/' ∉ bucket ∧ (s.gustFile = vsis3 (bucket ++ '/' :: key) ∨ s.gustFile = vsis3 bucket ∧ key = []) ∧
    c = w.remote (bucket, key) ∧ c ≠ none) ∨
  (¬ "/vsis3/".toList <+: s.gustFile ∧ c = w.files s.gustFile)

/-- The working directory of the settings is the directory `dir` of a bucket, written with or without a slash at the end. -/
def WorksIn (s : Settings) (bucket dir : Text) : Prop :=
  '/' ∉ bucket ∧ bucket ≠ [] ∧ dir ≠ [] ∧ dir.getLast? ≠ some '/' ∧
  (s.workingDir = vsis3 (bucket ++ '/' :: dir) ∨ s.workingDir = vsis3 (bucket ++ '/' :: (dir ++ ['/'])))

/-- The six files of results -/
def sixFiles : List String := ["local_wind.tif", "region_wind.tif", "gust_prj.tif", "bear_prj.tif", "uu_prj.tif", "vv_prj.tif"]

theorem outputs_perm : outputs.Perm (sixFiles.map String.toList) := by decide +kernel

theorem mem_outputs (f : Text) : f ∈ outputs ↔ ∃ n ∈ sixFiles, n.toList = f := by
  rw [outputs_perm.mem_iff, List.mem_map]

theorem isRemote_iff (t : Text) : isRemote t = true ↔ "/vsis3/".toList <+: t := List.isPrefixOf_iff_prefix

theorem isRemote_vsis3 (t : Text) : isRemote (vsis3 t) = true := (isRemote_iff _).2 ⟨t, rfl⟩

theorem pjoin_inj {d a b : Text} (h : pjoin d a = pjoin d b) : a = b := by
  unfold pjoin at h
  split_ifs at h
  · exact List.append_cancel_left h
  · have := List.append_cancel_left h
    injection this

theorem put_keep {w : World C} {d f : Text} {c : C} {r : Text → C} {g : Text} (h : w.files (pjoin d g) = some (r g)) (hc : c = r f) :
    (put w (pjoin d f) c).files (pjoin d g) = some (r g) := by
  unfold put
  simp only
  split_ifs with e
  · rw [pjoin_inj e, hc]
  · exact h

theorem write_keep (d : Text) (r : Text → C) (g : Text) (l : List Text) (w : World C) (h : w.files (pjoin d g) = some (r g)) :
    (l.foldl (fun w f => put w (pjoin d f) (r f)) w).files (pjoin d g) = some (r g) := by
  induction l generalizing w with
  | nil => exact h
  | cons f l ih => exact ih _ (put_keep h rfl)

theorem write_get (d : Text) (r : Text → C) (l : List Text) (w : World C) {g : Text} (hg : g ∈ l) :
    (l.foldl (fun w f => put w (pjoin d f) (r f)) w).files (pjoin d g) = some (r g) := by
  induction l generalizing w with
  | nil => cases hg
  | cons f l ih =>
    rcases List.mem_cons.1 hg with rfl | hg
    · exact write_keep d r g l _ (by simp [put])
    · exact ih _ hg

theorem write_remote (d : Text) (r : Text → C) (l : List Text) (w : World C) :
    (l.foldl (fun w f => put w (pjoin d f) (r f)) w).remote = w.remote := by
  induction l generalizing w with
  | nil => rfl
  | cons f l ih => exact ih _

/-- Uploads of files that are there, to places that are well formed: those before the first refusal are made, no others. -/
theorem upload_spec {denied : Text × Text → Bool} {d path : Text} {place : Text → Text × Text} {r : Text → C}
    (hp : ∀ f, s3File path f = .ok (place f)) (hinj : ∀ f g, place f = place g → f = g) (l : List Text) (w : World C)
    (hf : ∀ f ∈ l, w.files (pjoin d f) = some (r f)) {w' : World C} {e : Option Err} (h : uploadAll denied d path l w = (w', e)) :
    ∃ done rest, l = done ++ rest ∧ (∀ f ∈ done, denied (place f) = false) ∧
      (∀ f ∈ done, w'.remote (place f) = some (r f)) ∧ (∀ p, (∀ f ∈ done, p ≠ place f) → w'.remote p = w.remote p) ∧
      ((rest = [] ∧ e = none) ∨ ∃ f t, rest = f :: t ∧ denied (place f) = true ∧ e = some .clientError) := by
  induction l generalizing w with
  | nil =>
    unfold uploadAll at h
    injection h with h1 h2
    subst h1 h2
    exact ⟨[], [], rfl, by simp, by simp, fun _ _ => rfl, Or.inl ⟨rfl, rfl⟩⟩
  | cons f l ih =>
    unfold uploadAll at h
    rw [hp] at h
    simp only [hf f List.mem_cons_self] at h
    split_ifs at h with hd
    · injection h with h1 h2
      subst h1 h2
      exact ⟨[], f :: l, rfl, by simp, by simp, fun _ _ => rfl, Or.inr ⟨f, l, rfl, hd, rfl⟩⟩
    · obtain ⟨done, rest, e1, e2, e3, e4, e5⟩ := ih { w with remote := fun p => if p = place f then some (r f) else w.remote p }
        (fun g hg => hf g (List.mem_cons_of_mem _ hg)) h
      refine ⟨f :: done, rest, by rw [e1]; rfl, ?_, ?_, ?_, e5⟩
      · intro g hg
        rcases List.mem_cons.1 hg with rfl | hg
        · simpa using hd
        · exact e2 g hg
      · intro g hg
        by_cases hg' : g ∈ done
        · exact e3 g hg'
        · have : g = f := by
            rcases List.mem_cons.1 hg with h | h
            · exact h
            · exact absurd h hg'
          subst this
          rw [e4 _ (fun k hk e => hg' (by rw [hinj _ _ e]; exact hk))]
          simp
      · intro p hp'
        rw [e4 p fun g hg => hp' g (List.mem_cons_of_mem _ hg)]
        simp only
        rw [if_neg (hp' f List.mem_cons_self)]

theorem works_place {s : Settings} {bucket dir : Text} (h : WorksIn s bucket dir) (f : Text) :
    s3File s.workingDir f = .ok (bucket, dir ++ '/' :: f) := by
  obtain ⟨h1, h2, h3, h4, h5 | h5⟩ := h
  · rw [h5]; exact (MultiplierFiles.C81_directory bucket dir f h1 h2 h4 h3).1
  · rw [h5]; exact (MultiplierFiles.C81_directory bucket dir f h1 h2 h4 h3).2.1

theorem works_remote {s : Settings} {bucket dir : Text} (h : WorksIn s bucket dir) : isRemote s.workingDir = true := by
  obtain ⟨h1, h2, h3, h4, h5 | h5⟩ := h <;> rw [h5] <;> exact isRemote_vsis3 _

/-- What `fetchGust` returns -/
theorem fetch_spec {w w1 : World C} {s : Settings} {d gust : Text} (h : fetchGust w s.gustFile d = .ok (w1, gust)) :
    GustContent w s (w1.files gust) ∧ w1.remote = w.remote := by
  unfold fetchGust at h
  by_cases hr : isRemote s.gustFile = true
  · rw [if_pos hr] at h
    rcases hs : s3Segments s.gustFile with e | ⟨bucket, key, file⟩
    · rw [hs] at h
      cases h
    · rw [hs] at h
      simp only at h
      rcases hc : w.remote (bucket, key) with _ | c
      · rw [hc] at h
        cases h
      · rw [hc] at h
        simp only at h
        by_cases hd : w.dirs d = true
        · rw [if_pos hd, Except.ok.injEq, Prod.mk.injEq] at h
          obtain ⟨rfl, rfl⟩ := h
          refine ⟨Or.inl ⟨bucket, key, ?_⟩, rfl⟩
          have hg : (put w (pjoin d file) c).files (pjoin d file) = some c := by simp [put]
          rw [hg, hc]
          obtain ⟨b, hb, ⟨hp, he⟩ | ⟨k, hp, he⟩⟩ := (MultiplierFiles.C81_refused _ _).1 hs
          · rw [Prod.mk.injEq, Prod.mk.injEq] at he
            obtain ⟨rfl, rfl, -⟩ := he
            exact ⟨hb, Or.inr ⟨hp, rfl⟩, rfl, by simp⟩
          · rw [Prod.mk.injEq, Prod.mk.injEq] at he
            obtain ⟨rfl, rfl, -⟩ := he
            exact ⟨hb, Or.inl hp, rfl, by simp⟩
        · rw [if_neg hd] at h
          cases h
  · rw [if_neg hr, Except.ok.injEq, Prod.mk.injEq] at h
    obtain ⟨rfl, rfl⟩ := h
    exact ⟨Or.inr ⟨fun e => hr ((isRemote_iff _).2 e), rfl⟩, rfl⟩

theorem temporary_same (s : Settings) (fresh : Text) (w : World C) :
    (makeTemporary s fresh w).remote = w.remote ∧ (makeTemporary s fresh w).files = w.files := by
  unfold makeTemporary
  split_ifs <;> exact ⟨rfl, rfl⟩

theorem gust_temporary {s : Settings} {fresh : Text} {w : World C} {c : Option C} (h : GustContent (makeTemporary s fresh w) s c) :
    GustContent w s c := by
  unfold GustContent at h ⊢
  rwa [(temporary_same s fresh w).1, (temporary_same s fresh w).2] at h

variable {s : Settings} {fresh : Text} {calculate : Option C → Option (Text → C)} {denied : Text × Text → Bool} {w w' : World C}
  {e : Option Err} {bucket dir : Text}

/-- The course of a run with results -/
theorem main_cases (h : main s fresh calculate denied w = (w', e)) :
    (∃ c results, GustContent w s c ∧ calculate c = some results ∧ ∃ w1 : World C, w1.remote = w.remote ∧
      (∀ f ∈ outputs, w1.files (pjoin (workingDir s fresh).1 f) = some (results f)) ∧
      ((isRemote s.workingDir = false ∧ w' = w1 ∧ e = none) ∨
        isRemote s.workingDir = true ∧ uploadAll denied (workingDir s fresh).1 s.workingDir outputs w1 = (w', e))) ∨
    (w'.remote = w.remote ∧ e ≠ none) := by
  have ht := (temporary_same s fresh w).1
  unfold main at h
  simp only at h
  rcases hf : fetchGust (makeTemporary s fresh w) s.gustFile (workingDir s fresh).1 with x | ⟨w1, gust⟩
  · rw [hf] at h
    injection h with h1 h2
    subst h1 h2
    exact Or.inr ⟨ht, by simp⟩
  · rw [hf] at h
    simp only at h
    obtain ⟨g1, g2⟩ := fetch_spec hf
    rw [ht] at g2
    rcases hc : calculate ((makeDirs w1 (workingDir s fresh).1).files gust) with _ | results
    · rw [hc] at h
      injection h with h1 h2
      subst h1 h2
      exact Or.inr ⟨g2, by simp⟩
    · rw [hc] at h
      simp only at h
      refine Or.inl ⟨_, results, gust_temporary g1, hc, writeOutputs (makeDirs w1 (workingDir s fresh).1) (workingDir s fresh).1 results,
        ?_, ?_, ?_⟩
      · unfold writeOutputs
        rw [write_remote]
        exact g2
      · intro f hf'
        exact write_get _ _ _ _ hf'
      · rcases hr : isRemote s.workingDir with _ | _
        · left
          have : (workingDir s fresh).2 = none := by unfold workingDir; rw [hr]; rfl
          rw [this] at h
          injection h with h1 h2
          exact ⟨rfl, h1.symm, h2.symm⟩
        · right
          have : (workingDir s fresh).2 = some s.workingDir := by unfold workingDir; rw [hr]; rfl
          rw [this] at h
          exact ⟨rfl, h⟩

/-- C212: after a run without exception with its working directory in remote storage, that directory has the six files of
results, calculated from the content of the gust file; nothing else in remote storage has changed. -/
theorem C212_uploaded (hw : WorksIn s bucket dir) (h : main s fresh calculate denied w = (w', none)) :
    ∃ c results, GustContent w s c ∧ calculate c = some results ∧
      (∀ n ∈ sixFiles, w'.remote (bucket, dir ++ '/' :: n.toList) = some (results n.toList)) ∧
      ∀ p, (∀ n ∈ sixFiles, p ≠ (bucket, dir ++ '/' :: n.toList)) → w'.remote p = w.remote p := by
  rcases main_cases h with ⟨c, results, h1, h2, w1, h3, h4, ⟨h5, -⟩ | ⟨-, h5⟩⟩ | ⟨-, h⟩
  · rw [works_remote hw] at h5
    cases h5
  · obtain ⟨done, rest, e1, -, e3, e4, ⟨rfl, -⟩ | ⟨f, t, -, -, e5⟩⟩ := upload_spec (works_place hw)
      (fun f g e => by simpa using e) _ _ h4 h5
    · rw [List.append_nil] at e1
      subst e1
      refine ⟨c, results, h1, h2, fun n hn => e3 _ ((mem_outputs _).2 ⟨n, hn, rfl⟩), ?_⟩
      intro p hp
      rw [e4 p, h3]
      intro f hf
      obtain ⟨n, hn, rfl⟩ := (mem_outputs f).1 hf
      exact hp n hn
    · cases e5
  · exact absurd rfl h

theorem write_dirs (d : Text) (r : Text → C) (l : List Text) (w : World C) :
    (l.foldl (fun w f => put w (pjoin d f) (r f)) w).dirs = w.dirs := by
  induction l generalizing w with
  | nil => rfl
  | cons f l ih => rw [List.foldl_cons, ih]; rfl

theorem fetch_dirs {w w1 : World C} {g d gust : Text} (h : fetchGust w g d = .ok (w1, gust)) : w1.dirs = w.dirs := by
  unfold fetchGust at h
  split at h
  · split at h
    · cases h
    · split at h
      · cases h
      · split at h
        · cases h; rfl
        · cases h
  · cases h; rfl

theorem upload_dirs (denied : Text × Text → Bool) (d path : Text) (l : List Text) (w : World C) :
    (uploadAll denied d path l w).1.dirs = w.dirs := by
  induction l generalizing w with
  | nil => rfl
  | cons f l ih =>
    unfold uploadAll
    split
    · rfl
    · split
      · rfl
      · split
        · rfl
        · rw [ih]

theorem main_dirs (h : main s fresh calculate denied w = (w', none)) (d : Text) :
    w'.dirs d = true ↔ d = (workingDir s fresh).1 ∨ (makeTemporary s fresh w).dirs d = true := by
  unfold main at h
  simp only at h
  rcases hf : fetchGust (makeTemporary s fresh w) s.gustFile (workingDir s fresh).1 with x | ⟨w1, gust⟩
  · rw [hf] at h; simp at h
  · rw [hf] at h
    simp only at h
    have hd := fetch_dirs hf
    rcases hc : calculate ((makeDirs w1 (workingDir s fresh).1).files gust) with _ | results
    · rw [hc] at h; simp at h
    · rw [hc] at h
      simp only at h
      have key : w'.dirs = (makeDirs w1 (workingDir s fresh).1).dirs := by
        rcases hu : (workingDir s fresh).2 with _ | path
        · rw [hu] at h
          injection h with h1 h2
          rw [← h1]
          exact write_dirs _ _ _ _
        · rw [hu] at h
          have := upload_dirs denied (workingDir s fresh).1 path outputs (writeOutputs (makeDirs w1 (workingDir s fresh).1) (workingDir s fresh).1 results)
          simp only at h
          rw [h] at this
          rw [this]
          exact write_dirs _ _ _ _
      rw [key]
      unfold makeDirs
      simp only [hd]
      split_ifs with hx <;> simp [hx]

/-- C212: a run without exception makes one directory, the working directory of the settings, and with the working
directory in remote storage the temporary directory of the settings, if there is one. -/
theorem C212_directories (h : main s fresh calculate denied w = (w', none)) :
    (¬ "/vsis3/".toList <+: s.workingDir → ∀ d, w'.dirs d = true ↔ d = s.workingDir ∨ w.dirs d = true) ∧
    (∀ t, "/vsis3/".toList <+: s.workingDir →
      s.temporary = some (t ++ ['/']) ∨ s.temporary = some t ∧ t.getLast? ≠ some '/' →
      ∀ d, w'.dirs d = true ↔ d = t ++ ['/'] ∨ w.dirs d = true) := by
  constructor
  · intro hl d
    have hr : isRemote s.workingDir = false := by
      rw [← Bool.not_eq_true, isRemote_iff]; exact hl
    rw [main_dirs h d]
    simp [workingDir, makeTemporary, hr]
  · intro t hl ht d
    have hr : isRemote s.workingDir = true := (isRemote_iff _).2 hl
    rw [main_dirs h d]
    rcases ht with ht | ⟨ht, hn⟩
    · simp [workingDir, makeTemporary, hr, ht]
    · simp [workingDir, makeTemporary, hr, ht, hn]

/-- `p` is the path of the file `f` in the directory `dir`, which may be written with a slash at the end; no directory is
the current one. -/
def FileIn (dir p f : Text) : Prop :=
  (dir = [] ∧ p = f) ∨ ∃ d, (dir = d ++ ['/'] ∨ dir = d ∧ d ≠ [] ∧ d.getLast? ≠ some '/') ∧ p = d ++ '/' :: f

theorem fileIn_iff (dir p f : Text) : FileIn dir p f ↔ p = pjoin dir f := by
  unfold pjoin
  constructor
  · rintro (⟨rfl, rfl⟩ | ⟨d, rfl | ⟨rfl, h1, h2⟩, rfl⟩)
    · simp
    · simp
    · rw [if_neg (by simp [h1, h2])]
  · rintro rfl
    by_cases h0 : dir = []
    · left; simp [h0]
    · right
      by_cases h1 : dir.getLast? = some '/'
      · obtain ⟨d, rfl⟩ : ∃ d, dir = d ++ ['/'] := by
          rw [List.getLast?_eq_some_iff] at h1
          exact h1
        exact ⟨d, Or.inl rfl, by simp⟩
      · exact ⟨dir, Or.inr ⟨rfl, h0, h1⟩, by rw [if_neg (by simp [h0, h1])]⟩

/-- C212: a run with a local working directory changes nothing in remote storage, and if it ends without exception the six
files of results are in the working directory. -/
theorem C212_local (hw : ¬ "/vsis3/".toList <+: s.workingDir) (h : main s fresh calculate denied w = (w', e)) :
    w'.remote = w.remote ∧ (e = none → ∃ c results, GustContent w s c ∧ calculate c = some results ∧
      ∀ n ∈ sixFiles, ∀ p, FileIn s.workingDir p n.toList → w'.files p = some (results n.toList)) := by
  rw [← isRemote_iff] at hw
  have hd : (workingDir s fresh).1 = s.workingDir := by unfold workingDir; rw [if_neg hw]
  rcases main_cases h with ⟨c, results, h1, h2, w1, h3, h4, ⟨-, h5, -⟩ | ⟨h5, -⟩⟩ | ⟨h1, h2⟩
  · subst h5
    rw [hd] at h4
    exact ⟨h3, fun _ => ⟨c, results, h1, h2, fun n hn p hp => by
      rw [(fileIn_iff _ _ _).1 hp]; exact h4 _ ((mem_outputs _).2 ⟨n, hn, rfl⟩)⟩⟩
  · exact absurd h5 hw
  · exact ⟨h1, fun e => absurd e h2⟩

/-- C212: whatever happens, the working directory in remote storage has a part of the results, each complete, and nothing
else in remote storage has changed. -/
theorem C212_interrupted (hw : WorksIn s bucket dir) (h : main s fresh calculate denied w = (w', e)) :
    ∀ p, w'.remote p = w.remote p ∨ ∃ n ∈ sixFiles, ∃ c results, GustContent w s c ∧ calculate c = some results ∧
      p = (bucket, dir ++ '/' :: n.toList) ∧ denied p = false ∧ w'.remote p = some (results n.toList) := by
  rcases main_cases h with ⟨c, results, h1, h2, w1, h3, h4, ⟨h5, -⟩ | ⟨-, h5⟩⟩ | ⟨h, -⟩
  · rw [works_remote hw] at h5
    cases h5
  · obtain ⟨done, rest, e1, e2, e3, e4, -⟩ := upload_spec (works_place hw) (fun f g e => by simpa using e) _ _ h4 h5
    intro p
    by_cases hp : ∃ f ∈ done, p = (bucket, dir ++ '/' :: f)
    · obtain ⟨f, hf, rfl⟩ := hp
      obtain ⟨n, hn, rfl⟩ := (mem_outputs f).1 (by rw [e1]; exact List.mem_append_left _ hf)
      exact Or.inr ⟨n, hn, c, results, h1, h2, rfl, e2 _ hf, e3 _ hf⟩
    · push Not at hp
      left
      rw [e4 p hp, h3]
  · exact fun p => Or.inl (by rw [h])

theorem upload_ok {d path : Text} {place : Text → Text × Text} {r : Text → C} (hp : ∀ f, s3File path f = .ok (place f))
    (l : List Text) (w : World C) (hf : ∀ f ∈ l, w.files (pjoin d f) = some (r f)) (hd : ∀ f ∈ l, denied (place f) = false) :
    (uploadAll denied d path l w).2 = none := by
  induction l generalizing w with
  | nil => rfl
  | cons f l ih =>
    unfold uploadAll
    rw [hp]
    simp only [hf f List.mem_cons_self, hd f List.mem_cons_self]
    exact ih _ (fun g hg => hf g (List.mem_cons_of_mem _ hg)) (fun g hg => hd g (List.mem_cons_of_mem _ hg))

/-- What `fetchGust` returns if the gust file is stored and the directory exists -/
theorem fetch_ok {d : Text} {c : Option C} (hg : GustContent w s c) (hd : w.dirs d = true) :
    ∃ w1 gust, fetchGust w s.gustFile d = .ok (w1, gust) ∧ w1.files gust = c := by
  rcases hg with ⟨b, k, hb, hp, hc, hn⟩ | ⟨hp, hc⟩
  · obtain ⟨f, hs⟩ : ∃ f, s3Segments s.gustFile = .ok (b, k, f) := by
      rcases hp with hp | ⟨hp, rfl⟩
      · exact ⟨_, (MultiplierFiles.C81_refused _ _).2 ⟨b, hb, Or.inr ⟨k, hp, rfl⟩⟩⟩
      · exact ⟨_, (MultiplierFiles.C81_refused _ _).2 ⟨b, hb, Or.inl ⟨hp, rfl⟩⟩⟩
    obtain ⟨v, rfl⟩ := Option.ne_none_iff_exists'.1 hn
    have hr : isRemote s.gustFile = true := by
      rcases hp with hp | ⟨hp, -⟩ <;> rw [hp] <;> exact isRemote_vsis3 _
    refine ⟨put w (pjoin d f) v, pjoin d f, ?_, by simp [put]⟩
    unfold fetchGust
    rw [if_pos hr, hs]
    simp only [← hc, hd, if_true]
  · rw [← isRemote_iff] at hp
    refine ⟨w, s.gustFile, ?_, hc.symm⟩
    unfold fetchGust
    rw [if_neg hp]

/-- C212: with no temporary directory configured, the run ends without exception if the gust file is stored, the
calculation succeeds and the results can be stored. -/
theorem C212_succeeds (hw : WorksIn s bucket dir) (ht : s.temporary = none) {c : Option C} {results : Text → C}
    (hg : GustContent w s c) (hc : calculate c = some results)
    (hd : ∀ n ∈ sixFiles, denied (bucket, dir ++ '/' :: n.toList) = false) : (main s fresh calculate denied w).2 = none := by
  have hr := works_remote hw
  have hdir : (makeTemporary s fresh w).dirs (workingDir s fresh).1 = true := by
    unfold makeTemporary workingDir
    rw [if_pos ⟨hr, ht⟩, if_pos hr, ht]
    simp only [Option.getD_none]
    split_ifs <;> simp_all
  have hg' : GustContent (makeTemporary s fresh w) s c := by
    unfold GustContent at hg ⊢
    rwa [(temporary_same s fresh w).1, (temporary_same s fresh w).2]
  obtain ⟨w1, gust, h1, h2⟩ := fetch_ok hg' hdir
  have hu : (workingDir s fresh).2 = some s.workingDir := by unfold workingDir; rw [hr]; rfl
  have hc' : calculate ((makeDirs w1 (workingDir s fresh).1).files gust) = some results := by
    rw [← hc, ← h2]
    rfl
  unfold main
  simp only [h1, hc', hu]
  refine upload_ok (works_place hw) _ _ (fun f hf => write_get _ _ _ _ hf) ?_
  intro f hf
  obtain ⟨n, hn, rfl⟩ := (mem_outputs f).1 hf
  exact hd n hn

/-- C212 fails: with the gust file in remote storage and a working directory, local or configured for temporary files, that
does not exist yet, the run fails before the directory is made. -/
theorem C212_directory_fails {key : Text} {v : C} (hb : '/' ∉ bucket) (hgf : s.gustFile = vsis3 (bucket ++ '/' :: key))
    (hv : w.remote (bucket, key) = some v)
    (hd : (¬ "/vsis3/".toList <+: s.workingDir ∧ w.dirs s.workingDir = false) ∨
      ∃ t, s.temporary = some t ∧ "/vsis3/".toList <+: s.workingDir ∧ w.dirs t = false ∧ w.dirs (t ++ ['/']) = false) :
    main s fresh calculate denied w = (w, some .noDirectory) := by
  have hs : s3Segments s.gustFile = .ok (bucket, key, _) :=
    (MultiplierFiles.C81_refused _ _).2 ⟨bucket, hb, Or.inr ⟨key, hgf, rfl⟩⟩
  have hr : isRemote s.gustFile = true := by rw [hgf]; exact isRemote_vsis3 _
  have ht : makeTemporary s fresh w = w ∧ w.dirs (workingDir s fresh).1 = false := by
    simp only [← isRemote_iff] at hd
    unfold makeTemporary workingDir
    rcases hd with ⟨h1, h2⟩ | ⟨t, h1, h2, h3, h4⟩
    · rw [if_neg (fun e => h1 e.1), if_neg h1]
      exact ⟨rfl, h2⟩
    · rw [if_neg (fun e => by rw [h1] at e; cases e.2), if_pos h2, h1]
      refine ⟨rfl, ?_⟩
      simp only [Option.getD_some]
      split_ifs
      · exact h3
      · exact h4
  unfold main
  simp only [ht.1]
  have hf : fetchGust w s.gustFile (workingDir s fresh).1 = .error .noDirectory := by
    unfold fetchGust
    rw [if_pos hr, hs]
    simp only [hv, ht.2]
    rfl
  rw [hf]

/-- A world with one gust file in the bucket `b`, and no directories -/
def exWorld : World ℕ := ⟨fun p => if p = ("b".toList, "in/gust.nc".toList) then some 7 else none, fun _ => none, fun _ => false⟩

def exSettings : Settings := ⟨"/vsis3/b/out".toList, "/vsis3/b/in/gust.nc".toList, none⟩

def exCalculate (c : Option ℕ) : Option (Text → ℕ) := c.map fun v f => v * 100 + f.length

/-- The hypotheses are met: the results are stored, or three of them if the fourth is refused, or none if the working
directory is local and new. -/
example : WorksIn exSettings "b".toList "out".toList ∧
    (main exSettings "/tmp/x".toList exCalculate (fun _ => false) exWorld).2 = none ∧
    (main exSettings "/tmp/x".toList exCalculate (fun _ => false) exWorld).1.remote ("b".toList, "out/local_wind.tif".toList) =
      some 714 ∧
    (main exSettings "/tmp/x".toList exCalculate (fun p => p = ("b".toList, "out/uu_prj.tif".toList)) exWorld).2 =
      some .clientError ∧
    (main exSettings "/tmp/x".toList exCalculate (fun p => p = ("b".toList, "out/uu_prj.tif".toList)) exWorld).1.remote
      ("b".toList, "out/vv_prj.tif".toList) = some 710 ∧
    (main exSettings "/tmp/x".toList exCalculate (fun p => p = ("b".toList, "out/uu_prj.tif".toList)) exWorld).1.remote
      ("b".toList, "out/bear_prj.tif".toList) = none ∧
    (main { exSettings with workingDir := "/data/out".toList } "/tmp/x".toList exCalculate (fun _ => false) exWorld).2 =
      some .noDirectory := by
  refine ⟨⟨by decide +kernel, by decide +kernel, by decide +kernel, by decide +kernel, Or.inl (by decide +kernel)⟩, ?_⟩
  decide +kernel

/-- The gust file of the example is stored. -/
example : GustContent exWorld exSettings (some 7) :=
  Or.inl ⟨"b".toList, "in/gust.nc".toList, by decide +kernel, Or.inl (by decide +kernel), by decide +kernel, by decide +kernel⟩

example : (main { exSettings with temporary := some "/scratch".toList } "/tmp/x".toList exCalculate (fun _ => false)
    { exWorld with dirs := fun d => d = "/scratch/".toList }).2 = none ∧
    "/vsis3/".toList <+: exSettings.workingDir := by
  decide +kernel

example : FileIn "/data/out".toList "/data/out/uu_prj.tif".toList "uu_prj.tif".toList ∧
    FileIn "/data/out/".toList "/data/out/uu_prj.tif".toList "uu_prj.tif".toList := by
  rw [fileIn_iff, fileIn_iff]
  decide +kernel

end Tcrm.RemoteRun
