import Verif.Spec.Folders
import Mathlib.Data.List.Basic
import Mathlib.Tactic.Linarith
/-!
C165: the output folders of a run.
-/
namespace Tcrm.Folders

theorem above_cons {x : String} {p q : Path} : Above q (x :: p) ↔ q = x :: p ∨ Above q p := List.suffix_cons_iff

theorem above_self (p : Path) : Above p p := List.suffix_refl p

/-- Nothing that was there is lost or changed, and only allowed folders at the given path or above are added. -/
structure Extends (allowed : Path → Bool) (ds : List Path) (fs fs' : FS) : Prop where
  kept : ∀ p v, fs p = some v → fs' p = some v
  added : ∀ p, fs p = none → fs' p = none ∨ (fs' p = some .dir ∧ allowed p = true ∧ ∃ d ∈ ds, Above p d)

theorem Extends.refl (allowed : Path → Bool) (ds : List Path) (fs : FS) : Extends allowed ds fs fs :=
  ⟨fun _ _ h => h, fun _ h => .inl h⟩

theorem Extends.trans {allowed : Path → Bool} {ds : List Path} {a b c : FS} (h : Extends allowed ds a b)
    (h' : Extends allowed ds b c) : Extends allowed ds a c := by
  refine ⟨fun p v e => h'.kept p v (h.kept p v e), fun p e => ?_⟩
  rcases h.added p e with e' | ⟨e', r⟩
  · exact h'.added p e'
  · exact .inr ⟨h'.kept p _ e', r⟩

theorem Extends.mono {allowed : Path → Bool} {ds ds' : List Path} {a b : FS} (h : Extends allowed ds a b)
    (hd : ∀ d ∈ ds, ∃ d' ∈ ds', Above d d') : Extends allowed ds' a b := by
  refine ⟨h.kept, fun p e => ?_⟩
  rcases h.added p e with e' | ⟨e', r, d, hm, hp⟩
  · exact .inl e'
  · obtain ⟨d', hm', hp'⟩ := hd d hm
    exact .inr ⟨e', r, d', hm', hp.trans hp'⟩

theorem mkdir_cases (allowed : Path → Bool) (w : World) (x : String) (p : Path) :
    (mkdir allowed w (x :: p)).1 = w ∨
    (w.fs (x :: p) = none ∧ w.fs p = some .dir ∧ allowed (x :: p) = true ∧
      (mkdir allowed w (x :: p)).1 = ⟨Function.update w.fs (x :: p) (some .dir), w.left.map (· - 1)⟩) := by
  simp only [mkdir]
  by_cases hl : w.left = some 0
  · rw [if_pos hl]; exact .inl rfl
  · rw [if_neg hl]
    cases h1 : w.fs (x :: p) with
    | some v => exact .inl rfl
    | none =>
      cases h2 : w.fs p with
      | none => exact .inl rfl
      | some v =>
        cases v with
        | file c => exact .inl rfl
        | dir =>
          cases ha : allowed (x :: p) with
          | false => exact .inl rfl
          | true => exact .inr ⟨rfl, rfl, rfl, rfl⟩

theorem mkdir_extends (allowed : Path → Bool) (w : World) (d : Path) :
    Extends allowed [d] w.fs (mkdir allowed w d).1.fs := by
  cases d with
  | nil => exact Extends.refl _ _ _
  | cons x p =>
    rcases mkdir_cases allowed w x p with h | ⟨h1, h2, ha, h⟩
    · rw [h]; exact Extends.refl _ _ _
    · rw [h]
      refine ⟨fun q v e => ?_, fun q e => ?_⟩
      · simp only [Function.update_apply]
        split
        · next h => rw [h, h1] at e; cases e
        · exact e
      · simp only [Function.update_apply]
        split
        · next h => exact .inr ⟨rfl, by rw [h]; exact ha, _, List.mem_singleton_self _, by rw [h]; exact above_self _⟩
        · exact .inl e

theorem makedirs_extends (allowed : Path → Bool) (d : Path) : ∀ w : World,
    Extends allowed [d] w.fs (makedirs allowed w d).1.fs := by
  induction d with
  | nil => intro w; exact mkdir_extends _ _ _
  | cons x p ih =>
    intro w
    have hup : ∀ {a b : FS}, Extends allowed [p] a b → Extends allowed [x :: p] a b := fun h => h.mono (by
      intro d hd
      rw [List.mem_singleton.1 hd]
      exact ⟨_, List.mem_singleton_self _, above_cons.2 (.inr (above_self _))⟩)
    unfold makedirs
    split
    · have := hup (ih w)
      split
      · next w' h => rw [h] at this; exact this.trans (mkdir_extends _ _ _)
      · next w' h => rw [h] at this; exact this.trans (mkdir_extends _ _ _)
      · next w' e _ h => rw [h] at this; exact this
    · exact mkdir_extends _ _ _

theorem create_extends (allowed : Path → Bool) (ds : List Path) : ∀ w : World,
    Extends allowed ds w.fs (create allowed w ds).1.fs := by
  induction ds with
  | nil => intro w; exact Extends.refl _ _ _
  | cons d ds ih =>
    intro w
    have hup : ∀ {a b : FS}, Extends allowed ds a b → Extends allowed (d :: ds) a b := fun h => h.mono
      fun d' hd => ⟨d', List.mem_cons_of_mem _ hd, above_self _⟩
    have hone : ∀ {a b : FS}, Extends allowed [d] a b → Extends allowed (d :: ds) a b := fun h => h.mono (by
      intro d' hd
      rw [List.mem_singleton.1 hd]
      exact ⟨d, List.mem_cons_self, above_self _⟩)
    unfold create
    split
    · exact hup (ih w)
    · have := hone (makedirs_extends allowed d w)
      split
      · next w' h => rw [h] at this; exact this.trans (hup (ih w'))
      · exact this

/-! ### A sound file system stays so -/

theorem mkdir_sound {allowed : Path → Bool} {w : World} {d : Path} (h : Sound w.fs) : Sound (mkdir allowed w d).1.fs := by
  cases d with
  | nil => exact h
  | cons x p =>
    rcases mkdir_cases allowed w x p with e | ⟨h1, h2, ha, e⟩
    · rw [e]; exact h
    · rw [e]
      refine ⟨?_, fun y q hq => ?_⟩
      · simp only [Function.update_apply]
        rw [if_neg (by simp)]
        exact h.root
      · simp only [Function.update_apply] at hq ⊢
        split
        · rfl
        · split at hq
          · next e => cases e; exact h2
          · exact h.parent y q hq

theorem makedirs_sound {allowed : Path → Bool} {d : Path} : ∀ {w : World}, Sound w.fs →
    Sound (makedirs allowed w d).1.fs := by
  induction d with
  | nil => intro w h; exact mkdir_sound h
  | cons x p ih =>
    intro w h
    unfold makedirs
    split
    · have := ih h (w := w)
      split
      · next h' => rw [h'] at this; exact mkdir_sound this
      · next h' => rw [h'] at this; exact mkdir_sound this
      · next h' => rw [h'] at this; exact this
    · exact mkdir_sound h

theorem create_sound {allowed : Path → Bool} {ds : List Path} : ∀ {w : World}, Sound w.fs →
    Sound (create allowed w ds).1.fs := by
  induction ds with
  | nil => intro w h; exact h
  | cons d ds ih =>
    intro w h
    unfold create
    split
    · exact ih h
    · have := makedirs_sound (allowed := allowed) (d := d) h
      split
      · next h' => rw [h'] at this; exact ih this
      · exact this

/-- In a sound file system everything above a folder is a folder. -/
theorem Sound.above {fs : FS} (h : Sound fs) {d : Path} (hd : fs d ≠ none) {p : Path} (hp : Above p d) (hne : p ≠ d) :
    fs p = some .dir := by
  induction d with
  | nil => exact absurd (List.suffix_nil.1 hp) hne
  | cons x q ih =>
    have hq := h.parent x q hd
    rcases above_cons.1 hp with e | e
    · exact absurd e hne
    · by_cases hpq : p = q
      · rw [hpq]; exact hq
      · exact ih (by rw [hq]; simp) e hpq

/-! ### Success -/

theorem mkdir_left {allowed : Path → Bool} {w : World} {d : Path} (h : w.left = none) : (mkdir allowed w d).1.left = none := by
  cases d with
  | nil => exact h
  | cons x p =>
    rcases mkdir_cases allowed w x p with e | ⟨_, _, _, e⟩
    · rw [e]; exact h
    · rw [e]; simp [h]

theorem makedirs_left {allowed : Path → Bool} {d : Path} : ∀ {w : World}, w.left = none →
    (makedirs allowed w d).1.left = none := by
  induction d with
  | nil => intro w h; exact mkdir_left h
  | cons x p ih =>
    intro w h
    unfold makedirs
    split
    · have := ih h (w := w)
      split
      · next h' => rw [h'] at this; exact mkdir_left this
      · next h' => rw [h'] at this; exact mkdir_left this
      · next h' => rw [h'] at this; exact this
    · exact mkdir_left h

/-- Making a missing folder succeeds exactly if it is possible; then it is there. -/
theorem makedirs_ok {allowed : Path → Bool} {d : Path} : ∀ {w : World}, Sound w.fs → w.left = none → w.fs d = none →
    ((makedirs allowed w d).2 = none ↔ Possible allowed w.fs d) ∧
    ((makedirs allowed w d).2 = none → (makedirs allowed w d).1.fs d = some .dir) ∧
    (makedirs allowed w d).2 ≠ some .exists := by
  induction d with
  | nil => intro w h _ hd; rw [h.root] at hd; cases hd
  | cons x p ih =>
    intro w hs hl hd
    have key : ∀ {w' : World}, w'.left = none → w'.fs (x :: p) = none →
        ((mkdir allowed w' (x :: p)).2 = none ↔ w'.fs p = some .dir ∧ allowed (x :: p) = true) ∧
        ((mkdir allowed w' (x :: p)).2 = none → (mkdir allowed w' (x :: p)).1.fs (x :: p) = some .dir) ∧
        (mkdir allowed w' (x :: p)).2 ≠ some .exists := by
      intro w' hl' hd'
      simp only [mkdir]
      rw [if_neg (by rw [hl']; simp), hd']
      cases hp : w'.fs p with
      | none => simp
      | some v =>
        cases v with
        | file c => simp
        | dir =>
          cases ha : allowed (x :: p) with
          | false => simp
          | true => simp
    by_cases hp : w.fs p = none
    · have hP : Possible allowed w.fs (x :: p) ↔ Possible allowed w.fs p ∧ allowed (x :: p) = true := by
        constructor
        · intro h
          refine ⟨fun q hq => h q (above_cons.2 (.inr hq)), ?_⟩
          rcases h _ (above_self _) with e | ⟨_, e⟩
          · rw [hd] at e; cases e
          · exact e
        · rintro ⟨h, ha⟩ q hq
          rcases above_cons.1 hq with e | e
          · rw [e]; exact .inr ⟨hd, ha⟩
          · exact h q e
      obtain ⟨h1, h2, h3⟩ := ih hs hl hp
      unfold makedirs
      rw [if_pos (by rw [hp]; rfl)]
      have hext := makedirs_extends allowed p w
      have hleft := makedirs_left (allowed := allowed) (d := p) hl
      rcases hm : makedirs allowed w p with ⟨w', e⟩
      rw [hm] at h1 h2 h3 hext hleft
      cases e with
      | none =>
        simp only at h1 h2 h3 hext hleft ⊢
        have hd' : w'.fs (x :: p) = none := by
          rcases hext.added _ hd with e | ⟨_, _, d, hm, ha⟩
          · exact e
          · rw [List.mem_singleton.1 hm] at ha
            have := ha.length_le
            simp at this
        obtain ⟨k1, k2, k3⟩ := key hleft hd'
        refine ⟨?_, k2, k3⟩
        rw [k1, hP, ← h1]
        simp [h2]
      | some e =>
        have hne : e ≠ .exists := fun h => h3 (by rw [h])
        have : ¬ Possible allowed w.fs (x :: p) := fun h => by
          have := h1.2 (hP.1 h).1
          simp at this
        cases e <;> simp_all
    · unfold makedirs
      rw [if_neg (by rw [Option.isNone_iff_eq_none]; exact hp)]
      obtain ⟨k1, k2, k3⟩ := key hl hd
      refine ⟨?_, k2, k3⟩
      rw [k1]
      constructor
      · rintro ⟨a, b⟩ q hq
        rcases above_cons.1 hq with e | e
        · rw [e]; exact .inr ⟨hd, b⟩
        · by_cases hqp : q = p
          · rw [hqp]; exact .inl a
          · exact .inl (hs.above hp e hqp)
      · intro h
        refine ⟨?_, ?_⟩
        · rcases h p (above_cons.2 (.inr (above_self _))) with e | ⟨e, _⟩
          · exact e
          · exact absurd e hp
        · rcases h _ (above_self _) with e | ⟨_, e⟩
          · rw [hd] at e; cases e
          · exact e

/-- A file at the place of the folder -/
theorem makedirs_file {allowed : Path → Bool} {w : World} {d : Path} {c : String} (hs : Sound w.fs) (hl : w.left = none)
    (hd : w.fs d = some (.file c)) : makedirs allowed w d = (w, some .exists) := by
  cases d with
  | nil => rw [hs.root] at hd; cases hd
  | cons x p =>
    unfold makedirs
    rw [if_neg (by rw [hs.parent x p (by rw [hd]; simp)]; simp)]
    simp only [mkdir]
    rw [if_neg (by rw [hl]; simp), hd]

theorem possible_extends {allowed : Path → Bool} {ds : List Path} {fs fs' : FS} (h : Extends allowed ds fs fs') (d : Path) :
    Possible allowed fs' d ↔ Possible allowed fs d := by
  constructor
  · intro hp q hq
    cases e : fs q with
    | some v =>
      have hk := h.kept q v e
      rcases hp q hq with e' | ⟨e', _⟩
      · rw [hk] at e'; exact .inl e'
      · rw [hk] at e'; cases e'
    | none =>
      refine .inr ⟨rfl, ?_⟩
      rcases h.added q e with e' | ⟨_, ha, _⟩
      · rcases hp q hq with e'' | ⟨_, ha⟩
        · rw [e'] at e''; cases e''
        · exact ha
      · exact ha
  · intro hp q hq
    rcases hp q hq with e | ⟨e, ha⟩
    · exact .inl (h.kept q _ e)
    · rcases h.added q e with e' | ⟨e', _⟩
      · exact .inr ⟨e', ha⟩
      · exact .inl e'

theorem create_ok {allowed : Path → Bool} (ds : List Path) : ∀ {w : World}, Sound w.fs → w.left = none →
    ((create allowed w ds).2 = none ↔ ∀ d ∈ ds, Possible allowed w.fs d) ∧
    ((create allowed w ds).2 = none → ∀ d ∈ ds, (create allowed w ds).1.fs d = some .dir) := by
  induction ds with
  | nil => intro w _ _; simp [create]
  | cons d ds ih =>
    intro w hs hl
    unfold create
    by_cases hd : w.fs d = some .dir
    · rw [if_pos hd]
      obtain ⟨h1, h2⟩ := ih hs hl
      have hpd : Possible allowed w.fs d := by
        intro q hq
        by_cases e : q = d
        · rw [e]; exact .inl hd
        · exact .inl (hs.above (by rw [hd]; simp) hq e)
      refine ⟨?_, fun h => ?_⟩
      · rw [h1, List.forall_mem_cons]; exact ⟨fun h => ⟨hpd, h⟩, fun h => h.2⟩
      · rw [List.forall_mem_cons]
        exact ⟨(create_extends allowed ds w).kept d _ hd, h2 h⟩
    · rw [if_neg hd]
      cases e : w.fs d with
      | some v =>
        cases v with
        | dir => exact absurd e hd
        | file c =>
          rw [makedirs_file hs hl e]
          simp only [reduceCtorEq, false_iff, List.forall_mem_cons, not_and, false_implies, and_true]
          intro h
          rcases h d (above_self _) with e' | ⟨e', _⟩ <;> rw [e] at e' <;> cases e'
      | none =>
        obtain ⟨k1, k2, k3⟩ := makedirs_ok (allowed := allowed) hs hl e
        have hext := makedirs_extends allowed d w
        have hleft := makedirs_left (allowed := allowed) (d := d) hl
        have hsound := makedirs_sound (allowed := allowed) (d := d) hs
        rcases hm : makedirs allowed w d with ⟨w', er⟩
        rw [hm] at k1 k2 k3 hext hleft hsound
        cases er with
        | none =>
          simp only at k1 k2 hext hleft hsound ⊢
          obtain ⟨h1, h2⟩ := ih hsound hleft
          refine ⟨?_, fun h => ?_⟩
          · rw [h1, List.forall_mem_cons]
            simp only [possible_extends hext, true_iff] at k1 ⊢
            exact ⟨fun h => ⟨k1, h⟩, fun h => h.2⟩
          · rw [List.forall_mem_cons]
            exact ⟨(create_extends allowed ds w').kept d _ (k2 trivial), h2 h⟩
        | some er =>
          simp only [reduceCtorEq, false_iff] at k1 ⊢
          refine ⟨fun h => k1 (h d List.mem_cons_self), fun h => nomatch h⟩

/-! ### The claims -/

/-- C165: whatever happens - success, an exception, or the process being killed at any point - everything that existed
is as it was, and whatever is new is a folder that is one of those asked for or above one. -/
theorem C165_nothing_lost (allowed : Path → Bool) (w : World) (ds : List Path) :
    (∀ p v, w.fs p = some v → (create allowed w ds).1.fs p = some v) ∧
    (∀ p v, w.fs p = none → (create allowed w ds).1.fs p = some v → v = .dir ∧ ∃ d ∈ ds, Above p d) := by
  have h := create_extends allowed ds w
  refine ⟨h.kept, fun p v e e' => ?_⟩
  rcases h.added p e with e'' | ⟨e'', _, hd⟩
  · rw [e'] at e''; cases e''
  · rw [e'] at e''; cases e''; exact ⟨rfl, hd⟩

/-- C165: it succeeds if and only if at none of the paths, nor above them, there is something else than a folder or a
place where the system lets no folder be created. -/
theorem C165_succeeds_iff {allowed : Path → Bool} {fs : FS} (hs : Sound fs) (ds : List Path) :
    (create allowed ⟨fs, none⟩ ds).2 = none ↔ ∀ d ∈ ds, Possible allowed fs d :=
  (create_ok ds hs rfl).1

/-- C165: after success the folders asked for and those above them are there, and nothing else has changed. -/
theorem C165_created {allowed : Path → Bool} {fs : FS} (hs : Sound fs) {ds : List Path}
    (h : (create allowed ⟨fs, none⟩ ds).2 = none) (p : Path) :
    ((∃ d ∈ ds, Above p d) → (create allowed ⟨fs, none⟩ ds).1.fs p = some .dir) ∧
    ((¬∃ d ∈ ds, Above p d) → (create allowed ⟨fs, none⟩ ds).1.fs p = fs p) := by
  have hext := create_extends allowed ds ⟨fs, none⟩
  have hsound := create_sound (allowed := allowed) (ds := ds) (w := ⟨fs, none⟩) hs
  constructor
  · rintro ⟨d, hd, hp⟩
    have hdir := (create_ok ds (w := ⟨fs, none⟩) hs rfl).2 h d hd
    by_cases e : p = d
    · rw [e]; exact hdir
    · exact hsound.above (by rw [hdir]; simp) hp e
  · intro hn
    cases e : fs p with
    | some v => exact hext.kept p v e
    | none =>
      rcases hext.added p e with e' | ⟨_, _, hd⟩
      · exact e'
      · exact absurd hd hn

/-- C165: a run that was killed after any number of folders had been created is completed by the next one: it succeeds
if and only if the first one would have, and leaves the same files and folders. -/
theorem C165_restart {allowed : Path → Bool} {fs : FS} (hs : Sound fs) (ds : List Path) (k : ℕ) :
    let half := (create allowed ⟨fs, some k⟩ ds).1.fs
    ((create allowed ⟨half, none⟩ ds).2 = none ↔ (create allowed ⟨fs, none⟩ ds).2 = none) ∧
    ((create allowed ⟨fs, none⟩ ds).2 = none →
      (create allowed ⟨half, none⟩ ds).1.fs = (create allowed ⟨fs, none⟩ ds).1.fs) := by
  intro half
  have hext : Extends allowed ds fs half := create_extends allowed ds ⟨fs, some k⟩
  have hsound : Sound half := create_sound (allowed := allowed) (ds := ds) (w := ⟨fs, some k⟩) hs
  have hiff : (create allowed ⟨half, none⟩ ds).2 = none ↔ (create allowed ⟨fs, none⟩ ds).2 = none := by
    rw [C165_succeeds_iff hsound, C165_succeeds_iff hs]
    exact forall₂_congr fun d _ => possible_extends hext d
  refine ⟨hiff, fun h => ?_⟩
  funext p
  have h1 := C165_created hs h p
  have h2 := C165_created hsound (hiff.2 h) p
  by_cases hp : ∃ d ∈ ds, Above p d
  · rw [h1.1 hp, h2.1 hp]
  · rw [h1.2 hp, h2.2 hp]
    cases e : fs p with
    | some v => exact hext.kept p v e
    | none =>
      rcases hext.added p e with e' | ⟨_, _, hd⟩
      · exact e'
      · exact absurd hd hp

/-- C165: if all is there already nothing is done. -/
theorem C165_again {allowed : Path → Bool} {w : World} {ds : List Path} (h : ∀ d ∈ ds, w.fs d = some .dir) :
    create allowed w ds = (w, none) := by
  induction ds with
  | nil => rfl
  | cons d ds ih =>
    rw [List.forall_mem_cons] at h
    rw [create, if_pos h.1, ih h.2]

/-- The folders the rest of a run of tcrm.py writes to -/
theorem C165_tcrm_folders {allowed : Path → Bool} {fs : FS} (hs : Sound fs) {out : Path}
    (h : (create allowed ⟨fs, none⟩ (tcrmFolders 0 out)).2 = none) (p : Path) :
    p ∈ [["tracks"], ["hazard"], ["windfield"], ["plots"], ["hazard", "plots"], ["stats", "plots"], ["log"], ["process"],
      ["timeseries", "process"], ["dat", "process"]] →
    (create allowed ⟨fs, none⟩ (tcrmFolders 0 out)).1.fs (p ++ out) = some .dir := by
  intro hp
  refine (C165_created hs h (p ++ out)).1 ⟨p ++ out, ?_, above_self _⟩
  simp only [tcrmFolders, folders, if_true, List.mem_cons, List.mem_map]
  exact .inr ⟨p, hp, rfl⟩

/-- The folders the rest of a run of tcevent.py writes to -/
theorem C165_tcevent_folders {allowed : Path → Bool} {fs : FS} (hs : Sound fs) {out : Path}
    (h : (create allowed ⟨fs, none⟩ (tceventFolders 0 out)).2 = none) (p : Path) :
    p ∈ [["tracks"], ["windfield"], ["plots"], ["timeseries", "plots"], ["log"], ["process"], ["timeseries", "process"]] →
    (create allowed ⟨fs, none⟩ (tceventFolders 0 out)).1.fs (p ++ out) = some .dir := by
  intro hp
  refine (C165_created hs h (p ++ out)).1 ⟨p ++ out, ?_, above_self _⟩
  simp only [tceventFolders, folders, List.mem_cons, List.mem_map]
  exact .inr ⟨p, hp, rfl⟩

/-! ### Several processes -/

/-- The folders to be created by the first process alone: what it still does leads to the result `r`. -/
def Leads (allowed : Path → Bool) (r : FS × Option Err) (fs : FS) (p : Proc) : Prop :=
  match p.error with
  | some e => (fs, some e) = r
  | none => ((create allowed ⟨fs, none⟩ p.todo).1.fs, (create allowed ⟨fs, none⟩ p.todo).2) = r ∧
      (p.missing = true → ∃ d ds, p.todo = d :: ds ∧ fs d ≠ some .dir)

theorem leads_step {allowed : Path → Bool} {r : FS × Option Err} {fs : FS} {p : Proc} (h : Leads allowed r fs p) :
    Leads allowed r (p.step allowed fs).1 (p.step allowed fs).2 := by
  obtain ⟨todo, missing, error⟩ := p
  cases error with
  | some e => exact h
  | none =>
    cases todo with
    | nil => exact h
    | cons d ds =>
      obtain ⟨h1, h2⟩ := h
      simp only at h1 h2
      cases missing with
      | false =>
        simp only [Proc.step, Bool.false_eq_true, if_false]
        by_cases hd : fs d = some .dir
        · rw [if_pos hd]
          refine ⟨?_, fun e => nomatch e⟩
          simp only [create, hd, if_true] at h1
          exact h1
        · rw [if_neg hd]
          exact ⟨h1, fun _ => ⟨d, ds, rfl, hd⟩⟩
      | true =>
        obtain ⟨d', ds', e, hd⟩ := h2 rfl
        cases e
        simp only [Proc.step, if_true]
        simp only [create, hd, if_false] at h1
        have hleft := makedirs_left (allowed := allowed) (d := d) (w := ⟨fs, none⟩) rfl
        rcases hm : makedirs allowed ⟨fs, none⟩ d with ⟨⟨fs', left⟩, er⟩
        rw [hm] at h1 hleft
        simp only at hleft
        cases hleft
        cases er with
        | none => exact ⟨h1, fun e => nomatch e⟩
        | some e => exact h1

theorem runAll_spec {allowed : Path → Bool} {r : FS × Option Err} (is : List ℕ) : ∀ {fs : FS} {ps : ℕ → Proc},
    Leads allowed r fs (ps 0) → (∀ i, i ≠ 0 → (ps i).todo = [] ∧ (ps i).error = none) →
    Leads allowed r (runAll allowed fs ps is).1 ((runAll allowed fs ps is).2 0) ∧
    ∀ i, i ≠ 0 → ((runAll allowed fs ps is).2 i).error = none := by
  induction is with
  | nil => intro fs ps h hw; exact ⟨h, fun i hi => (hw i hi).2⟩
  | cons i is ih =>
    intro fs ps h hw
    simp only [runAll]
    by_cases hi : i = 0
    · subst hi
      refine ih ?_ ?_
      · rw [Function.update_self]; exact leads_step h
      · intro j hj
        rw [Function.update_of_ne hj]
        exact hw j hj
    · obtain ⟨w1, w2⟩ := hw i hi
      have hst : (ps i).step allowed fs = (fs, ps i) := by
        unfold Proc.step
        rw [w1, w2]
      rw [hst]
      simp only [Function.update_eq_self]
      exact ih h hw

/-- C165: with any number of processes of tcrm.py, in any order of their steps, no process but the first fails, and when
the first has come to its end the file system and its error are those of a run with one process. -/
theorem C165_tcrm_processes {allowed : Path → Bool} {fs : FS} {out : Path} (is : List ℕ)
    (hend : ((runAll allowed fs (start fun i => tcrmFolders i out) is).2 0).todo = [] ∨
      ((runAll allowed fs (start fun i => tcrmFolders i out) is).2 0).error ≠ none) :
    (runAll allowed fs (start fun i => tcrmFolders i out) is).1 = (create allowed ⟨fs, none⟩ (tcrmFolders 0 out)).1.fs ∧
    ((runAll allowed fs (start fun i => tcrmFolders i out) is).2 0).error = (create allowed ⟨fs, none⟩ (tcrmFolders 0 out)).2 ∧
    ∀ i, i ≠ 0 → ((runAll allowed fs (start fun i => tcrmFolders i out) is).2 i).error = none := by
  obtain ⟨h1, h2⟩ := runAll_spec (allowed := allowed)
    (r := ((create allowed ⟨fs, none⟩ (tcrmFolders 0 out)).1.fs, (create allowed ⟨fs, none⟩ (tcrmFolders 0 out)).2)) is
    (fs := fs) (ps := start fun i => tcrmFolders i out) ⟨rfl, fun e => nomatch e⟩
    (fun i hi => ⟨by simp [start, tcrmFolders, hi], rfl⟩)
  generalize runAll allowed fs (start fun i => tcrmFolders i out) is = z at h1 h2 hend ⊢
  unfold Leads at h1
  cases he : (z.2 0).error with
  | some e =>
    rw [he] at h1
    simp only [Prod.mk.injEq] at h1
    exact ⟨h1.1, h1.2, h2⟩
  | none =>
    rw [he] at h1
    simp only at h1
    have ht : (z.2 0).todo = [] := by
      rcases hend with h | h
      · exact h
      · exact absurd he h
    rw [ht] at h1
    simp only [create, Prod.mk.injEq] at h1
    exact ⟨h1.1.1, h1.1.2, h2⟩

/-- C165 fails for tcevent.py: two processes (or two runs with the same output path) both find the output folder missing,
one creates it, and the other ends with FileExistsError, although each of them alone would succeed. -/
theorem C165_tcevent_race_fails {allowed : Path → Bool} {fs : FS} {out : Path} (hs : Sound fs) (hout : fs out = none)
    (hp : Possible allowed fs out) :
    ((runAll allowed fs (start fun i => tceventFolders i out) [0, 1, 0, 1]).2 1).error = some .exists := by
  obtain ⟨k1, k2, _⟩ := makedirs_ok (allowed := allowed) (w := ⟨fs, none⟩) hs rfl hout
  have hsound := makedirs_sound (allowed := allowed) (d := out) (w := ⟨fs, none⟩) hs
  have hno := k1.2 hp
  have hyes := k2 hno
  have hleft := makedirs_left (allowed := allowed) (d := out) (w := ⟨fs, none⟩) rfl
  have hne : fs out ≠ some .dir := by rw [hout]; simp
  rcases hm : makedirs allowed ⟨fs, none⟩ out with ⟨⟨fs', left⟩, er⟩
  rw [hm] at hno hyes hsound hleft
  simp only at hno hyes hsound hleft
  subst hno hleft
  have h2 : makedirs allowed ⟨fs', none⟩ out = (⟨fs', none⟩, some .exists) := by
    cases out with
    | nil => rfl
    | cons x p =>
      unfold makedirs
      rw [if_neg (by simp [hsound.parent x p (by rw [hyes]; simp)])]
      simp only [mkdir]
      rw [if_neg (by simp), hyes]
  simp [runAll, start, tceventFolders, folders, Proc.step, hne, hm, h2]

/-! ### Examples -/

/-- A file system with a home folder and a file in it -/
def home : FS := fun p =>
  if p = [] ∨ p = ["home"] then some .dir else if p = ["notes", "home"] then some (.file "x") else none

theorem home_sound : Sound home := by
  refine ⟨rfl, fun x p h => ?_⟩
  simp only [home, reduceCtorEq, false_or] at h ⊢
  by_cases h1 : x :: p = ["home"]
  · cases h1; simp
  · rw [if_neg h1] at h
    by_cases h2 : x :: p = ["notes", "home"]
    · cases h2; simp
    · rw [if_neg h2] at h; exact absurd rfl h

/-- A new output folder: all are made; a run killed after three folders is completed; with a file in the way it fails,
and the file stays; two processes of tcevent.py. -/
example : (create (fun _ => true) ⟨home, none⟩ (tcrmFolders 0 ["out", "home"])).2 = none ∧
    (create (fun _ => true) ⟨home, none⟩ (tcrmFolders 0 ["out", "home"])).1.fs ["dat", "process", "out", "home"] = some .dir ∧
    (create (fun _ => true) ⟨home, some 3⟩ (tcrmFolders 0 ["out", "home"])).2 = some .killed ∧
    (create (fun _ => true) ⟨home, some 3⟩ (tcrmFolders 0 ["out", "home"])).1.fs ["hazard", "out", "home"] = some .dir ∧
    (create (fun _ => true) ⟨home, some 3⟩ (tcrmFolders 0 ["out", "home"])).1.fs ["plots", "out", "home"] = none ∧
    (create (fun _ => true) ⟨home, none⟩ (tceventFolders 0 ["out", "notes", "home"])).2 = some .notDirectory ∧
    (create (fun _ => true) ⟨home, none⟩ (tceventFolders 0 ["notes", "home"])).2 = some .exists ∧
    (create (fun _ => false) ⟨home, none⟩ (tceventFolders 0 ["out", "home"])).2 = some .permission := by
  decide +kernel

example : home ["out", "home"] = none ∧ Possible (fun _ => true) home ["out", "home"] := by
  refine ⟨by decide +kernel, fun p hp => ?_⟩
  rcases above_cons.1 hp with rfl | hp
  · exact .inr ⟨by decide +kernel, rfl⟩
  · rcases above_cons.1 hp with rfl | hp
    · exact .inl (by decide +kernel)
    · rw [List.suffix_nil.1 hp]; exact .inl rfl

/-- A schedule of three processes of tcrm.py in which the first comes to its end -/
example : ((runAll (fun _ => true) home (start fun i => tcrmFolders i ["out", "home"])
    ((List.replicate 22 [2, 0, 1]).flatten)).2 0).todo = [] := by decide +kernel

end Tcrm.Folders
