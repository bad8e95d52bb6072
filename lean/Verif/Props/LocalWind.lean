import Verif.Model.LocalWind
import Verif.Props.Multipliers
/-!
C157: the local winds of the wind-field stage use the configured multipliers.
-/
namespace Tcrm.LocalWind

open Tcrm.Multipliers Tcrm.Spec

variable {G : Type}

/-- The eight directions in which multipliers are given. -/
def directions : List String := ["n", "ne", "e", "se", "s", "sw", "w", "nw"]

theorem mapM_some {α β : Type} (f : α → Option β) : ∀ (l : List α) (r : List β), l.mapM f = some r →
    ∀ i : ℕ, r[i]? = (l[i]?).bind f
  | [], r, h, i => by simp at h; subst h; simp
  | a :: l, r, h, i => by
    rw [List.mapM_cons] at h
    cases ha : f a with
    | none => simp [ha] at h
    | some b =>
      cases hl : l.mapM f with
      | none => simp [ha, hl] at h
      | some r' =>
        simp [ha, hl] at h
        subst h
        cases i with
        | zero => simp [ha]
        | succ i => simpa using mapM_some f l r' hl i

theorem mapM_none {α β : Type} (f : α → Option β) : ∀ (l : List α), l.mapM f = none ↔ ∃ a ∈ l, f a = none
  | [] => by simp
  | a :: l => by
    rw [List.mapM_cons]
    cases ha : f a with
    | none => simp [ha]
    | some b =>
      cases hl : l.mapM f with
      | none => have := (mapM_none f l).1 hl; simp [ha, hl, this]
      | some r =>
        have : ¬ ∃ x ∈ l, f x = none := fun h => by rw [(mapM_none f l).2 h] at hl; cases hl
        simp [ha, hl]
        push Not at this
        exact this

theorem indices_dirs (p : String → Prop) : (∃ e ∈ indices, p e.1) ↔ ∃ d ∈ directions, p d := by
  simp [indices, directions]
  tauto

/-- C157: where the files are looked for. A configured path that begins with a slash is taken as it is; any other one is
in the folder of the wind fields, as are the files `m4_n.tif` and so on. -/
theorem C157_paths (folder rest b : Path) (hf : folder ≠ []) (hs : folder.getLast? ≠ some '/')
    (hb : b.head? ≠ some '/') (d : String) : join folder ('/' :: rest) = '/' :: rest ∧ join folder b = folder ++ '/' :: b ∧
      join (folder ++ ['/']) b = folder ++ '/' :: b ∧
      directionFile folder d = folder ++ '/' :: 'm' :: '4' :: '_' :: d.toList ++ ".tif".toList := by
  refine ⟨by simp [join], ?_, ?_, ?_⟩
  · rw [join, if_neg hb, if_neg (by simp [hf, hs])]
  · rw [join, if_neg hb, if_pos (by simp)]; simp
  · have h1 : ("m4_" ++ d ++ ".tif").toList = 'm' :: '4' :: '_' :: d.toList ++ ".tif".toList := by
      rw [String.toList_append, String.toList_append]; rfl
    rw [directionFile, h1, join, if_neg (by simp), if_neg (by simp [hf, hs])]; simp

/-- C157: the local winds are not calculated, and the run ends with an exception, exactly if the configured file is
missing or the multipliers of one of the eight directions are missing in the folder of the wind fields. -/
theorem C157_fails_iff (disk : Path → Option (Raster G)) (folder configured : Path) (onto : G → ℕ → ℕ → ℝ × ℝ) :
    calcLocalWindfield disk folder configured onto = none ↔
      disk (join folder configured) = none ∨ ∃ d ∈ directions, disk (directionFile folder d) = none := by
  unfold calcLocalWindfield
  rw [← indices_dirs fun d => disk (directionFile folder d) = none, ← mapM_none]
  cases h1 : disk (join folder configured) with
  | none => simp
  | some m =>
    cases h2 : indices.mapM fun e => disk (directionFile folder e.1) <;> simp [h2]

/-- C157 (the failure): with the multipliers in the configured place only, and none in the folder of the wind fields, no
local wind is calculated. -/
theorem C157_configured_fails (disk : Path → Option (Raster G)) (folder configured : Path)
    (onto : G → ℕ → ℕ → ℝ × ℝ) (h : disk (directionFile folder "n") = none) :
    calcLocalWindfield disk folder configured onto = none :=
  (C157_fails_iff disk folder configured onto).2 (.inr ⟨"n", by decide, h⟩)

/-- C157 (the failure): where local winds are calculated, the multipliers in the configured file have no effect on them,
only its grid has. -/
theorem C157_values_fails (disk disk' : Path → Option (Raster G)) (folder configured : Path)
    (onto : G → ℕ → ℕ → ℝ × ℝ) (m m' : Raster G) (hm : disk (join folder configured) = some m)
    (hm' : disk' (join folder configured) = some m') (hg : m.grid = m'.grid)
    (h : ∀ d ∈ directions, disk (directionFile folder d) = disk' (directionFile folder d)) :
    calcLocalWindfield disk folder configured onto = calcLocalWindfield disk' folder configured onto := by
  have : (indices.mapM fun e => disk (directionFile folder e.1)) =
      indices.mapM fun e => disk' (directionFile folder e.1) := by
    simp [directions] at h
    obtain ⟨h1, h2, h3, h4, h5, h6, h7, h8⟩ := h
    simp [indices, h1, h2, h3, h4, h5, h6, h7, h8]
  unfold calcLocalWindfield
  rw [hm, hm', this]
  simp only [hg]

/-- C157 (part): where local winds are calculated, each is the wind at its place times the multiplier of the direction
nearest to the bearing, as given in the folder of the wind fields. Missing: the configured multipliers (see above). -/
theorem C157_folder_partial (disk : Path → Option (Raster G)) (folder configured : Path)
    (onto : G → ℕ → ℕ → ℝ × ℝ) (loc : ℕ → ℕ → ℝ)
    (h : calcLocalWindfield disk folder configured onto = some loc) (r c : ℕ) :
    ∃ m, disk (join folder configured) = some m ∧ ∀ e ∈ compass, 0 ≤ (onto m.grid r c).2 → (onto m.grid r c).2 < 360 →
      Nearest e.2 (onto m.grid r c).2 → ∃ x : Raster G, disk (directionFile folder e.1) = some x ∧
        loc r c = (onto m.grid r c).1 * x.value r c := by
  unfold calcLocalWindfield at h
  cases h1 : disk (join folder configured) with
  | none => simp [h1] at h
  | some m =>
    cases h2 : indices.mapM fun e => disk (directionFile folder e.1) with
    | none => simp [h1, h2] at h
    | some m4 =>
      simp only [h1, h2, Option.some.injEq] at h
      refine ⟨m, rfl, ?_⟩
      intro e he h0 h360 hn
      have hget := mapM_some _ _ _ h2
      have hall : ∀ d ∈ directions, ∃ x, disk (directionFile folder d) = some x := by
        intro d hd
        by_contra hcon
        have hnone : disk (directionFile folder d) = none := by
          cases hx : disk (directionFile folder d) with
          | none => rfl
          | some x => exact absurd ⟨x, hx⟩ hcon
        have := (indices_dirs fun d => disk (directionFile folder d) = none).2 ⟨d, hd, hnone⟩
        rw [(mapM_none _ _).2 this] at h2
        cases h2
      have hed : e.1 ∈ directions := by
        revert he
        simp only [compass, List.mem_cons, List.not_mem_nil, or_false]
        rintro (rfl | rfl | rfl | rfl | rfl | rfl | rfl | rfl) <;> decide
      obtain ⟨x, hx⟩ := hall e.1 hed
      refine ⟨x, hx, ?_⟩
      have hfun : (localWind (onto m.grid r c).1 (onto m.grid r c).2 fun i => ((m4[i]?).map fun x => x.value r c).getD 0) =
          localWind (onto m.grid r c).1 (onto m.grid r c).2
            (fromFiles fun d => ((disk (directionFile folder d)).map fun x => x.value r c).getD 0) := by
        have key : ∀ i < 9, ((m4[i]?).map fun x => x.value r c).getD 0 =
            fromFiles (fun d => ((disk (directionFile folder d)).map fun x => x.value r c).getD 0) i := by
          intro i hi
          unfold fromFiles
          rw [hget i]
          interval_cases i <;> simp [indices]
        unfold localWind
        simp [indices, List.zipIdx, key 0 (by norm_num), key 1 (by norm_num), key 2 (by norm_num), key 3 (by norm_num),
          key 4 (by norm_num), key 5 (by norm_num), key 6 (by norm_num), key 7 (by norm_num), key 8 (by norm_num)]
      rw [← h]
      refine hfun.trans ?_
      rw [C51_selects _ _ _ h0 h360 e he hn, hx]
      rfl

/-- C157 (the failure): where the local winds cannot be calculated, a run saves the gusts of one more track and ends:
after it the files are those present before and that of the first track which had none. -/
theorem C157_one_track_fails {T : Type} (name : T → GustFiles.Name) (ts : List T) (present : List GustFiles.Name) :
    dumpGusts name (fun _ => false) ts present =
      match ts.find? fun t => decide (name t ∉ present) with
      | none => (present, true)
      | some t => (present ++ [name t], false) := by
  induction ts with
  | nil => rfl
  | cons t ts ih =>
    unfold dumpGusts
    by_cases h : name t ∈ present
    · simp [h, ih]
    · simp [h]

/-- C157 (part): where they can, every track gets its file of gusts, and those present are kept. -/
theorem C157_all_tracks_partial {T : Type} (name : T → GustFiles.Name) (ts : List T) (present : List GustFiles.Name) :
    (dumpGusts name (fun _ => true) ts present).2 = true ∧
      ∀ n, n ∈ (dumpGusts name (fun _ => true) ts present).1 ↔ n ∈ present ∨ ∃ t ∈ ts, name t = n := by
  induction ts generalizing present with
  | nil => simp [dumpGusts]
  | cons t ts ih =>
    unfold dumpGusts
    by_cases h : name t ∈ present
    · simp only [h, if_true]
      refine ⟨(ih present).1, fun n => ?_⟩
      rw [(ih present).2]
      constructor
      · rintro (h | ⟨t', ht', rfl⟩)
        · exact .inl h
        · exact .inr ⟨t', by simp [ht'], rfl⟩
      · rintro (h | ⟨t', ht', rfl⟩)
        · exact .inl h
        · rcases List.mem_cons.1 ht' with rfl | ht'
          · exact .inl h
          · exact .inr ⟨t', ht', rfl⟩
    · simp only [h, if_false, if_true]
      refine ⟨(ih _).1, fun n => ?_⟩
      rw [(ih _).2]
      simp only [List.mem_append, List.mem_singleton, List.mem_cons, exists_eq_or_imp, List.not_mem_nil, or_false]
      constructor
      · rintro ((h | rfl) | h)
        · exact .inl h
        · exact .inr (.inl rfl)
        · exact .inr (.inr h)
      · rintro (h | rfl | h)
        · exact .inl (.inl h)
        · exact .inl (.inr rfl)
        · exact .inr h

/-- Multipliers of 2 in every file of the folder, a wind of 30 m/s from the east; the configured file has others. -/
noncomputable example : ∃ loc, calcLocalWindfield (G := Unit)
    (fun p => if p = "/data/m4.tif".toList then some ⟨(), fun _ _ => 7⟩ else some ⟨(), fun _ _ => 2⟩)
    "/out/windfield".toList "/data/m4.tif".toList (fun _ _ _ => (30, 90)) = some loc ∧ loc 0 0 = 60 := by
  have hj : join "/out/windfield".toList "/data/m4.tif".toList = "/data/m4.tif".toList := by decide
  refine ⟨_, by
    unfold calcLocalWindfield
    rw [hj]
    simp only [if_true]
    rw [show (indices.mapM fun e => (if directionFile "/out/windfield".toList e.1 = "/data/m4.tif".toList then
      some (⟨(), fun _ _ => 7⟩ : Raster Unit) else some ⟨(), fun _ _ => 2⟩)) =
      some (List.replicate 9 ⟨(), fun _ _ => 2⟩) from by
        simp [indices, directionFile, join]], ?_⟩
  norm_num [localWind, indices, List.zipIdx]

example : directionFile "/out/windfield".toList "ne" = "/out/windfield/m4_ne.tif".toList := by decide

/-- Three tracks, the first done before: a failing run does the second only. -/
example : dumpGusts (fun k : ℕ => GustFiles.gustName (0, k)) (fun _ => false) [1, 2, 3] [GustFiles.gustName (0, 1)] =
    ([GustFiles.gustName (0, 1), GustFiles.gustName (0, 2)], false) := by decide +kernel

end Tcrm.LocalWind
