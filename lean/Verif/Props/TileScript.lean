import Verif.Model.TileScript
import Verif.Props.MultiplierTiles
/-!
C213: the script that collects multipliers merges those of the configured tiles.
-/
namespace Tcrm.MultTiles

theorem foldlM_slash {α : Type} {g : Work → α → Except Err Work}
    (hg : ∀ a w w', g w a = .ok w' → w'.slash = w.slash) :
    ∀ {l : List α} {w w' : Work}, l.foldlM g w = .ok w' → w'.slash = w.slash
  | [], w, w', h => by
    simp only [List.foldlM_nil, pure, Except.pure, Except.ok.injEq] at h
    rw [h]
  | a :: l, w, w', h => by
    rw [List.foldlM_cons] at h
    cases hw : g w a with
    | error e => simp [hw, bind, Except.bind] at h
    | ok w1 =>
      simp only [hw, bind, Except.bind] at h
      exact (foldlM_slash hg h).trans (hg a w w1 hw)

theorem copyFile_slash {tr : Kind → Name → Bool} {k : Kind} {w w' : Work} {s : Name}
    (h : copyFile tr k w s = .ok w') : w'.slash = w.slash := by
  unfold copyFile at h
  cases hw : w.at k with
  | none => simp [hw] at h
  | some l =>
    simp only [hw, Except.ok.injEq] at h
    rw [← h, put_slash]

theorem copyTranslate_slash {tr : Kind → Name → Bool} {src : Kind → List Name} {tiles : List Name} {w w' : Work}
    (h : copyTranslate tr src tiles w = .ok w') : w'.slash = w.slash :=
  foldlM_slash (fun _ _ _ h1 => foldlM_slash (fun _ _ _ h2 => foldlM_slash (fun _ _ _ h3 => copyFile_slash h3) h2) h1) h

theorem mergeOne_slash (w : Work) (k : Kind) (d : Name) : (mergeOne w k d).2.slash = w.slash := by
  unfold mergeOne
  cases w.at k with
  | none => rfl
  | some l =>
    dsimp only
    split
    · rfl
    · exact put_slash _ _ _

theorem mergeKind_slash (k : Kind) : ∀ (ds : List Name) (w : Work), (mergeKind k ds w).2.slash = w.slash
  | [], _ => rfl
  | d :: ds, w => by
    simp only [mergeKind]
    rw [mergeKind_slash k ds, mergeOne_slash]

theorem merge_slash : ∀ (ks : List Kind) (ds : List Name) (w : Work), (merge ks ds w).2.slash = w.slash
  | [], _, _ => rfl
  | k :: ks, ds, w => by
    simp only [merge]
    rw [merge_slash ks ds, mergeKind_slash]

theorem merge_keeps : ∀ {ks : List Kind} {w : Work} {L : Kind → List Name}, (∀ k, w.at k = some (L k)) →
    ∃ L' : Kind → List Name, (∀ k, (merge ks dirns w).2.at k = some (L' k)) ∧
      ∀ k f, ∀ d ∈ dirns, Selected (L' k) d f ↔ Selected (L k) d f
  | [], w, L, h => ⟨L, h, fun _ _ _ _ => Iff.rfl⟩
  | k :: ks, w, L, h => by
    obtain ⟨_, _, L1, hL1, hs1⟩ := mergeKind_ok (k := k) (ds := dirns) h fun _ => id
    obtain ⟨L2, hL2, hs2⟩ := merge_keeps (ks := ks) hL1
    exact ⟨L2, hL2, fun k' f d hd => (hs2 k' f d hd).trans (hs1 k' f d hd)⟩

/-- The file `f` is copied or translated from a raw file that begins with one of the texts. -/
def Brought (tr : Kind → Name → Bool) (src : Kind → List Name) (tiles : List Name) (k : Kind) (f : Name) : Prop :=
  ∃ t ∈ tiles, ∃ s ∈ src k, t <+: s ∧ (visible s = true ∨ visible t = false) ∧
    (f = s ∨ tr k s = true ∧ f = translated s)

theorem script_ok {tr : Kind → Name → Bool} {src : Kind → List Name} {tiles : List Name} {w : Work}
    {L : Kind → List Name} (hs : w.slash = true) (h : ∀ k, w.folder k = some (L k)) :
    ∃ ms w', script tr src tiles w = .ok (ms, w') ∧ w'.slash = true ∧
      ms.map (fun m => (m.kind, m.dirn)) = everyPair ∧
      (∀ m ∈ ms, ∀ f, f ∈ m.files ↔ visible f = true ∧ ('_' :: m.dirn ++ tif) <:+ f ∧
        (f ∈ L m.kind ∨ Brought tr src tiles m.kind f)) ∧
      ∃ L' : Kind → List Name, (∀ k, w'.folder k = some (L' k)) ∧ ∀ k f, ∀ d ∈ dirns,
        Selected (L' k) d f ↔ visible f = true ∧ ('_' :: d ++ tif) <:+ f ∧ (f ∈ L k ∨ Brought tr src tiles k f) := by
  have h0 : ∀ k, w.at k = some (L k) := fun k => by simp [Work.at, hs, h]
  obtain ⟨w2, he2, L2, hL2, hm2⟩ := copyTranslate_ok (tr := tr) (src := src) (tiles := tiles) h0
  obtain ⟨hk, hm⟩ := merge_ok (ks := kinds) hL2
  obtain ⟨L3, hL3, hs3⟩ := merge_keeps (ks := kinds) hL2
  have hsl : (merge kinds dirns w2).2.slash = true := by rw [merge_slash, copyTranslate_slash he2, hs]
  have hsel : ∀ k d f, Selected (L2 k) d f ↔
      visible f = true ∧ ('_' :: d ++ tif) <:+ f ∧ (f ∈ L k ∨ Brought tr src tiles k f) := by
    intro k d f
    have e : (∃ t ∈ tiles, ∃ s ∈ globTile (src k) t, Adds tr k s f) ↔ Brought tr src tiles k f := by
      simp only [globTile, List.mem_filter, List.isPrefixOf_iff_prefix, Bool.and_eq_true, Bool.or_eq_true,
        Bool.not_eq_true', Adds, Brought, and_assoc]
    rw [Selected, hm2, e]
    tauto
  refine ⟨(merge kinds dirns w2).1, (merge kinds dirns w2).2, ?_, hsl, hk, fun m hmem f => ?_, L3, fun k => ?_, ?_⟩
  · simp only [script, prepareFolders, h, he2, bind, Except.bind, pure, Except.pure]
  · rw [hm m hmem f, hsel]
  · have := hL3 k
    rwa [Work.at, hsl, if_pos rfl] at this
  · intro k f d hd
    rw [hs3 k f d hd, hsel]

/-- A file in a folder of the working directory -/
def Present (w : Work) (k : Kind) (f : Name) : Prop := ∃ l, w.folder k = some l ∧ f ∈ l

theorem prepare_none (w : Work) (h : ∀ k, w.folder k = none) :
    prepareFolders w = .ok { w with folder := fun _ => some [] } := by
  simp only [prepareFolders, h, kinds, makeFolders, Function.update_apply, if_false, reduceCtorEq]
  congr 2
  funext k
  cases k <;> simp

theorem script_none (tr : Kind → Name → Bool) (src : Kind → List Name) (tiles : List Name) (w : Work)
    (h : ∀ k, w.folder k = none) :
    script tr src tiles w = script tr src tiles { w with folder := fun _ => some [] } := by
  simp only [script, prepare_none w h]
  rfl

theorem scripts_ok {tr : Kind → Name → Bool} {src : Kind → List Name} : ∀ {hist : List (List Name)} {w : Work}
    {L : Kind → List Name}, w.slash = true → (∀ k, w.folder k = some (L k)) →
    ∃ w', scripts tr src hist w = .ok w' ∧ w'.slash = true ∧ ∃ L' : Kind → List Name, (∀ k, w'.folder k = some (L' k)) ∧
      ∀ k f, ∀ d ∈ dirns, Selected (L' k) d f ↔
        visible f = true ∧ ('_' :: d ++ tif) <:+ f ∧ (f ∈ L k ∨ ∃ tiles ∈ hist, Brought tr src tiles k f)
  | [], w, L, hs, h => ⟨w, rfl, hs, L, h, fun k f d _ => by simp [Selected]; tauto⟩
  | tiles :: rest, w, L, hs, h => by
    obtain ⟨ms, w1, he1, hs1, _, _, L1, hL1, hm1⟩ := script_ok (tr := tr) (src := src) (tiles := tiles) hs h
    obtain ⟨w2, he2, hs2, L2, hL2, hm2⟩ := scripts_ok (tr := tr) (src := src) (hist := rest) hs1 hL1
    refine ⟨w2, by simp only [scripts, he1, he2], hs2, L2, hL2, fun k f d hd => ?_⟩
    have := hm1 k f d hd
    rw [hm2 k f d hd]
    simp only [Selected] at this
    simp only [List.mem_cons, exists_eq_or_imp]
    tauto

/-- C213: in every history of runs with an output folder whose sub-folders are all there or all missing, every run makes one
merge for each kind and direction, of the visible files for that direction among those that were there at the start and
those that this run or any earlier one has brought. -/
theorem C213_merged (tr : Kind → Name → Bool) (src : Kind → List Name) (hist : List (List Name)) (tiles : List Name)
    (w : Work) (hs : w.slash = true) (hc : Consistent w) :
    ∃ w1 ms w2, scripts tr src hist w = .ok w1 ∧ script tr src tiles w1 = .ok (ms, w2) ∧
      ms.map (fun m => (m.kind, m.dirn)) = everyPair ∧
      ∀ m ∈ ms, ∀ f, f ∈ m.files ↔ visible f = true ∧ ('_' :: m.dirn ++ tif) <:+ f ∧
        (Present w m.kind f ∨ ∃ ts, (ts ∈ hist ∨ ts = tiles) ∧ Brought tr src ts m.kind f) := by
  have key : ∀ (v : Work) (L : Kind → List Name), v.slash = true → (∀ k, v.folder k = some (L k)) →
      ∃ w1 ms w2, scripts tr src hist v = .ok w1 ∧ script tr src tiles w1 = .ok (ms, w2) ∧
      ms.map (fun m => (m.kind, m.dirn)) = everyPair ∧
      ∀ m ∈ ms, ∀ f, f ∈ m.files ↔ visible f = true ∧ ('_' :: m.dirn ++ tif) <:+ f ∧
        (f ∈ L m.kind ∨ ∃ ts, (ts ∈ hist ∨ ts = tiles) ∧ Brought tr src ts m.kind f) := by
    intro v L hv hL
    obtain ⟨w1, he1, hs1, L1, hL1, hm1⟩ := scripts_ok (tr := tr) (src := src) (hist := hist) hv hL
    obtain ⟨ms, w2, he2, _, hk, hm, _⟩ := script_ok (tr := tr) (src := src) (tiles := tiles) hs1 hL1
    refine ⟨w1, ms, w2, he1, he2, hk, fun m hmem f => ?_⟩
    have hd : m.dirn ∈ dirns := by
      have : (m.kind, m.dirn) ∈ everyPair := hk ▸ List.mem_map.2 ⟨m, hmem, rfl⟩
      obtain ⟨k', _, h'⟩ := List.mem_flatMap.1 this
      obtain ⟨d', hd', h⟩ := List.mem_map.1 h'
      exact (Prod.mk.inj h).2 ▸ hd'
    have h1 := hm1 m.kind f m.dirn hd
    rw [hm m hmem f]
    simp only [Selected] at h1
    have e : (∃ ts, (ts ∈ hist ∨ ts = tiles) ∧ Brought tr src ts m.kind f) ↔
        (∃ ts ∈ hist, Brought tr src ts m.kind f) ∨ Brought tr src tiles m.kind f := by
      simp only [or_and_right, exists_or, exists_eq_left]
    rw [e]
    generalize (∃ ts ∈ hist, Brought tr src ts m.kind f) = P at h1 ⊢
    tauto
  rcases hc with hc | hc
  · have hL : ∀ k, w.folder k = some ((w.folder k).getD []) := by
      intro k
      obtain ⟨l, hl⟩ := Option.ne_none_iff_exists'.1 (hc k)
      simp [hl]
    obtain ⟨w1, ms, w2, he1, he2, hk, hm⟩ := key w _ hs hL
    refine ⟨w1, ms, w2, he1, he2, hk, fun m hmem f => ?_⟩
    have : Present w m.kind f ↔ f ∈ (w.folder m.kind).getD [] := by
      unfold Present
      rw [hL m.kind]
      simp
    rw [hm m hmem f, this]
  · have hp : ∀ k f, ¬ Present w k f := by
      rintro k f ⟨l, hl, _⟩
      rw [hc k] at hl
      cases hl
    obtain ⟨w1, ms, w2, he1, he2, hk, hm⟩ := key { w with folder := fun _ => some [] } (fun _ => []) hs (fun _ => rfl)
    have hm' : ∀ m ∈ ms, ∀ f, f ∈ m.files ↔ visible f = true ∧ ('_' :: m.dirn ++ tif) <:+ f ∧
        (Present w m.kind f ∨ ∃ ts, (ts ∈ hist ∨ ts = tiles) ∧ Brought tr src ts m.kind f) := by
      intro m hmem f
      rw [hm m hmem f]
      simp [hp]
    cases hist with
    | nil =>
      simp only [scripts, Except.ok.injEq] at he1
      subst he1
      exact ⟨w, ms, w2, rfl, by rw [script_none tr src tiles w hc]; exact he2, hk, hm'⟩
    | cons ts rest =>
      refine ⟨w1, ms, w2, ?_, he2, hk, hm'⟩
      rw [scripts, script_none tr src ts w hc]
      exact he1

/-- C213 (part): the first run with a new output folder merges the files of the configured tiles, one for each, if the texts
match the files of one tile only. -/
theorem C213_first_partial (tr : Kind → Name → Bool) (src : Kind → List Name) (tiles available : List Name) (w : Work)
    (hs : w.slash = true) (hc : ∀ k, w.folder k = none) (hsrc : Holds src available) (hu : Unambiguous tiles available)
    (hv : ∀ t ∈ available, ∃ c r, t = c :: r ∧ c ≠ '.') (htr : ∀ k, ∀ s ∈ src k, tr k s = true) :
    ∃ ms w', script tr src tiles w = .ok (ms, w') ∧
      ms.map (fun m => (m.kind, m.dirn)) = everyPair ∧
      ∀ m ∈ ms, ∀ f, f ∈ m.files ↔
        ∃ t ∈ available, (∃ text ∈ tiles, Names text t) ∧ f = imageName t m.kind m.dirn := by
  have : script tr src tiles w = collect tr src tiles w := by
    simp only [script, collect, prepareFolders, checkOutputFolders, hc, Bool.false_eq_true, if_false]
  rw [this]
  exact C173_tiles_partial tr src tiles available w hs (Or.inr hc) hsrc hu hv htr

/-- C213 (the failure): a tile of an earlier run with the same output folder is merged with those of every later run, whatever
tiles that one is given. -/
theorem C213_earlier_fails (tr : Kind → Name → Bool) (src : Kind → List Name) (hist : List (List Name)) (tiles : List Name)
    (w : Work) (hs : w.slash = true) (hc : Consistent w) (ts : List Name) (hts : ts ∈ hist) (t : Name) (ht : t ∈ ts)
    (k : Kind) (d : Name) (hd : d ∈ eight) (hsrc : rawName t k d ∈ src k) (htr : tr k (rawName t k d) = true)
    (hv : ∃ c r, t = c :: r ∧ c ≠ '.') :
    ∃ w1 ms w2, scripts tr src hist w = .ok w1 ∧ script tr src tiles w1 = .ok (ms, w2) ∧
      ∃ m ∈ ms, m.kind = k ∧ m.dirn = d ∧ imageName t k d ∈ m.files := by
  obtain ⟨w1, ms, w2, he1, he2, hk, hm⟩ := C213_merged tr src hist tiles w hs hc
  obtain ⟨c, r, rfl, hcd⟩ := hv
  have hmem : (k, d) ∈ ms.map (fun m => (m.kind, m.dirn)) := by
    rw [hk]
    exact List.mem_flatMap.2 ⟨k, by cases k <;> decide, List.mem_map.2 ⟨d, hd, rfl⟩⟩
  obtain ⟨m, hmm, he'⟩ := List.mem_map.1 hmem
  obtain ⟨rfl, rfl⟩ := Prod.mk.inj he'
  refine ⟨w1, ms, w2, he1, he2, m, hmm, rfl, rfl, (hm m hmm _).2 ⟨by simp [visible, imageName, hcd],
    (suffix_image hd hd).2 rfl, Or.inr ⟨ts, Or.inl hts, c :: r, ht, _, hsrc, ?_, Or.inl ?_,
    Or.inr ⟨htr, (translated_raw _ _ _).symm⟩⟩⟩⟩
  · simp only [rawName, List.append_assoc]; exact List.prefix_append _ _
  · simp [visible, rawName, hcd]

/-- C213: the folders are made if none is there, and left as they are if `shielding` is; if only `shielding` is missing the
run stops. -/
theorem C213_folders (w : Work) :
    (prepareFolders w = .error .fileExists ↔
      w.folder .shielding = none ∧ (w.folder .terrain ≠ none ∨ w.folder .topographic ≠ none)) ∧
    (w.folder .shielding ≠ none → prepareFolders w = .ok w) ∧
    ((∀ k, w.folder k = none) → prepareFolders w = .ok { w with folder := fun _ => some [] }) := by
  refine ⟨?_, fun h => ?_, prepare_none w⟩
  · cases h1 : w.folder .shielding <;> cases h2 : w.folder .terrain <;> cases h3 : w.folder .topographic <;>
      simp [prepareFolders, makeFolders, kinds, h1, h2, h3]
  · obtain ⟨l, hl⟩ := Option.ne_none_iff_exists'.1 h
    simp only [prepareFolders, hl]

/-- C213 (the failure): if the folder of a kind is missing although `shielding` is there, or if the output folder is given
without a slash at its end, the first file to be copied stops the run. -/
theorem C213_missing_fails (tr : Kind → Name → Bool) (src : Kind → List Name) (tiles : List Name) (w : Work) (k : Kind)
    (t s : Name) (ht : t ∈ tiles) (hsrc : s ∈ src k) (hp : t <+: s) (hv : visible s = true)
    (h : (w.slash = true ∧ w.folder .shielding ≠ none ∧ w.folder k = none) ∨
      (w.slash = false ∧ Consistent w ∧ w.joined k = none)) :
    script tr src tiles w = .error .notFound := by
  have hne : globTile (src k) t ≠ [] :=
    List.ne_nil_of_mem (List.mem_filter.2 ⟨hsrc, by simp [hp, hv]⟩)
  have : ∃ w', prepareFolders w = .ok w' ∧ w'.at k = none := by
    rcases h with ⟨hs, h0, hk⟩ | ⟨hs, hc | hc, hk⟩
    · exact ⟨w, (C213_folders w).2.1 h0, by simp [Work.at, hs, hk]⟩
    · exact ⟨w, (C213_folders w).2.1 (hc _), by simp [Work.at, hs, hk]⟩
    · exact ⟨_, prepare_none w hc, by simp [Work.at, hs, hk]⟩
  obtain ⟨w', hw', hk'⟩ := this
  simp only [script, hw', bind, Except.bind, copy_missing hk' ht hne]

/-! ### Cases -/

/-- An output folder that has not been used -/
def exNew : Work := { slash := true, folder := fun _ => none, joined := fun _ => none }

def exScript (hist : List (List Name)) (tiles : List Name) (k : Kind) (d : Name) : Option (List (List Name)) :=
  ((scripts (fun _ _ => true) exSrc hist exNew).toOption.bind fun w =>
    (script (fun _ _ => true) exSrc tiles w).toOption).map fun r =>
    (r.1.filter fun m => m.kind = k ∧ m.dirn = d).map (·.files)

-- the hypotheses of `C213_merged` and `C213_first_partial` are met; for the others see Props/MultiplierTiles.lean
example : Consistent exNew := Or.inr fun _ => rfl

-- the first run merges the tile asked for
example : exScript [] [['e', '2']] .terrain ['n'] = some [[imageName ['e', '2'] .terrain ['n']]] := by decide +kernel

-- a second run, for another tile, also merges that of the first
example : exScript [[['e', '2']]] [['e', '1', '_']] .terrain ['n'] =
    some [[imageName ['e', '2'] .terrain ['n'], imageName ['e', '1'] .terrain ['n']]] := by decide +kernel

example : rawName ['e', '2'] .terrain ['n'] ∈ exSrc .terrain := by decide +kernel

-- without the slash
example : script (fun _ _ => true) exSrc [['e', '1']] { exNew with slash := false } = .error .notFound :=
  C213_missing_fails _ _ _ _ .terrain ['e', '1'] (rawName ['e', '1'] .terrain ['n']) (by decide +kernel)
    (by decide +kernel) (by decide +kernel) (by decide +kernel) (Or.inr ⟨rfl, Or.inr fun _ => rfl, rfl⟩)

end Tcrm.MultTiles
