import Verif.Spec.MultiplierTiles
import Mathlib.Tactic.Tauto
/-!
C173: the multipliers merged are those of the configured tiles.
-/
namespace Tcrm.MultTiles

theorem put_at (w : Work) (k k' : Kind) (l : List Name) :
    (w.put k l).at k' = if k' = k then some l else w.at k' := by
  cases hs : w.slash <;> simp [Work.put, Work.at, hs, Function.update_apply]

theorem put_slash (w : Work) (k : Kind) (l : List Name) : (w.put k l).slash = w.slash := by
  cases hs : w.slash <;> simp [Work.put, hs]

theorem mem_insert {f g : Name} {l : List Name} : g ∈ insert f l ↔ g ∈ l ∨ g = f := by
  unfold insert
  split
  · next h => constructor
              · exact Or.inl
              · rintro (h' | rfl) <;> assumption
  · simp

/-- What copying a file adds to its folder -/
def Adds (translates : Kind → Name → Bool) (k : Kind) (s f : Name) : Prop :=
  f = s ∨ translates k s = true ∧ f = translated s

theorem copyFile_ok {tr : Kind → Name → Bool} {k : Kind} {w : Work} {s : Name} {l : List Name} (h : w.at k = some l) :
    ∃ w', copyFile tr k w s = .ok w' ∧ (∀ k', k' ≠ k → w'.at k' = w.at k') ∧
      ∃ l', w'.at k = some l' ∧ ∀ f, f ∈ l' ↔ f ∈ l ∨ Adds tr k s f := by
  refine ⟨w.put k (if tr k s then insert (translated s) (insert s l) else insert s l), by simp [copyFile, h], ?_, ?_⟩
  · intro k' hk; rw [put_at, if_neg hk]
  · refine ⟨_, by rw [put_at, if_pos rfl], fun f => ?_⟩
    cases ht : tr k s <;> simp [mem_insert, Adds, ht] <;> tauto

theorem copyFiles_ok {tr : Kind → Name → Bool} {k : Kind} : ∀ {fs : List Name} {w : Work} {l : List Name}, w.at k = some l →
    ∃ w', fs.foldlM (copyFile tr k) w = .ok w' ∧ (∀ k', k' ≠ k → w'.at k' = w.at k') ∧
      ∃ l', w'.at k = some l' ∧ ∀ f, f ∈ l' ↔ f ∈ l ∨ ∃ s ∈ fs, Adds tr k s f
  | [], w, l, h => ⟨w, rfl, fun _ _ => rfl, l, h, by simp⟩
  | s :: fs, w, l, h => by
    obtain ⟨w1, he, ho, l1, hl1, hm1⟩ := copyFile_ok (tr := tr) (s := s) h
    obtain ⟨w2, he2, ho2, l2, hl2, hm2⟩ := copyFiles_ok (tr := tr) (fs := fs) hl1
    refine ⟨w2, ?_, fun k' hk => (ho2 k' hk).trans (ho k' hk), l2, hl2, fun f => ?_⟩
    · rw [List.foldlM_cons, he]; exact he2
    · rw [hm2, hm1]; simp only [List.mem_cons, exists_eq_or_imp]; tauto

theorem copyKinds_ok {tr : Kind → Name → Bool} {src : Kind → List Name} {tile : Name} : ∀ {ks : List Kind} {w : Work}
    {L : Kind → List Name}, (∀ k, w.at k = some (L k)) → ks.Nodup →
    ∃ w', ks.foldlM (fun w k => (globTile (src k) tile).foldlM (copyFile tr k) w) w = .ok w' ∧
      ∃ L' : Kind → List Name, (∀ k, w'.at k = some (L' k)) ∧
        ∀ k f, f ∈ L' k ↔ f ∈ L k ∨ k ∈ ks ∧ ∃ s ∈ globTile (src k) tile, Adds tr k s f
  | [], w, L, h, _ => ⟨w, rfl, L, h, by simp⟩
  | k0 :: ks, w, L, h, hn => by
    obtain ⟨hk0, hn⟩ := List.nodup_cons.1 hn
    obtain ⟨w1, he, ho, l1, hl1, hm1⟩ := copyFiles_ok (tr := tr) (fs := globTile (src k0) tile) (h k0)
    have h1 : ∀ k, w1.at k = some (if k = k0 then l1 else L k) := by
      intro k
      by_cases hk : k = k0
      · subst hk; simpa using hl1
      · rw [ho k hk, h k, if_neg hk]
    obtain ⟨w2, he2, L2, hL2, hm2⟩ := copyKinds_ok (tr := tr) (src := src) (tile := tile) h1 hn
    refine ⟨w2, ?_, L2, hL2, fun k f => ?_⟩
    · rw [List.foldlM_cons, he]; exact he2
    · rw [hm2]
      by_cases hk : k = k0
      · subst hk; simp [hm1, hk0]
      · simp [hk]

theorem copyTranslate_ok {tr : Kind → Name → Bool} {src : Kind → List Name} : ∀ {tiles : List Name} {w : Work}
    {L : Kind → List Name}, (∀ k, w.at k = some (L k)) →
    ∃ w', copyTranslate tr src tiles w = .ok w' ∧
      ∃ L' : Kind → List Name, (∀ k, w'.at k = some (L' k)) ∧
        ∀ k f, f ∈ L' k ↔ f ∈ L k ∨ ∃ t ∈ tiles, ∃ s ∈ globTile (src k) t, Adds tr k s f
  | [], w, L, h => ⟨w, rfl, L, h, by simp⟩
  | t :: ts, w, L, h => by
    obtain ⟨w1, he, L1, hL1, hm1⟩ := copyKinds_ok (tr := tr) (src := src) (tile := t) (ks := kinds) h (by decide)
    obtain ⟨w2, he2, L2, hL2, hm2⟩ := copyTranslate_ok (tr := tr) (src := src) (tiles := ts) hL1
    refine ⟨w2, ?_, L2, hL2, fun k f => ?_⟩
    · rw [copyTranslate, List.foldlM_cons, he]; exact he2
    · have hk : k ∈ kinds := by cases k <;> decide
      rw [hm2, hm1]; simp only [List.mem_cons, exists_eq_or_imp, hk, true_and, or_assoc]

/-- A merged file is not taken for a tile. -/
theorem merged_not_tile (k : Kind) : ∀ d ∈ dirns, ∀ d' ∈ dirns, ('_' :: d' ++ tif).isSuffixOf (d ++ '_' :: k.name ++ tif) = false := by
  cases k <;> decide +kernel

/-- The files merged for a kind and a direction, out of a folder with the contents `l` -/
def Selected (l : List Name) (d f : Name) : Prop := f ∈ l ∧ visible f = true ∧ ('_' :: d ++ tif) <:+ f

theorem mem_globDir {l : List Name} {d f : Name} : f ∈ globDir l d ↔ Selected l d f := by
  simp [globDir, Selected, List.isSuffixOf_iff_suffix]

theorem mergeKind_ok {k : Kind} : ∀ {ds : List Name} {w : Work} {L : Kind → List Name}, (∀ k, w.at k = some (L k)) →
    (∀ d ∈ ds, d ∈ dirns) →
    (mergeKind k ds w).1.map (fun m => (m.kind, m.dirn)) = ds.map (fun d => (k, d)) ∧
    (∀ m ∈ (mergeKind k ds w).1, ∀ f, f ∈ m.files ↔ Selected (L k) m.dirn f) ∧
    ∃ L' : Kind → List Name,
      (∀ k', (mergeKind k ds w).2.at k' = some (L' k')) ∧ ∀ k' f, ∀ d ∈ dirns, Selected (L' k') d f ↔ Selected (L k') d f
  | [], w, L, h, _ => ⟨rfl, by simp [mergeKind], L, h, fun _ _ _ _ => Iff.rfl⟩
  | d :: ds, w, L, h, hd => by
    have h1 : ∃ L1 : Kind → List Name, (∀ k', (mergeOne w k d).2.at k' = some (L1 k')) ∧
        ∀ k' f, ∀ d ∈ dirns, Selected (L1 k') d f ↔ Selected (L k') d f := by
      simp only [mergeOne, h k]
      split
      · exact ⟨L, h, fun _ _ _ _ => Iff.rfl⟩
      · refine ⟨fun k' => if k' = k then insert (d ++ '_' :: k.name ++ tif) (L k) else L k', fun k' => ?_, fun k' f d' hd' => ?_⟩
        · rw [put_at]; split <;> simp_all
        · dsimp only
          split
          · next hk =>
            subst hk
            unfold Selected
            rw [mem_insert]
            have := merged_not_tile k' d (hd d (by simp)) d' hd'
            constructor
            · rintro ⟨h1 | rfl, h2, h3⟩
              · exact ⟨h1, h2, h3⟩
              · rw [List.isSuffixOf_iff_suffix.2 h3] at this
                exact absurd this (by simp)
            · rintro ⟨h1, h2⟩; exact ⟨Or.inl h1, h2⟩
          · exact Iff.rfl
    obtain ⟨L1, hL1, hs1⟩ := h1
    obtain ⟨hk, hm, L2, hL2, hs2⟩ := mergeKind_ok (k := k) (ds := ds) hL1 fun d' h' => hd d' (by simp [h'])
    refine ⟨?_, ?_, L2, ?_, ?_⟩
    · simp only [mergeKind, List.map_cons, hk]
      simp [mergeOne, h k]
    · intro m hmem f
      simp only [mergeKind, List.mem_cons] at hmem
      rcases hmem with rfl | hmem
      · simp only [mergeOne, h k]; exact mem_globDir
      · have hdm : m.dirn ∈ dirns := by
          have : (m.kind, m.dirn) ∈ ds.map (fun d => (k, d)) := hk ▸ List.mem_map.2 ⟨m, hmem, rfl⟩
          obtain ⟨d', hd', he⟩ := List.mem_map.1 this
          rw [← (Prod.mk.inj he).2]
          exact hd d' (by simp [hd'])
        rw [hm m hmem f, hs1 k f _ hdm]
    · intro k'; simpa [mergeKind] using hL2 k'
    · intro k' f d' hd'; rw [hs2 k' f d' hd', hs1 k' f d' hd']

theorem merge_ok : ∀ {ks : List Kind} {w : Work} {L : Kind → List Name}, (∀ k, w.at k = some (L k)) →
    (merge ks dirns w).1.map (fun m => (m.kind, m.dirn)) = ks.flatMap (fun k => dirns.map fun d => (k, d)) ∧
    ∀ m ∈ (merge ks dirns w).1, ∀ f, f ∈ m.files ↔ Selected (L m.kind) m.dirn f
  | [], w, L, h => ⟨rfl, by simp [merge]⟩
  | k :: ks, w, L, h => by
    obtain ⟨hk, hm, L1, hL1, hs1⟩ := mergeKind_ok (k := k) (ds := dirns) h fun _ => id
    obtain ⟨hk2, hm2⟩ := merge_ok (ks := ks) hL1
    constructor
    · simp only [merge, List.map_append, hk, hk2, List.flatMap_cons]
    · intro m hmem f
      simp only [merge, List.mem_append] at hmem
      rcases hmem with hmem | hmem
      · have : (m.kind, m.dirn) ∈ dirns.map (fun d => (k, d)) := hk ▸ List.mem_map.2 ⟨m, hmem, rfl⟩
        obtain ⟨d', _, he⟩ := List.mem_map.1 this
        have hkk : m.kind = k := (Prod.mk.inj he).1.symm
        rw [hkk]; exact hm m hmem f
      · have : (m.kind, m.dirn) ∈ ks.flatMap (fun k => dirns.map fun d => (k, d)) := hk2 ▸ List.mem_map.2 ⟨m, hmem, rfl⟩
        obtain ⟨k', _, h'⟩ := List.mem_flatMap.1 this
        obtain ⟨d', hd', he⟩ := List.mem_map.1 h'
        have hdd : m.dirn = d' := (Prod.mk.inj he).2.symm
        rw [hm2 m hmem f, hs1 m.kind f m.dirn (hdd ▸ hd')]

theorem check_ok {w : Work} (hs : w.slash = true) (hc : Consistent w) :
    ∃ w', checkOutputFolders false w = .ok w' ∧ ∃ L : Kind → List Name, (∀ k, w'.at k = some (L k)) ∧
      ∀ k, ∀ f ∈ L k, visible f = false := by
  rcases hc with hc | hc
  · obtain ⟨l0, h0⟩ := Option.ne_none_iff_exists'.1 (hc .shielding)
    refine ⟨_, by simp only [checkOutputFolders, h0]; rfl, fun k => ((w.folder k).getD []).filter fun f => !visible f, fun k => ?_, ?_⟩
    · obtain ⟨l, hl⟩ := Option.ne_none_iff_exists'.1 (hc k)
      simp [Work.at, hs, hl]
    · intro k f hf
      simpa using (List.mem_filter.1 hf).2
  · refine ⟨{ w with folder := fun _ => some [] }, ?_, fun _ => [], fun k => by simp [Work.at, hs], by simp⟩
    simp only [checkOutputFolders, hc, kinds, makeFolders, Function.update_apply, Bool.false_eq_true, if_false,
      reduceCtorEq]
    congr 2
    funext k
    cases k <;> simp

/-- With folders that are all there or all missing, and whatever an earlier run has left in them, one merge is made for
each kind and direction, of the visible files for that direction among those copied or translated from the raw files that
begin with a configured text. -/
theorem C173_collect (tr : Kind → Name → Bool) (src : Kind → List Name) (tiles : List Name) (w : Work)
    (hs : w.slash = true) (hc : Consistent w) :
    ∃ ms w', collect tr src tiles w = .ok (ms, w') ∧
      ms.map (fun m => (m.kind, m.dirn)) = everyPair ∧
      ∀ m ∈ ms, ∀ f, f ∈ m.files ↔ visible f = true ∧ ('_' :: m.dirn ++ tif) <:+ f ∧
        ∃ t ∈ tiles, ∃ s ∈ src m.kind, t <+: s ∧ (visible s = true ∨ visible t = false) ∧
          (f = s ∨ tr m.kind s = true ∧ f = translated s) := by
  obtain ⟨w1, he1, L1, hL1, hv⟩ := check_ok hs hc
  obtain ⟨w2, he2, L2, hL2, hm2⟩ := copyTranslate_ok (tr := tr) (src := src) (tiles := tiles) hL1
  obtain ⟨hk, hm⟩ := merge_ok (ks := kinds) hL2
  refine ⟨(merge kinds dirns w2).1, (merge kinds dirns w2).2, ?_, hk, fun m hmem f => ?_⟩
  · simp only [collect, he1, he2, bind, Except.bind, pure, Except.pure]
  · rw [hm m hmem f, Selected, hm2]
    simp only [globTile, List.mem_filter, List.isPrefixOf_iff_prefix, Bool.and_eq_true, Bool.or_eq_true, Bool.not_eq_true', Adds]
    constructor
    · rintro ⟨h | ⟨t, ht, s, ⟨h1, h2, h3⟩, h4⟩, h5, h6⟩
      · rw [hv _ _ h] at h5; exact absurd h5 (by simp)
      · exact ⟨h5, h6, t, ht, s, h1, h2, h3, h4⟩
    · rintro ⟨h5, h6, t, ht, s, h1, h2, h3, h4⟩
      exact ⟨Or.inr ⟨t, ht, s, ⟨h1, h2, h3⟩, h4⟩, h5, h6⟩

/-! ### What is left in the folders -/

/-- Everything in the folders of `w` is in those of `w'`. -/
def Grows (w w' : Work) : Prop := ∀ k l, w.at k = some l → ∃ l', w'.at k = some l' ∧ ∀ f ∈ l, f ∈ l'

theorem Grows.refl (w : Work) : Grows w w := fun _ l h => ⟨l, h, fun _ => id⟩

theorem Grows.trans {w w' w'' : Work} (h : Grows w w') (h' : Grows w' w'') : Grows w w'' := by
  intro k l hl
  obtain ⟨l1, h1, hs1⟩ := h k l hl
  obtain ⟨l2, h2, hs2⟩ := h' k l1 h1
  exact ⟨l2, h2, fun f hf => hs2 f (hs1 f hf)⟩

/-- The merged file of `m` is in its folder of `w`. -/
def Written (w : Work) (m : Merge) : Prop := ∃ l, w.at m.kind = some l ∧ m.dirn ++ '_' :: m.kind.name ++ tif ∈ l

theorem Written.grows {w w' : Work} {m : Merge} (h : Written w m) (hg : Grows w w') : Written w' m := by
  obtain ⟨l, hl, hm⟩ := h
  obtain ⟨l', hl', hs⟩ := hg _ _ hl
  exact ⟨l', hl', hs _ hm⟩

theorem mergeOne_written (w : Work) (k : Kind) (d : Name) :
    Grows w (mergeOne w k d).2 ∧ ((mergeOne w k d).1.files ≠ [] → Written (mergeOne w k d).2 (mergeOne w k d).1) := by
  cases h : w.at k with
  | none => simp only [mergeOne, h]; exact ⟨Grows.refl w, fun h => absurd rfl h⟩
  | some l =>
    simp only [mergeOne, h]
    constructor
    · split
      · exact Grows.refl w
      · intro k' l' hl'
        rw [put_at]
        split
        · next hk => subst hk; rw [h] at hl'; cases hl'; exact ⟨_, rfl, fun f hf => mem_insert.2 (Or.inl hf)⟩
        · exact ⟨l', hl', fun _ => id⟩
    · intro hne
      rw [if_neg hne]
      exact ⟨_, by rw [put_at, if_pos rfl], mem_insert.2 (Or.inr rfl)⟩

theorem mergeKind_written (k : Kind) : ∀ (ds : List Name) (w : Work),
    Grows w (mergeKind k ds w).2 ∧ ∀ m ∈ (mergeKind k ds w).1, m.files ≠ [] → Written (mergeKind k ds w).2 m
  | [], w => ⟨Grows.refl w, by simp [mergeKind]⟩
  | d :: ds, w => by
    obtain ⟨h1, h2⟩ := mergeOne_written w k d
    obtain ⟨h3, h4⟩ := mergeKind_written k ds (mergeOne w k d).2
    refine ⟨h1.trans h3, fun m hm hne => ?_⟩
    simp only [mergeKind, List.mem_cons] at hm
    rcases hm with rfl | hm
    · exact (h2 hne).grows h3
    · exact h4 m hm hne

theorem merge_written : ∀ (ks : List Kind) (ds : List Name) (w : Work),
    Grows w (merge ks ds w).2 ∧ ∀ m ∈ (merge ks ds w).1, m.files ≠ [] → Written (merge ks ds w).2 m
  | [], ds, w => ⟨Grows.refl w, by simp [merge]⟩
  | k :: ks, ds, w => by
    obtain ⟨h1, h2⟩ := mergeKind_written k ds w
    obtain ⟨h3, h4⟩ := merge_written ks ds (mergeKind k ds w).2
    refine ⟨h1.trans h3, fun m hm hne => ?_⟩
    simp only [merge, List.mem_append] at hm
    rcases hm with hm | hm
    · exact (h2 m hm hne).grows h3
    · exact h4 m hm hne

/-- Whenever there was something to merge, the merged file is in the folder of its kind, named by direction and kind. -/
theorem C173_written (tr : Kind → Name → Bool) (src : Kind → List Name) (tiles : List Name) (w w' : Work)
    (ms : List Merge) (h : collect tr src tiles w = .ok (ms, w')) (m : Merge) (hm : m ∈ ms)
    (hne : m.files ≠ []) : ∃ l, w'.at m.kind = some l ∧ m.dirn ++ '_' :: m.kind.name ++ tif ∈ l := by
  simp only [collect] at h
  cases h1 : checkOutputFolders false w with
  | error e => simp [h1, bind, Except.bind] at h
  | ok w1 =>
    cases h2 : copyTranslate tr src tiles w1 with
    | error e => simp [h1, h2, bind, Except.bind] at h
    | ok w2 =>
      simp only [h1, h2, bind, Except.bind, pure, Except.pure, Except.ok.injEq] at h
      have e1 : (merge kinds dirns w2).1 = ms := by rw [h]
      have e2 : (merge kinds dirns w2).2 = w' := by rw [h]
      subst e1 e2
      exact (merge_written kinds dirns w2).2 m hm hne

/-! ### Names -/

theorem split_unique {c : Char} : ∀ {a a' b b' : Name}, c ∉ a → c ∉ a' → a ++ c :: b = a' ++ c :: b' → a = a' ∧ b = b'
  | [], [], b, b', _, _, h => by simpa using h
  | [], x :: a', b, b', _, h', h => by simp at h h'; exact absurd h.1 (by tauto)
  | x :: a, [], b, b', h', _, h => by simp at h h'; exact absurd h.1.symm (by tauto)
  | x :: a, y :: a', b, b', h1, h2, h => by
    simp at h h1 h2
    obtain ⟨h3, h4⟩ := split_unique h1.2 h2.2 h.2
    exact ⟨by rw [h.1, h3], h4⟩

theorem last_unique {X Y d d' : Name} (hd : '_' ∉ d) (hd' : '_' ∉ d') (h : Y ++ '_' :: d = X ++ '_' :: d') :
    d = d' ∧ Y = X := by
  have := congrArg List.reverse h
  simp only [List.reverse_append, List.reverse_cons, List.append_assoc, List.singleton_append] at this
  obtain ⟨h1, h2⟩ := split_unique (by simpa using hd) (by simpa using hd') this
  exact ⟨List.reverse_injective h1, List.reverse_injective h2⟩

theorem no_underscore : ∀ d ∈ eight, '_' ∉ d := by decide +kernel

theorem translated_raw (t : Name) (k : Kind) (d : Name) : translated (rawName t k d) = imageName t k d := by
  have : rawName t k d = (t ++ '_' :: code k ++ '_' :: d) ++ ['.', 'n', 'c'] := by simp [rawName]
  rw [translated, this, imageName]
  simp only [List.length_append, List.length_cons, List.length_nil]
  rw [List.take_left' (by simp; omega)]

theorem suffix_image {t d d' : Name} {k : Kind} (hd : d ∈ eight) (hd' : d' ∈ eight) :
    ('_' :: d ++ tif) <:+ imageName t k d' ↔ d = d' := by
  have hi : imageName t k d' = (t ++ '_' :: code k ++ '_' :: d') ++ tif := by simp [imageName]
  rw [hi]
  constructor
  · rintro ⟨Y, h⟩
    rw [← List.append_assoc] at h
    have h := List.append_cancel_right h
    exact (last_unique (no_underscore d hd) (no_underscore d' hd') h).1
  · rintro rfl
    exact ⟨t ++ '_' :: code k, by simp⟩

/-- The files merged for a kind and a direction are those of the configured tiles, one for each, whatever an earlier run
has left: for texts that match the files of one tile only. -/
theorem C173_tiles_partial (tr : Kind → Name → Bool) (src : Kind → List Name) (tiles available : List Name) (w : Work)
    (hs : w.slash = true) (hc : Consistent w) (hsrc : Holds src available) (hu : Unambiguous tiles available)
    (hv : ∀ t ∈ available, ∃ c r, t = c :: r ∧ c ≠ '.') (htr : ∀ k, ∀ s ∈ src k, tr k s = true) :
    ∃ ms w', collect tr src tiles w = .ok (ms, w') ∧
      ms.map (fun m => (m.kind, m.dirn)) = everyPair ∧
      ∀ m ∈ ms, ∀ f, f ∈ m.files ↔
        ∃ t ∈ available, (∃ text ∈ tiles, Names text t) ∧ f = imageName t m.kind m.dirn := by
  obtain ⟨ms, w', he, hk, hm⟩ := C173_collect tr src tiles w hs hc
  refine ⟨ms, w', he, hk, fun m hmem f => ?_⟩
  have hd : m.dirn ∈ eight := by
    have : (m.kind, m.dirn) ∈ everyPair := hk ▸ List.mem_map.2 ⟨m, hmem, rfl⟩
    obtain ⟨k', _, h'⟩ := List.mem_flatMap.1 this
    obtain ⟨d', hd', h⟩ := List.mem_map.1 h'
    exact (Prod.mk.inj h).2 ▸ hd'
  rw [hm m hmem f]
  constructor
  · rintro ⟨_, hsuf, text, ht, s, hsm, hp, _, hf⟩
    obtain ⟨t, hta, d', hd', rfl⟩ := (hsrc m.kind s).1 hsm
    rcases hf with rfl | ⟨_, rfl⟩
    · exfalso
      obtain ⟨Y, hY⟩ := hsuf
      have := congrArg (fun l => l.getLast?) hY
      simp only [rawName, tif, List.getLast?_append] at this
      simp at this
    · rw [translated_raw] at hsuf ⊢
      have := (suffix_image hd hd').1 hsuf
      exact ⟨t, hta, ⟨text, ht, hu text ht t hta _ _ hp⟩, by rw [this]⟩
  · rintro ⟨t, hta, ⟨text, ht, hn⟩, rfl⟩
    obtain ⟨c, r, rfl, hcd⟩ := hv t hta
    refine ⟨by simp [visible, imageName, hcd], (suffix_image hd hd).2 rfl, text, ht, rawName (c :: r) m.kind m.dirn,
      (hsrc _ _).2 ⟨_, hta, _, hd, rfl⟩, ?_, Or.inl (by simp [visible, rawName, hcd]), Or.inr ⟨htr _ _ ((hsrc _ _).2 ⟨_, hta, _, hd, rfl⟩), (translated_raw _ _ _).symm⟩⟩
    rcases hn with rfl | rfl
    · simp only [rawName, List.append_assoc]; exact List.prefix_append _ _
    · exact ⟨code m.kind ++ '_' :: m.dirn ++ ['.', 'n', 'c'], by simp [rawName]⟩

/-- A text that is the beginning of the name of another tile brings the files of that tile into the merge; an empty text,
as left by a comma at the end of the setting, those of every tile. -/
theorem C173_prefix_fails (tr : Kind → Name → Bool) (src : Kind → List Name) (tiles : List Name) (w : Work)
    (hs : w.slash = true) (hc : Consistent w) (text rest : Name) (k : Kind) (d : Name) (hd : d ∈ eight)
    (ht : text ∈ tiles) (hsrc : rawName (text ++ rest) k d ∈ src k) (htr : tr k (rawName (text ++ rest) k d) = true)
    (hv : ∃ c r, text ++ rest = c :: r ∧ c ≠ '.') :
    ∃ ms w', collect tr src tiles w = .ok (ms, w') ∧ ∃ m ∈ ms, m.kind = k ∧ m.dirn = d ∧
      imageName (text ++ rest) k d ∈ m.files := by
  obtain ⟨ms, w', he, hk, hm⟩ := C173_collect tr src tiles w hs hc
  obtain ⟨c, r, hcr, hcd⟩ := hv
  have hmem : (k, d) ∈ ms.map (fun m => (m.kind, m.dirn)) := by
    rw [hk]
    exact List.mem_flatMap.2 ⟨k, by cases k <;> decide, List.mem_map.2 ⟨d, hd, rfl⟩⟩
  obtain ⟨m, hmm, he'⟩ := List.mem_map.1 hmem
  obtain ⟨rfl, rfl⟩ := Prod.mk.inj he'
  refine ⟨ms, w', he, m, hmm, rfl, rfl, (hm m hmm _).2 ⟨?_, (suffix_image hd hd).2 rfl, text, ht, _, hsrc, ?_, Or.inl ?_,
    Or.inr ⟨htr, (translated_raw _ _ _).symm⟩⟩⟩
  · rw [hcr]; simp [visible, imageName, hcd]
  · exact ⟨rest ++ '_' :: code m.kind ++ '_' :: m.dirn ++ ['.', 'n', 'c'], by simp [rawName]⟩
  · rw [hcr]; simp [visible, rawName, hcd]

/-- The folders are made if none is there, and cleaned if `shielding` is; if only `shielding` is missing the run stops. -/
theorem C173_folders (w : Work) :
    (checkOutputFolders false w = .error .fileExists ↔
      w.folder .shielding = none ∧ (w.folder .terrain ≠ none ∨ w.folder .topographic ≠ none)) ∧
    checkOutputFolders true w = .ok w := by
  refine ⟨?_, rfl⟩
  cases h1 : w.folder .shielding <;> cases h2 : w.folder .terrain <;> cases h3 : w.folder .topographic <;>
    simp [checkOutputFolders, makeFolders, kinds, h1, h2, h3, Function.update_apply]

theorem copyFiles_none {tr : Kind → Name → Bool} {k k' : Kind} : ∀ {fs : List Name} {w : Work}, w.at k' = none →
    (∀ e, fs.foldlM (copyFile tr k) w = .error e → e = .notFound) ∧
    ∀ w', fs.foldlM (copyFile tr k) w = .ok w' → w'.at k' = none ∧ (k = k' → fs = [])
  | [], w, h => by
    refine ⟨fun e he => by simp [pure, Except.pure] at he, fun w' he => ?_⟩
    simp only [List.foldlM_nil, pure, Except.pure, Except.ok.injEq] at he
    exact ⟨he ▸ h, fun _ => rfl⟩
  | s :: fs, w, h => by
    rw [List.foldlM_cons]
    cases hw : w.at k with
    | none =>
      have : copyFile tr k w s = .error .notFound := by simp [copyFile, hw]
      rw [this]
      exact ⟨fun e he => by simpa [bind, Except.bind, eq_comm] using he, fun w' he => by simp [bind, Except.bind] at he⟩
    | some l =>
      obtain ⟨w1, he, ho, _⟩ := copyFile_ok (tr := tr) (s := s) hw
      have hkk : k' ≠ k := by rintro rfl; rw [h] at hw; simp at hw
      rw [he]
      have ih := copyFiles_none (tr := tr) (k := k) (fs := fs) (w := w1) ((ho k' hkk).trans h)
      exact ⟨ih.1, fun w' h' => ⟨(ih.2 w' h').1, fun e => absurd e.symm hkk⟩⟩

theorem foldlM_none {α : Type} {k' : Kind} {P : α → Prop} {g : Work → α → Except Err Work}
    (hg : ∀ a w, w.at k' = none → (∀ e, g w a = .error e → e = .notFound) ∧ ∀ w', g w a = .ok w' → w'.at k' = none ∧ P a) :
    ∀ {l : List α} {w : Work}, w.at k' = none → (∀ e, l.foldlM g w = .error e → e = .notFound) ∧
      ∀ w', l.foldlM g w = .ok w' → w'.at k' = none ∧ ∀ a ∈ l, P a
  | [], w, h => by
    refine ⟨fun e he => by simp [pure, Except.pure] at he, fun w' he => ?_⟩
    simp only [List.foldlM_nil, pure, Except.pure, Except.ok.injEq] at he
    exact ⟨he ▸ h, by simp⟩
  | a :: l, w, h => by
    rw [List.foldlM_cons]
    cases hw : g w a with
    | error e =>
      exact ⟨fun e' he => by
        simp only [bind, Except.bind, Except.error.injEq] at he
        exact he ▸ (hg a w h).1 e hw, fun w' he => by simp [bind, Except.bind] at he⟩
    | ok w1 =>
      obtain ⟨h1, hp⟩ := (hg a w h).2 w1 hw
      have ih := foldlM_none hg (l := l) h1
      exact ⟨ih.1, fun w' h' => ⟨(ih.2 w' h').1, by
        intro b hb
        rcases List.mem_cons.1 hb with rfl | hb
        · exact hp
        · exact (ih.2 w' h').2 b hb⟩⟩

theorem copy_missing {tr : Kind → Name → Bool} {src : Kind → List Name} {tiles : List Name} {w : Work} {k : Kind}
    (h : w.at k = none) {t : Name} (ht : t ∈ tiles) (hne : globTile (src k) t ≠ []) :
    copyTranslate tr src tiles w = .error .notFound := by
  have key := foldlM_none (k' := k) (P := fun tile => ∀ k0 ∈ kinds, k0 = k → globTile (src k0) tile = [])
    (g := fun w tile => kinds.foldlM (fun w k => (globTile (src k) tile).foldlM (copyFile tr k) w) w)
    (fun tile w hw => foldlM_none (k' := k) (P := fun k0 => k0 = k → globTile (src k0) tile = [])
      (fun k0 w hw => by
        have := copyFiles_none (tr := tr) (k := k0) (fs := globTile (src k0) tile) hw
        exact ⟨this.1, fun w' hw' => this.2 w' hw'⟩) hw) (l := tiles) h
  cases hr : copyTranslate tr src tiles w with
  | error e => rw [key.1 e hr]
  | ok w' => exact absurd ((key.2 w' hr).2 t ht k (by cases k <;> decide) rfl) hne

/-- If the folder of a kind is missing although `shielding` is there, or if the working directory is given without a slash
at its end, the first file to be copied stops the run. -/
theorem C173_missing_fails (tr : Kind → Name → Bool) (src : Kind → List Name) (tiles : List Name) (w : Work) (k : Kind)
    (t s : Name) (ht : t ∈ tiles) (hsrc : s ∈ src k) (hp : t <+: s) (hv : visible s = true)
    (h : (w.slash = true ∧ w.folder .shielding ≠ none ∧ w.folder k = none) ∨
      (w.slash = false ∧ Consistent w ∧ w.joined k = none)) :
    collect tr src tiles w = .error .notFound := by
  have hne : globTile (src k) t ≠ [] :=
    List.ne_nil_of_mem (List.mem_filter.2 ⟨hsrc, by simp [hp, hv]⟩)
  have : ∃ w', checkOutputFolders false w = .ok w' ∧ w'.at k = none := by
    rcases h with ⟨hs, h0, hk⟩ | ⟨hs, hc, hk⟩
    · obtain ⟨l0, h0⟩ := Option.ne_none_iff_exists'.1 h0
      exact ⟨_, by simp only [checkOutputFolders, h0]; rfl, by simp [Work.at, hs, hk]⟩
    · rcases hc with hc | hc
      · obtain ⟨l0, h0⟩ := Option.ne_none_iff_exists'.1 (hc .shielding)
        exact ⟨_, by simp only [checkOutputFolders, h0]; rfl, by simp [Work.at, hs, hk]⟩
      · refine ⟨{ w with folder := fun _ => some [] }, ?_, by simp [Work.at, hs, hk]⟩
        simp only [checkOutputFolders, hc, kinds, makeFolders, Function.update_apply, Bool.false_eq_true, if_false,
          reduceCtorEq]
        congr 2
        funext k
        cases k <;> simp
  obtain ⟨w', hw', hk'⟩ := this
  simp only [collect, hw', bind, Except.bind, copy_missing hk' ht hne]

theorem rawName_inj {t t' d d' : Name} {k : Kind} (hd : d ∈ eight) (hd' : d' ∈ eight) (h : rawName t k d = rawName t' k d') :
    t = t' ∧ d = d' := by
  have h1 : (t ++ '_' :: code k) ++ '_' :: d = (t' ++ '_' :: code k) ++ '_' :: d' := by
    have : ((t ++ '_' :: code k) ++ '_' :: d) ++ ['.', 'n', 'c'] = ((t' ++ '_' :: code k) ++ '_' :: d') ++ ['.', 'n', 'c'] := by
      simpa [rawName] using h
    exact List.append_cancel_right this
  obtain ⟨h2, h3⟩ := last_unique (no_underscore d hd) (no_underscore d' hd') h1
  exact ⟨List.append_cancel_right h3, h2⟩

/-- From S3 the files asked for are those of the tiles with exactly the configured texts as names. -/
theorem C173_s3 (tiles : List Name) (t : Name) (k : Kind) (d : Name) (hd : d ∈ eight) :
    rawName t k d ∈ s3Names tiles k ↔ t ∈ tiles := by
  constructor
  · intro h
    obtain ⟨t', ht', h⟩ := List.mem_flatMap.1 h
    obtain ⟨d', hd', h⟩ := List.mem_map.1 h
    exact (rawName_inj hd' hd h).1 ▸ ht'
  · intro h
    exact List.mem_flatMap.2 ⟨t, h, List.mem_map.2 ⟨d, hd, rfl⟩⟩

/-- A tile configured with an underscore at the end, as in the example configuration, is not asked for. -/
theorem C173_s3_fails (t : Name) (k : Kind) (d : Name) (hd : d ∈ eight) :
    rawName t k d ∉ s3Names [t ++ ['_']] k := by
  rw [C173_s3 _ _ _ _ hd]
  simp

/-! ### Cases -/

/-- Raw files of the tiles `e1`, `e2` and `e12` -/
def exSrc (k : Kind) : List Name :=
  [['e', '1'], ['e', '2'], ['e', '1', '2']].flatMap fun t => eight.map fun d => rawName t k d

/-- A working directory with files of an earlier run -/
def exWork : Work :=
  { slash := true
    folder := fun k => some [imageName ['e', '9'] k ['n'], ['n', '_'] ++ k.name ++ tif, ['.', 'x']]
    joined := fun _ => none }

def exFiles (tiles : List Name) (k : Kind) (d : Name) : Option (List (List Name)) :=
  (collect (fun _ _ => true) exSrc tiles exWork).toOption.map fun r =>
    (r.1.filter fun m => m.kind = k ∧ m.dirn = d).map (·.files)

-- the hypotheses of `C173_collect` and `C173_tiles_partial` are met
example : Holds exSrc [['e', '1'], ['e', '2'], ['e', '1', '2']] := by
  intro k s
  simp only [exSrc, List.mem_flatMap, List.mem_map]
  constructor <;> rintro ⟨t, ht, d, hd, h⟩ <;> exact ⟨t, ht, d, hd, h.symm⟩

example : Consistent exWork := Or.inl fun k => by simp [exWork]

example : Unambiguous [['e', '1', '_'], ['e', '2']] [['e', '1'], ['e', '2'], ['e', '1', '2']] := by
  intro text ht t hta k d hp
  simp only [List.mem_cons, List.not_mem_nil, or_false] at ht hta
  rcases ht with rfl | rfl <;> rcases hta with rfl | rfl | rfl <;> simp [rawName, Names] at hp ⊢

-- the tiles asked for, and nothing of the earlier run
example : exFiles [['e', '1', '_'], ['e', '2']] .terrain ['n'] =
    some [[imageName ['e', '1'] .terrain ['n'], imageName ['e', '2'] .terrain ['n']]] := by decide +kernel

-- `e1` brings `e12` along
example : exFiles [['e', '1']] .shielding ['s', 'w'] =
    some [[imageName ['e', '1'] .shielding ['s', 'w'], imageName ['e', '1', '2'] .shielding ['s', 'w']]] := by decide +kernel

-- an empty text brings every tile
example : exFiles [[]] .topographic ['e'] =
    some [[imageName ['e', '1'] .topographic ['e'], imageName ['e', '2'] .topographic ['e'],
      imageName ['e', '1', '2'] .topographic ['e']]] := by decide +kernel

-- without the slash
example : collect (fun _ _ => true) exSrc [['e', '1']] { exWork with slash := false } = .error .notFound :=
  C173_missing_fails _ _ _ _ .terrain ['e', '1'] (rawName ['e', '1'] .terrain ['n']) (by decide +kernel)
    (by decide +kernel) (by decide +kernel) (by decide +kernel)
    (Or.inr ⟨rfl, Or.inl fun k => by simp [exWork], rfl⟩)

-- the merged file
example : ((collect (fun _ _ => true) exSrc [['e', '2']] exWork).toOption.bind fun r => r.2.folder .terrain).map
    (fun l => decide (['s', 'w', '_', 't', 'e', 'r', 'r', 'a', 'i', 'n', '.', 't', 'i', 'f'] ∈ l)) = some true := by
  decide +kernel

example : rawName ['e', '1'] .terrain ['n'] ∈ s3Names [['e', '1']] .terrain := by decide +kernel

end Tcrm.MultTiles
