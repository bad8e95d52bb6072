import Verif.Spec.NcGrid
import Mathlib.Data.List.Nodup
import Mathlib.Data.List.Forall2
/-!
Gridded files (C153), hazard maps (C154) and the hazard file (C155)
-/
namespace Tcrm.NcGrid

variable {T K : Type}

/-! ### Lemmas -/

theorem mapM_iff {α β : Type} (f : α → Option β) (l : List α) (r : List β) :
    l.mapM f = some r ↔ List.Forall₂ (fun a b => f a = some b) l r := by
  induction l generalizing r with
  | nil => simp [List.mapM_nil, eq_comm]
  | cons a l ih =>
    rw [List.mapM_cons]
    cases h : f a with
    | none =>
      simp only [h, Option.bind_eq_bind, Option.bind_none, reduceCtorEq, false_iff]
      intro hh
      cases hh with
      | cons h3 _ => rw [h] at h3; cases h3
    | some b =>
      cases h2 : l.mapM f with
      | none =>
        simp only [h2, Option.bind_eq_bind, Option.bind_some, Option.bind_none, reduceCtorEq, false_iff]
        intro hh
        cases hh with
        | cons h3 h4 => rw [← ih, h2] at h4; cases h4
      | some r' =>
        simp only [h2, Option.bind_eq_bind, Option.bind_some, Option.pure_def, Option.some.injEq]
        constructor
        · rintro rfl
          exact .cons h ((ih r').1 h2)
        · intro hh
          cases hh with
          | cons h3 h4 =>
            rw [h] at h3
            rw [← ih, h2] at h4
            simp_all

theorem lookup_some_of_mem {l : List (String × ℕ)} {n : String} {k : ℕ} (hn : (l.map (·.1)).Nodup)
    (h : (n, k) ∈ l) : l.lookup n = some k := by
  induction l with
  | nil => simp at h
  | cons p l ih =>
    obtain ⟨m, j⟩ := p
    simp only [List.map_cons, List.nodup_cons] at hn
    rcases List.mem_cons.1 h with h | h
    · cases h; simp [List.lookup]
    · have : n ≠ m := fun e => hn.1 (e ▸ List.mem_map_of_mem (f := (·.1)) h)
      have hb : (n == m) = false := by simp [this]
      simp only [List.lookup, hb]
      exact ih hn.2 h

theorem lookup_none {l : List (String × ℕ)} {n : String} (h : n ∉ l.map (·.1)) : l.lookup n = none := by
  induction l with
  | nil => rfl
  | cons p l ih =>
    obtain ⟨m, j⟩ := p
    simp only [List.map_cons, List.mem_cons, not_or] at h
    have hb : (n == m) = false := by simp [h.1]
    simp only [List.lookup, hb]
    exact ih h.2

/-- The file after writing axes -/
def axisVar (lib : Lib T K) (a : Axis T K) : Var T K :=
  ⟨a.name, a.type, [a.name], none, a.values.map (lib.cast a.type), {}⟩

theorem addDims_ok (lib : Lib T K) (default : K) (axes : List (Axis T K)) (f : File T K)
    (hn : (f.dims.map (·.1) ++ axes.map (·.name)).Nodup)
    (hv : ∀ n ∈ axes.map (·.name), n ∉ f.vars.map (·.name)) :
    addDims lib default f (axes.map Axis.dict) =
      (⟨f.dims ++ axes.map (fun a => (a.name, a.values.length)), f.vars ++ axes.map (axisVar lib)⟩, none) := by
  induction axes generalizing f with
  | nil => simp [addDims]
  | cons a axes ih =>
    have hna : a.name ∉ f.dims.map (·.1) := by
      intro h
      have := (List.nodup_append.1 hn).2.2 a.name h a.name (by simp)
      exact this rfl
    have hva : f.vars.any (·.name == a.name) = false := by
      have := hv a.name (by simp)
      rw [List.any_eq_false]
      intro v hv'
      simp only [beq_iff_eq]
      intro e
      exact this (e ▸ List.mem_map_of_mem (f := (·.name)) hv')
    have hl : f.dims.lookup a.name = none := lookup_none hna
    have hd : ((f.dims ++ [(a.name, a.values.length)]).map (·.1)).Nodup := by
      have := hn
      rw [List.map_cons, ← List.singleton_append, ← List.append_assoc] at this
      have := (List.nodup_append.1 this).1
      simpa using this
    have hs : (f.dims ++ [(a.name, a.values.length)]).lookup a.name = some a.values.length :=
      lookup_some_of_mem hd (by simp)
    have hc : ncCreateDim lib default f a.name a.values a.type {} =
        (⟨f.dims ++ [(a.name, a.values.length)], f.vars ++ [axisVar lib a]⟩, none) := by
      simp [ncCreateDim, hl, createVar, hva, sizes, hs, axisVar]
    simp only [List.map_cons, addDims, Axis.dict, hc]
    have := ih ⟨f.dims ++ [(a.name, a.values.length)], f.vars ++ [axisVar lib a]⟩
      (by simpa [List.append_assoc] using hn) (by
        intro n hnm
        simp only [List.map_append, List.mem_append, List.map_cons, List.map_nil, List.mem_singleton, not_or]
        refine ⟨hv n (by simp [hnm]), ?_⟩
        intro e
        have h2 := (List.nodup_append.1 hn).2.1
        simp only [List.map_cons, List.nodup_cons] at h2
        exact h2.1 (by rw [← show n = a.name from e]; exact hnm))
    rw [this]
    simp

/-- The variable written for a field -/
def gridVar (lib : Lib T K) (nodata : K) (f : File T K) (g : Grid T K) : Var T K :=
  ⟨g.name, g.type, g.axes, some (lib.cast g.type nodata),
    match g.values with
    | none => List.replicate ((sizes f g.axes).getD []).prod (lib.cast g.type nodata)
    | some a => a.data.map (kept lib g), g.atts⟩

theorem sizes_dims {f f' : File T K} (h : f.dims = f'.dims) (l : List String) : sizes f l = sizes f' l := by
  simp [sizes, h]

theorem createVar_ok (lib : Lib T K) (default nodata : K) (f : File T K) (g : Grid T K) (s : List ℕ)
    (hn : g.name ∉ f.vars.map (·.name)) (hs : sizes f g.axes = some s) (ha : ∀ a, g.values = some a → a.shape = s) :
    createVar lib f g.name g.type g.axes (some (lib.cast g.type nodata)) default g.values g.digits g.atts =
      (⟨f.dims, f.vars ++ [gridVar lib nodata f g]⟩, none) := by
  have hva : f.vars.any (·.name == g.name) = false := by
    rw [List.any_eq_false]
    intro v hv'
    simp only [beq_iff_eq]
    intro e
    exact hn (e ▸ List.mem_map_of_mem (f := (·.name)) hv')
  rcases g with ⟨nm, ty, ax, dg, vals, at'⟩
  cases vals with
  | none => simp [createVar, hva, hs, gridVar]
  | some a =>
    have := ha a rfl
    simp only at hva hs
    cases dg <;> simp [createVar, hva, hs, gridVar, this, kept, Function.comp_def]

theorem addVars_ok (lib : Lib T K) (default nodata : K) (grids : List (Grid T K)) (f : File T K)
    (hn : (f.vars.map (·.name) ++ grids.map (·.name)).Nodup)
    (hs : ∀ g ∈ grids, ∃ s, sizes f g.axes = some s ∧ ∀ a, g.values = some a → a.shape = s) :
    addVars lib default nodata none true f (grids.map Grid.dict) =
      (⟨f.dims, f.vars ++ grids.map (gridVar lib nodata f)⟩, none) := by
  induction grids generalizing f with
  | nil => simp [addVars]
  | cons g grids ih =>
    obtain ⟨s, hs1, hs2⟩ := hs g (by simp)
    have hlen : s.length = g.axes.length := by
      have := (mapM_iff _ _ _).1 hs1
      exact this.length_eq.symm
    have hng : g.name ∉ f.vars.map (·.name) := by
      intro h
      exact (List.nodup_append.1 hn).2.2 g.name h g.name (by simp) rfl
    have hc := createVar_ok lib default nodata f g s hng hs1 hs2
    have hdim : ¬ (g.values.map fun x => decide (g.axes.length ≠ x.shape.length)) = some true := by
      cases hv : g.values with
      | none => simp
      | some a => simp [hs2 a hv, hlen]
    have hor : (g.digits.orElse fun _ => (none : Option ℕ)) = g.digits := by cases g.digits <;> rfl
    simp only [List.map_cons, addVars, Grid.dict, if_neg hdim, hor, if_true, hc]
    have := ih ⟨f.dims, f.vars ++ [gridVar lib nodata f g]⟩ (by
        simpa [List.append_assoc, gridVar] using hn) (by
        intro g' hg'
        obtain ⟨s', h1, h2⟩ := hs g' (by simp [hg'])
        exact ⟨s', by rw [← h1]; exact sizes_dims rfl _, h2⟩)
    rw [this]
    have e : gridVar lib nodata (⟨f.dims, f.vars ++ [gridVar lib nodata f g]⟩ : File T K) = gridVar lib nodata f := by
      funext g'
      simp only [gridVar, sizes]
    simp [e]

theorem sizes_of_forall₂ {axes : List (Axis T K)} (hn : (axes.map (·.name)).Nodup) {f : File T K}
    (hf : f.dims = axes.map fun a => (a.name, a.values.length)) {l : List String} {s : List ℕ}
    (h : List.Forall₂ (Has axes) l s) : sizes f l = some s := by
  have hn' : (f.dims.map (·.1)).Nodup := by rw [hf]; simpa [Function.comp_def] using hn
  refine (mapM_iff _ _ _).2 (h.imp ?_)
  rintro n k ⟨a, ha, rfl, rfl⟩
  exact lookup_some_of_mem hn' (by rw [hf]; exact List.mem_map_of_mem (f := fun a : Axis T K => (a.name, a.values.length)) ha)

theorem exists_sizes {axes : List (Axis T K)} {l : List String} (h : ∀ n ∈ l, ∃ a ∈ axes, a.name = n) :
    ∃ s, List.Forall₂ (Has axes) l s := by
  induction l with
  | nil => exact ⟨[], .nil⟩
  | cons n l ih =>
    obtain ⟨a, ha, rfl⟩ := h n (by simp)
    obtain ⟨s, hs⟩ := ih fun m hm => h m (by simp [hm])
    exact ⟨a.values.length :: s, .cons ⟨a, ha, rfl, rfl⟩ hs⟩

theorem find_var {l : List (Var T K)} (hn : (l.map (·.name)).Nodup) {v : Var T K} (h : v ∈ l) :
    l.find? (·.name == v.name) = some v := by
  induction l with
  | nil => simp at h
  | cons w l ih =>
    simp only [List.map_cons, List.nodup_cons] at hn
    rcases List.mem_cons.1 h with rfl | h
    · simp
    · have : w.name ≠ v.name := fun e => hn.1 (e ▸ List.mem_map_of_mem (f := (·.name)) h)
      rw [List.find?_cons_of_neg (by simp [this])]
      exact ih hn.2 h

/-- The file of axes and fields -/
def fileOf (lib : Lib T K) (nodata : K) (axes : List (Axis T K)) (grids : List (Grid T K)) : File T K :=
  let f : File T K := ⟨axes.map fun a => (a.name, a.values.length), axes.map (axisVar lib)⟩
  ⟨f.dims, f.vars ++ grids.map (gridVar lib nodata f)⟩

theorem ncSaveGrid_ok (lib : Lib T K) (default nodata : K) (disk : Disk T K) (path : String)
    (axes : List (Axis T K)) (grids : List (Grid T K)) (h : Consistent axes grids) :
    ncSaveGrid lib default true disk path (axes.map Axis.dict) (grids.map Grid.dict) nodata none true =
      (Function.update disk path (some (fileOf lib nodata axes grids)), none) := by
  have hn := h.names
  have hna := (List.nodup_append.1 hn).1
  have h1 := addDims_ok lib default axes ⟨[], []⟩ (by simpa using hna) (by simp)
  simp only [List.nil_append] at h1
  have h2 := addVars_ok lib default nodata grids
    ⟨axes.map fun a => (a.name, a.values.length), axes.map (axisVar lib)⟩
    (by simpa [Function.comp_def, axisVar] using hn) (by
      intro g hg
      obtain ⟨s, hs⟩ := exists_sizes (h.known g hg)
      refine ⟨s, sizes_of_forall₂ hna rfl hs, ?_⟩
      intro a ha
      have e1 := sizes_of_forall₂ hna (f := ⟨axes.map fun a => (a.name, a.values.length), axes.map (axisVar lib)⟩) rfl
        (h.shapes g hg a ha)
      have e2 := sizes_of_forall₂ hna (f := ⟨axes.map fun a => (a.name, a.values.length), axes.map (axisVar lib)⟩) rfl hs
      rw [e1] at e2
      exact Option.some.inj e2)
  simp only [ncSaveGrid, if_true, h1, h2, fileOf]

theorem names_fileOf (lib : Lib T K) (nodata : K) (axes : List (Axis T K)) (grids : List (Grid T K)) :
    (fileOf lib nodata axes grids).vars.map (·.name) = axes.map (·.name) ++ grids.map (·.name) := by
  simp [fileOf, axisVar, gridVar, Function.comp_def]

theorem get_axis (lib : Lib T K) (nodata : K) (axes : List (Axis T K)) (grids : List (Grid T K))
    (h : Consistent axes grids) {a : Axis T K} (ha : a ∈ axes) :
    ncGetVar (fileOf lib nodata axes grids) a.name = .ok (axisVar lib a) := by
  have hn : ((fileOf lib nodata axes grids).vars.map (·.name)).Nodup := by rw [names_fileOf]; exact h.names
  have hm : axisVar lib a ∈ (fileOf lib nodata axes grids).vars := by
    simp only [fileOf, List.mem_append]
    exact .inl (List.mem_map_of_mem ha)
  have := find_var hn hm
  simp only [axisVar] at this
  simp [ncGetVar, this, axisVar]

theorem get_grid (lib : Lib T K) (nodata : K) (axes : List (Axis T K)) (grids : List (Grid T K))
    (h : Consistent axes grids) {g : Grid T K} (hg : g ∈ grids) :
    ncGetVar (fileOf lib nodata axes grids) g.name =
      .ok (gridVar lib nodata ⟨axes.map fun a => (a.name, a.values.length), axes.map (axisVar lib)⟩ g) := by
  have hn : ((fileOf lib nodata axes grids).vars.map (·.name)).Nodup := by rw [names_fileOf]; exact h.names
  have hm : gridVar lib nodata ⟨axes.map fun a => (a.name, a.values.length), axes.map (axisVar lib)⟩ g ∈
      (fileOf lib nodata axes grids).vars := by
    simp only [fileOf, List.mem_append]
    exact .inr (List.mem_map_of_mem hg)
  have := find_var hn hm
  simp only [gridVar] at this
  simp [ncGetVar, this, gridVar]

theorem data_grid (lib : Lib T K) (nodata : K) (axes : List (Axis T K)) (grids : List (Grid T K))
    (h : Consistent axes grids) {g : Grid T K} (hg : g ∈ grids) {a : Arr K} (ha : g.values = some a) :
    ncGetData (fileOf lib nodata axes grids) g.name = .ok ⟨a.shape, a.data.map (kept lib g)⟩ := by
  have e1 := sizes_of_forall₂ (List.nodup_append.1 h.names).1 (f := fileOf lib nodata axes grids) rfl
    (h.shapes g hg a ha)
  simp only [ncGetData, get_grid lib nodata axes grids h hg]
  simp [gridVar, e1, ha]

theorem addDims_key (lib : Lib T K) (default : K) {d : DimSpec T K} (hd : d.Lacks) (f : File T K)
    (ds : List (DimSpec T K)) : addDims lib default f (d :: ds) = (f, some .key) := by
  rcases d with ⟨n, v, t, a⟩
  rcases hd with h | h | h | h <;> simp only at h <;> subst h <;> simp only [addDims] <;>
    first | rfl | (cases n <;> rfl) | (cases n <;> cases v <;> rfl) | (cases n <;> cases v <;> cases t <;> rfl)

theorem addVars_key (lib : Lib T K) (default nodata : K) (lsd : Option ℕ) (w : Bool) {v : VarSpec T K} (hv : v.Lacks)
    (f : File T K) (vs : List (VarSpec T K)) :
    addVars lib default nodata lsd w f (v :: vs) = (f, some .key) := by
  rcases v with ⟨n, d, v, t, a, l⟩
  rcases hv with h | h | h | h | h <;> simp only at h <;> subst h <;> simp only [addVars] <;>
    first | rfl | (cases n <;> rfl) | (cases n <;> cases d <;> rfl) | (cases n <;> cases d <;> cases v <;> rfl) |
      (cases n <;> cases d <;> cases v <;> cases t <;> rfl)

theorem addVars_append (lib : Lib T K) (default nodata : K) (lsd : Option ℕ) (w : Bool) (f g : File T K)
    (vs ws : List (VarSpec T K)) (h : addVars lib default nodata lsd w f vs = (g, none)) :
    addVars lib default nodata lsd w f (vs ++ ws) = addVars lib default nodata lsd w g ws := by
  induction vs generalizing f with
  | nil =>
    simp only [addVars, Prod.mk.injEq, and_true] at h
    simp [h]
  | cons v vs ih =>
    rw [List.cons_append, addVars]
    rw [addVars] at h
    split at h
    · split at h
      · cases h
      · rename_i hd
        split at h
        · rename_i f' hc
          simp only [if_neg hd, hc]
          exact ih f' h
        · rename_i r hr
          exfalso
          apply hr g
          exact h
    · cases h

/-! ### C153 -/

/-- **C153**: consistent data are saved without an exception, whatever was in the file before; no other file changes;
and every axis and every field can be read back by its name, each number converted to its type (and rounded to the
digits asked for), fields with the shape they had.  Fields without data read as missing throughout, and nothing else
can be read. -/
theorem C153_saved_partial (lib : Lib T K) (default nodata : K) (disk : Disk T K) (path : String)
    (axes : List (Axis T K)) (grids : List (Grid T K)) (h : Consistent axes grids) :
    ∃ disk' f, ncSaveGrid lib default true disk path (axes.map Axis.dict) (grids.map Grid.dict) nodata none true =
        (disk', none) ∧
      (∀ p, p ≠ path → disk' p = disk p) ∧ ncLoadFile disk' path = .ok f ∧
      (∀ a ∈ axes, ncGetDims f a.name = .ok (a.values.map (lib.cast a.type))) ∧
      (∀ g ∈ grids, ∀ a, g.values = some a → ncGetData f g.name = .ok ⟨a.shape, a.data.map (kept lib g)⟩) ∧
      (∀ g ∈ grids, g.values = none → ∃ a, ncGetData f g.name = .ok a ∧ ∀ x ∈ a.data, x = lib.cast g.type nodata) ∧
      ∀ n, n ∉ axes.map (·.name) → n ∉ grids.map (·.name) → ncGetData f n = .error .key ∧ ncGetDims f n = .error .key := by
  refine ⟨_, fileOf lib nodata axes grids, ncSaveGrid_ok lib default nodata disk path axes grids h, ?_, ?_, ?_, ?_, ?_, ?_⟩
  · intro p hp
    simp [Function.update_of_ne hp]
  · simp [ncLoadFile]
  · intro a ha
    simp [ncGetDims, get_axis lib nodata axes grids h ha, axisVar, Except.map]
  · intro g hg a ha
    exact data_grid lib nodata axes grids h hg ha
  · intro g hg hv
    obtain ⟨s, hs⟩ := exists_sizes (h.known g hg)
    have e1 := sizes_of_forall₂ (List.nodup_append.1 h.names).1 (f := fileOf lib nodata axes grids) rfl hs
    refine ⟨_, by simp only [ncGetData, get_grid lib nodata axes grids h hg]; simp only [gridVar, e1]; rfl, ?_⟩
    intro x hx
    rw [hv] at hx
    exact (List.mem_replicate.1 hx).2
  · intro n h1 h2
    have : (fileOf lib nodata axes grids).vars.find? (·.name == n) = none := by
      rw [List.find?_eq_none]
      intro v hv
      simp only [beq_iff_eq]
      intro e
      have := List.mem_map_of_mem (f := fun v : Var T K => v.name) hv
      rw [names_fileOf, e, List.mem_append] at this
      exact this.elim h1 h2
    simp [ncGetData, ncGetDims, ncGetVar, this, Except.map]

/-- **C153**: a description that lacks an entry is refused with KeyError, of a dimension or, after consistent axes and
fields, of a variable; and so is, with ValueError, an array with another number of axes than stated. -/
theorem C153_refused_partial (lib : Lib T K) (default nodata : K) (disk : Disk T K) (path : String)
    (axes : List (Axis T K)) (grids : List (Grid T K)) (h : Consistent axes grids)
    (ds : List (DimSpec T K)) (vs vs' : List (VarSpec T K)) :
    (∀ d : DimSpec T K, d.Lacks →
      (ncSaveGrid lib default true disk path (d :: ds) vs nodata none true).2 = some .key) ∧
    (∀ v : VarSpec T K, v.Lacks →
      (ncSaveGrid lib default true disk path (axes.map Axis.dict) (grids.map Grid.dict ++ v :: vs') nodata none true).2 =
        some .key) ∧
    ∀ (g : Grid T K) (a : Arr K), g.values = some a → a.shape.length ≠ g.axes.length →
      (ncSaveGrid lib default true disk path (axes.map Axis.dict) (grids.map Grid.dict ++ g.dict :: vs') nodata none
        true).2 = some .value := by
  have hok := ncSaveGrid_ok lib default nodata disk path axes grids h
  have h1 := addDims_ok lib default axes ⟨[], []⟩ (by simpa using (List.nodup_append.1 h.names).1) (by simp)
  simp only [List.nil_append] at h1
  simp only [ncSaveGrid, if_true, h1, Prod.mk.injEq] at hok
  obtain ⟨-, hok⟩ := hok
  have hv : ∃ g, addVars lib default nodata none true ⟨axes.map fun a => (a.name, a.values.length), axes.map (axisVar lib)⟩
      (grids.map Grid.dict) = (g, none) := ⟨_, Prod.ext (y := (_, none)) rfl hok⟩
  obtain ⟨f, hf⟩ := hv
  refine ⟨?_, ?_, ?_⟩
  · intro d hd
    simp [ncSaveGrid, addDims_key lib default hd]
  · intro v hv
    simp [ncSaveGrid, h1, addVars_append _ _ _ _ _ _ _ _ _ hf, addVars_key lib default nodata none true hv]
  · intro g a ha hl
    have : addVars lib default nodata none true f (g.dict :: vs') = (f, some .value) := by
      simp [addVars, Grid.dict, ha, hl.symm]
    simp [ncSaveGrid, h1, addVars_append _ _ _ _ _ _ _ _ _ hf, this]

theorem addVars_no_data (lib : Lib T K) (default nodata : K) (lsd : Option ℕ) :
    ∀ (grids : List (Grid T K)) (f : File T K), (∀ g ∈ grids, ∀ a, g.values = some a → a.shape.length = g.axes.length) →
    addVars lib default nodata lsd false f (grids.map Grid.dict) =
      addVars lib default nodata lsd true f ((grids.map fun g => { g with values := none }).map Grid.dict)
  | [], f, h => rfl
  | g :: grids, f, h => by
    have hdim : ¬ (g.values.map fun x => decide (g.axes.length ≠ x.shape.length)) = some true := by
      cases hv : g.values with
      | none => simp
      | some a => simp [h g (by simp) a hv]
    simp only [List.map_cons, addVars, Grid.dict, if_neg hdim]
    simp only [Bool.false_eq_true, if_false, Option.map_none, reduceCtorEq, if_true]
    split
    · next f' hc => exact addVars_no_data lib default nodata lsd grids f' fun g' hg' => h g' (by simp [hg'])
    · rfl

/-- **C153**: with `writedata` off, axes are saved as before, and every field exists and reads as missing
throughout. -/
theorem C153_no_data (lib : Lib T K) (default nodata : K) (disk : Disk T K) (path : String)
    (axes : List (Axis T K)) (grids : List (Grid T K)) (h : Consistent axes grids) :
    ∃ disk' f, ncSaveGrid lib default true disk path (axes.map Axis.dict) (grids.map Grid.dict) nodata none false =
        (disk', none) ∧ (∀ p, p ≠ path → disk' p = disk p) ∧ ncLoadFile disk' path = .ok f ∧
      (∀ a ∈ axes, ncGetDims f a.name = .ok (a.values.map (lib.cast a.type))) ∧
      ∀ g ∈ grids, ∃ a, ncGetData f g.name = .ok a ∧ ∀ x ∈ a.data, x = lib.cast g.type nodata := by
  have hc : Consistent axes (grids.map fun g => { g with values := none }) := by
    refine ⟨by simpa [Function.comp_def] using h.names, ?_, ?_⟩
    · intro g hg
      obtain ⟨g', hg', rfl⟩ := List.mem_map.1 hg
      exact h.known g' hg'
    · intro g hg a ha
      obtain ⟨g', hg', rfl⟩ := List.mem_map.1 hg
      simp at ha
  obtain ⟨disk', f, h1, h2, h3, h4, -, h5, -⟩ := C153_saved_partial lib default nodata disk path axes _ hc
  refine ⟨disk', f, ?_, h2, h3, h4, ?_⟩
  · rw [← h1]
    have hd := addDims_ok lib default axes ⟨[], []⟩ (by simpa using (List.nodup_append.1 h.names).1) (by simp)
    simp only [ncSaveGrid, if_true, hd]
    rw [addVars_no_data lib default nodata none grids _ fun g hg a ha => (h.shapes g hg a ha).length_eq.symm]
  · intro g hg
    exact h5 { g with values := none } (List.mem_map.2 ⟨g, hg, rfl⟩) rfl

/-- **C153**: an axis given twice is refused. -/
theorem C153_axis_twice (lib : Lib T K) (default nodata : K) (disk : Disk T K) (path : String)
    (axes : List (Axis T K)) (hn : (axes.map (·.name)).Nodup) (a : Axis T K) (ha : a.name ∈ axes.map (·.name))
    (ds : List (DimSpec T K)) (vs : List (VarSpec T K)) (lsd : Option ℕ) (w : Bool) :
    (ncSaveGrid lib default true disk path (axes.map Axis.dict ++ a.dict :: ds) vs nodata lsd w).2 = some .library := by
  have hd := addDims_ok lib default axes ⟨[], []⟩ (by simpa using hn) (by simp)
  simp only [List.nil_append] at hd
  have happ : ∀ (l : List (DimSpec T K)) (f f' : File T K) (l' : List (DimSpec T K)),
      addDims lib default f l = (f', none) → addDims lib default f (l ++ l') = addDims lib default f' l' := by
    intro l
    induction l with
    | nil => intro f f' l' hh; cases hh; rfl
    | cons d l ih =>
      intro f f' l' hh
      simp only [addDims, List.cons_append] at hh ⊢
      split at hh
      · split at hh
        · exact ih _ _ _ hh
        · next r hr => exact absurd hh (hr f')
      · cases hh
  have hl : ((axes.map fun a => (a.name, a.values.length)).lookup a.name).isSome = true := by
    obtain ⟨b, hb, e⟩ := List.mem_map.1 ha
    rw [lookup_some_of_mem (k := b.values.length) (by simpa [Function.comp_def] using hn)
      (List.mem_map.2 ⟨b, hb, by rw [e]⟩)]
    rfl
  simp only [ncSaveGrid, if_true, happ _ _ _ _ hd, addDims, Axis.dict, ncCreateDim, hl]

/-- **C153** fails for what was in the file before: whether the new data are refused or not, the earlier content is
gone; the file is the same as if there had been none. -/
theorem C153_earlier_file_lost_fails (lib : Lib T K) (default nodata : K) (disk : Disk T K) (path : String)
    (ds : List (DimSpec T K)) (vs : List (VarSpec T K)) (lsd : Option ℕ) (w : Bool) :
    (ncSaveGrid lib default true disk path ds vs nodata lsd w).1 path =
      (ncSaveGrid lib default true (fun _ => none) path ds vs nodata lsd w).1 path ∧
    ∀ d : DimSpec T K, d.Lacks →
      (ncSaveGrid lib default true disk path (d :: ds) vs nodata lsd w).1 path = some ⟨[], []⟩ := by
  refine ⟨by simp [ncSaveGrid], ?_⟩
  intro d hd
  simp [ncSaveGrid, addDims_key lib default hd]

/-- A file that cannot be created raises OSError and changes nothing. -/
theorem C153_cannot_open (lib : Lib T K) (default nodata : K) (disk : Disk T K) (path : String)
    (ds : List (DimSpec T K)) (vs : List (VarSpec T K)) (lsd : Option ℕ) (w : Bool) :
    ncSaveGrid lib default false disk path ds vs nodata lsd w = (disk, some .io) := by
  simp [ncSaveGrid]

/-! ### C154 -/

/-- The axes of a hazard file -/
def hazardAxes (ty : Types T) (h : Hazard K) : List (Axis T K) :=
  [⟨"ari", ty.f, h.years⟩, ⟨"lat", ty.f, h.lat⟩, ⟨"lon", ty.d, h.lon⟩]

/-- The fields of a hazard file -/
def hazardGrids [LinearOrder K] (ty : Types T) (h : Hazard K) : List (Grid T K) :=
  [⟨"loc", ty.f, ["lat", "lon"], none, some h.loc, { range := rangeOf h.loc }⟩,
   ⟨"scale", ty.f, ["lat", "lon"], none, some h.scale, {}⟩,
   ⟨"shp", ty.f, ["lat", "lon"], some 5, some h.shp, {}⟩,
   ⟨"wspd", ty.f, ["ari", "lat", "lon"], none, some h.rp, { range := rangeOf h.rp }⟩,
   ⟨"wspdupper", ty.f, ["ari", "lat", "lon"], none, some h.rpUpper, { percentile := some 95 }⟩,
   ⟨"wspdlower", ty.f, ["ari", "lat", "lon"], none, some h.rpLower, { percentile := some 5 }⟩,
   ⟨"crs", ty.i, [], none, none, {}⟩]

theorem hazard_consistent [LinearOrder K] (ty : Types T) {h : Hazard K} (hs : Shaped h) :
    Consistent (hazardAxes ty h) (hazardGrids ty h) := by
  have h1 : Has (hazardAxes ty h) "ari" h.years.length := ⟨⟨"ari", ty.f, h.years⟩, by simp [hazardAxes], rfl, rfl⟩
  have h2 : Has (hazardAxes ty h) "lat" h.lat.length := ⟨⟨"lat", ty.f, h.lat⟩, by simp [hazardAxes], rfl, rfl⟩
  have h3 : Has (hazardAxes ty h) "lon" h.lon.length := ⟨⟨"lon", ty.d, h.lon⟩, by simp [hazardAxes], rfl, rfl⟩
  have f2 : List.Forall₂ (Has (hazardAxes ty h)) ["lat", "lon"] [h.lat.length, h.lon.length] :=
    .cons h2 (.cons h3 .nil)
  have f3 : List.Forall₂ (Has (hazardAxes ty h)) ["ari", "lat", "lon"] [h.years.length, h.lat.length, h.lon.length] :=
    .cons h1 f2
  refine ⟨by simp [hazardAxes, hazardGrids], ?_, ?_⟩
  · intro g hg
    simp only [hazardGrids, List.mem_cons, List.not_mem_nil, or_false] at hg
    have hk : ∀ n, n = "ari" ∨ n = "lat" ∨ n = "lon" → ∃ a ∈ hazardAxes ty h, a.name = n := by
      rintro n (rfl | rfl | rfl)
      · exact ⟨_, h1.choose_spec.1, h1.choose_spec.2.1⟩
      · exact ⟨_, h2.choose_spec.1, h2.choose_spec.2.1⟩
      · exact ⟨_, h3.choose_spec.1, h3.choose_spec.2.1⟩
    rcases hg with rfl | rfl | rfl | rfl | rfl | rfl | rfl <;> intro n hn <;>
      simp only [List.mem_cons, List.not_mem_nil, or_false] at hn <;> apply hk <;> tauto
  · intro g hg
    simp only [hazardGrids, List.mem_cons, List.not_mem_nil, or_false] at hg
    rcases hg with rfl | rfl | rfl | rfl | rfl | rfl | rfl <;> intro a ha <;> simp only [Option.some.injEq, reduceCtorEq] at ha
    · rw [← ha, hs.loc.1]; exact f2
    · rw [← ha, hs.scale.1]; exact f2
    · rw [← ha, hs.shp.1]; exact f2
    · rw [← ha, hs.rp.1]; exact f3
    · rw [← ha, hs.rpUpper.1]; exact f3
    · rw [← ha, hs.rpLower.1]; exact f3

theorem rangeOf_isSome [LinearOrder K] {a : Arr K} (h : a.data ≠ []) : (rangeOf a).isSome := by
  unfold rangeOf
  cases h1 : a.data.min? with
  | none => simp [List.min?_eq_none_iff] at h1; exact absurd h1 h
  | some l =>
    cases h2 : a.data.max? with
    | none => simp [List.max?_eq_none_iff] at h2; exact absurd h2 h
    | some m => rfl

theorem saveHazard_ok [LinearOrder K] (lib : Lib T K) (ty : Types T) (default : K) (disk : Disk T K) (path : String)
    {h : Hazard K} (hs : Shaped h) :
    saveHazard lib ty default true disk path h =
      (Function.update disk path (some (fileOf lib h.nodata (hazardAxes ty h) (hazardGrids ty h))), none) := by
  have p2 : 0 < [h.lat.length, h.lon.length].prod := by
    simp only [List.prod_cons, List.prod_nil, mul_one]
    exact Nat.mul_pos hs.lat hs.lon
  have p3 : 0 < [h.years.length, h.lat.length, h.lon.length].prod := by
    simp only [List.prod_cons, List.prod_nil, mul_one]
    exact Nat.mul_pos hs.years (Nat.mul_pos hs.lat hs.lon)
  have l1 : h.loc.data ≠ [] := by
    intro e
    have := hs.loc.2
    rw [e] at this
    simp only [List.length_nil] at this
    omega
  have l2 : h.rp.data ≠ [] := by
    intro e
    have := hs.rp.2
    rw [e] at this
    simp only [List.length_nil] at this
    omega
  have r1 := rangeOf_isSome l1
  have r2 := rangeOf_isSome l2
  have n1 : ¬ ((rangeOf h.loc).isNone = true ∨ (rangeOf h.rp).isNone = true) := by
    rcases Option.isSome_iff_exists.1 r1 with ⟨a, ha⟩
    rcases Option.isSome_iff_exists.1 r2 with ⟨b, hb⟩
    simp [ha, hb]
  rw [saveHazard, if_neg n1]
  exact ncSaveGrid_ok lib default h.nodata disk path _ _ (hazard_consistent ty hs)

theorem loadFile_ok [LinearOrder K] (lib : Lib T K) (ty : Types T) (disk : Disk T K) (path : String)
    {h : Hazard K} (hs : Shaped h) :
    loadFile (Function.update disk path (some (fileOf lib h.nodata (hazardAxes ty h) (hazardGrids ty h)))) path "wspd" =
      .ok (h.lon.map (lib.cast ty.d), h.lat.map (lib.cast ty.f), h.years.map (lib.cast ty.f),
        ⟨h.rp.shape, h.rp.data.map fun x =>
          if lib.cast ty.f x = lib.cast ty.f h.nodata then none else some (lib.cast ty.f x)⟩) := by
  have hc := hazard_consistent ty hs
  have a1 := get_axis lib h.nodata _ _ hc (a := ⟨"ari", ty.f, h.years⟩) (by simp [hazardAxes])
  have a2 := get_axis lib h.nodata _ _ hc (a := ⟨"lat", ty.f, h.lat⟩) (by simp [hazardAxes])
  have a3 := get_axis lib h.nodata _ _ hc (a := ⟨"lon", ty.d, h.lon⟩) (by simp [hazardAxes])
  have g := get_grid lib h.nodata _ _ hc
    (g := ⟨"wspd", ty.f, ["ari", "lat", "lon"], none, some h.rp, { range := rangeOf h.rp }⟩) (by simp [hazardGrids])
  have d := data_grid lib h.nodata _ _ hc
    (g := ⟨"wspd", ty.f, ["ari", "lat", "lon"], none, some h.rp, { range := rangeOf h.rp }⟩) (by simp [hazardGrids]) rfl
  simp only at a1 a2 a3 g d
  simp only [loadFile, ncLoadFile, Function.update_self, ncGetDims, bind, Except.bind, Except.map, a1, a2, a3, d, g]
  simp [axisVar, gridVar, kept, pure, Except.pure, Function.comp_def]
  intro a _
  by_cases hx : lib.cast ty.f a = lib.cast ty.f h.nodata <;> simp [hx]

/-- **C154**: after the hazard calculation has saved its results, there is a map for each period; a map shows in each
row and column, at its latitude and longitude (or that of 360° less, if the region lies east of 180°), the level of
that period there, in the units of the plot, and nothing where the level is missing.  Numbers are those kept in the file
(`lib.cast`). -/
theorem C154_map [Field K] [LinearOrder K] (lib : Lib T K) (ty : Types T) (default : K) (disk : Disk T K)
    (path : String) (conv : K → K) {h : Hazard K} (hs : Shaped h) :
    ∃ disk' maps, saveHazard lib ty default true disk path h = (disk', none) ∧ plotMaps conv disk' path = .ok maps ∧
      maps.length = h.years.length ∧
      ∃ shift : K, (shift = 0 ∨ shift = 360 ∧ ∀ l ∈ h.lon, 180 < lib.cast ty.d l) ∧
        ∀ (k : ℕ) (m : Map K), maps[k]? = some m → m.lat.length = h.lat.length ∧ m.lon.length = h.lon.length ∧
          (∀ t, h.years[k]? = some t → m.year = lib.cast ty.f t) ∧
          (∀ (y : ℕ) (a : K), h.lat[y]? = some a → m.lat[y]? = some (lib.cast ty.f a)) ∧
          (∀ (x : ℕ) (a : K), h.lon[x]? = some a → m.lon[x]? = some (lib.cast ty.d a - shift)) ∧
          ∀ y < h.lat.length, ∀ x < h.lon.length, ∃ v, h.level k y x = some v ∧
            (v = h.nodata → m.shown y x = some none) ∧
            (lib.cast ty.f v ≠ lib.cast ty.f h.nodata → m.shown y x = some (some (conv (lib.cast ty.f v)))) := by
  have hl : h.lon.map (lib.cast ty.d) ≠ [] := by
    have := hs.lon
    intro e
    simp only [List.map_eq_nil_iff] at e
    simp [e] at this
  obtain ⟨l, hmin⟩ : ∃ l, (h.lon.map (lib.cast ty.d)).min? = some l := by
    cases e : (h.lon.map (lib.cast ty.d)).min? with
    | none => rw [List.min?_eq_none_iff] at e; exact absurd e hl
    | some l => exact ⟨l, rfl⟩
  have hle : ∀ a ∈ h.lon, l ≤ lib.cast ty.d a := by
    intro a ha
    exact (List.min?_eq_some_iff.1 hmin).2 _ (List.mem_map_of_mem ha)
  have key : ∀ (lon' : List K), lon'.length = h.lon.length → ∀ (k : ℕ) (m : Map K),
      ((h.years.map (lib.cast ty.f)).mapIdx fun k y =>
        (⟨y, lon', h.lat.map (lib.cast ty.f),
          (((h.rp.data.map fun x => if lib.cast ty.f x = lib.cast ty.f h.nodata then none else
            some (lib.cast ty.f x)).drop (k * (h.lat.length * h.lon.length))).take
              (h.lat.length * h.lon.length)).map (Option.map conv)⟩ : Map K))[k]? = some m →
      m.lat.length = h.lat.length ∧ m.lon = lon' ∧ (∀ t, h.years[k]? = some t → m.year = lib.cast ty.f t) ∧
          (∀ (y : ℕ) (a : K), h.lat[y]? = some a → m.lat[y]? = some (lib.cast ty.f a)) ∧
          ∀ y < h.lat.length, ∀ x < h.lon.length, ∃ v, h.level k y x = some v ∧
            (v = h.nodata → m.shown y x = some none) ∧
            (lib.cast ty.f v ≠ lib.cast ty.f h.nodata → m.shown y x = some (some (conv (lib.cast ty.f v)))) := by
    intro lon' hlon' k m hm
    rw [List.getElem?_mapIdx, List.getElem?_map] at hm
    cases hk : h.years[k]? with
    | none => simp [hk] at hm
    | some t =>
      simp only [hk, Option.map_some, Option.some.injEq] at hm
      subst hm
      refine ⟨by simp, rfl, ?_, ?_, ?_⟩
      · intro t' ht'; cases ht'; rfl
      · intro y a ha; simp [ha]
      · intro y hy x hx
        have hkn : k < h.years.length := by
          by_contra hc
          rw [List.getElem?_eq_none (by omega)] at hk
          cases hk
        have hlt : y * h.lon.length + x < h.lat.length * h.lon.length := by
          calc y * h.lon.length + x < y * h.lon.length + h.lon.length := by omega
            _ = (y + 1) * h.lon.length := by ring
            _ ≤ h.lat.length * h.lon.length := Nat.mul_le_mul_right _ hy
        have hlen : h.rp.data.length = h.years.length * (h.lat.length * h.lon.length) := by
          have := hs.rp.2
          simpa using this
        have hidx : (k * h.lat.length + y) * h.lon.length + x =
            k * (h.lat.length * h.lon.length) + (y * h.lon.length + x) := by ring
        have hlt2 : (k * h.lat.length + y) * h.lon.length + x < h.rp.data.length := by
          rw [hidx, hlen]
          calc k * (h.lat.length * h.lon.length) + (y * h.lon.length + x)
              < k * (h.lat.length * h.lon.length) + h.lat.length * h.lon.length := by omega
            _ = (k + 1) * (h.lat.length * h.lon.length) := by ring
            _ ≤ _ := Nat.mul_le_mul_right _ hkn
        refine ⟨h.rp.data[(k * h.lat.length + y) * h.lon.length + x], ?_, ?_⟩
        · simp only [Hazard.level, List.getElem?_eq_getElem hlt2]
        · have hsh : ∀ (m : Map K), m.lon = lon' → m.values = (((h.rp.data.map fun x =>
              if lib.cast ty.f x = lib.cast ty.f h.nodata then none else
                some (lib.cast ty.f x)).drop (k * (h.lat.length * h.lon.length))).take
                  (h.lat.length * h.lon.length)).map (Option.map conv) →
              m.shown y x = some (Option.map conv (if lib.cast ty.f h.rp.data[(k * h.lat.length + y) * h.lon.length + x] =
                lib.cast ty.f h.nodata then none else
                some (lib.cast ty.f h.rp.data[(k * h.lat.length + y) * h.lon.length + x]))) := by
            intro m e1 e2
            simp only [Map.shown, e1, e2, hlon']
            rw [List.getElem?_map, List.getElem?_take_of_lt hlt, List.getElem?_drop, List.getElem?_map, ← hidx,
              List.getElem?_eq_getElem hlt2]
            rfl
          constructor
          · intro e
            rw [hsh _ rfl rfl, e]
            simp
          · intro e
            rw [hsh _ rfl rfl]
            simp [e]
  have plot : ∀ lon' : List K,
      (if 180 < l then (h.lon.map (lib.cast ty.d)).map (· - 360) else h.lon.map (lib.cast ty.d)) = lon' →
      plotMaps conv (Function.update disk path (some (fileOf lib h.nodata (hazardAxes ty h) (hazardGrids ty h)))) path =
        .ok ((h.years.map (lib.cast ty.f)).mapIdx fun k y =>
          (⟨y, lon', h.lat.map (lib.cast ty.f),
            (((h.rp.data.map fun x => if lib.cast ty.f x = lib.cast ty.f h.nodata then none else
              some (lib.cast ty.f x)).drop (k * (h.lat.length * h.lon.length))).take
                (h.lat.length * h.lon.length)).map (Option.map conv)⟩ : Map K)) := by
    intro lon' e
    rw [plotMaps, loadFile_ok lib ty disk path hs]
    simp only [hmin, e, List.length_map]
  by_cases h180 : 180 < l
  · have hp := plot ((h.lon.map (lib.cast ty.d)).map (· - 360)) (by simp [h180])
    refine ⟨_, _, saveHazard_ok lib ty default disk path hs, hp, by simp, 360, .inr ⟨rfl, fun a ha => lt_of_lt_of_le h180 (hle a ha)⟩, ?_⟩
    intro k m hm
    obtain ⟨h1, h2, h3, h4, h5⟩ := key ((h.lon.map (lib.cast ty.d)).map (· - 360)) (by simp) k m hm
    refine ⟨h1, by simp [h2], h3, h4, ?_, h5⟩
    intro x a ha
    simp [h2, ha]
  · have hp := plot (h.lon.map (lib.cast ty.d)) (by simp [h180])
    refine ⟨_, _, saveHazard_ok lib ty default disk path hs, hp, by simp, 0, .inl rfl, ?_⟩
    intro k m hm
    obtain ⟨h1, h2, h3, h4, h5⟩ := key (h.lon.map (lib.cast ty.d)) (by simp) k m hm
    refine ⟨h1, by simp [h2], h3, h4, ?_, h5⟩
    intro x a ha
    simp [h2, ha]

/-- **C154**: with levels that are missing or not negative, a missing value below zero and a rounding that keeps the
order and these numbers, a place of a map is empty exactly if the level there is missing. -/
theorem C154_empty_iff [Field K] [LinearOrder K] (lib : Lib T K) (ty : Types T) (default : K) (disk : Disk T K)
    (path : String) (conv : K → K) {h : Hazard K} (hs : Shaped h) (hn : h.nodata < 0)
    (hv : ∀ v ∈ h.rp.data, v = h.nodata ∨ 0 ≤ v) (hm : Monotone (lib.cast ty.f)) (h0 : lib.cast ty.f 0 = 0)
    (hc : lib.cast ty.f h.nodata = h.nodata) :
    ∃ disk' maps, saveHazard lib ty default true disk path h = (disk', none) ∧ plotMaps conv disk' path = .ok maps ∧
      ∀ (k : ℕ) (m : Map K), maps[k]? = some m → ∀ y < h.lat.length, ∀ x < h.lon.length,
        (m.shown y x = some none ↔ h.level k y x = some h.nodata) := by
  obtain ⟨disk', maps, h1, h2, _, shift, _, h3⟩ := C154_map lib ty default disk path conv hs
  refine ⟨disk', maps, h1, h2, ?_⟩
  intro k m hkm y hy x hx
  obtain ⟨v, hl, ha, hb⟩ := (h3 k m hkm).2.2.2.2.2 y hy x hx
  rw [hl]
  constructor
  · intro hsh
    by_contra hne
    have hvn : v ≠ h.nodata := fun e => hne (by rw [e])
    have hmem : v ∈ h.rp.data := List.mem_of_getElem? hl
    have h0v : 0 ≤ v := (hv v hmem).resolve_left hvn
    have : lib.cast ty.f v ≠ lib.cast ty.f h.nodata := by
      rw [hc]
      have := hm h0v
      rw [h0] at this
      exact fun e => absurd (lt_of_lt_of_le hn this) (by rw [e]; exact lt_irrefl _)
    rw [hb this] at hsh
    cases hsh
  · intro e
    exact ha (Option.some.inj e)

/-- **C155**, in part: after the results are saved, levels and parameters are in the file under their names on their
axes as calculated, converted to single precision (the shape parameter also to five digits); and
the range given for the levels is that of the numbers stored (so that of the levels, if none is missing). -/
theorem C155_file_partial [LinearOrder K] (lib : Lib T K) (ty : Types T) (default : K) (disk : Disk T K)
    (path : String) {h : Hazard K} (hs : Shaped h) :
    ∃ disk' f, saveHazard lib ty default true disk path h = (disk', none) ∧ (∀ p, p ≠ path → disk' p = disk p) ∧
      ncLoadFile disk' path = .ok f ∧
      ncGetDims f "ari" = .ok (h.years.map (lib.cast ty.f)) ∧ ncGetDims f "lat" = .ok (h.lat.map (lib.cast ty.f)) ∧
      ncGetDims f "lon" = .ok (h.lon.map (lib.cast ty.d)) ∧
      ncGetData f "wspd" = .ok ⟨[h.years.length, h.lat.length, h.lon.length], h.rp.data.map (lib.cast ty.f)⟩ ∧
      ncGetData f "loc" = .ok ⟨[h.lat.length, h.lon.length], h.loc.data.map (lib.cast ty.f)⟩ ∧
      ncGetData f "scale" = .ok ⟨[h.lat.length, h.lon.length], h.scale.data.map (lib.cast ty.f)⟩ ∧
      ncGetData f "shp" = .ok ⟨[h.lat.length, h.lon.length], h.shp.data.map fun x => lib.quantize 5 (lib.cast ty.f x)⟩ ∧
      ∃ w lo hi, ncGetVar f "wspd" = .ok w ∧ w.fill = some (lib.cast ty.f h.nodata) ∧ w.atts.range = some (lo, hi) ∧
        lo ∈ h.rp.data ∧ hi ∈ h.rp.data ∧ ∀ v ∈ h.rp.data, lo ≤ v ∧ v ≤ hi := by
  have hc := hazard_consistent ty hs
  have a1 := get_axis lib h.nodata _ _ hc (a := ⟨"ari", ty.f, h.years⟩) (by simp [hazardAxes])
  have a2 := get_axis lib h.nodata _ _ hc (a := ⟨"lat", ty.f, h.lat⟩) (by simp [hazardAxes])
  have a3 := get_axis lib h.nodata _ _ hc (a := ⟨"lon", ty.d, h.lon⟩) (by simp [hazardAxes])
  have g := get_grid lib h.nodata _ _ hc
    (g := ⟨"wspd", ty.f, ["ari", "lat", "lon"], none, some h.rp, { range := rangeOf h.rp }⟩) (by simp [hazardGrids])
  have d := data_grid lib h.nodata _ _ hc
    (g := ⟨"wspd", ty.f, ["ari", "lat", "lon"], none, some h.rp, { range := rangeOf h.rp }⟩) (by simp [hazardGrids]) rfl
  have d1 := data_grid lib h.nodata _ _ hc
    (g := ⟨"loc", ty.f, ["lat", "lon"], none, some h.loc, { range := rangeOf h.loc }⟩) (by simp [hazardGrids]) rfl
  have d2 := data_grid lib h.nodata _ _ hc
    (g := ⟨"scale", ty.f, ["lat", "lon"], none, some h.scale, {}⟩) (by simp [hazardGrids]) rfl
  have d3 := data_grid lib h.nodata _ _ hc
    (g := ⟨"shp", ty.f, ["lat", "lon"], some 5, some h.shp, {}⟩) (by simp [hazardGrids]) rfl
  have l2 : h.rp.data ≠ [] := by
    intro e
    have := hs.rp.2
    have p3 : 0 < [h.years.length, h.lat.length, h.lon.length].prod := by
      simp only [List.prod_cons, List.prod_nil, mul_one]
      exact Nat.mul_pos hs.years (Nat.mul_pos hs.lat hs.lon)
    rw [e] at this
    simp only [List.length_nil] at this
    omega
  obtain ⟨lo, hlo⟩ : ∃ lo, h.rp.data.min? = some lo := by
    cases e : h.rp.data.min? with
    | none => rw [List.min?_eq_none_iff] at e; exact absurd e l2
    | some l => exact ⟨l, rfl⟩
  obtain ⟨hi, hhi⟩ : ∃ hi, h.rp.data.max? = some hi := by
    cases e : h.rp.data.max? with
    | none => rw [List.max?_eq_none_iff] at e; exact absurd e l2
    | some l => exact ⟨l, rfl⟩
  have m1 := List.min?_eq_some_iff.1 hlo
  have m2 := List.max?_eq_some_iff.1 hhi
  simp only at a1 a2 a3
  refine ⟨_, fileOf lib h.nodata (hazardAxes ty h) (hazardGrids ty h), saveHazard_ok lib ty default disk path hs, ?_,
    by simp only [ncLoadFile, Function.update_self], ?_, ?_, ?_, ?_, ?_, ?_, ?_, _, lo, hi, g, rfl, ?_, m1.1, m2.1, ?_⟩
  · intro p hp
    simp [Function.update_of_ne hp]
  · simp [ncGetDims, a1, axisVar, Except.map]
  · simp [ncGetDims, a2, axisVar, Except.map]
  · simp [ncGetDims, a3, axisVar, Except.map]
  · simp only at d; rw [d, hs.rp.1]; simp [kept]
  · simp only at d1; rw [d1, hs.loc.1]; simp [kept]
  · simp only at d2; rw [d2, hs.scale.1]; simp [kept]
  · simp only at d3; rw [d3, hs.shp.1]; simp [kept]
  · simp [gridVar, rangeOf, hlo, hhi]
  · intro v hv
    exact ⟨m1.2 v hv, m2.2 v hv⟩

/-- **C155** fails for the range of levels given in the file (`actual_range`): as soon as one level is missing, it
starts at the missing value (which is below all levels). -/
theorem C155_range_fails [LinearOrder K] (lib : Lib T K) (ty : Types T) (default : K) (disk : Disk T K)
    (path : String) {h : Hazard K} (hs : Shaped h) (hmis : h.nodata ∈ h.rp.data) (hv : ∀ v ∈ h.rp.data, h.nodata ≤ v) :
    ∃ disk' f var hi, saveHazard lib ty default true disk path h = (disk', none) ∧ ncLoadFile disk' path = .ok f ∧
      ncGetVar f "wspd" = .ok var ∧ var.atts.range = some (h.nodata, hi) := by
  have g := get_grid lib h.nodata _ _ (hazard_consistent ty hs)
    (g := ⟨"wspd", ty.f, ["ari", "lat", "lon"], none, some h.rp, { range := rangeOf h.rp }⟩) (by simp [hazardGrids])
  have hmin : h.rp.data.min? = some h.nodata := List.min?_eq_some_iff.2 ⟨hmis, hv⟩
  obtain ⟨hi, hhi⟩ : ∃ hi, h.rp.data.max? = some hi := by
    cases e : h.rp.data.max? with
    | none => rw [List.max?_eq_none_iff] at e; rw [e] at hmis; cases hmis
    | some hi => exact ⟨hi, rfl⟩
  exact ⟨_, _, _, hi, saveHazard_ok lib ty default disk path hs, by simp only [ncLoadFile, Function.update_self], g,
    by simp [gridVar, rangeOf, hmin, hhi]⟩

/-- **C155** fails for the confidence limits: the file calls them the 95th and 5th percentile whatever range is
configured; and when none are calculated (the arrays are left zero) it shows limits of 0 at every place, not missing
ones. -/
theorem C155_limits_fails [LinearOrder K] [Zero K] (lib : Lib T K) (ty : Types T) (default : K) (disk : Disk T K)
    (path : String) {h : Hazard K} (hs : Shaped h) (h0 : ∀ v ∈ h.rpUpper.data, v = 0) :
    ∃ disk' f up lo a, saveHazard lib ty default true disk path h = (disk', none) ∧ ncLoadFile disk' path = .ok f ∧
      ncGetVar f "wspdupper" = .ok up ∧ up.atts.percentile = some 95 ∧
      ncGetVar f "wspdlower" = .ok lo ∧ lo.atts.percentile = some 5 ∧
      ncGetData f "wspdupper" = .ok a ∧ a.data.length = h.rp.data.length ∧ ∀ v ∈ a.data, v = lib.cast ty.f 0 := by
  have hc := hazard_consistent ty hs
  have g := get_grid lib h.nodata _ _ hc
    (g := ⟨"wspdupper", ty.f, ["ari", "lat", "lon"], none, some h.rpUpper, { percentile := some 95 }⟩)
    (by simp [hazardGrids])
  have g' := get_grid lib h.nodata _ _ hc
    (g := ⟨"wspdlower", ty.f, ["ari", "lat", "lon"], none, some h.rpLower, { percentile := some 5 }⟩)
    (by simp [hazardGrids])
  have d := data_grid lib h.nodata _ _ hc
    (g := ⟨"wspdupper", ty.f, ["ari", "lat", "lon"], none, some h.rpUpper, { percentile := some 95 }⟩)
    (by simp [hazardGrids]) rfl
  refine ⟨_, _, _, _, _, saveHazard_ok lib ty default disk path hs, by simp only [ncLoadFile, Function.update_self],
    g, rfl, g', rfl, d, ?_, ?_⟩
  · simp only [List.length_map]
    rw [hs.rpUpper.2, hs.rp.2]
  · intro v hv
    obtain ⟨x, hx, rfl⟩ := List.mem_map.1 hv
    simp [kept, h0 x hx]

/-! ### Examples -/

/-- A library: single precision as quarters (rounded down), double precision exact -/
def quarters : Lib Bool ℚ := ⟨fun t x => if t then (⌊x * 4⌋ : ℤ) / 4 else x, fun _ x => (⌊x * 8⌋ : ℤ) / 8,
  fun _ _ => .error .library⟩

/-- A hazard of two periods on a grid of one row and two columns, with a missing level -/
def sample : Hazard ℚ where
  years := [10, 100]
  lat := [-201 / 10]
  lon := [181, 181.05]
  nodata := -9999
  loc := ⟨[1, 2], [30, -9999]⟩
  scale := ⟨[1, 2], [5, -9999]⟩
  shp := ⟨[1, 2], [1 / 10, -9999]⟩
  rp := ⟨[2, 1, 2], [40.3, -9999, 55, -9999]⟩
  rpUpper := ⟨[2, 1, 2], [0, 0, 0, 0]⟩
  rpLower := ⟨[2, 1, 2], [0, 0, 0, 0]⟩

theorem sample_shaped : Shaped sample := by
  constructor <;> simp [sample, IsArr]

example : Consistent (hazardAxes ⟨true, false, false⟩ sample) (hazardGrids ⟨true, false, false⟩ sample) :=
  hazard_consistent _ sample_shaped

example : Monotone (quarters.cast true) := by
  intro a b hab
  simp only [quarters, if_true]
  have : (⌊a * 4⌋ : ℚ) ≤ ⌊b * 4⌋ := by exact_mod_cast Int.floor_le_floor (by linarith)
  linarith

example : quarters.cast true 0 = 0 ∧ quarters.cast true (-9999) = -9999 := by decide +kernel

/-- The maps of the sample -/
def sampleMaps : List (Map ℚ) :=
  ((plotMaps id (saveHazard quarters ⟨true, false, false⟩ 0 true (fun _ => none) "hazard.nc" sample).1
    "hazard.nc").toOption).getD []

/-- The first place shows 40.25 and 55, the second nothing. -/
example : sampleMaps.map (·.values) = [[some (161 / 4), none], [some 55, none]] := by decide +kernel

/-- Longitudes −179 and −178.95 -/
example : sampleMaps.map (·.lon) = [[-179, -178.95], [-179, -178.95]] ∧ sampleMaps.map (·.year) = [10, 100] ∧
    sampleMaps.map (·.lat) = [[-81 / 4], [-81 / 4]] := by decide +kernel

example : sample.nodata ∈ sample.rp.data ∧ ∀ v ∈ sample.rp.data, sample.nodata ≤ v := by decide +kernel

example : (⟨some "lat", none, some true, some {}⟩ : DimSpec Bool ℚ).Lacks := .inr (.inl rfl)

end Tcrm.NcGrid
