import Verif.Model.LandfallSummary
import Verif.Spec.LandfallSummary
import Verif.Props.LandfallGates
/-!
C189: summary of landfalls over the simulations.
-/
namespace Tcrm.LandfallSummary
open Tcrm.Evaluate
open Tcrm.Geometry (Point)

theorem isLandfall_flatten (g : Gate) (files : List (List Track)) :
    isLandfall g files.flatten = files.flatMap (isLandfall g) := by
  induction files with
  | nil => rfl
  | cons f fs ih =>
    rw [List.flatten_cons, List.flatMap_cons, ← ih]
    simp only [isLandfall, List.flatMap_append, List.filter_append]

theorem count_eq (g : Gate) (tracks : List Track) : (countCrossings g tracks).count = (isLandfall g tracks).length := by
  unfold countCrossings
  simp only
  split
  · rfl
  · simp only; omega

theorem min_eq (g : Gate) (tracks : List Track) :
    (countCrossings g tracks).minIntensity = minimum ((isLandfall g tracks).map (·.1.pressure)) := by
  unfold countCrossings
  simp only
  split
  · rfl
  · have : isLandfall g tracks = [] := List.eq_nil_of_length_eq_zero (by omega)
    rw [this]; rfl

theorem mean_eq (g : Gate) (tracks : List Track) :
    (countCrossings g tracks).meanIntensity = mean ((isLandfall g tracks).map (·.1.pressure)) := by
  unfold countCrossings
  simp only
  split
  · rfl
  · have : isLandfall g tracks = [] := List.eq_nil_of_length_eq_zero (by omega)
    rw [this]; rfl

/-- The gate with number `k` in a shape file where all numbers differ. -/
theorem group_of (ids : List ℤ) (hn : ids.Nodup) (gates : List Gate) (hl : ids.length = gates.length)
    (files : List (List Track)) (k : Nat) (id : ℤ) (g : Gate) (hid : ids[k]? = some id) (hg : gates[k]? = some g) :
    group ids (files.map fun tracks => gates.map fun g => countCrossings g tracks) id =
      files.map fun tracks => countCrossings g tracks := by
  unfold group
  rw [List.flatMap_map]
  induction files with
  | nil => rfl
  | cons f fs ih =>
    rw [List.flatMap_cons, List.map_cons, ih]
    have : ((ids.zip (gates.map fun g => countCrossings g f)).filter fun p => decide (p.1 = id)).map (·.2) =
        [countCrossings g f] := by
      clear ih
      induction ids generalizing gates k with
      | nil => simp at hid
      | cons a ids ih =>
        cases gates with
        | nil => simp at hl
        | cons b gates =>
          rw [List.nodup_cons] at hn
          cases k with
          | zero =>
            simp only [List.getElem?_cons_zero, Option.some.injEq] at hid hg
            subst hid hg
            rw [List.map_cons, List.zip_cons_cons, List.filter_cons_of_pos (by simp), List.map_cons]
            have : ((ids.zip (gates.map fun g => countCrossings g f)).filter fun p => decide (p.1 = a)) = [] := by
              rw [List.filter_eq_nil_iff]
              intro p hp
              have := (List.of_mem_zip hp).1
              simp only [decide_eq_true_eq]
              rintro rfl
              exact hn.1 this
            rw [this]
            rfl
          | succ k =>
            simp only [List.getElem?_cons_succ] at hid hg
            rw [List.map_cons, List.zip_cons_cons, List.filter_cons_of_neg]
            · exact ih hn.2 gates (by simpa using hl) k hid hg
            · simp only [decide_eq_true_eq]
              rintro rfl
              exact hn.1 (List.mem_of_getElem? hid)
    rw [this]
    rfl

/-- No gate has the number `id`. -/
theorem group_none (ids : List ℤ) (sims : List (List GateRow)) (id : ℤ) (h : id ∉ ids) : group ids sims id = [] := by
  unfold group
  rw [List.flatMap_eq_nil_iff]
  intro rows _
  rw [List.map_eq_nil_iff, List.filter_eq_nil_iff]
  intro p hp
  simp only [decide_eq_true_eq]
  rintro rfl
  exact h (List.of_mem_zip hp).1

/-- C189: which gate is shown where. The entry for the gate in position `j` of the shape file is the summary of the gate
*numbered* `j`; without such a gate nothing is shown. -/
theorem C189_shown (ids : List ℤ) (hn : ids.Nodup) (gates : List Gate) (hl : ids.length = gates.length)
    (dir : List (List Char × List Track)) (out : List (Option Summary)) (h : loadLandfallRates ids gates dir = .ok out)
    (j : Nat) (hj : j < gates.length) :
    out.length = gates.length ∧
    ((j : ℤ) ∉ ids → out[j]? = some none) ∧
    ∀ (k : Nat) (g : Gate), ids[k]? = some (j : ℤ) → gates[k]? = some g →
      out[j]? = some (some (summarise ((trackFiles dir).map fun tracks => countCrossings g tracks))) := by
  unfold loadLandfallRates at h
  simp only at h
  split at h
  · cases h
  · rename_i hne
    split at h
    · cases h
    · cases h
      refine ⟨by simp, fun hid => ?_, fun k g hid hg => ?_⟩
      · rw [List.getElem?_map, List.getElem?_range hj, Option.map_some, lookup, if_pos (group_none _ _ _ hid)]
      · rw [List.getElem?_map, List.getElem?_range hj, Option.map_some, lookup,
          group_of ids hn gates hl _ k _ g hid hg, if_neg (by simpa using hne)]

theorem sum_counts (g : Gate) (files : List (List Track)) :
    ((files.map fun tracks => countCrossings g tracks).map (·.count)).sum = (isLandfall g files.flatten).length := by
  rw [isLandfall_flatten, List.length_flatMap, List.map_map]
  congr 1
  apply List.map_congr_left
  intro t _
  exact count_eq g t

theorem summary_total (g : Gate) (files : List (List Track)) :
    (summarise (files.map fun tracks => countCrossings g tracks)).total = (isLandfall g files.flatten).length :=
  sum_counts g files

theorem summary_rate (g : Gate) (files : List (List Track)) (hne : files ≠ []) :
    (summarise (files.map fun tracks => countCrossings g tracks)).rate =
      some ((isLandfall g files.flatten).length / files.length : ℚ) := by
  unfold summarise mean
  simp only
  rw [if_neg (by simpa using hne), ← sum_counts]
  simp only [List.length_map]
  congr 2
  rw [Nat.cast_list_sum, List.map_map, List.map_map, List.map_map]
  rfl

theorem summary_lowest (g : Gate) (files : List (List Track)) (p : ℚ) :
    (summarise (files.map fun tracks => countCrossings g tracks)).lowest = some p ↔
      (∃ s ∈ isLandfall g files.flatten, s.1.pressure = p) ∧ ∀ s ∈ isLandfall g files.flatten, p ≤ s.1.pressure := by
  unfold summarise
  simp only
  rw [minimum_spec, isLandfall_flatten]
  constructor
  · rintro ⟨h1, h2⟩
    rw [List.mem_filterMap] at h1
    obtain ⟨r, hr, hp⟩ := h1
    obtain ⟨t, ht, rfl⟩ := List.mem_map.1 hr
    rw [min_eq, minimum_spec] at hp
    obtain ⟨s, hs, hsp⟩ := List.mem_map.1 hp.1
    refine ⟨⟨s, List.mem_flatMap.2 ⟨t, ht, hs⟩, hsp⟩, ?_⟩
    intro s' hs'
    obtain ⟨t', ht', hs''⟩ := List.mem_flatMap.1 hs'
    cases hm : (countCrossings g t').minIntensity with
    | none =>
      rw [min_eq] at hm
      cases hl : isLandfall g t' with
      | nil => rw [hl] at hs''; cases hs''
      | cons a l => rw [hl] at hm; cases hm
    | some q =>
      have hq := h2 q (List.mem_filterMap.2 ⟨_, List.mem_map.2 ⟨t', ht', rfl⟩, hm⟩)
      rw [min_eq, minimum_spec] at hm
      exact hq.trans (hm.2 _ (List.mem_map.2 ⟨s', hs'', rfl⟩))
  · rintro ⟨⟨s, hs, rfl⟩, h2⟩
    obtain ⟨t, ht, hs'⟩ := List.mem_flatMap.1 hs
    refine ⟨List.mem_filterMap.2 ⟨_, List.mem_map.2 ⟨t, ht, rfl⟩, ?_⟩, ?_⟩
    · rw [min_eq, minimum_spec]
      refine ⟨List.mem_map.2 ⟨s, hs', rfl⟩, fun v hv => ?_⟩
      obtain ⟨s', hs'', rfl⟩ := List.mem_map.1 hv
      exact h2 s' (List.mem_flatMap.2 ⟨t, ht, hs''⟩)
    · intro v hv
      obtain ⟨r, hr, hp⟩ := List.mem_filterMap.1 hv
      obtain ⟨t', ht', rfl⟩ := List.mem_map.1 hr
      rw [min_eq, minimum_spec] at hp
      obtain ⟨s', hs'', rfl⟩ := List.mem_map.1 hp.1
      exact h2 s' (List.mem_flatMap.2 ⟨t', ht', hs''⟩)

theorem landfalls_eq (g : Gate) (dir : List (List Char × List Track)) :
    isLandfall g (trackFiles dir).flatten = Landfalls g dir := by
  unfold trackFiles Landfalls
  rw [← List.flatMap_def]

/-- C189: if the gates are numbered from 0 in the order of the shape file, every gate is shown with the number of
landfalls of all simulations together, the mean number per simulation and the lowest pressure at any of them. -/
theorem C189_totals_partial (gates : List Gate) (dir : List (List Char × List Track)) (out : List (Option Summary))
    (h : loadLandfallRates ((List.range gates.length).map fun (i : Nat) => (i : ℤ)) gates dir = .ok out)
    (j : Nat) (g : Gate) (hg : gates[j]? = some g) :
    ∃ s, out[j]? = some (some s) ∧ s.total = (Landfalls g dir).length ∧
      (∃ m, s.rate = some m ∧ m * Simulations dir = (Landfalls g dir).length) ∧
      ∀ p, s.lowest = some p ↔
        (∃ l ∈ Landfalls g dir, l.1.pressure = p) ∧ ∀ l ∈ Landfalls g dir, p ≤ l.1.pressure := by
  have hj : j < gates.length := (List.getElem?_eq_some_iff.1 hg).1
  have hne : trackFiles dir ≠ [] := by
    intro he
    unfold loadLandfallRates at h
    simp only [he, if_true] at h
    cases h
  have hs := (C189_shown _ (List.nodup_range.map Nat.cast_injective) gates (by simp) dir out h j hj).2.2 j g
    (by rw [List.getElem?_map, List.getElem?_range hj]; rfl) hg
  refine ⟨_, hs, ?_, ?_, ?_⟩
  · rw [summary_total, landfalls_eq]
  · refine ⟨_, summary_rate g _ hne, ?_⟩
    rw [landfalls_eq]
    have : (Simulations dir : ℚ) = (trackFiles dir).length := by
      unfold Simulations trackFiles; rw [List.length_map]
    rw [this]
    have : ((trackFiles dir).length : ℚ) ≠ 0 := by
      simpa using hne
    field_simp
  · intro p
    rw [summary_lowest, landfalls_eq]

theorem summarise_perm {r r' : List GateRow} (h : r.Perm r') : summarise r = summarise r' := by
  have hm : ∀ {a b : List ℚ}, a.Perm b → mean a = mean b := fun {a b} hp => by
    unfold mean
    rw [hp.sum_eq, hp.length_eq]
    by_cases ha : a = []
    · rw [if_pos ha, if_pos (by rw [ha] at hp; exact hp.nil_eq.symm ▸ rfl)]
    · rw [if_neg ha, if_neg (fun hb => ha (by rw [hb] at hp; exact hp.eq_nil))]
  have hmin : ∀ {a b : List ℚ}, a.Perm b → minimum a = minimum b := fun {a b} hp => by
    apply Option.ext
    intro m
    rw [minimum_spec, minimum_spec]
    constructor
    · rintro ⟨h1, h2⟩; exact ⟨hp.mem_iff.1 h1, fun v hv => h2 v (hp.mem_iff.2 hv)⟩
    · rintro ⟨h1, h2⟩; exact ⟨hp.mem_iff.2 h1, fun v hv => h2 v (hp.mem_iff.1 hv)⟩
  unfold summarise
  rw [(h.map (·.count)).sum_eq, hm (h.map fun r => (r.count : ℚ)), (h.map (·.cat1)).sum_eq, (h.map (·.cat2)).sum_eq,
    (h.map (·.cat3)).sum_eq, (h.map (·.cat4)).sum_eq, (h.map (·.cat5)).sum_eq, hm (h.filterMap (·.meanIntensity)),
    hmin (h.filterMap (·.minIntensity))]

/-- C189: the order in which the files of a directory are listed has no influence. -/
theorem C189_order (ids : List ℤ) (gates : List Gate) (dir dir' : List (List Char × List Track)) (h : dir.Perm dir') :
    loadLandfallRates ids gates dir = loadLandfallRates ids gates dir' := by
  have hf : (trackFiles dir).Perm (trackFiles dir') := (h.filter _).map _
  have hnil : trackFiles dir = [] ↔ trackFiles dir' = [] := by
    constructor
    · intro e; rw [e] at hf; exact hf.nil_eq.symm
    · intro e; rw [e] at hf; exact hf.eq_nil
  have hany : (trackFiles dir).any (·.isEmpty) = (trackFiles dir').any (·.isEmpty) := by
    rw [Bool.eq_iff_iff, List.any_eq_true, List.any_eq_true]
    simp only [hf.mem_iff]
  unfold loadLandfallRates
  simp only [hnil, hany]
  by_cases h1 : trackFiles dir' = []
  · rw [if_pos h1, if_pos h1]
  · rw [if_neg h1, if_neg h1]
    split
    · rfl
    · congr 1
      apply List.map_congr_left
      intro i _
      have hg : (group ids ((trackFiles dir).map fun tracks => gates.map fun g => countCrossings g tracks) (i : ℤ)).Perm
          (group ids ((trackFiles dir').map fun tracks => gates.map fun g => countCrossings g tracks) (i : ℤ)) :=
        (hf.map _).flatMap_right _
      unfold lookup
      rw [summarise_perm hg]
      by_cases he : group ids ((trackFiles dir').map fun tracks => gates.map fun g => countCrossings g tracks) (i : ℤ) = []
      · rw [if_pos he, if_pos (by rw [he] at hg; exact hg.eq_nil)]
      · rw [if_neg he, if_neg (fun e => he (by rw [e] at hg; exact hg.nil_eq.symm))]

/-- C189 fails for gates numbered from 1: nothing is shown for the first, and the others are shown with the landfalls of
the gate before. -/
theorem C189_numbers_fails (gates : List Gate) (dir : List (List Char × List Track)) (out : List (Option Summary))
    (h : loadLandfallRates ((List.range gates.length).map fun (i : Nat) => (i : ℤ) + 1) gates dir = .ok out)
    (h0 : gates ≠ []) :
    out[0]? = some none ∧ ∀ (j : Nat) (g : Gate), j + 1 < gates.length → gates[j]? = some g →
      ∃ s, out[j + 1]? = some (some s) ∧ s.total = (Landfalls g dir).length := by
  have hnd : ((List.range gates.length).map fun (i : Nat) => (i : ℤ) + 1).Nodup :=
    List.nodup_range.map fun a b hab => by simpa using hab
  constructor
  · refine (C189_shown _ hnd gates (by simp) dir out h 0 (List.length_pos_of_ne_nil h0)).2.1 ?_
    simp only [List.mem_map, List.mem_range, not_exists, not_and]
    intro i _ hi
    omega
  · intro j g hj hg
    refine ⟨_, (C189_shown _ hnd gates (by simp) dir out h (j + 1) hj).2.2 j g ?_ hg, ?_⟩
    · rw [List.getElem?_map, List.getElem?_range (by omega)]; simp
    · rw [summary_total, landfalls_eq]

/-- C189: when the summary is refused: without a track file, or if one of them has no track. -/
theorem C189_refused (ids : List ℤ) (gates : List Gate) (dir : List (List Char × List Track)) :
    (loadLandfallRates ids gates dir = .error .ioError ↔ ∀ f ∈ dir, ¬ ['n', 'c'] <:+ f.1) ∧
    (loadLandfallRates ids gates dir = .error .valueError ↔ ∃ f ∈ dir, ['n', 'c'] <:+ f.1 ∧ f.2 = []) := by
  have hnil : trackFiles dir = [] ↔ ∀ f ∈ dir, ¬ ['n', 'c'] <:+ f.1 := by
    unfold trackFiles
    rw [List.map_eq_nil_iff, List.filter_eq_nil_iff]
    simp only [List.isSuffixOf_iff_suffix]
  have hany : (trackFiles dir).any (·.isEmpty) = true ↔ ∃ f ∈ dir, ['n', 'c'] <:+ f.1 ∧ f.2 = [] := by
    unfold trackFiles
    simp only [List.any_map, List.any_filter, List.any_eq_true, Function.comp, Bool.and_eq_true, List.isEmpty_iff,
      List.isSuffixOf_iff_suffix]
  unfold loadLandfallRates
  simp only
  by_cases h1 : trackFiles dir = []
  · rw [if_pos h1]
    refine ⟨⟨fun _ => hnil.1 h1, fun _ => rfl⟩, ⟨fun h => (by cases h), ?_⟩⟩
    rintro ⟨f, hf, hs, _⟩
    exact absurd hs (hnil.1 h1 f hf)
  · rw [if_neg h1]
    by_cases h2 : (trackFiles dir).any (·.isEmpty) = true
    · rw [if_pos h2]
      exact ⟨⟨fun h => (by cases h), fun h => absurd (hnil.2 h) h1⟩, ⟨fun _ => hany.1 h2, fun _ => rfl⟩⟩
    · rw [if_neg h2]
      exact ⟨⟨fun h => (by cases h), fun h => absurd (hnil.2 h) h1⟩, ⟨fun h => (by cases h), fun h => absurd (hany.2 h) h2⟩⟩

/-- C189, partial: the mean intensity is that of all landfalls together if there are equally many in all simulations. -/
theorem C189_mean_partial (g : Gate) (files : List (List Track)) (k : Nat) (hk : 0 < k) (hne : files ≠ [])
    (h : ∀ f ∈ files, (isLandfall g f).length = k) :
    ∃ m, (summarise (files.map fun tracks => countCrossings g tracks)).meanIntensity = some m ∧
      IsMean ((isLandfall g files.flatten).map (·.1.pressure)) m := by
  have e : ((files.map fun tracks => countCrossings g tracks).filterMap (·.meanIntensity)) =
      files.map fun f => ((isLandfall g f).map (·.1.pressure)).sum / k := by
    rw [List.filterMap_map]
    clear hne
    induction files with
    | nil => rfl
    | cons f fs ih =>
      have hf := h f (by simp)
      have : (countCrossings g f).meanIntensity = some (((isLandfall g f).map (·.1.pressure)).sum / k) := by
        rw [mean_eq]
        unfold mean
        rw [if_neg (by intro h0; rw [List.map_eq_nil_iff] at h0; rw [h0] at hf; simp at hf; omega), List.length_map, hf]
      rw [List.filterMap_cons, List.map_cons]
      simp only [Function.comp]
      rw [this]
      simp only
      rw [← ih fun f hf => h f (by simp [hf])]
      rfl
  have hlen : ((isLandfall g files.flatten).length : ℚ) = files.length * k := by
    rw [isLandfall_flatten, List.length_flatMap]
    have : files.map (fun a => (isLandfall g a).length) = List.replicate files.length k := by
      rw [List.eq_replicate_iff]
      refine ⟨by simp, fun b hb => ?_⟩
      obtain ⟨f, hf, rfl⟩ := List.mem_map.1 hb
      exact h f hf
    rw [this]
    simp
  have hsum : ((isLandfall g files.flatten).map (·.1.pressure)).sum =
      (files.map fun f => ((isLandfall g f).map (·.1.pressure)).sum).sum := by
    rw [isLandfall_flatten]
    clear e hlen hne h
    induction files with
    | nil => rfl
    | cons f fs ih => rw [List.flatMap_cons, List.map_append, List.sum_append, ih]; rfl
  have hF : (files.length : ℚ) ≠ 0 := by simpa using hne
  have hK : (k : ℚ) ≠ 0 := by exact_mod_cast hk.ne'
  have hdiv : (files.map fun f => ((isLandfall g f).map (·.1.pressure)).sum / (k : ℚ)).sum =
      (files.map fun f => ((isLandfall g f).map (·.1.pressure)).sum).sum / k := by
    clear e hlen hne h hsum hF
    induction files with
    | nil => simp
    | cons f fs ih => rw [List.map_cons, List.map_cons, List.sum_cons, List.sum_cons, ih]; ring
  refine ⟨_, by unfold summarise mean; simp only; rw [e, if_neg (by simpa using hne)], ?_, ?_⟩
  · intro h0
    rw [List.map_eq_nil_iff] at h0
    rw [h0] at hlen
    simp only [List.length_nil, Nat.cast_zero] at hlen
    exact mul_ne_zero hF hK hlen.symm
  · rw [List.length_map, List.length_map, hlen, hsum, hdiv]
    field_simp

theorem summary_cats (g : Gate) (files : List (List Track)) :
    (summarise (files.map fun tracks => countCrossings g tracks)).cats = (List.range 5).map fun c =>
      (isLandfall g files.flatten).countP fun s => decide (category s.1.pressure = some c) := by
  have key : ∀ (f : GateRow → Nat) (c : Nat), (∀ t, f (countCrossings g t) =
      (isLandfall g t).countP fun s => decide (category s.1.pressure = some c)) →
      ((files.map fun tracks => countCrossings g tracks).map f).sum =
        (isLandfall g files.flatten).countP fun s => decide (category s.1.pressure = some c) := by
    intro f c h
    rw [isLandfall_flatten, List.countP_flatMap, List.map_map]
    congr 1
    apply List.map_congr_left
    intro t _
    exact h t
  unfold summarise
  simp only
  rw [key (·.cat1) 0 fun t => (C105_columns_fail g t).1.1, key (·.cat2) 1 fun t => (C105_columns_fail g t).1.2.1,
    key (·.cat3) 2 fun t => (C105_columns_fail g t).1.2.2.1, key (·.cat4) 3 fun t => (C105_columns_fail g t).1.2.2.2.1,
    key (·.cat5) 4 fun t => (C105_columns_fail g t).1.2.2.2.2]
  rfl

/-- C189: the columns of the categories of a gate add up the landfalls of all simulations (of the category below the one
in the heading, C105). -/
theorem C189_categories (gates : List Gate) (dir : List (List Char × List Track)) (out : List (Option Summary))
    (h : loadLandfallRates ((List.range gates.length).map fun (i : Nat) => (i : ℤ)) gates dir = .ok out)
    (j : Nat) (g : Gate) (hg : gates[j]? = some g) :
    ∃ s, out[j]? = some (some s) ∧ s.cats = [0, 1, 2, 3, 4].map fun c =>
      (Landfalls g dir).countP fun l => decide (category l.1.pressure = some c) := by
  have hj : j < gates.length := (List.getElem?_eq_some_iff.1 hg).1
  refine ⟨_, (C189_shown _ (List.nodup_range.map Nat.cast_injective) gates (by simp) dir out h j hj).2.2 j g
    (by rw [List.getElem?_map, List.getElem?_range hj]; rfl) hg, ?_⟩
  rw [summary_cats, landfalls_eq]
  rfl

/-- Gate from west to east, and a leg across it from north to south with the given pressure at its start. -/
def sampleGate : Gate := ⟨⟨0, 0⟩, ⟨2, 0⟩⟩
def sampleTrack (p : ℚ) : Track := [⟨1, 1, p, 0⟩, ⟨1, -1, p, 0⟩]
def sampleDir : List (List Char × List Track) :=
  [("a.nc".toList, [sampleTrack 900]), ("notes".toList, []), ("b.nc".toList, [sampleTrack 990, sampleTrack 990])]

/-- C189 fails: the mean intensity is the mean over simulations of their means, not over landfalls: for one simulation
with one landfall at 900 hPa and one with two at 990 hPa it is 945 hPa instead of 960 hPa. -/
theorem C189_mean_fails : ∃ out s, loadLandfallRates [0] [sampleGate] sampleDir = .ok out ∧ out[0]? = some (some s) ∧
    s.total = 3 ∧ s.meanIntensity = some 945 ∧
    IsMean ((Landfalls sampleGate sampleDir).map (·.1.pressure)) 960 := by
  refine ⟨[some ⟨3, some (3 / 2), [0, 2, 0, 0, 0], some 945, some 900⟩], _, by decide +kernel, rfl, rfl, rfl, ?_⟩
  have : (Landfalls sampleGate sampleDir).map (·.1.pressure) = [900, 990, 990] := by decide +kernel
  rw [this]
  unfold IsMean
  exact ⟨by simp, by norm_num⟩

/-- The hypotheses of the totals and of the equal counts are met. -/
example : ∃ out, loadLandfallRates ((List.range 1).map fun (i : Nat) => (i : ℤ)) [sampleGate] sampleDir = .ok out :=
  ⟨[some ⟨3, some (3 / 2), [0, 2, 0, 0, 0], some 945, some 900⟩], by decide +kernel⟩
example : ∀ f ∈ [[sampleTrack 900], [sampleTrack 950]], (isLandfall sampleGate f).length = 1 := by decide +kernel
example : ∃ out, loadLandfallRates ((List.range 2).map fun (i : Nat) => (i : ℤ) + 1) [sampleGate, sampleGate] sampleDir =
    .ok out ∧ out[0]? = some none := by
  have : ∃ o, loadLandfallRates [1, 2] [sampleGate, sampleGate] sampleDir = .ok o :=
    ⟨[none, some ⟨3, some (3 / 2), [0, 2, 0, 0, 0], some 945, some 900⟩], by decide +kernel⟩
  obtain ⟨o, ho⟩ := this
  exact ⟨o, ho, (C189_numbers_fails [sampleGate, sampleGate] sampleDir o ho (by simp)).1⟩

end Tcrm.LandfallSummary
