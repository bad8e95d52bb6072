import Verif.Spec.SimRates
import Verif.Props.LandfallGates
/-!
C179: what is reported of all simulations.
-/
namespace Tcrm.SimRates
open Tcrm.Geometry (Point)
open Tcrm.Evaluate

theorem mapM_id_iff {vs : List (Option ℚ)} {ws : List ℚ} : vs.mapM id = some ws ↔ vs = ws.map some := by
  induction vs generalizing ws with
  | nil => cases ws <;> simp
  | cons v vs ih =>
    rw [List.mapM_cons]
    cases v with
    | none => cases ws <;> simp
    | some x =>
      cases h : vs.mapM id with
      | none =>
        cases ws with
        | nil => simp
        | cons w ws =>
          simp only [id, Option.bind_eq_bind, Option.bind_some, Option.bind_none, List.map_cons, List.cons.injEq, reduceCtorEq, false_iff, not_and]
          intro _ hh
          rw [ih.mpr hh] at h
          cases h
      | some us =>
        cases ws with
        | nil => simp
        | cons w ws =>
          have : us = ws ↔ vs = ws.map some := by
            rw [← ih, h]; simp
          simp [this]

theorem mapM_id_none {vs : List (Option ℚ)} : vs.mapM id = none ↔ none ∈ vs := by
  induction vs with
  | nil => simp
  | cons v vs ih =>
    rw [List.mapM_cons]
    cases v with
    | none => simp
    | some x =>
      cases h : vs.mapM id with
      | none => simpa using ih.mp h
      | some us =>
        have : none ∉ vs := fun hm => by rw [ih.mpr hm] at h; cases h
        simp [this]

theorem nanMean_some (ws : List ℚ) : nanMean (ws.map some) = mean ws := by
  unfold nanMean
  rw [mapM_id_iff.mpr rfl]

theorem nanMean_none {vs : List (Option ℚ)} (h : none ∈ vs) : nanMean vs = none := by
  unfold nanMean
  rw [mapM_id_none.mpr h]

theorem nanSort_some (ws : List ℚ) : nanSort (ws.map some) = (sort ws).map some := by
  unfold nanSort
  rw [List.filterMap_map]
  simp [Function.comp_def]

theorem nanSort_length (vs : List (Option ℚ)) : (nanSort vs).length = vs.length := by
  unfold nanSort
  rw [List.length_append, List.length_map, sort_length, List.length_replicate]
  induction vs with
  | nil => rfl
  | cons v vs ih =>
    cases v with
    | none => rw [List.filterMap_cons_none rfl, List.countP_cons_of_pos (by simp), List.length_cons]; omega
    | some x => rw [List.filterMap_cons_some (f := id) (b := x) rfl, List.countP_cons_of_neg (by simp), List.length_cons, List.length_cons]; omega

theorem nanSort_getD (vs : List (Option ℚ)) (i : Nat) : (nanSort vs).getD i none =
    if i < (vs.filterMap id).length then some ((sort (vs.filterMap id)).getD i 0) else none := by
  unfold nanSort
  rw [List.getD_eq_getElem?_getD]
  split
  · rename_i h
    have h' : i < (sort (vs.filterMap id)).length := by rw [sort_length]; exact h
    rw [List.getElem?_append_left (by rw [List.length_map]; exact h'), List.getElem?_map, List.getElem?_eq_getElem h',
      List.getD_eq_getElem _ _ h']
    rfl
  · rename_i h
    rw [List.getElem?_append_right (by rw [List.length_map, sort_length]; omega)]
    cases hg : (List.replicate (vs.countP fun v => v.isNone) (none : Option ℚ))[i - ((sort (vs.filterMap id)).map some).length]? with
    | none => rfl
    | some x =>
      have := List.mem_of_getElem? hg
      rw [List.mem_replicate] at this
      rw [this.2]; rfl

theorem nanPercentile_some (ws : List ℚ) {per : ℚ} (h0 : 0 ≤ per) (h1 : per ≤ 100) :
    nanPercentile (ws.map some) per = percentile ws per := by
  by_cases hne : ws = []
  · subst hne; rfl
  have hf : (ws.map some).filterMap id = ws := by rw [List.filterMap_map]; simp [Function.comp_def]
  obtain ⟨p0, p1⟩ := position_bounds hne h0 h1
  have hfl : (⌊position ws per⌋.toNat : ℤ) = ⌊position ws per⌋ := Int.toNat_of_nonneg (Int.floor_nonneg.mpr p0)
  have hfq : ((⌊position ws per⌋.toNat : ℕ) : ℚ) = (⌊position ws per⌋ : ℚ) := by exact_mod_cast congrArg (Int.cast (R := ℚ)) hfl
  have hle : ((⌊position ws per⌋.toNat : ℕ) : ℚ) ≤ position ws per := by rw [hfq]; exact Int.floor_le _
  have hi : ⌊position ws per⌋.toNat < ws.length := by
    have : ((⌊position ws per⌋.toNat : ℕ) : ℚ) < ws.length := by linarith
    exact_mod_cast this
  unfold nanPercentile percentile
  rw [if_neg hne, if_neg (by simpa using hne)]
  simp only [nanSort_length, nanSort_getD, hf, sort_length, List.length_map]
  change (if position ws per = ((⌊position ws per⌋.toNat : ℕ) : ℚ) then
      (if ⌊position ws per⌋.toNat < ws.length then some ((sort ws).getD ⌊position ws per⌋.toNat 0) else none) else _) =
    (if position ws per = ((⌊position ws per⌋.toNat : ℕ) : ℚ) then (sort ws)[⌊position ws per⌋.toNat]? else _)
  by_cases hp : position ws per = ((⌊position ws per⌋.toNat : ℕ) : ℚ)
  · rw [if_pos hp, if_pos hp, if_pos hi]
    have hi' : ⌊position ws per⌋.toNat < (sort ws).length := by rw [sort_length]; exact hi
    rw [List.getD_eq_getElem _ _ hi', List.getElem?_eq_getElem hi']
  · rw [if_neg hp, if_neg hp]
    have hlt := lt_of_le_of_ne hle (Ne.symm hp)
    have hi1 : ⌊position ws per⌋.toNat + 1 < ws.length := by
      have : (((⌊position ws per⌋.toNat + 1 : ℕ)) : ℚ) < ws.length := by push_cast; linarith
      exact_mod_cast this
    have e1 : (if ⌊per / 100 * ((ws.length : ℚ) - 1)⌋.toNat < ws.length then
        some ((sort ws).getD ⌊per / 100 * ((ws.length : ℚ) - 1)⌋.toNat 0) else none) =
        some ((sort ws).getD ⌊per / 100 * ((ws.length : ℚ) - 1)⌋.toNat 0) := if_pos hi
    have e2 : (if ⌊per / 100 * ((ws.length : ℚ) - 1)⌋.toNat + 1 < ws.length then
        some ((sort ws).getD (⌊per / 100 * ((ws.length : ℚ) - 1)⌋.toNat + 1) 0) else none) =
        some ((sort ws).getD (⌊per / 100 * ((ws.length : ℚ) - 1)⌋.toNat + 1) 0) := if_pos hi1
    rw [e1, e2]

/-- A percentile of values some of which are nan is nan if and only if its position in the sorted values is behind the
last number. -/
theorem nanPercentile_none {vs : List (Option ℚ)} (hne : vs ≠ []) {per : ℚ} (h0 : 0 ≤ per) :
    nanPercentile vs per = none ↔ ((vs.filterMap id).length : ℚ) - 1 < per / 100 * (vs.length - 1) := by
  have hn : (1 : ℚ) ≤ vs.length := by exact_mod_cast List.length_pos_of_ne_nil hne
  have p0 : 0 ≤ per / 100 * ((vs.length : ℚ) - 1) := mul_nonneg (by linarith) (by linarith)
  unfold nanPercentile
  rw [if_neg hne]
  simp only [nanSort_length, nanSort_getD]
  generalize per / 100 * ((vs.length : ℚ) - 1) = q at p0
  generalize (vs.filterMap id).length = k
  generalize sort (vs.filterMap id) = s
  have hfl : (⌊q⌋.toNat : ℤ) = ⌊q⌋ := Int.toNat_of_nonneg (Int.floor_nonneg.mpr p0)
  have hfq : ((⌊q⌋.toNat : ℕ) : ℚ) = (⌊q⌋ : ℚ) := by exact_mod_cast congrArg (Int.cast (R := ℚ)) hfl
  have hle : ((⌊q⌋.toNat : ℕ) : ℚ) ≤ q := by rw [hfq]; exact Int.floor_le _
  have hlt : q < ((⌊q⌋.toNat : ℕ) : ℚ) + 1 := by rw [hfq]; exact Int.lt_floor_add_one _
  generalize ⌊q⌋.toNat = i at *
  by_cases hq : q = i
  · rw [if_pos hq, hq]
    by_cases hi : i < k
    · rw [if_pos hi]
      have : (i : ℚ) + 1 ≤ k := by exact_mod_cast hi
      simp only [reduceCtorEq, false_iff, not_lt]; linarith
    · rw [if_neg hi]
      have : (k : ℚ) ≤ i := by exact_mod_cast not_lt.mp hi
      simp only [true_iff]; linarith
  · rw [if_neg hq]
    have hlt' := lt_of_le_of_ne hle (Ne.symm hq)
    by_cases hi : i + 1 < k
    · rw [if_pos hi, if_pos (by omega)]
      have : (i : ℚ) + 1 + 1 ≤ k := by exact_mod_cast hi
      simp only [reduceCtorEq, false_iff, not_lt]; linarith
    · rw [if_neg hi]
      have : (k : ℚ) ≤ i + 1 := by exact_mod_cast not_lt.mp hi
      have hr : (k : ℚ) - 1 < q := by linarith
      simp only [hr, iff_true]
      by_cases hi' : i < k <;> simp [hi']

theorem nanSort_congr {vs ws : List (Option ℚ)} (h : vs.Perm ws) : nanSort vs = nanSort ws := by
  unfold nanSort
  rw [sort_congr (h.filterMap id), h.countP_eq]

theorem stats_congr {vs ws : List (Option ℚ)} (h : vs.Perm ws) : stats vs = stats ws := by
  have hm : nanMean vs = nanMean ws := by
    by_cases hn : none ∈ vs
    · rw [nanMean_none hn, nanMean_none (h.mem_iff.mp hn)]
    · have hn' : none ∉ ws := fun hh => hn (h.mem_iff.mpr hh)
      cases h1 : vs.mapM id with
      | none => exact absurd (mapM_id_none.mp h1) hn
      | some us =>
        cases h2 : ws.mapM id with
        | none => exact absurd (mapM_id_none.mp h2) hn'
        | some us' =>
          have e1 := mapM_id_iff.mp h1
          have e2 := mapM_id_iff.mp h2
          rw [e1, e2, nanMean_some, nanMean_some]
          have hp : us.Perm us' := by
            have := h.filterMap id
            rw [e1, e2, List.filterMap_map, List.filterMap_map] at this
            simpa [Function.comp_def] using this
          unfold mean
          by_cases hu : us = []
          · subst hu; rw [List.nil_perm.mp hp]
          · rw [if_neg hu, if_neg (by rintro rfl; exact hu (List.perm_nil.mp hp)), hp.sum_eq, hp.length_eq]
  have hp : ∀ per, nanPercentile vs per = nanPercentile ws per := by
    intro per
    unfold nanPercentile
    by_cases hv : vs = []
    · subst hv; rw [List.nil_perm.mp h]
    · have hw : ws ≠ [] := by rintro rfl; exact hv (List.perm_nil.mp h)
      rw [if_neg hv, if_neg hw, nanSort_congr h]
  unfold stats
  rw [hm, hp, hp]

theorem columns_congr {n : Nat} {rs rs' : List (List (Option ℚ))} (h : rs.Perm rs') : columns n rs = columns n rs' := by
  unfold columns
  apply List.map_congr_left
  intro j _
  exact stats_congr (h.map _)

theorem columns_getElem? {n j : Nat} (hj : j < n) (rs : List (List (Option ℚ))) :
    (columns n rs)[j]? = some (stats (rs.map fun r => r.getD j none)) := by
  unfold columns
  rw [List.getElem?_map, List.getElem?_range hj]
  rfl

/-- Columns without nan -/
theorem columns_values {n : Nat} {α : Type} {sims : List α} {f : α → Option (List ℚ)} {v : α → Nat → ℚ}
    (hf : ∀ s ∈ sims, ∃ h, f s = some h ∧ h.length = n ∧ ∀ j, j < n → h.getD j 0 = v s j) {j : Nat} (hj : j < n) :
    (columns n (sims.map fun s => row n (f s)))[j]? =
      some ⟨mean (sims.map fun s => v s j), percentile (sims.map fun s => v s j) 95, percentile (sims.map fun s => v s j) 5⟩ := by
  rw [columns_getElem? hj]
  have hc : ((sims.map fun s => row n (f s)).map fun r => r.getD j none) = (sims.map fun s => v s j).map some := by
    rw [List.map_map, List.map_map]
    apply List.map_congr_left
    intro s hs
    obtain ⟨h, h1, h2, h3⟩ := hf s hs
    have hjl : j < h.length := by omega
    simp only [Function.comp, h1, row]
    rw [← h3 j hj, List.getD_eq_getElem?_getD, List.getElem?_map, List.getElem?_eq_getElem hjl, List.getD_eq_getElem _ _ hjl]
    rfl
  rw [hc]
  unfold stats
  rw [nanMean_some, nanPercentile_some _ (by norm_num) (by norm_num), nanPercentile_some _ (by norm_num) (by norm_num)]

/-- One row of nan -/
theorem columns_nan {n : Nat} {α : Type} {sims : List α} {f : α → Option (List ℚ)} (hf : ∃ s ∈ sims, f s = none) :
    ∀ r ∈ columns n (sims.map fun s => row n (f s)), r.mean = none := by
  intro r hr
  unfold columns at hr
  rw [List.mem_map] at hr
  obtain ⟨j, hj, rfl⟩ := hr
  rw [List.mem_range] at hj
  apply nanMean_none
  obtain ⟨s, hs, he⟩ := hf
  rw [List.map_map, List.mem_map]
  refine ⟨s, hs, ?_⟩
  simp only [Function.comp, he, row]
  rw [List.getD_eq_getElem?_getD, List.getElem?_replicate, if_pos hj]
  rfl

theorem columns_percentile {n : Nat} {α : Type} {sims : List α} (hne : sims ≠ []) {f : α → Option (List ℚ)}
    (hf : ∀ s ∈ sims, ∀ h, f s = some h → h.length = n) : ∀ r ∈ columns n (sims.map fun s => row n (f s)),
      (r.upper = none ↔ ((sims.countP fun s => (f s).isSome : ℕ) : ℚ) - 1 < 95 / 100 * (sims.length - 1)) ∧
      (r.lower = none ↔ ((sims.countP fun s => (f s).isSome : ℕ) : ℚ) - 1 < 5 / 100 * (sims.length - 1)) := by
  intro r hr
  unfold columns at hr
  rw [List.mem_map] at hr
  obtain ⟨j, hj, rfl⟩ := hr
  rw [List.mem_range] at hj
  rw [List.map_map]
  have hk : ((sims.map ((fun r : List (Option ℚ) => r.getD j none) ∘ fun s => row n (f s))).filterMap id).length =
      sims.countP fun s => (f s).isSome := by
    clear hne
    induction sims with
    | nil => rfl
    | cons s ss ih =>
      have ih := ih (fun s' hs' => hf s' (by simp [hs']))
      cases he : f s with
      | none =>
        rw [List.map_cons, List.filterMap_cons_none, ih, List.countP_cons_of_neg (by simp [he])]
        simp only [Function.comp, he, row, id]
        rw [List.getD_eq_getElem?_getD, List.getElem?_replicate, if_pos hj]
        rfl
      | some h =>
        have hl : j < h.length := by rw [hf s (by simp) h he]; exact hj
        rw [List.map_cons, List.filterMap_cons_some (b := h[j]), List.length_cons, ih, List.countP_cons_of_pos (by simp [he])]
        simp only [Function.comp, he, row, id]
        rw [List.getD_eq_getElem?_getD, List.getElem?_map, List.getElem?_eq_getElem hl]
        rfl
  have hne' : sims.map ((fun r : List (Option ℚ) => r.getD j none) ∘ fun s => row n (f s)) ≠ [] := by simpa using hne
  unfold stats
  simp only
  rw [nanPercentile_none hne' (by norm_num), nanPercentile_none hne' (by norm_num), hk, List.length_map]
  exact ⟨Iff.rfl, Iff.rfl⟩

theorem processed {gates : List (Point ℚ)} (h2 : 2 ≤ gates.length) {l : List Nat} {r : Option (List ℚ)} (hl : l ≠ [])
    (hr : (r = none ↔ l = []) ∧ ∀ h, r = some h → h.length = gates.length - 1 ∧ ∀ j, j + 1 < gates.length →
      h.getD j 0 * (l.length : ℚ) = (l.count j : ℚ)) :
    ∃ h, r = some h ∧ h.length = gates.length - 1 ∧ ∀ j, j < gates.length - 1 → h.getD j 0 = share l j := by
  cases hh : r with
  | none => exact absurd (hr.1.mp hh) hl
  | some h =>
    obtain ⟨a, b⟩ := hr.2 h hh
    refine ⟨h, rfl, a, fun j hj => ?_⟩
    have : (l.length : ℚ) ≠ 0 := by exact_mod_cast (List.length_pos_of_ne_nil hl).ne'
    unfold share
    rw [eq_div_iff this]
    exact b j (by omega)

/-- C179: if there is a landfall in every simulation, what is reported at each gate is the mean of the shares of the gate
in the landfalls of each simulation, all simulations counting the same, and the 95th and 5th percentile of these shares.
The same holds for leaving the land. -/
theorem C179_landfall_partial {gates : List (Point ℚ)} (h2 : 2 ≤ gates.length) (sims : List (List Track)) {j : Nat}
    (hj : j + 1 < gates.length) :
    ((∀ ts ∈ sims, (landfalls gates ts).1 ≠ []) →
      let v := sims.map fun ts => share (landfalls gates ts).1 j
      ReportedAt (landfallRates gates sims).1 j v) ∧
    ((∀ ts ∈ sims, (landfalls gates ts).2 ≠ []) →
      let v := sims.map fun ts => share (landfalls gates ts).2 j
      ReportedAt (landfallRates gates sims).2 j v) := by
  constructor
  · intro h v
    exact columns_values (v := fun ts j => share (landfalls gates ts).1 j)
      (fun ts hs => processed h2 (h ts hs) (C104_rates h2 ts).1) (by omega)
  · intro h v
    exact columns_values (v := fun ts j => share (landfalls gates ts).2 j)
      (fun ts hs => processed h2 (h ts hs) (C104_rates h2 ts).2) (by omega)

theorem indicator_sum {x n : Nat} (hx : x < n) : ((List.range n).map fun j => if x = j then (1 : ℚ) else 0).sum = 1 := by
  induction n with
  | zero => omega
  | succ n ih =>
    rw [List.range_succ, List.map_append, List.sum_append]
    by_cases hxn : x < n
    · rw [ih hxn]
      simp [hxn.ne]
    · have : x = n := by omega
      subst this
      have : ((List.range x).map fun j => if x = j then (1 : ℚ) else 0) = List.replicate x 0 := by
        rw [List.eq_replicate_iff]
        refine ⟨by simp, fun b hb => ?_⟩
        rw [List.mem_map] at hb
        obtain ⟨j, hj, rfl⟩ := hb
        rw [List.mem_range] at hj
        rw [if_neg hj.ne']
      rw [this]; simp

theorem shares_sum {l : List Nat} {n : Nat} (hl : l ≠ []) (h : ∀ j ∈ l, j < n) :
    ((List.range n).map fun j => share l j).sum = 1 := by
  have hc : ∀ l : List Nat, (∀ j ∈ l, j < n) → ((List.range n).map fun j => (l.count j : ℚ)).sum = l.length := by
    intro l
    induction l with
    | nil => intro _; simp
    | cons x l ih =>
      intro h
      have e : ∀ j, ((x :: l).count j : ℚ) = (l.count j : ℚ) + if x = j then 1 else 0 := by
        intro j
        rw [List.count_cons]
        by_cases hx : x = j <;> simp [hx]
      simp only [e]
      rw [List.sum_map_add, ih fun j hj => h j (by simp [hj])]
      rw [indicator_sum (h x (by simp))]; simp
  have h0 : (l.length : ℚ) ≠ 0 := by exact_mod_cast (List.length_pos_of_ne_nil hl).ne'
  have : ((List.range n).map fun j => share l j) = (List.range n).map fun j => (l.length : ℚ)⁻¹ * (l.count j : ℚ) := by
    apply List.map_congr_left
    intro j _
    unfold share
    rw [div_eq_inv_mul]
  rw [this, List.sum_map_mul_left, hc l h, inv_mul_cancel₀ h0]

theorem sum_means {α : Type} {sims : List α} (hne : sims ≠ []) {n : Nat} {v : α → Nat → ℚ} {c : α → ℚ}
    (h : ∀ s ∈ sims, ((List.range n).map (v s)).sum = c s) :
    ((List.range n).map fun j => (sims.map fun s => v s j).sum / (sims.length : ℚ)).sum = (sims.map c).sum / sims.length := by
  have hs : ((List.range n).map fun j => (sims.map fun s => v s j).sum).sum = (sims.map c).sum := by
    clear hne
    induction sims with
    | nil => simp
    | cons s ss ih =>
      simp only [List.map_cons, List.sum_cons]
      rw [List.sum_map_add, ih fun s hs => h s (by simp [hs]), h s (by simp)]
  have : ((List.range n).map fun j => (sims.map fun s => v s j).sum / (sims.length : ℚ)) =
      (List.range n).map fun j => (sims.length : ℚ)⁻¹ * (sims.map fun s => v s j).sum := by
    apply List.map_congr_left
    intro j _
    rw [div_eq_inv_mul]
  rw [this, List.sum_map_mul_left, hs, div_eq_inv_mul]

/-- C179: if there is a landfall in every simulation, the reported means of all gates add up to one. -/
theorem C179_total {gates : List (Point ℚ)} (h2 : 2 ≤ gates.length) {sims : List (List Track)} (hne : sims ≠ []) :
    ((∀ ts ∈ sims, (landfalls gates ts).1 ≠ []) →
      ∃ ms : List ℚ, (landfallRates gates sims).1.map (·.mean) = ms.map some ∧ ms.length = gates.length - 1 ∧ ms.sum = 1) ∧
    ((∀ ts ∈ sims, (landfalls gates ts).2 ≠ []) →
      ∃ ms : List ℚ, (landfallRates gates sims).2.map (·.mean) = ms.map some ∧ ms.length = gates.length - 1 ∧ ms.sum = 1) := by
  have key : ∀ (l : List Track → List Nat) (rs : List Rate), rs.length = gates.length - 1 →
      (∀ ts ∈ sims, l ts ≠ []) → (∀ ts ∈ sims, ∀ j ∈ l ts, j < gates.length - 1) →
      (∀ j, j + 1 < gates.length → ∃ u w, rs[j]? = some ⟨mean (sims.map fun ts => share (l ts) j), u, w⟩) →
      ∃ ms : List ℚ, rs.map (·.mean) = ms.map some ∧ ms.length = gates.length - 1 ∧ ms.sum = 1 := by
    intro l rs hlen hl hb hr
    refine ⟨(List.range (gates.length - 1)).map fun j => (sims.map fun ts => share (l ts) j).sum / (sims.length : ℚ), ?_, by simp, ?_⟩
    · apply List.ext_getElem?
      intro j
      by_cases hj : j < gates.length - 1
      · obtain ⟨u, w, e⟩ := hr j (by omega)
        rw [List.getElem?_map, e, List.getElem?_map, List.getElem?_map, List.getElem?_range hj]
        simp only [Option.map_some, mean]
        rw [if_neg (by simpa using hne), List.length_map]
      · rw [List.getElem?_eq_none (by simp; omega), List.getElem?_eq_none (by simp; omega)]
    · rw [sum_means hne (v := fun ts j => share (l ts) j) (c := fun _ => 1) fun ts hs => shares_sum (hl ts hs) (hb ts hs)]
      have h0 : (sims.length : ℚ) ≠ 0 := by exact_mod_cast (List.length_pos_of_ne_nil hne).ne'
      simp [h0]
  constructor
  · intro h
    refine key (fun ts => (landfalls gates ts).1) _ (by simp [landfallRates, columns]) h ?_ ?_
    · intro ts _ j hj
      obtain ⟨_, _, _, _, _, _, h, _⟩ := (C104_gates_partial gates ts j).1.mp hj
      omega
    · intro j hj
      exact ⟨_, _, (C179_landfall_partial h2 sims hj).1 h⟩
  · intro h
    refine key (fun ts => (landfalls gates ts).2) _ (by simp [landfallRates, columns]) h ?_ ?_
    · intro ts _ j hj
      obtain ⟨_, _, _, _, _, _, h, _⟩ := (C104_gates_partial gates ts j).2.mp hj
      omega
    · intro j hj
      exact ⟨_, _, (C179_landfall_partial h2 sims hj).2 h⟩

/-- C179 does not hold if a simulation has no landfall: instead of counting as zero it makes the mean of every gate nan,
whatever the other simulations are, and with at most twenty simulations the 95th percentile as well. -/
theorem C179_landfall_fails {gates : List (Point ℚ)} (h2 : 2 ≤ gates.length) {sims : List (List Track)} :
    ((∃ ts ∈ sims, (landfalls gates ts).1 = []) → ∀ r ∈ (landfallRates gates sims).1,
      r.mean = none ∧ (sims.length ≤ 20 → r.upper = none)) ∧
    ((∃ ts ∈ sims, (landfalls gates ts).2 = []) → ∀ r ∈ (landfallRates gates sims).2,
      r.mean = none ∧ (sims.length ≤ 20 → r.upper = none)) := by
  have key : ∀ f : List Track → Option (List ℚ), (∀ ts h, f ts = some h → h.length = gates.length - 1) →
      (∃ ts ∈ sims, f ts = none) → ∀ r ∈ columns (gates.length - 1) (sims.map fun ts => row (gates.length - 1) (f ts)),
        r.mean = none ∧ (sims.length ≤ 20 → r.upper = none) := by
    intro f hf hn r hr
    refine ⟨columns_nan hn r hr, fun hl => ?_⟩
    obtain ⟨s, hs, he⟩ := hn
    have hne : sims ≠ [] := by rintro rfl; simp at hs
    rw [(columns_percentile hne (fun s _ => hf s) r hr).1]
    have hk : sims.countP (fun s => (f s).isSome) < sims.length := by
      rw [List.countP_eq_length_filter]
      apply lt_of_le_of_ne (List.length_filter_le _ _)
      rw [Ne, List.length_filter_eq_length_iff]
      intro hh
      have := hh s hs
      rw [he] at this; simp at this
    have hk' : ((sims.countP (fun s => (f s).isSome) : ℕ) : ℚ) + 1 ≤ sims.length := by exact_mod_cast hk
    have hl' : (sims.length : ℚ) ≤ 20 := by exact_mod_cast hl
    linarith
  constructor
  · rintro ⟨ts, hs, he⟩
    exact key (fun ts => (processTracks gates ts).1) (fun ts h hh => ((C104_rates h2 ts).1.2 h hh).1)
      ⟨ts, hs, (C104_rates h2 ts).1.1.mpr he⟩
  · rintro ⟨ts, hs, he⟩
    exact key (fun ts => (processTracks gates ts).2) (fun ts h hh => ((C104_rates h2 ts).2.2 h hh).1)
      ⟨ts, hs, (C104_rates h2 ts).2.1.mpr he⟩

/-- C179: a percentile at the gates is nan if and only if its position among all simulations is behind the last simulation
with a landfall; all gates alike. -/
theorem C179_percentiles {gates : List (Point ℚ)} (h2 : 2 ≤ gates.length) {sims : List (List Track)} (hne : sims ≠ []) :
    let k := sims.countP fun ts => decide ((landfalls gates ts).1 ≠ [])
    ∀ r ∈ (landfallRates gates sims).1,
      (r.upper = none ↔ (k : ℚ) - 1 < 95 / 100 * (sims.length - 1)) ∧
      (r.lower = none ↔ (k : ℚ) - 1 < 5 / 100 * (sims.length - 1)) := by
  intro k r hr
  have hk : k = sims.countP fun ts => (processTracks gates ts).1.isSome := by
    apply List.countP_congr
    intro ts _
    have := (C104_rates h2 ts).1.1
    cases hp : (processTracks gates ts).1 with
    | none => simp [this.mp hp]
    | some h =>
      have : (landfalls gates ts).1 ≠ [] := fun e => by rw [this.mpr e] at hp; cases hp
      simp [this]
  rw [hk]
  exact columns_percentile hne (f := fun ts => (processTracks gates ts).1)
    (fun ts _ h hh => ((C104_rates h2 ts).1.2 h hh).1) r hr

theorem density_double (vs edges : List ℚ) : density (vs ++ vs) edges = density vs edges := by
  have hh : histogram (vs ++ vs) edges = (histogram vs edges).map (2 * ·) := by
    unfold histogram
    rw [List.map_map]
    apply List.map_congr_left
    intro i _
    simp only [List.countP_append, Function.comp]
    omega
  have hs : (histogram (vs ++ vs) edges).sum = 2 * (histogram vs edges).sum := by
    rw [hh, List.sum_map_mul_left]; simp
  simp only [density]
  rw [hs]
  by_cases h0 : (histogram vs edges).sum = 0
  · rw [h0]; rfl
  · rw [if_neg h0, if_neg (by omega)]
    congr 1
    apply List.map_congr_left
    intro i _
    have hg : (histogram (vs ++ vs) edges).getD i 0 = 2 * (histogram vs edges).getD i 0 := by
      rw [hh, List.getD_eq_getElem?_getD, List.getD_eq_getElem?_getD, List.getElem?_map]
      cases (histogram vs edges)[i]? <;> rfl
    rw [hg]
    push_cast
    have : ((histogram vs edges).sum : ℚ) ≠ 0 := by exact_mod_cast h0
    field_simp

/-- C179 does not hold for rates per year: twice as many storms in the same years give the same numbers. -/
theorem C179_rate_fails (gates : List (Point ℚ)) (sims : List (List Track)) :
    landfallRates gates (sims.map fun ts => ts ++ ts) = landfallRates gates sims := by
  have hp : ∀ ts, processTracks gates (ts ++ ts) = processTracks gates ts := by
    intro ts
    have hl : landfalls gates (ts ++ ts) = ((landfalls gates ts).1 ++ (landfalls gates ts).1,
        (landfalls gates ts).2 ++ (landfalls gates ts).2) := by
      simp only [landfalls, List.flatMap_append]
    simp only [processTracks, hl, List.map_append, density_double]
  unfold landfallRates
  simp only [List.map_map, Function.comp_def, hp]

/-- C179: the order in which the simulations are read does not matter. -/
theorem C179_order {sims sims' : List (List Track)} (h : sims.Perm sims') (gates : List (Point ℚ)) (g : ℚ) (gateLats : List ℚ) :
    landfallRates gates sims = landfallRates gates sims' ∧ crossingRates g gateLats sims = crossingRates g gateLats sims' := by
  unfold landfallRates crossingRates
  simp only [Prod.mk.injEq]
  exact ⟨⟨columns_congr (h.map _), columns_congr (h.map _)⟩, columns_congr (h.map _), columns_congr (h.map _), columns_congr (h.map _)⟩

theorem gateColumn_length {ys gateLats h : List ℚ} (hh : gateColumn ys gateLats = some h) : h.length = gateLats.length - 1 := by
  unfold gateColumn at hh
  split at hh
  · cases hh; simp
  · simp only [density] at hh
    split at hh
    · cases hh
    · cases hh; simp

theorem width_pos {edges : List ℚ} (hinc : edges.Pairwise (· < ·)) {i : Nat} (hi : i + 1 < edges.length) :
    0 < edges.getD (i + 1) 0 - edges.getD i 0 := by
  rw [List.getD_eq_getElem _ _ hi, List.getD_eq_getElem _ _ (by omega)]
  have := List.pairwise_iff_getElem.mp hinc i (i + 1) (by omega) hi (by omega)
  linarith

theorem gateColumn_values {ys gateLats : List ℚ} (hinc : gateLats.Pairwise (· < ·))
    (h : IsDistribution ys gateLats (gateColumn ys gateLats)) : ∃ h, gateColumn ys gateLats = some h ∧
      h.length = gateLats.length - 1 ∧ ∀ i, i < gateLats.length - 1 → h.getD i 0 = densityAt ys gateLats i := by
  obtain ⟨h, e, h1, h2⟩ := h
  refine ⟨h, e, gateColumn_length e, fun i hi => ?_⟩
  unfold densityAt
  by_cases hy : ys = []
  · rw [if_pos hy, h1 hy, List.getD_eq_getElem?_getD, List.getElem?_replicate, if_pos hi]; rfl
  · rw [if_neg hy]
    have hl : (ys.length : ℚ) ≠ 0 := by exact_mod_cast (List.length_pos_of_ne_nil hy).ne'
    have hw := (width_pos hinc (i := i) (by omega)).ne'
    rw [eq_div_iff (mul_ne_zero hl hw)]
    have := (h2 hy).2 i (by omega)
    rw [← mul_assoc, mul_right_comm, this]
    congr 1
    apply List.countP_congr
    intro y _
    simp

/-- C179: what is reported of the crossings of a line of longitude in each interval of latitude is the mean and the 95th
and 5th percentile of the densities in all simulations, a simulation without crossings counting as zero. The same holds
for crossings to the west and to the east. -/
theorem C179_crossings {g : ℚ} {gateLats : List ℚ} (hinc : gateLats.Pairwise (· < ·)) (h2 : 2 ≤ gateLats.length)
    (sims : List (List Track)) {i : Nat} (hi : i + 1 < gateLats.length) :
    let c := fun ts : List Track => crossings g ((maximum gateLats).getD 0) ((minimum gateLats).getD 0) ts
    ReportedAt (crossingRates g gateLats sims).1 i (sims.map fun ts => densityAt ((c ts).map (·.1)) gateLats i) ∧
    ReportedAt (crossingRates g gateLats sims).2.1 i
      (sims.map fun ts => densityAt (((c ts).filter fun x => decide (x.2 = .ew)).map (·.1)) gateLats i) ∧
    ReportedAt (crossingRates g gateLats sims).2.2 i
      (sims.map fun ts => densityAt (((c ts).filter fun x => decide (x.2 = .we)).map (·.1)) gateLats i) := by
  intro c
  refine ⟨?_, ?_, ?_⟩
  · have hv : ∀ ts ∈ sims, ∃ h, (findCrossings g gateLats ts).1 = some h ∧ h.length = gateLats.length - 1 ∧
        ∀ i, i < gateLats.length - 1 → h.getD i 0 = densityAt ((c ts).map (·.1)) gateLats i := fun ts _ =>
      gateColumn_values hinc (C103_distribution (g := g) hinc h2 ts).2.1
    exact columns_values hv (by omega)
  · have hv : ∀ ts ∈ sims, ∃ h, (findCrossings g gateLats ts).2.1 = some h ∧ h.length = gateLats.length - 1 ∧
        ∀ i, i < gateLats.length - 1 → h.getD i 0 = densityAt (((c ts).filter fun x => decide (x.2 = .ew)).map (·.1)) gateLats i := fun ts _ =>
      gateColumn_values hinc (C103_distribution (g := g) hinc h2 ts).2.2.1
    exact columns_values hv (by omega)
  · have hv : ∀ ts ∈ sims, ∃ h, (findCrossings g gateLats ts).2.2 = some h ∧ h.length = gateLats.length - 1 ∧
        ∀ i, i < gateLats.length - 1 → h.getD i 0 = densityAt (((c ts).filter fun x => decide (x.2 = .we)).map (·.1)) gateLats i := fun ts _ =>
      gateColumn_values hinc (C103_distribution (g := g) hinc h2 ts).2.2.2
    exact columns_values hv (by omega)

/-- C179: the area under the reported means of a line of longitude is the proportion of simulations with a crossing. -/
theorem C179_crossing_area {g : ℚ} {gateLats : List ℚ} (hinc : gateLats.Pairwise (· < ·)) (h2 : 2 ≤ gateLats.length)
    {sims : List (List Track)} (hne : sims ≠ []) : ∃ ms : List ℚ,
      (crossingRates g gateLats sims).1.map (·.mean) = ms.map some ∧ ms.length = gateLats.length - 1 ∧
      area ms gateLats = (sims.countP fun ts =>
        decide (crossings g ((maximum gateLats).getD 0) ((minimum gateLats).getD 0) ts ≠ []) : ℕ) / sims.length := by
  have hlen : (crossingRates g gateLats sims).1.length = gateLats.length - 1 := by simp [crossingRates, columns]
  let ys : List Track → List ℚ := fun ts => (crossings g ((maximum gateLats).getD 0) ((minimum gateLats).getD 0) ts).map (·.1)
  refine ⟨(List.range (gateLats.length - 1)).map fun i => (sims.map fun ts => densityAt (ys ts) gateLats i).sum / (sims.length : ℚ),
    ?_, by simp, ?_⟩
  · apply List.ext_getElem?
    intro i
    by_cases hi : i < gateLats.length - 1
    · have e := (C179_crossings (g := g) hinc h2 sims (i := i) (by omega)).1
      unfold ReportedAt at e
      rw [List.getElem?_map, e, List.getElem?_map, List.getElem?_map, List.getElem?_range hi]
      simp only [Option.map_some, mean]
      rw [if_neg (by simpa using hne), List.length_map]
    · rw [List.getElem?_eq_none (by simp; omega), List.getElem?_eq_none (by simp; omega)]
  · unfold area
    have e : ((List.range (gateLats.length - 1)).map fun i =>
        ((List.range (gateLats.length - 1)).map fun i => (sims.map fun ts => densityAt (ys ts) gateLats i).sum / (sims.length : ℚ)).getD i 0 *
          (gateLats.getD (i + 1) 0 - gateLats.getD i 0)) =
        (List.range (gateLats.length - 1)).map fun i =>
          (sims.map fun ts => densityAt (ys ts) gateLats i * (gateLats.getD (i + 1) 0 - gateLats.getD i 0)).sum / (sims.length : ℚ) := by
      apply List.map_congr_left
      intro i hi
      rw [List.mem_range] at hi
      rw [List.getD_eq_getElem?_getD, List.getElem?_map, List.getElem?_range hi]
      simp only [Option.map_some, Option.getD_some]
      rw [List.sum_map_mul_right, div_mul_eq_mul_div]
    rw [e, sum_means hne (v := fun ts i => densityAt (ys ts) gateLats i * (gateLats.getD (i + 1) 0 - gateLats.getD i 0))
      (c := fun ts => if crossings g ((maximum gateLats).getD 0) ((minimum gateLats).getD 0) ts ≠ [] then (1 : ℚ) else 0)]
    · congr 1
      clear hne hlen e
      induction sims with
      | nil => simp
      | cons s ss ih =>
        rw [List.map_cons, List.sum_cons, ih, List.countP_cons]
        by_cases h : crossings g ((maximum gateLats).getD 0) ((minimum gateLats).getD 0) s = []
        · simp [h]
        · simp [h]; ring
    · intro ts _
      have hd := (C103_distribution (g := g) hinc h2 ts).2.1
      obtain ⟨h, e1, e2, e3⟩ := gateColumn_values hinc hd
      obtain ⟨h', e1', z, nz⟩ := hd
      have hh : h' = h := Option.some.inj (e1'.symm.trans e1)
      subst hh
      have hs : ((List.range (gateLats.length - 1)).map fun i => densityAt (ys ts) gateLats i * (gateLats.getD (i + 1) 0 - gateLats.getD i 0)).sum =
          area h' gateLats := by
        unfold area
        congr 1
        apply List.map_congr_left
        intro i hi
        rw [List.mem_range] at hi
        rw [e3 i hi]
      rw [hs]
      by_cases hc : crossings g ((maximum gateLats).getD 0) ((minimum gateLats).getD 0) ts = []
      · rw [if_neg (by simpa using hc), z (by simp [hc])]
        unfold area
        have : ((List.range (gateLats.length - 1)).map fun i => (List.replicate (gateLats.length - 1) (0 : ℚ)).getD i 0 *
            (gateLats.getD (i + 1) 0 - gateLats.getD i 0)) = List.replicate (gateLats.length - 1) 0 := by
          rw [List.eq_replicate_iff]
          refine ⟨by simp, fun b hb => ?_⟩
          rw [List.mem_map] at hb
          obtain ⟨i, hi, rfl⟩ := hb
          rw [List.getD_eq_getElem?_getD, List.getElem?_replicate]
          split <;> simp
        rw [this]; simp
      · rw [if_pos hc]
        exact (nz (by simpa using hc)).1

theorem filterMap_present {α : Type} {sims : List α} {f : α → Option ℚ} {P : α → Prop} [DecidablePred P]
    (hf : ∀ s ∈ sims, (f s).isSome = true ↔ P s) : ∃ ws : List ℚ, ((sims.filter fun s => decide (P s)).map f = ws.map some) ∧
      (sims.map f).filterMap id = ws := by
  induction sims with
  | nil => exact ⟨[], rfl, rfl⟩
  | cons s ss ih =>
    obtain ⟨ws, h1, h2⟩ := ih fun x hx => hf x (by simp [hx])
    have hs := hf s (by simp)
    cases he : f s with
    | none =>
      rw [he] at hs
      refine ⟨ws, ?_, ?_⟩
      · rw [List.filter_cons_of_neg (by simpa using hs), h1]
      · rw [List.map_cons, he, List.filterMap_cons_none rfl, h2]
    | some x =>
      rw [he] at hs
      refine ⟨x :: ws, ?_, ?_⟩
      · rw [List.filter_cons_of_pos (by simpa using hs), List.map_cons, he, h1]; rfl
      · rw [List.map_cons, he, List.filterMap_cons_some (f := id) (b := x) rfl, h2]

/-- C179: the maps of pressure are the means over those simulations that have a recorded pressure in the cell, each
simulation counting the same; a cell is masked if no simulation has one. -/
theorem C179_pressure (a b c d : ℚ) (sims : List (List Track)) :
    let present := sims.filter fun ts => decide (∃ o ∈ records ts, InBox a b c d o ∧ Recorded o)
    (present = [] → pressureCell a b c d sims = ⟨none, none, none, none⟩) ∧
    (present ≠ [] → ∃ ms los his mds : List ℚ,
      present.map (cellStats a b c d) = (List.range present.length).map (fun i => ⟨ms[i]?, los[i]?, his[i]?, mds[i]?⟩) ∧
      pressureCell a b c d sims = ⟨some (ms.sum / present.length), some (los.sum / present.length),
        some (his.sum / present.length), some (mds.sum / present.length)⟩) := by
  intro present
  have hP : ∀ ts : List Track, (∃ o ∈ records ts, InBox a b c d o ∧ Recorded o) ↔
      ((records ts).filter fun o => decide (InBox a b c d o ∧ Recorded o)) ≠ [] := by
    intro ts
    rw [Ne, List.filter_eq_nil_iff]
    simp only [decide_eq_true_eq]
    push Not
    rfl
  have hs : ∀ ts, ((cellStats a b c d ts).mean.isSome = true ↔ ∃ o ∈ records ts, InBox a b c d o ∧ Recorded o) ∧
      ((cellStats a b c d ts).min.isSome = true ↔ ∃ o ∈ records ts, InBox a b c d o ∧ Recorded o) ∧
      ((cellStats a b c d ts).max.isSome = true ↔ ∃ o ∈ records ts, InBox a b c d o ∧ Recorded o) ∧
      ((cellStats a b c d ts).med.isSome = true ↔ ∃ o ∈ records ts, InBox a b c d o ∧ Recorded o) := by
    intro ts
    have h := C102_cell a b c d ts
    simp only [hP]
    by_cases he : ((records ts).filter fun o => decide (InBox a b c d o ∧ Recorded o)) = []
    · have hn : ¬ ((records ts).filter fun o => decide (InBox a b c d o ∧ Recorded o)) ≠ [] := not_not_intro he
      rw [h.1 he]
      simp only [hn, Option.isSome_none]
      simp
    · obtain ⟨m, lo, hi, md, e, _⟩ := h.2 he
      rw [e]; simp only [Option.isSome_some, true_iff]; exact ⟨he, he, he, he⟩
  obtain ⟨ms, m1, m2⟩ := filterMap_present (sims := sims) (f := fun ts => (cellStats a b c d ts).mean) fun ts _ => (hs ts).1
  obtain ⟨los, l1, l2⟩ := filterMap_present (sims := sims) (f := fun ts => (cellStats a b c d ts).min) fun ts _ => (hs ts).2.1
  obtain ⟨his, h1, h2⟩ := filterMap_present (sims := sims) (f := fun ts => (cellStats a b c d ts).max) fun ts _ => (hs ts).2.2.1
  obtain ⟨mds, d1, d2⟩ := filterMap_present (sims := sims) (f := fun ts => (cellStats a b c d ts).med) fun ts _ => (hs ts).2.2.2
  have lm : ms.length = present.length := by simpa using (congrArg List.length m1).symm
  have ll : los.length = present.length := by simpa using (congrArg List.length l1).symm
  have lh : his.length = present.length := by simpa using (congrArg List.length h1).symm
  have ld : mds.length = present.length := by simpa using (congrArg List.length d1).symm
  have hc : pressureCell a b c d sims = ⟨mean ms, mean los, mean his, mean mds⟩ := by
    unfold pressureCell maskedMean
    simp only [List.map_map]
    rw [← m2, ← l2, ← h2, ← d2]
    rfl
  have hmean : ∀ ws : List ℚ, ws.length = present.length → (present = [] → mean ws = none) ∧
      (present ≠ [] → mean ws = some (ws.sum / present.length)) := by
    intro ws hw
    constructor
    · rintro hp
      rw [hp] at hw
      rw [List.length_eq_zero_iff.mp hw]; rfl
    · intro hp
      unfold mean
      rw [if_neg (by rintro rfl; exact hp (List.length_eq_zero_iff.mp hw.symm)), hw]
  constructor
  · intro hp
    rw [hc, (hmean _ lm).1 hp, (hmean _ ll).1 hp, (hmean _ lh).1 hp, (hmean _ ld).1 hp]
  · intro hp
    refine ⟨ms, los, his, mds, ?_, ?_⟩
    · apply List.ext_getElem?
      intro i
      by_cases hi : i < present.length
      · have g : ∀ (f : List Track → Option ℚ) (ws : List ℚ), present.map f = ws.map some → ws.length = present.length →
            ws[i]? = f present[i] := by
          intro f ws e hw
          have := congrArg (fun l => l[i]?) e
          simp only [List.getElem?_map, List.getElem?_eq_getElem hi, List.getElem?_eq_getElem (hw ▸ hi), Option.map_some,
            Option.some.injEq] at this
          rw [List.getElem?_eq_getElem (hw ▸ hi), this]
        rw [List.getElem?_map, List.getElem?_map, List.getElem?_range hi, List.getElem?_eq_getElem hi]
        simp only [Option.map_some]
        rw [g _ ms m1 lm, g _ los l1 ll, g _ his h1 lh, g _ mds d1 ld]
      · rw [List.getElem?_eq_none (by simp; omega), List.getElem?_eq_none (by simp; omega)]
    · rw [hc, (hmean _ lm).2 hp, (hmean _ ll).2 hp, (hmean _ lh).2 hp, (hmean _ ld).2 hp]

theorem pressureBins_eq : pressureBins = [850, 855, 860, 865, 870, 875, 880, 885, 890, 895, 900, 905, 910, 915, 920, 925, 930, 935,
    940, 945, 950, 955, 960, 965, 970, 975, 980, 985, 990, 995, 1000, 1005, 1010, 1015] := by decide +kernel

theorem density_none_iff {vs : List ℚ} : density vs pressureBins = none ↔ ∀ v ∈ vs, ¬ (850 ≤ v ∧ v ≤ 1015) := by
  have hs : (histogram vs pressureBins).sum = vs.countP fun v => decide (Within pressureBins v) :=
    histogram_sum (by rw [pressureBins_eq]; decide +kernel) (by rw [pressureBins_eq]; decide) (vs := vs)
  have hw : ∀ v, Within pressureBins v ↔ 850 ≤ v ∧ v ≤ 1015 := by
    intro v
    rw [pressureBins_eq]
    unfold Within
    simp
  have hd : density vs pressureBins = none ↔ (histogram vs pressureBins).sum = 0 := by
    simp only [density]
    split
    · rename_i h; simp [h]
    · rename_i h; simp [h]
  rw [hd, hs, List.countP_eq_zero]
  simp only [decide_eq_true_eq, hw]

theorem calcMin_density {g : Limit} {ts : List Track} (hne : ∀ t ∈ ts, t ≠ []) : ∃ h vs, calcMinPressure g ts = .ok (h, vs) ∧
    vs.length = ts.length ∧ (h = none ↔ ¬ ∃ t ∈ ts, StartsIn g t ∧ ∃ lo, minimum (t.map (·.pressure)) = some lo ∧ 850 ≤ lo ∧ lo ≤ 1015) ∧
    ∀ l, h = some l → l.length = pressureBins.length - 1 ∧ area l pressureBins = 1 := by
  obtain ⟨vs, h, e, hl, lows, e1, e2, _⟩ := C102_minimum (g := g) hne
  refine ⟨h, vs, e, hl, ?_, ?_⟩
  · rw [e2, density_none_iff]
    constructor
    · rintro hn ⟨t, ht, hs, lo, hlo, hr⟩
      have : some lo ∈ lows.map some := by
        rw [← e1, List.mem_map]
        exact ⟨t, by simp [ht, hs], hlo⟩
      rw [List.mem_map] at this
      obtain ⟨lo', hm, he⟩ := this
      cases he
      exact hn _ hm hr
    · intro hn v hv hr
      apply hn
      have : some v ∈ lows.map some := List.mem_map_of_mem hv
      rw [← e1, List.mem_map] at this
      obtain ⟨t, ht, hlo⟩ := this
      rw [List.mem_filter, decide_eq_true_eq] at ht
      exact ⟨t, ht.1, ht.2, v, hlo, hr⟩
  · intro l hh
    rw [e2] at hh
    refine ⟨?_, density_area (by rw [pressureBins_eq]; decide +kernel) hh⟩
    simp only [density] at hh
    split at hh
    · cases hh
    · cases hh; simp

/-- C179: the reported distribution of the minimum pressure of all simulations. If every simulation has a track that starts
in the region and whose minimum is from 850 to 1015 hPa, the area under the reported means is one; if there is a
simulation without such a track, all means are nan, whatever the other simulations are. The minima of all tracks are
kept. -/
theorem C179_minimum_partial {g : Limit} {sims : List (List Track)} (hs : sims ≠ []) (hne : ∀ ts ∈ sims, ∀ t ∈ ts, t ≠ []) :
    let inRange := fun ts : List Track => ∃ t ∈ ts, StartsIn g t ∧ ∃ lo, minimum (t.map (·.pressure)) = some lo ∧ 850 ≤ lo ∧ lo ≤ 1015
    ∃ rates vs, minimumRates g sims = .ok (rates, vs) ∧ vs.length = (sims.map List.length).sum ∧ rates.length = pressureBins.length - 1 ∧
      ((∀ ts ∈ sims, inRange ts) → ∃ ms : List ℚ, rates.map (·.mean) = ms.map some ∧ area ms pressureBins = 1) ∧
      ((∃ ts ∈ sims, ¬ inRange ts) → ∀ r ∈ rates, r.mean = none) := by
  intro inRange
  have key : ∃ rs : List (Option (List ℚ) × List ℚ), sims.mapM (calcMinPressure g) = .ok rs ∧
      (rs.flatMap (·.2)).length = (sims.map List.length).sum ∧
      List.Forall₂ (fun ts r => (r.1 = none ↔ ¬ inRange ts) ∧
        ∀ l, r.1 = some l → l.length = pressureBins.length - 1 ∧ area l pressureBins = 1) sims rs := by
    clear hs
    induction sims with
    | nil => exact ⟨[], rfl, rfl, .nil⟩
    | cons ts ss ih =>
      obtain ⟨rs, e, hl, hf⟩ := ih fun x hx => hne x (by simp [hx])
      obtain ⟨h, vs, e', hl', hn, ha⟩ := calcMin_density (g := g) (hne ts (by simp))
      refine ⟨(h, vs) :: rs, ?_, ?_, .cons ⟨hn, ha⟩ hf⟩
      · rw [List.mapM_cons, e', e]; rfl
      · rw [List.flatMap_cons, List.length_append, hl, hl', List.map_cons, List.sum_cons]
  obtain ⟨rs, e, hl, hf⟩ := key
  have hlen := hf.length_eq
  have hrs : rs ≠ [] := by rintro rfl; exact hs (List.length_eq_zero_iff.mp hlen)
  refine ⟨_, _, by unfold minimumRates; rw [e], hl, by simp [columns], ?_, ?_⟩
  · intro hr
    have hrow : ∀ r ∈ rs, ∃ h, r.1 = some h ∧ h.length = pressureBins.length - 1 ∧ ∀ j, j < pressureBins.length - 1 →
        h.getD j 0 = (r.1.getD []).getD j 0 := by
      intro r hm
      obtain ⟨i, hi, rfl⟩ := List.getElem_of_mem hm
      have hp := List.forall₂_iff_get.mp hf |>.2 i (by omega) hi
      simp only [List.get_eq_getElem] at hp
      cases he : rs[i].1 with
      | none => exact absurd (hr _ (List.getElem_mem (by omega))) (hp.1.mp he)
      | some h => exact ⟨h, rfl, (hp.2 h he).1, fun j _ => rfl⟩
    have harea : ∀ r ∈ rs, area (r.1.getD []) pressureBins = 1 := by
      intro r hm
      obtain ⟨h, he, _⟩ := hrow r hm
      obtain ⟨i, hi, rfl⟩ := List.getElem_of_mem hm
      have hp := List.forall₂_iff_get.mp hf |>.2 i (by omega) hi
      simp only [List.get_eq_getElem] at hp
      rw [he]
      exact (hp.2 h he).2
    refine ⟨(List.range (pressureBins.length - 1)).map fun j => (rs.map fun r => (r.1.getD []).getD j 0).sum / (rs.length : ℚ), ?_, ?_⟩
    · apply List.ext_getElem?
      intro j
      by_cases hj : j < pressureBins.length - 1
      · have ec := columns_values (f := fun r : Option (List ℚ) × List ℚ => r.1) (v := fun r j => (r.1.getD []).getD j 0) hrow hj
        rw [List.getElem?_map, ec, List.getElem?_map, List.getElem?_map, List.getElem?_range hj]
        simp only [Option.map_some, mean]
        rw [if_neg (by simpa using hrs), List.length_map]
      · rw [List.getElem?_eq_none (by simp [columns]; omega), List.getElem?_eq_none (by simp; omega)]
    · unfold area
      have e2 : ((List.range (pressureBins.length - 1)).map fun i =>
          ((List.range (pressureBins.length - 1)).map fun j => (rs.map fun r => (r.1.getD []).getD j 0).sum / (rs.length : ℚ)).getD i 0 *
            (pressureBins.getD (i + 1) 0 - pressureBins.getD i 0)) =
          (List.range (pressureBins.length - 1)).map fun i =>
            (rs.map fun r => (r.1.getD []).getD i 0 * (pressureBins.getD (i + 1) 0 - pressureBins.getD i 0)).sum / (rs.length : ℚ) := by
        apply List.map_congr_left
        intro i hi
        rw [List.mem_range] at hi
        rw [List.getD_eq_getElem?_getD, List.getElem?_map, List.getElem?_range hi]
        simp only [Option.map_some, Option.getD_some]
        rw [List.sum_map_mul_right, div_mul_eq_mul_div]
      rw [e2, sum_means hrs (v := fun r i => (r.1.getD []).getD i 0 * (pressureBins.getD (i + 1) 0 - pressureBins.getD i 0))
        (c := fun _ => 1) fun r hm => harea r hm]
      have h0 : (rs.length : ℚ) ≠ 0 := by exact_mod_cast (List.length_pos_of_ne_nil hrs).ne'
      simp [h0]
  · rintro ⟨ts, hm, hn⟩
    obtain ⟨i, hi, rfl⟩ := List.getElem_of_mem hm
    have hp := List.forall₂_iff_get.mp hf |>.2 i hi (by omega)
    simp only [List.get_eq_getElem] at hp
    exact columns_nan (f := fun r : Option (List ℚ) × List ℚ => r.1) ⟨rs[i], List.getElem_mem _, hp.1.mpr hn⟩

/-! ### Examples -/

def square : List (Point ℚ) := [⟨0, 0⟩, ⟨0, 4⟩, ⟨4, 4⟩, ⟨4, 0⟩]
/-- From the west, from the north, and one that stays at sea -/
def west : Track := [⟨-1, 1, 950, 2000⟩, ⟨1, 1, 960, 2000⟩]
def north : Track := [⟨2, 5, 980, 2000⟩, ⟨2, 3, 990, 2000⟩]
def atSea : Track := [⟨-3, 1, 950, 2000⟩, ⟨-2, 1, 960, 2000⟩]

/-- The hypotheses of `C179_landfall_partial` and `C179_total`; the shares are 1 and 1/2 at the western gate. -/
example : (∀ ts ∈ [[west], [west, north]], (landfalls square ts).1 ≠ []) ∧
    (landfallRates square [[west], [west, north]]).1.map (·.mean) = [some 0, some (3 / 4), some (1 / 4)] := by decide +kernel

/-- A simulation without landfall -/
example : (landfallRates square [[west], [west, north], [atSea]]).1.map (·.mean) = [none, none, none] ∧
    (landfallRates square [[west], [west, north], [atSea]]).1.map (·.upper) = [none, none, none] ∧
    (landfallRates square [[west], [west, north], [atSea]]).1.map (·.lower) = [some 0, some (11 / 20), some (1 / 20)] := by
  decide +kernel

/-- A gate along the meridian 0, with one simulation that does not cross it -/
example : (crossingRates 0 [0, 2, 4] [[west], [atSea]]).1.map (·.mean) = [some (1 / 4), some 0] ∧
    area [1 / 4, 0] [0, 2, 4] = 1 / 2 := by decide +kernel

/-- A cell with records in two of three simulations -/
example : pressureCell (-2) 2 0 2 [[west], [[⟨-1, 1, 990, 2000⟩]], [north]] = ⟨some (1945 / 2), some 970, some 975, some (1945 / 2)⟩ := by
  decide +kernel

/-- A simulation with a minimum of 950 hPa and one with a weak storm of 1018 hPa -/
example : (minimumRates ⟨-5, 5, -5, 5⟩ [[west], [[⟨1, 1, 1018, 2000⟩]]]).map (fun r => (r.1.all fun x => x.mean.isNone, r.2)) =
    .ok (true, [950, 1018]) := by decide +kernel

end Tcrm.SimRates
