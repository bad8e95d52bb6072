import Verif.Spec.SeriesPlots
import Mathlib.Data.List.Nodup
/-!
C140: each station has its own plot.
-/
namespace Tcrm.SeriesPlots

theorem rstrip_append (chars a b : Name) (h : ∀ c ∈ b, c ∈ chars) : rstrip chars (a ++ b) = rstrip chars a := by
  unfold rstrip
  rw [List.reverse_append, List.dropWhile_append_of_pos]
  intro c hc
  simpa using h c (by simpa using hc)

theorem rstrip_keep (chars w : Name) {c : Char} (h : c ∉ chars) : rstrip chars (w ++ [c]) = w ++ [c] := by
  unfold rstrip
  rw [List.reverse_append, List.reverse_singleton, List.singleton_append, List.dropWhile_cons_of_neg (by simpa using h)]
  simp

theorem csv_chars (c : Char) : c ∈ ".csv".toList ↔ c = '.' ∨ c = 'c' ∨ c = 's' ∨ c = 'v' := by
  rw [show ".csv".toList = ['.', 'c', 's', 'v'] from by decide]; simp

theorem ts_chars (c : Char) : c ∈ "ts.".toList ↔ c = 't' ∨ c = 's' ∨ c = '.' := by
  rw [show "ts.".toList = ['t', 's', '.'] from by decide]; simp

theorem base_eq (id : Name) : rstrip ".csv".toList (fileName id) = rstrip ".csv".toList ("ts.".toList ++ id) := by
  unfold fileName
  exact rstrip_append _ _ _ fun c hc => hc

theorem base_good {id : Name} (h : EndsWell id) : rstrip ".csv".toList (fileName id) = "ts.".toList ++ id := by
  obtain ⟨w, c, rfl, h1, h2, h3, h4⟩ := h
  rw [base_eq, ← List.append_assoc]
  exact rstrip_keep _ _ (by rw [csv_chars]; tauto)

theorem rstrip_length (chars s : Name) : (rstrip chars s).length ≤ s.length := by
  unfold rstrip
  rw [List.length_reverse]
  exact Nat.le_trans (List.dropWhile_suffix _).length_le (by simp)

/-- The image of a station has the name of the station exactly if the identifier ends well. -/
theorem base_iff (id : Name) : rstrip ".csv".toList (fileName id) = "ts.".toList ++ id ↔ EndsWell id := by
  constructor
  · intro h
    rw [base_eq] at h
    rcases List.eq_nil_or_concat id with rfl | ⟨w, c, rfl⟩
    · exact absurd h (by decide)
    · rw [List.concat_eq_append] at h ⊢
      refine ⟨w, c, rfl, ?_⟩
      by_contra hc
      have hm : c ∈ ".csv".toList := by rw [csv_chars]; tauto
      rw [← List.append_assoc, rstrip_append _ _ [c] (by simpa using hm)] at h
      have := rstrip_length ".csv".toList ("ts.".toList ++ w)
      rw [h] at this
      simp at this
      omega
  · exact base_good

theorem lstrip_good {id : Name} (h : BeginsWell id) : lstrip "ts.".toList ("ts.".toList ++ id) = id := by
  obtain ⟨c, w, rfl, h1, h2, h3⟩ := h
  unfold lstrip
  rw [List.dropWhile_append_of_pos (by simp), List.dropWhile_cons_of_neg]
  have : c ∉ "ts.".toList := by rw [ts_chars]; tauto
  simpa using this

theorem prefix_file (id : Name) : "ts.".toList.isPrefixOf (fileName id) = true := by
  unfold fileName
  rw [List.isPrefixOf_iff_prefix, List.append_assoc]
  exact List.prefix_append _ _

variable {R : Type}

theorem plotAll_good : ∀ (stations : List (Name × List R)), (∀ s ∈ stations, EndsWell s.1 ∧ BeginsWell s.1 ∧ 2 ≤ s.2.length) →
    plotAll (stations.map fun s => (fileName s.1, s.2)) =
      (stations.map fun s => ⟨imageName s.1, s.1, s.2⟩, true)
  | [], _ => rfl
  | s :: rest, h => by
    obtain ⟨h1, h2, h3⟩ := h s List.mem_cons_self
    have ih := plotAll_good rest fun t ht => h t (List.mem_cons_of_mem _ ht)
    simp only [List.map_cons, plotAll, prefix_file, if_true, loadable, h3, decide_true, base_good h1, lstrip_good h2, ih]
    rfl

theorem imageName_injective {a b : Name} (h : imageName a = imageName b) : a = b := by
  unfold imageName at h
  exact List.append_cancel_left (List.append_cancel_right h)

theorem find_unique {α : Type} {p : α → Bool} {l : List α} {x : α} (hx : x ∈ l) (hp : p x = true)
    (hu : ∀ y ∈ l, p y = true → y = x) : l.find? p = some x := by
  cases h : l.find? p with
  | none => rw [List.find?_eq_none] at h; exact absurd hp (h x hx)
  | some y => rw [hu y (List.mem_of_find?_eq_some h) (List.find?_some h)]

/-- Stations whose identifiers begin and end well and whose series have at least two records, in any order: all are plotted, each
to its own image, with its identifier in the title and its own series. -/
theorem C140_own_plot_partial (stations : List (Name × List R)) (hnd : (stations.map (·.1)).Nodup)
    (h : ∀ s ∈ stations, EndsWell s.1 ∧ BeginsWell s.1 ∧ 2 ≤ s.2.length) :
    (plotAll (stations.map fun s => (fileName s.1, s.2))).2 = true ∧
    ∀ s ∈ stations, images (plotAll (stations.map fun s => (fileName s.1, s.2))).1 (imageName s.1) =
      some ⟨imageName s.1, s.1, s.2⟩ := by
  rw [plotAll_good stations h]
  refine ⟨rfl, fun s hs => ?_⟩
  unfold images
  apply find_unique
  · simp only [List.mem_reverse, List.mem_map]
    exact ⟨s, hs, rfl⟩
  · simp
  · intro y hy hp
    simp only [List.mem_reverse, List.mem_map] at hy
    obtain ⟨t, ht, rfl⟩ := hy
    have e : t.1 = s.1 := imageName_injective (by simpa using hp)
    have := List.inj_on_of_nodup_map hnd ht hs e
    rw [this]

/-- The image of a station is named after it exactly if the identifier ends well. -/
theorem C140_image_name (id : Name) (series : List R) (hs : 2 ≤ series.length) :
    (∃ p ∈ (plotAll [(fileName id, series)]).1, p.image = imageName id) ↔ EndsWell id := by
  rw [← base_iff]
  simp only [plotAll, prefix_file, if_true, loadable, hs, decide_true, List.mem_singleton, exists_eq_left]
  unfold imageName
  exact List.append_left_inj _

/-- Two stations, one of which is called like the other with a c, s, v or full stop added: only the plot of the one that comes later in
the directory listing remains, under whatever name. -/
theorem C140_same_image_fails (id : Name) (c : Char) (hc : c = '.' ∨ c = 'c' ∨ c = 's' ∨ c = 'v') (a b : List R)
    (ha : 2 ≤ a.length) (hb : 2 ≤ b.length) :
    (∀ name p, images (plotAll [(fileName id, a), (fileName (id ++ [c]), b)]).1 name = some p → p.series = b) ∧
    (∀ name p, images (plotAll [(fileName (id ++ [c]), b), (fileName id, a)]).1 name = some p → p.series = a) := by
  have e : rstrip ".csv".toList (fileName (id ++ [c])) = rstrip ".csv".toList (fileName id) := by
    rw [base_eq, base_eq, ← List.append_assoc, rstrip_append]
    intro x hx
    rw [List.mem_singleton] at hx
    subst hx
    exact (csv_chars x).2 hc
  constructor <;>
  · intro name p
    simp only [plotAll, prefix_file, if_true, loadable, ha, hb, decide_true, e, images, List.reverse_cons, List.reverse_nil,
      List.nil_append, List.cons_append, List.find?_cons]
    split
    · intro h; rw [← Option.some.inj h]
    · rename_i hf
      rw [hf]
      exact fun h => absurd h (by simp)

/-- The title does not name a station whose identifier begins with t, s or a full stop. -/
theorem C140_title_fails (id : Name) (c : Char) (hc : c = 't' ∨ c = 's' ∨ c = '.') (series : List R) (hs : 2 ≤ series.length) :
    ∀ p ∈ (plotAll [(fileName (c :: id), series)]).1, p.station ≠ c :: id := by
  intro p hp
  simp only [plotAll, prefix_file, if_true, loadable, hs, decide_true, List.mem_singleton] at hp
  subst hp
  simp only
  intro h
  unfold lstrip at h
  have hh := List.head?_dropWhile_not (fun x => decide (x ∈ "ts.".toList)) (rstrip ".csv".toList (fileName (c :: id)))
  rw [h] at hh
  simp only [List.head?_cons] at hh
  have : c ∈ "ts.".toList := (ts_chars c).2 hc
  simp at hh
  tauto

/-- A station with fewer than two records stops the plotting of all stations after it. -/
theorem C140_short_series_fails (id : Name) (series : List R) (hs : series.length < 2) (rest : List (Name × List R)) :
    plotAll ((fileName id, series) :: rest) = ([], false) := by
  simp only [plotAll, prefix_file, if_true, loadable, Nat.not_le.2 hs, decide_false, Bool.false_eq_true, if_false]

/-- Files that are not time series have no effect. -/
theorem C140_other_files {R : Type} : ∀ files : List (Name × List R),
    plotAll files = plotAll (files.filter fun f => "ts.".toList.isPrefixOf f.1)
  | [] => rfl
  | (f, series) :: rest => by
    have ih := C140_other_files rest
    by_cases h : "ts.".toList.isPrefixOf f = true
    · rw [List.filter_cons_of_pos (by exact h)]
      unfold plotAll
      rw [ih]
    · rw [List.filter_cons_of_neg (by exact h), ← ih]
      rw [plotAll, if_neg h]

/-! ### Examples -/

example : EndsWell "IDW42".toList ∧ BeginsWell "IDW42".toList :=
  ⟨⟨"IDW4".toList, '2', by decide⟩, ⟨'I', "DW42".toList, by decide⟩⟩

-- Cairns and Cairn share an image, and the title of Tully lacks its first letter.
example : (plotAll [("ts.Cairns.csv".toList, [1, 2]), ("local".toList, []), ("ts.Cairn.csv".toList, [3, 4]),
      ("ts.tully.csv".toList, [5, 6])]) =
    ([⟨"ts.Cairn.png".toList, "Cairn".toList, [1, 2]⟩, ⟨"ts.Cairn.png".toList, "Cairn".toList, [3, 4]⟩,
      ⟨"ts.tully.png".toList, "ully".toList, [5, 6]⟩], true) := by decide +kernel

end Tcrm.SeriesPlots
