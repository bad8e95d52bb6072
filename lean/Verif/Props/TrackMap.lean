import Verif.Model.TrackMap
import Verif.Spec.TrackMap
import Mathlib.Tactic.Linarith
/-!
C206: the colours of tracks on a map.
-/
namespace Tcrm.TrackMap

theorem legend_eq : legend = [("No data", "0.75"), ("Category 1", "#0FABF6"), ("Category 2", "#0000FF"), ("Category 3", "#00FF00"),
    ("Category 4", "#FF8100"), ("Category 5", "#ff0000")] := by decide

theorem colourOf_eq (w : ℚ) : colourOf (some w) = some (if w < 35 / 2 then "0.75" else if w < 49 / 2 then "#0FABF6" else if w < 65 / 2 then "#0000FF"
    else if w < 221 / 5 then "#00FF00" else if w < 111 / 2 then "#FF8100" else "#ff0000") := by
  have count : ∀ b : List ℚ, (b.countP fun b => decide (b ≤ w)) = (b.map fun b => if w < b then 0 else 1).sum := by
    intro b
    induction b with
    | nil => rfl
    | cons a l ih =>
      rw [List.countP_cons, ih, List.map_cons, List.sum_cons]
      rcases lt_or_ge w a with h | h
      · simp [h, not_le.2 h]
      · simp [h, not_lt.2 h]; omega
  unfold colourOf intervals
  simp only [count]
  norm_num only [List.map_cons, List.map_nil, List.sum_cons, List.sum_nil]
  by_cases h0 : w < 0
  · simp [h0, colours, show w < 35 / 2 by linarith]
  by_cases h6 : w ≥ 1000
  · simp [h0, h6, colours, show ¬ w < 35 / 2 by intro; linarith, show ¬ w < 49 / 2 by intro; linarith, show ¬ w < 65 / 2 by intro; linarith,
      show ¬ w < 221 / 5 by intro; linarith, show ¬ w < 111 / 2 by intro; linarith]
  have h6' : w < 1000 := not_le.1 h6
  simp only [h0, h6, h6', if_false, if_true]
  split_ifs <;> first | rfl | (exfalso; linarith)

theorem colour_label {w : ℚ} {label colour : String} (h : (label, colour) ∈ legend) :
    colourOf (some w) = some colour ↔ Spec.Named w label := by
  rw [colourOf_eq, legend_eq] at *
  unfold Spec.Named
  norm_num only
  simp only [List.mem_cons, Prod.mk.injEq, List.not_mem_nil, or_false] at h
  rcases h with ⟨rfl, rfl⟩ | ⟨rfl, rfl⟩ | ⟨rfl, rfl⟩ | ⟨rfl, rfl⟩ | ⟨rfl, rfl⟩ | ⟨rfl, rfl⟩ <;>
  · simp
    split_ifs <;> simp <;> (try constructor) <;> (try intro) <;> linarith

theorem segment {xx yy : List ℚ} (h : xx.length = yy.length) : ∃ s, makeSegments xx yy = .ok s ∧ s.length = xx.length - 1 ∧
    ∀ i x y x' y', xx[i]? = some x → yy[i]? = some y → xx[i + 1]? = some x' → yy[i + 1]? = some y' → s[i]? = some ((x, y), (x', y')) := by
  refine ⟨_, if_neg (by simpa using h), by simp [h], ?_⟩
  intro i x y x' y' h1 h2 h3 h4
  have hi : i + 1 < xx.length := (List.getElem?_eq_some_iff.1 h3).1
  rw [List.getElem?_zip_eq_some, List.getElem?_dropLast, List.getElem?_tail, if_pos (by simp; omega)]
  exact ⟨List.getElem?_zip_eq_some.2 ⟨h1, h2⟩, List.getElem?_zip_eq_some.2 ⟨h3, h4⟩⟩

/-- C206: on the map of tracks each track is drawn as the lines between its successive positions, and the colour of each line is that which
the legend gives to the category of the wind speed at the start of the line. -/
theorem C206_lines {xx yy : List ℚ} {z : List (Option ℚ)} (hy : yy.length = xx.length) (hz : z.length = xx.length) :
    ∃ legs, colorline xx yy z = .ok legs ∧ legs.length = xx.length - 1 ∧
      ∀ i x y x' y', xx[i]? = some x → yy[i]? = some y → xx[i + 1]? = some x' → yy[i + 1]? = some y' →
        ∃ leg, legs[i]? = some leg ∧ leg.start = (x, y) ∧ leg.stop = (x', y') ∧
          ∀ w, z[i]? = some (some w) → ∀ label colour, (label, colour) ∈ legend → (leg.colour = some colour ↔ Spec.Named w label) := by
  obtain ⟨s, hs, hl, hseg⟩ := segment hy.symm
  refine ⟨_, by unfold colorline; rw [hs], by simp [hl], ?_⟩
  intro i x y x' y' h1 h2 h3 h4
  refine ⟨_, by rw [List.getElem?_mapIdx, hseg i x y x' y' h1 h2 h3 h4]; rfl, rfl, rfl, ?_⟩
  intro w hw label colour hlc
  have hi : i < z.length := (List.getElem?_eq_some_iff.1 hw).1
  rw [Nat.mod_eq_of_lt hi, hw]
  exact colour_label hlc

/-- C206: every wind speed has a label in the legend, and only one. -/
theorem C206_one_label (w : ℚ) : ∃! e, e ∈ legend ∧ Spec.Named w e.1 := by
  have hc := colourOf_eq w
  have hmem : ∃ e ∈ legend, colourOf (some w) = some e.2 := by
    rw [hc, legend_eq]
    split_ifs <;> simp
  obtain ⟨e, he, hec⟩ := hmem
  refine ⟨e, ⟨he, (colour_label he).1 hec⟩, ?_⟩
  rintro e' ⟨he', hn⟩
  have := (colour_label he').2 hn
  rw [hec, Option.some.injEq] at this
  have inj : ∀ a ∈ legend, ∀ b ∈ legend, a.2 = b.2 → a = b := by rw [legend_eq]; decide
  exact inj _ he' _ he this.symm

/-- C206, refuted: a line whose wind speed is missing does not get the colour labelled "No data", nor any other of the legend; and all the
lines with a wind speed below 17.5 get it. -/
theorem C206_missing_fails {xx yy : List ℚ} {z : List (Option ℚ)} (hy : yy.length = xx.length) (hz : z.length = xx.length) {i : ℕ}
    (hi : i + 1 < xx.length) {legs : List Leg} (h : colorline xx yy z = .ok legs) :
    ∃ leg, legs[i]? = some leg ∧ (z[i]? = some none → leg.colour = none) ∧
      ∀ w < 17.5, z[i]? = some (some w) → ∃ colour, ("No data", colour) ∈ legend ∧ leg.colour = some colour := by
  obtain ⟨legs', h', _, hl⟩ := C206_lines hy hz
  obtain ⟨s, hs, hlen, _⟩ := segment hy.symm
  unfold colorline at h
  rw [hs] at h
  cases h
  have his : i < s.length := by omega
  refine ⟨_, by rw [List.getElem?_mapIdx, List.getElem?_eq_getElem his]; rfl, ?_, ?_⟩
  · intro hn
    simp only [Nat.mod_eq_of_lt (show i < z.length by omega), hn]
    rfl
  · intro w hw hn
    refine ⟨"0.75", by decide, ?_⟩
    simp only [Nat.mod_eq_of_lt (show i < z.length by omega), hn]
    exact (colour_label (label := "No data") (by decide)).2 (Or.inl ⟨rfl, hw⟩)

/-- C206: the lines of all tracks are drawn, in their order. -/
theorem C206_all {project : List ℚ → List ℚ → List ℚ × List ℚ} {tracks : List Track}
    (h : ∀ t ∈ tracks, (project t.lon t.lat).2.length = (project t.lon t.lat).1.length) :
    ∃ each : List (List Leg), subplot project tracks = .ok each.flatten ∧
      List.Forall₂ (fun t legs => colorline (project t.lon t.lat).1 (project t.lon t.lat).2 t.wind = .ok legs) tracks each := by
  have key : ∃ each : List (List Leg), (tracks.mapM fun t => colorline (project t.lon t.lat).1 (project t.lon t.lat).2 t.wind) = .ok each ∧
      List.Forall₂ (fun t legs => colorline (project t.lon t.lat).1 (project t.lon t.lat).2 t.wind = .ok legs) tracks each := by
    induction tracks with
    | nil => exact ⟨[], rfl, .nil⟩
    | cons t l ih =>
      obtain ⟨each, h1, h2⟩ := ih fun t ht => h t (List.mem_cons_of_mem _ ht)
      obtain ⟨s, hs, _⟩ := segment (h t (by simp)).symm
      have hc : ∃ legs, colorline (project t.lon t.lat).1 (project t.lon t.lat).2 t.wind = .ok legs := by
        unfold colorline; rw [hs]; exact ⟨_, rfl⟩
      obtain ⟨legs, hc⟩ := hc
      refine ⟨legs :: each, ?_, .cons hc h2⟩
      rw [List.mapM_cons, hc, h1]
      rfl
  obtain ⟨each, h1, h2⟩ := key
  exact ⟨each, by unfold subplot; rw [h1]; rfl, h2⟩

/-- C206: longitudes and latitudes of different numbers are an error, and nothing else is. -/
theorem C206_error (xx yy : List ℚ) (z : List (Option ℚ)) : colorline xx yy z = .error .valueError ↔ xx.length ≠ yy.length := by
  unfold colorline makeSegments
  by_cases h : xx.length = yy.length <;> simp [h]

/-- A track that deepens from a tropical low to a cyclone of category 2 -/
example : colorline [150, 149, 147] [-15, -16, -16] [some 15, some 24.5, some 30] =
    .ok [⟨(150, -15), (149, -16), some "0.75"⟩, ⟨(149, -16), (147, -16), some "#0000FF"⟩] := by decide +kernel

end Tcrm.TrackMap
