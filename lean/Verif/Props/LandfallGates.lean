import Mathlib.Tactic.IntervalCases
import Verif.Props.Crossing
/-!
C104: rates of landfall by gate; C105: intensity at landfall.
-/
namespace Tcrm.Evaluate
open Tcrm.Geometry (Point OnSegment along lineLine isLeft inLand C29_intersection_iff)

/-- The segments are not parallel and have a common point. -/
def Cross (s e a b : Point ℚ) : Prop :=
  (b.y - a.y) * (e.x - s.x) ≠ (b.x - a.x) * (e.y - s.y) ∧ ∃ p, OnSegment s e p ∧ OnSegment a b p

theorem cross_iff (s e a b : Point ℚ) : (lineLine s e a b).status = .intersection ↔ Cross s e a b := by
  unfold Cross
  by_cases h : (b.y - a.y) * (e.x - s.x) - (b.x - a.x) * (e.y - s.y) = 0
  · have := lineLine_parallel h
    simp [this, sub_eq_zero.mp h]
  · rw [lineLine_status]
    simp only [C29_intersection_iff h]
    exact ⟨fun h' => ⟨fun h2 => h (sub_eq_zero.mpr h2), h'⟩, fun h' => h'.2⟩

theorem mem_gatesCrossed {gates : List (Point ℚ)} {s e : Point ℚ} {j : Nat} : j ∈ gatesCrossed gates s e ↔
    1 ≤ j ∧ j + 1 < gates.length ∧ ∃ a b, gates[j - 1]? = some a ∧ gates[j]? = some b ∧ Cross s e a b := by
  unfold gatesCrossed
  rw [List.mem_filterMap]
  constructor
  · rintro ⟨k, hk, h⟩
    rw [List.mem_range] at hk
    split at h
    · rename_i a b ha hb
      split at h
      · rename_i hs
        cases h
        exact ⟨by omega, by omega, a, b, by simpa using ha, hb, (cross_iff _ _ _ _).mp hs⟩
      · cases h
    · cases h
  · rintro ⟨h1, h2, a, b, ha, hb, hc⟩
    refine ⟨j - 1, List.mem_range.mpr (by omega), ?_⟩
    have e : j - 1 + 1 = j := by omega
    rw [e, ha, hb]
    simp only
    rw [if_pos ((cross_iff _ _ _ _).mpr hc)]

theorem mem_legs {tracks : List Track} {a b : Obs} : (a, b) ∈ tracks.flatMap segments ↔ Leg tracks a b := by
  rw [List.mem_flatMap]
  unfold Leg
  constructor
  · rintro ⟨t, ht, h⟩; exact ⟨t, ht, mem_segments.mp h⟩
  · rintro ⟨t, ht, h⟩; exact ⟨t, ht, mem_segments.mpr h⟩

/-- C104: the gates recorded for landfall are those crossed by a leg from the sea to the land, except the last one; those
for leaving the land likewise. The land is the polygon of the gate points, closed by repeating the first. -/
theorem C104_gates_partial (gates : List (Point ℚ)) (tracks : List Track) (j : Nat) :
    (j ∈ (landfalls gates tracks).1 ↔ ∃ a b, Leg tracks a b ∧ inLand (pt a) (gates ++ gates.take 1) = false ∧
      inLand (pt b) (gates ++ gates.take 1) = true ∧ 1 ≤ j ∧ j + 1 < gates.length ∧
      ∃ p q, gates[j - 1]? = some p ∧ gates[j]? = some q ∧ Cross (pt a) (pt b) p q) ∧
    (j ∈ (landfalls gates tracks).2 ↔ ∃ a b, Leg tracks a b ∧ inLand (pt a) (gates ++ gates.take 1) = true ∧
      inLand (pt b) (gates ++ gates.take 1) = false ∧ 1 ≤ j ∧ j + 1 < gates.length ∧
      ∃ p q, gates[j - 1]? = some p ∧ gates[j]? = some q ∧ Cross (pt a) (pt b) p q) := by
  have hc : gates ++ gates.take 1 = coast gates := by cases gates <;> rfl
  rw [hc]
  constructor
  · simp only [landfalls]
    rw [List.mem_flatMap]
    constructor
    · rintro ⟨⟨a, b⟩, hl, h⟩
      split at h
      · rename_i hc
        simp only [Bool.and_eq_true, Bool.not_eq_true'] at hc
        exact ⟨a, b, mem_legs.mp hl, hc.1, hc.2, mem_gatesCrossed.mp h⟩
      · cases h
    · rintro ⟨a, b, hl, h1, h2, h⟩
      refine ⟨(a, b), mem_legs.mpr hl, ?_⟩
      rw [if_pos (by simp [h1, h2])]
      exact mem_gatesCrossed.mpr h
  · simp only [landfalls]
    rw [List.mem_flatMap]
    constructor
    · rintro ⟨⟨a, b⟩, hl, h⟩
      split at h
      · rename_i hc
        simp only [Bool.and_eq_true, Bool.not_eq_true'] at hc
        exact ⟨a, b, mem_legs.mp hl, hc.2.1, hc.2.2, mem_gatesCrossed.mp h⟩
      · cases h
    · rintro ⟨a, b, hl, h1, h2, h⟩
      refine ⟨(a, b), mem_legs.mpr hl, ?_⟩
      rw [if_pos (by simp [h1, h2])]
      exact mem_gatesCrossed.mpr h

/-- C104: a leg is counted once at every gate it crosses: the list of a single leg has no gate twice. -/
theorem C104_once (gates : List (Point ℚ)) (s e : Point ℚ) : (gatesCrossed gates s e).Nodup := by
  unfold gatesCrossed
  apply List.Nodup.filterMap _ List.nodup_range
  intro k k' j hk hk'
  have aux : ∀ k, j ∈ (match gates[k]?, gates[k + 1]? with
      | some a, some b => if (lineLine s e a b).status = Geometry.Status.intersection then some (k + 1) else none
      | _, _ => none) → j = k + 1 := by
    intro k h
    rw [Option.mem_def] at h
    split at h
    · split at h
      · exact (Option.some.inj h).symm
      · cases h
    · cases h
  have := aux k hk
  have := aux k' hk'
  omega

theorem inCell_iff {edges : List ℚ} {i : Nat} {a b v : ℚ} (ha : edges[i]? = some a) (hb : edges[i + 1]? = some b) :
    InCell edges i v ↔ a ≤ v ∧ (v < b ∨ (i + 2 = edges.length ∧ v = b)) := by
  unfold InCell
  rw [ha, hb]
  constructor
  · rintro ⟨_, _, h1, h2, h⟩
    cases h1
    cases h2
    exact h
  · intro h
    exact ⟨a, b, rfl, rfl, h⟩

theorem bins_increasing (n : Nat) : ((List.range n).map fun (i : Nat) => (i : ℚ)).Pairwise (· < ·) := by
  rw [List.pairwise_map]
  exact List.pairwise_lt_range.imp fun h => by exact_mod_cast h

theorem countP_bin {n : Nat} {js : List Nat} (hj : ∀ j ∈ js, j + 1 < n) (i : Nat) (hi : i + 1 < n) :
    (js.map fun (j : Nat) => (j : ℚ)).countP (inBin ((List.range n).map fun (i : Nat) => (i : ℚ)) i) = js.count i := by
  rw [List.countP_map, List.count_eq_countP]
  apply List.countP_congr
  intro j hjm
  have := hj j hjm
  simp only [Function.comp, inBin_iff, beq_iff_eq]
  rw [inCell_iff (a := (i : ℚ)) (b := ((i + 1 : ℕ) : ℚ)) (by rw [List.getElem?_map, List.getElem?_range (by omega)]; rfl)
    (by rw [List.getElem?_map, List.getElem?_range hi]; rfl)]
  simp only [List.length_map, List.length_range]
  constructor
  · rintro ⟨h1, h2⟩
    have h1' : i ≤ j := by exact_mod_cast h1
    rcases h2 with h2 | ⟨h2, h3⟩
    · have : j < i + 1 := by exact_mod_cast h2
      omega
    · have : j = i + 1 := by exact_mod_cast h3
      omega
  · rintro rfl
    exact ⟨le_rfl, .inl (by push_cast; linarith)⟩

theorem shares {gates : List (Point ℚ)} (h2 : 2 ≤ gates.length) {l : List Nat} (hj : ∀ j ∈ l, j + 1 < gates.length)
    {r : Option (List ℚ)}
    (hr : r = density (l.map fun (j : Nat) => (j : ℚ)) ((List.range gates.length).map fun (i : Nat) => (i : ℚ))) :
    (r = none ↔ l = []) ∧ (∀ h, r = some h → h.length = gates.length - 1 ∧ ∀ j, j + 1 < gates.length →
      h.getD j 0 * (l.length : ℚ) = (l.count j : ℚ)) := by
  generalize hb : (List.range gates.length).map (fun (i : Nat) => (i : ℚ)) = bins at hr
  have hlen : bins.length = gates.length := by rw [← hb]; simp
  have hsum : (histogram (l.map fun (j : Nat) => (j : ℚ)) bins).sum = l.length := by
    rw [histogram_sum (by rw [← hb]; exact bins_increasing _) (by omega), List.countP_map, List.countP_eq_length]
    intro j hjm
    have := hj j hjm
    simp only [Function.comp, decide_eq_true_eq]
    refine ⟨0, ((gates.length - 1 : ℕ) : ℚ), ?_, ?_, by positivity, by exact_mod_cast (by omega : j ≤ gates.length - 1)⟩
    · rw [← hb, List.head?_eq_getElem?, List.getElem?_map, List.getElem?_range (by omega)]; rfl
    · rw [← hb, List.getLast?_eq_getElem?, List.getElem?_map, List.length_map, List.length_range, List.getElem?_range (by omega)]; rfl
  rw [hr]
  simp only [density]
  rw [hsum]
  by_cases h0 : l.length = 0
  · rw [if_pos h0]
    exact ⟨⟨fun _ => List.length_eq_zero_iff.mp h0, fun _ => rfl⟩, fun h hh => nomatch hh⟩
  · rw [if_neg h0]
    refine ⟨⟨(fun h => nomatch h), (fun h => absurd (congrArg List.length h) h0)⟩, ?_⟩
    intro h hh
    cases hh
    refine ⟨by simp [hlen], ?_⟩
    intro j hjl
    have hg := histogram_getElem? (l.map fun (j : Nat) => (j : ℚ)) bins (i := j) (by omega)
    have hcount := countP_bin hj j hjl
    rw [hb] at hcount
    rw [List.getD_eq_getElem?_getD, List.getElem?_map, List.getElem?_range (by omega)]
    simp only [Option.map_some, Option.getD_some]
    rw [List.getD_eq_getElem?_getD, hg, hcount]
    have hw : bins.getD (j + 1) 0 - bins.getD j 0 = 1 := by
      rw [← hb, List.getD_eq_getElem?_getD, List.getD_eq_getElem?_getD, List.getElem?_map, List.getElem?_map,
        List.getElem?_range hjl, List.getElem?_range (by omega)]
      simp
    rw [hw]
    have : (l.length : ℚ) ≠ 0 := by exact_mod_cast h0
    simp only [Option.getD_some]
    field_simp

/-- C104: the rates of landfall are the shares of the gates in all landfalls recorded; without any there are none (nan).
The same holds for the rates of leaving the land. -/
theorem C104_rates {gates : List (Point ℚ)} (h2 : 2 ≤ gates.length) (tracks : List Track) :
    (((processTracks gates tracks).1 = none ↔ (landfalls gates tracks).1 = []) ∧
    (∀ h, (processTracks gates tracks).1 = some h → h.length = gates.length - 1 ∧ ∀ j, j + 1 < gates.length →
      h.getD j 0 * ((landfalls gates tracks).1.length : ℚ) = ((landfalls gates tracks).1.count j : ℚ))) ∧
    ((processTracks gates tracks).2 = none ↔ (landfalls gates tracks).2 = []) ∧
    (∀ h, (processTracks gates tracks).2 = some h → h.length = gates.length - 1 ∧ ∀ j, j + 1 < gates.length →
      h.getD j 0 * ((landfalls gates tracks).2.length : ℚ) = ((landfalls gates tracks).2.count j : ℚ)) := by
  refine ⟨shares h2 ?_ rfl, shares h2 ?_ rfl⟩
  · intro j hj
    obtain ⟨_, _, _, _, _, _, h, _⟩ := (C104_gates_partial gates tracks j).1.mp hj
    exact h
  · intro j hj
    obtain ⟨_, _, _, _, _, _, h, _⟩ := (C104_gates_partial gates tracks j).2.mp hj
    exact h

/-- C104 does not hold for the last two sides of the coast: a leg that reaches the land across the segment between the
last two gates, or between the last and the first, and crosses no other, is recorded nowhere. -/
theorem C104_last_gate_fails {gates : List (Point ℚ)} {a b : Obs}
    (h : ∀ k p q, k + 2 < gates.length → gates[k]? = some p → gates[k + 1]? = some q → ¬ Cross (pt a) (pt b) p q) :
    landfalls gates [[a, b]] = ([], []) := by
  have hn : ∀ j, j ∉ gatesCrossed gates (pt a) (pt b) := by
    intro j hj
    obtain ⟨h1, h2, p, q, hp, hq, hc⟩ := mem_gatesCrossed.mp hj
    refine h (j - 1) p q (by omega) hp ?_ hc
    have e : j - 1 + 1 = j := by omega
    rw [e]; exact hq
  have he := List.eq_nil_iff_forall_not_mem.mpr hn
  simp [landfalls, segments, he]

/-- A square island with its corners as gates, starting at the lower left corner, counterclockwise -/
def island : List (Point ℚ) := [⟨0, 0⟩, ⟨4, 0⟩, ⟨4, 4⟩, ⟨0, 4⟩]

/-- Landfall from the north and from the west of the island is not recorded, from the east it is. -/
example : landfalls island [[⟨1, 6, 0, 0⟩, ⟨1, 2, 0, 0⟩]] = ([], []) ∧ inLand (⟨1, 2⟩ : Point ℚ) (coast island) = true ∧
    inLand (⟨1, 6⟩ : Point ℚ) (coast island) = false ∧ landfalls island [[⟨-1, 2, 0, 0⟩, ⟨1, 2, 0, 0⟩]] = ([], []) ∧
    landfalls island [[⟨6, 2, 0, 0⟩, ⟨1, 2, 0, 0⟩], [⟨1, 2, 0, 0⟩, ⟨6, 2, 0, 0⟩]] = ([2], [2]) ∧
    processTracks island [[⟨6, 2, 0, 0⟩, ⟨1, 2, 0, 0⟩], [⟨1, -2, 0, 0⟩, ⟨1, 2, 0, 0⟩]] = (some [0, 1 / 2, 1 / 2], none) ∧
    processTracks island [[⟨1, 2, 0, 0⟩, ⟨6, 2, 0, 0⟩]] = (none, some [0, 0, 1]) := by
  decide +kernel

/-! ### Intensity at landfall -/

theorem crosses_iff (g : Gate) (s e : Obs) : crosses g (s, e) = true ∧ leftOf g s = true ↔ isLeft g.a g.b (pt s) > 0 ∧
    ∃ t u, 0 < t ∧ t < 1 ∧ 0 < u ∧ u < 1 ∧ along (pt s) (pt e) t = along g.a g.b u := by
  have hL : leftOf g s = true ↔ isLeft g.a g.b (pt s) > 0 := by
    unfold leftOf isLeft pt
    rw [decide_eq_true_eq]
    constructor <;> intro h <;> dsimp only at h ⊢ <;> linarith
  rw [hL, and_comm]
  apply and_congr_right
  intro hpos
  unfold isLeft pt at hpos
  dsimp only at hpos
  simp only [crosses, Bool.and_eq_true, decide_eq_true_eq]
  constructor
  · rintro ⟨⟨h0, h1, h2⟩, h3, h4⟩
    refine ⟨_, _, h1, h2, h3, h4, ?_⟩
    unfold along pt
    ext
    · dsimp only; field_simp; ring
    · dsimp only; field_simp; ring
  · rintro ⟨t, u, t0, t1, u0, u1, he⟩
    unfold along pt at he
    have hx := congrArg Point.x he
    have hy := congrArg Point.y he
    dsimp only at hx hy
    have e1 : (g.b.x - g.a.x) * (s.lat - g.a.y) - (g.b.y - g.a.y) * (s.lon - g.a.x) =
        t * ((g.b.y - g.a.y) * (e.lon - s.lon) - (g.b.x - g.a.x) * (e.lat - s.lat)) := by
      linear_combination (g.b.x - g.a.x) * hy - (g.b.y - g.a.y) * hx
    have e2 : (e.lon - s.lon) * (s.lat - g.a.y) - (e.lat - s.lat) * (s.lon - g.a.x) =
        u * ((g.b.y - g.a.y) * (e.lon - s.lon) - (g.b.x - g.a.x) * (e.lat - s.lat)) := by
      linear_combination (e.lon - s.lon) * hy - (e.lat - s.lat) * hx
    have h0 : (g.b.y - g.a.y) * (e.lon - s.lon) - (g.b.x - g.a.x) * (e.lat - s.lat) ≠ 0 := by
      intro h
      rw [h, mul_zero] at e1
      linarith
    rw [e1, e2, mul_div_cancel_right₀ _ h0, mul_div_cancel_right₀ _ h0]
    exact ⟨⟨h0, t0, t1⟩, u0, u1⟩

/-- C105: the landfalls at a gate are the legs that start on its left and have a common point with it that is an end
point of neither. -/
theorem C105_landfalls (g : Gate) (tracks : List Track) (s e : Obs) : (s, e) ∈ isLandfall g tracks ↔
    Leg tracks s e ∧ isLeft g.a g.b (pt s) > 0 ∧
      ∃ t u, 0 < t ∧ t < 1 ∧ 0 < u ∧ u < 1 ∧ along (pt s) (pt e) t = along g.a g.b u := by
  unfold isLandfall
  rw [List.mem_filter, List.mem_filter, mem_legs, and_assoc, crosses_iff]

/-- C105: the leg then ends on the right of the gate. -/
theorem C105_direction {g : Gate} {tracks : List Track} {s e : Obs} (h : (s, e) ∈ isLandfall g tracks) :
    isLeft g.a g.b (pt e) < 0 := by
  obtain ⟨_, hpos, t, u, t0, t1, u0, u1, he⟩ := (C105_landfalls g tracks s e).mp h
  unfold along at he
  have hx := congrArg Point.x he
  have hy := congrArg Point.y he
  dsimp only at hx hy
  have e1 : (1 - t) * isLeft g.a g.b (pt s) + t * isLeft g.a g.b (pt e) = 0 := by
    unfold isLeft
    linear_combination (g.b.x - g.a.x) * hy - (g.b.y - g.a.y) * hx
  nlinarith

/-- C105 does not hold for a record on the gate itself: neither leg is counted. -/
theorem C105_on_gate_fails {g : Gate} {a b c : Obs} (hb : isLeft g.a g.b (pt b) = 0) : isLandfall g [[a, b, c]] = [] := by
  rw [List.eq_nil_iff_forall_not_mem]
  rintro ⟨s, e⟩ h
  have hd := C105_direction h
  obtain ⟨⟨t, ht, hs⟩, hpos, _⟩ := (C105_landfalls g _ s e).mp h
  have : (s, e) ∈ segments [a, b, c] := by
    rw [List.mem_singleton] at ht
    subst ht
    exact mem_segments.mpr hs
  simp only [segments, List.mem_cons, Prod.mk.injEq, List.not_mem_nil, or_false] at this
  rcases this with ⟨rfl, rfl⟩ | ⟨rfl, rfl⟩ <;> linarith

theorem cathist_getD (l : List (Obs × Obs)) {c : Nat} (hc : c < 5) :
    (cathist l).getD c 0 = l.countP fun s => decide (category s.1.pressure = some c) := by
  unfold cathist
  rw [List.getD_eq_getElem?_getD, histogram_getElem? _ _ (by simp; omega)]
  simp only [Option.getD_some]
  rw [List.countP_filterMap]
  apply List.countP_congr
  intro s _
  have hcell : ∀ n : Nat, InCell [0, 1, 2, 3, 4, 5, 6] c (n : ℚ) ↔ n = c := by
    intro n
    have hg : ([0, 1, 2, 3, 4, 5, 6] : List ℚ)[c]? = some (c : ℚ) ∧ ([0, 1, 2, 3, 4, 5, 6] : List ℚ)[c + 1]? = some ((c : ℚ) + 1) := by
      interval_cases c <;> simp <;> norm_num
    rw [inCell_iff hg.1 hg.2]
    simp only [List.length_cons, List.length_nil]
    constructor
    · rintro ⟨h1, h2⟩
      have h1' : c ≤ n := by exact_mod_cast h1
      rcases h2 with h2 | ⟨h2, h3⟩
      · have : n < c + 1 := by exact_mod_cast h2
        omega
      · omega
    · rintro rfl
      exact ⟨le_rfl, .inl (by linarith)⟩
  cases hcat : category s.1.pressure with
  | none => simp
  | some n =>
    simp only [Option.map_some, Option.getD_some, inBin_iff, hcell, decide_eq_true_eq, Option.some.injEq]

/-- C105: the number of landfalls of a gate, their mean and their lowest pressure. -/
theorem C105_row (g : Gate) (tracks : List Track) : let l := isLandfall g tracks
    (countCrossings g tracks).count = l.length ∧
    (l = [] → (countCrossings g tracks).meanIntensity = none ∧ (countCrossings g tracks).minIntensity = none) ∧
    (l ≠ [] → ∃ m lo, (countCrossings g tracks).meanIntensity = some m ∧ (countCrossings g tracks).minIntensity = some lo ∧
      m * l.length = (l.map (·.1.pressure)).sum ∧ (∃ s ∈ l, s.1.pressure = lo) ∧ (∀ s ∈ l, lo ≤ s.1.pressure) ∧ lo ≤ m) := by
  intro l
  unfold countCrossings
  change (if l.length > 0 then _ else _ : GateRow).count = _ ∧ (_ → (if l.length > 0 then _ else _ : GateRow).meanIntensity = _ ∧
    (if l.length > 0 then _ else _ : GateRow).minIntensity = _) ∧ (_ → ∃ m lo, (if l.length > 0 then _ else _ : GateRow).meanIntensity = _ ∧
    (if l.length > 0 then _ else _ : GateRow).minIntensity = _ ∧ _)
  by_cases hl : l = []
  · rw [hl]; simp
  · have hpos := List.length_pos_of_ne_nil hl
    rw [if_pos hpos]
    refine ⟨rfl, fun h => absurd h hl, fun _ => ?_⟩
    have hne : l.map (·.1.pressure) ≠ [] := by simpa using hl
    obtain ⟨m, md, up, lw, lo, hi, hs, hlo, hhi, h1, h2, h3, h4, h5, h6, h7, _⟩ := C106_summary hne
    have hmean : mean (l.map (·.1.pressure)) = some m := congrArg Summary.mean hs
    have l1 := minimum_spec.mp hlo
    refine ⟨m, lo, hmean, hlo, by rw [List.length_map] at h7; exact h7, by simpa using l1.1, ?_, h5⟩
    intro s hs
    exact l1.2 _ (List.mem_map.mpr ⟨s, hs, rfl⟩)

/-- C105: the categories of intensity -/
theorem C105_category (p : ℚ) : (category p = some 5 ↔ 0 < p ∧ p ≤ 930) ∧ (category p = some 4 ↔ 930 < p ∧ p ≤ 955) ∧
    (category p = some 3 ↔ 955 < p ∧ p ≤ 970) ∧ (category p = some 2 ↔ 970 < p ∧ p ≤ 985) ∧
    (category p = some 1 ↔ 985 < p ∧ p ≤ 990) ∧ (category p = some 0 ↔ 990 < p ∧ p ≤ 1020) ∧
    (category p = none ↔ p ≤ 0 ∨ 1020 < p) := by
  unfold category
  rcases le_or_gt p 0 with a0 | a0
  · have : ∀ q : ℚ, 0 ≤ q → ¬ q < p := fun q hq h => by linarith
    simp [a0, not_lt.mpr a0, this]
  rcases le_or_gt p 930 with a1 | a1
  · have : ∀ q : ℚ, 930 ≤ q → ¬ q < p := fun q hq h => by linarith
    simp [a0, a1, not_le.mpr a0, this]
    refine ⟨?_, ?_, ?_, ?_, ?_⟩ <;> intros <;> linarith
  rcases le_or_gt p 955 with a2 | a2
  · have : ∀ q : ℚ, 955 ≤ q → ¬ q < p := fun q hq h => by linarith
    simp [a0, a1, a2, not_le.mpr a0, not_le.mpr a1, this]
    refine ⟨?_, ?_, ?_, ?_⟩ <;> intros <;> linarith
  rcases le_or_gt p 970 with a3 | a3
  · have : ∀ q : ℚ, 970 ≤ q → ¬ q < p := fun q hq h => by linarith
    simp [a1, a2, a3, not_le.mpr a0, not_le.mpr a1, not_le.mpr a2, this]
    refine ⟨?_, ?_, ?_⟩ <;> intros <;> linarith
  rcases le_or_gt p 985 with a4 | a4
  · have : ∀ q : ℚ, 985 ≤ q → ¬ q < p := fun q hq h => by linarith
    simp [a2, a3, a4, not_le.mpr a0, not_le.mpr a1, not_le.mpr a2, not_le.mpr a3, this]
    refine ⟨?_, ?_⟩ <;> intros <;> linarith
  rcases le_or_gt p 990 with a5 | a5
  · have : ∀ q : ℚ, 990 ≤ q → ¬ q < p := fun q hq h => by linarith
    simp [a3, a4, a5, not_le.mpr a0, not_le.mpr a1, not_le.mpr a2, not_le.mpr a3, not_le.mpr a4, this]
    linarith
  rcases le_or_gt p 1020 with a6 | a6
  · simp [a5, a6, not_le.mpr a0, not_le.mpr a1, not_le.mpr a2, not_le.mpr a3, not_le.mpr a4, not_le.mpr a5, not_lt.mpr a6]
  · simp [a6, not_le.mpr a0, not_le.mpr a1, not_le.mpr a2, not_le.mpr a3, not_le.mpr a4, not_le.mpr a5, not_le.mpr a6]

/-- C105 does not hold for the counts by category: the column of category `c + 1` holds the landfalls of category `c`, and
those of category 5 are in none. -/
theorem C105_columns_fail (g : Gate) (tracks : List Track) : let l := isLandfall g tracks
    let n := fun c : Nat => l.countP fun s => decide (category s.1.pressure = some c)
    let r := countCrossings g tracks
    (r.cat1 = n 0 ∧ r.cat2 = n 1 ∧ r.cat3 = n 2 ∧ r.cat4 = n 3 ∧ r.cat5 = n 4) ∧
    ((∀ s ∈ l, 0 < s.1.pressure ∧ s.1.pressure ≤ 1020) →
      r.cat1 + r.cat2 + r.cat3 + r.cat4 + r.cat5 + (l.countP fun s => decide (s.1.pressure ≤ 930)) = r.count) := by
  intro l n r
  have hcols : r.cat1 = n 0 ∧ r.cat2 = n 1 ∧ r.cat3 = n 2 ∧ r.cat4 = n 3 ∧ r.cat5 = n 4 := by
    by_cases hl : l = []
    · have hr : r = ⟨0, none, none, 0, 0, 0, 0, 0⟩ := by
        change countCrossings g tracks = _
        simp only [countCrossings]
        rw [if_neg (by change ¬ l.length > 0; rw [hl]; simp)]
      have hn : ∀ c, n c = 0 := by intro c; change l.countP _ = 0; rw [hl]; rfl
      rw [hr]
      simp [hn]
    · have hr : r = ⟨l.length, mean (l.map (·.1.pressure)), minimum (l.map (·.1.pressure)), (cathist l).getD 0 0, (cathist l).getD 1 0,
          (cathist l).getD 2 0, (cathist l).getD 3 0, (cathist l).getD 4 0⟩ := by
        change countCrossings g tracks = _
        simp only [countCrossings]
        rw [if_pos (List.length_pos_of_ne_nil hl)]
      rw [hr]
      exact ⟨cathist_getD l (c := 0) (by omega), cathist_getD l (c := 1) (by omega), cathist_getD l (c := 2) (by omega),
        cathist_getD l (c := 3) (by omega), cathist_getD l (c := 4) (by omega)⟩
  refine ⟨hcols, ?_⟩
  intro hp
  have hcount : r.count = l.length := (C105_row g tracks).1
  rw [hcols.1, hcols.2.1, hcols.2.2.1, hcols.2.2.2.1, hcols.2.2.2.2, hcount]
  change l.countP _ + l.countP _ + l.countP _ + l.countP _ + l.countP _ + _ = _
  clear hcols hcount
  clear_value l
  clear n r
  induction l with
  | nil => rfl
  | cons s l ih =>
    have ih := ih fun x hx => hp x (by simp [hx])
    have hs := hp s (by simp)
    simp only [List.countP_cons, List.length_cons, decide_eq_true_eq]
    have hone : (if category s.1.pressure = some 0 then 1 else 0) + (if category s.1.pressure = some 1 then 1 else 0) +
        (if category s.1.pressure = some 2 then 1 else 0) + (if category s.1.pressure = some 3 then 1 else 0) +
        (if category s.1.pressure = some 4 then 1 else 0) + (if s.1.pressure ≤ 930 then 1 else 0) = 1 := by
      generalize s.1.pressure = p at hs
      obtain ⟨h0, h1⟩ := hs
      unfold category
      by_cases a1 : p ≤ 930
      · simp [a1, h0]
      · by_cases a2 : p ≤ 955
        · simp [a1, a2, not_le.mp a1]
        · by_cases a3 : p ≤ 970
          · simp [a1, a2, a3, not_le.mp a2]
          · by_cases a4 : p ≤ 985
            · simp [a1, a2, a3, a4, not_le.mp a3]
            · by_cases a5 : p ≤ 990
              · simp [a1, a2, a3, a4, a5, not_le.mp a4]
              · simp [a1, a2, a3, a4, a5, not_le.mp a5, h1]
    omega

/-- A gate with the sea in the west, and two landfalls -/
example : countCrossings ⟨⟨0, 0⟩, ⟨0, 4⟩⟩ [[⟨-1, 1, 920, 0⟩, ⟨1, 1, 940, 0⟩], [⟨-1, 2, 960, 0⟩, ⟨1, 2, 970, 0⟩]] =
    ⟨2, some 940, some 920, 0, 0, 0, 1, 0⟩ := by decide +kernel

example : isLandfall ⟨⟨0, 0⟩, ⟨0, 4⟩⟩ [[⟨-1, 1, 920, 0⟩, ⟨0, 1, 920, 0⟩, ⟨1, 1, 940, 0⟩]] = [] ∧
    isLeft (⟨0, 0⟩ : Point ℚ) ⟨0, 4⟩ (pt ⟨0, 1, 920, 0⟩) = 0 := by decide +kernel

/-- C105 does not hold for locations: the test is handed a point instead of a leg, and fails as soon as one leg crosses
the area. -/
theorem C105_location_fails (crossing : Obs × Obs → Bool) (within : Point ℚ → Bool) (ss : List (Obs × Obs)) :
    ((∃ s ∈ ss, crossing s = true) → locationLandfalls crossing within ss = .error .indexError) ∧
    ((∀ s ∈ ss, crossing s = false) → locationLandfalls crossing within ss = .ok []) := by
  induction ss with
  | nil => simp [locationLandfalls]
  | cons s ss ih =>
    constructor
    · rintro ⟨x, hx, hc⟩
      by_cases hs : crossing s = true
      · simp [locationLandfalls, hs, enters]
      · rw [locationLandfalls, if_neg hs]
        apply ih.1
        rcases List.mem_cons.mp hx with rfl | hx
        · exact absurd hc hs
        · exact ⟨x, hx, hc⟩
    · intro h
      have hs := h s (by simp)
      rw [locationLandfalls, if_neg (by simp [hs])]
      exact ih.2 fun x hx => h x (by simp [hx])

example : locationLandfalls (fun _ => true) (fun _ => false) [(⟨0, 0, 0, 0⟩, ⟨1, 1, 0, 0⟩)] = .error .indexError := by
  decide +kernel

end Tcrm.Evaluate
