import Mathlib.Tactic.FinCases
import Verif.Props.EvaluateStats
import Verif.Props.Geometry
/-!
C103: crossings of meridians.
-/
namespace Tcrm.Evaluate
open Tcrm.Geometry (Point OnSegment along lineLine isLeft inLand C29_intersection_iff C29_point_on_both)

theorem mem_segments {t : Track} {a b : Obs} : (a, b) ∈ segments t ↔ ∃ pre post, t = pre ++ a :: b :: post := by
  induction t with
  | nil => simp [segments]
  | cons x t ih =>
    cases t with
    | nil =>
      simp only [segments, List.not_mem_nil, false_iff]
      rintro ⟨pre, post, h⟩
      have := congrArg List.length h
      simp at this
      omega
    | cons y t =>
      simp only [segments, List.mem_cons, Prod.mk.injEq, ih]
      constructor
      · rintro (⟨rfl, rfl⟩ | ⟨pre, post, h⟩)
        · exact ⟨[], t, rfl⟩
        · exact ⟨x :: pre, post, by rw [h]; rfl⟩
      · rintro ⟨pre, post, h⟩
        cases pre with
        | nil =>
          simp only [List.nil_append, List.cons.injEq] at h
          exact .inl ⟨h.1.symm, h.2.1.symm⟩
        | cons z pre =>
          simp only [List.cons_append, List.cons.injEq] at h
          exact .inr ⟨pre, post, h.2⟩

theorem lineLine_status (a1 a2 b1 b2 : Point ℚ) : (lineLine a1 a2 b1 b2).status = .intersection ↔ ∃ p, (lineLine a1 a2 b1 b2).points = [p] := by
  simp only [lineLine]
  split
  · split <;> simp
  · split <;> simp

theorem lineLine_parallel {a1 a2 b1 b2 : Point ℚ} (h : (b2.y - b1.y) * (a2.x - a1.x) - (b2.x - b1.x) * (a2.y - a1.y) = 0) :
    (lineLine a1 a2 b1 b2).status ≠ .intersection := by
  unfold lineLine
  simp only
  rw [if_neg (by simpa using h)]
  split <;> simp

/-- C103: a leg is counted at a gate, with a latitude and a direction, if and only if it is not along a meridian and meets
the meridian of the gate at this latitude, which is between the ends of the gate; the direction is west to east if it goes
east. -/
theorem C103_leg {g latMin latMax : ℚ} (hlat : latMin < latMax) (a b : Obs) (y : ℚ) (dir : Dir) :
    crossing g latMax latMin (a, b) = some (y, dir) ↔
      (a.lon < b.lon ∧ dir = .we ∨ b.lon < a.lon ∧ dir = .ew) ∧ MeetsMeridian a b g y ∧ latMin ≤ y ∧ y ≤ latMax := by
  have hside : ∀ o : Obs, isLeft (⟨g, latMax⟩ : Point ℚ) ⟨g, latMin⟩ (pt o) = (o.lon - g) * (latMax - latMin) := by
    intro o; unfold isLeft pt; ring
  have hpos : 0 < latMax - latMin := by linarith
  have hgate : ∀ p : Point ℚ, OnSegment (⟨g, latMax⟩ : Point ℚ) ⟨g, latMin⟩ p ↔ p.x = g ∧ latMin ≤ p.y ∧ p.y ≤ latMax := by
    intro p
    constructor
    · rintro ⟨t, t0, t1, rfl⟩
      unfold along
      refine ⟨by ring, ?_, ?_⟩ <;> dsimp only <;> nlinarith
    · rintro ⟨h1, h2, h3⟩
      refine ⟨(latMax - p.y) / (latMax - latMin), div_nonneg (by linarith) hpos.le, (div_le_one hpos).mpr (by linarith), ?_⟩
      unfold along
      ext
      · dsimp only; rw [h1]; ring
      · dsimp only; field_simp; ring
  unfold MeetsMeridian
  by_cases hv : a.lon = b.lon
  · have : (lineLine (pt a) (pt b) (⟨g, latMax⟩ : Point ℚ) ⟨g, latMin⟩).status ≠ .intersection := by
      apply lineLine_parallel
      unfold pt; dsimp only; rw [hv]; ring
    have hc : crossing g latMax latMin (a, b) = none := by
      simp only [crossing]
      rw [if_neg this]
    rw [hc, hv]
    simp
  · have hnp : (latMin - latMax) * (b.lon - a.lon) - (g - g) * (b.lat - a.lat) ≠ 0 := by
      rw [sub_self, zero_mul, sub_zero]
      exact mul_ne_zero (by linarith) (sub_ne_zero.mpr (Ne.symm hv))
    have hiff := C29_intersection_iff (a1 := pt a) (a2 := pt b) (b1 := (⟨g, latMax⟩ : Point ℚ)) (b2 := ⟨g, latMin⟩) hnp
    have hdir : ∀ p : Point ℚ, OnSegment (pt a) (pt b) p → p.x = g →
        (a.lon < b.lon → a.lon ≤ g ∧ g ≤ b.lon) ∧ (b.lon < a.lon → b.lon ≤ g ∧ g ≤ a.lon) := by
      rintro p ⟨t, t0, t1, rfl⟩ hp
      unfold along pt at hp
      dsimp only at hp
      constructor <;> intro h <;> constructor <;> nlinarith
    by_cases hst : (lineLine (pt a) (pt b) (⟨g, latMax⟩ : Point ℚ) ⟨g, latMin⟩).status = .intersection
    · obtain ⟨p, hp⟩ := (lineLine_status _ _ _ _).mp hst
      have hon := (hiff p).mp hp
      have hg := (hgate p).mp hon.2
      have hd := hdir p hon.1 hg.1
      have hpe : p = ⟨g, p.y⟩ := by ext <;> simp [hg.1]
      have huniq : ∀ q : Point ℚ, OnSegment (pt a) (pt b) q → OnSegment (⟨g, latMax⟩ : Point ℚ) ⟨g, latMin⟩ q → q = p := by
        intro q h1 h2
        have := (hiff q).mpr ⟨h1, h2⟩
        rw [hp] at this
        simpa using this.symm
      have hval : crossing g latMax latMin (a, b) = some (p.y, if a.lon < b.lon then .we else .ew) := by
        simp only [crossing]
        rw [if_pos hst, hp]
        simp only [hside]
        rcases lt_or_gt_of_ne hv with h | h
        · have h1 := hd.1 h
          rw [if_pos h, if_pos]
          rcases h1.1.eq_or_lt with e | e
          · right
            exact ⟨by rw [e]; simp, mul_pos (by linarith) hpos⟩
          · left
            exact ⟨mul_neg_of_neg_of_pos (by linarith) hpos, mul_nonneg (by linarith) hpos.le⟩
        · have h1 := hd.2 h
          have hs : 0 ≤ (a.lon - g) * (latMax - latMin) := mul_nonneg (by linarith) hpos.le
          have he : (b.lon - g) * (latMax - latMin) ≤ 0 := mul_nonpos_of_nonpos_of_nonneg (by linarith) hpos.le
          rw [if_neg (not_lt.mpr h.le : ¬ a.lon < b.lon), if_neg, if_pos]
          · rcases h1.2.eq_or_lt with e | e
            · right
              exact ⟨hs, mul_neg_of_neg_of_pos (by linarith) hpos⟩
            · left
              exact ⟨mul_pos (by linarith) hpos, he⟩
          · rintro (⟨h2, _⟩ | ⟨_, h2⟩) <;> linarith
      rw [hval]
      simp only [Option.some.injEq, Prod.mk.injEq]
      constructor
      · rintro ⟨rfl, rfl⟩
        refine ⟨?_, by rw [← hpe]; exact hon.1, hg.2⟩
        rcases lt_or_gt_of_ne hv with h | h
        · left; exact ⟨h, if_pos h⟩
        · right; exact ⟨h, if_neg (not_lt.mpr h.le)⟩
      · rintro ⟨h1, h2, h3⟩
        have := huniq ⟨g, y⟩ h2 ((hgate _).mpr ⟨rfl, h3⟩)
        refine ⟨by rw [← this], ?_⟩
        rcases h1 with ⟨h, rfl⟩ | ⟨h, rfl⟩
        · exact if_pos h
        · exact if_neg (not_lt.mpr h.le)
    · have hc : crossing g latMax latMin (a, b) = none := by
        simp only [crossing]
        rw [if_neg hst]
      rw [hc]
      constructor
      · intro h; cases h
      · rintro ⟨_, h2, h3⟩
        exact absurd ((lineLine_status _ _ _ _).mpr ⟨_, (hiff ⟨g, y⟩).mpr ⟨h2, (hgate _).mpr ⟨rfl, h3⟩⟩⟩) hst

/-- C103: the crossings of a gate are those of the legs of the tracks. -/
theorem C103_crossings {g latMin latMax : ℚ} (hlat : latMin < latMax) (tracks : List Track) (y : ℚ) (dir : Dir) :
    (y, dir) ∈ crossings g latMax latMin tracks ↔ ∃ a b, Leg tracks a b ∧
      (a.lon < b.lon ∧ dir = .we ∨ b.lon < a.lon ∧ dir = .ew) ∧ MeetsMeridian a b g y ∧ latMin ≤ y ∧ y ≤ latMax := by
  unfold crossings
  rw [List.mem_flatMap]
  constructor
  · rintro ⟨t, ht, h⟩
    obtain ⟨⟨a, b⟩, hs, hc⟩ := List.mem_filterMap.mp h
    exact ⟨a, b, ⟨t, ht, mem_segments.mp hs⟩, (C103_leg hlat a b y dir).mp hc⟩
  · rintro ⟨a, b, ⟨t, ht, hs⟩, hc⟩
    exact ⟨t, ht, List.mem_filterMap.mpr ⟨(a, b), mem_segments.mpr hs, (C103_leg hlat a b y dir).mpr hc⟩⟩

/-- C103: every crossing has one of the two directions: their lists together are the list of all crossings. -/
theorem C103_directions {g latMin latMax : ℚ} (hlat : latMin < latMax) (tracks : List Track) :
    let c := crossings g latMax latMin tracks
    (c.map (·.1)).Perm ((c.filter fun x => decide (x.2 = .ew)).map (·.1) ++ (c.filter fun x => decide (x.2 = .we)).map (·.1)) := by
  intro c
  rw [← List.map_append]
  apply List.Perm.map
  have h := (List.filter_append_perm (fun x : ℚ × Dir => decide (x.2 = .ew)) c).symm
  refine h.trans (List.Perm.append_left _ ?_)
  have : c.filter (fun x => !decide (x.2 = .ew)) = c.filter fun x => decide (x.2 = .we) := by
    apply List.filter_congr
    rintro ⟨y, dir⟩ hx
    obtain ⟨a, b, _, h, _⟩ := (C103_crossings hlat tracks y dir).mp hx
    rcases h with ⟨_, rfl⟩ | ⟨_, rfl⟩ <;> rfl
  rw [this]

theorem histogram_getElem? (vs edges : List ℚ) {i : Nat} (hi : i + 1 < edges.length) :
    (histogram vs edges)[i]? = some (vs.countP (inBin edges i)) := by
  unfold histogram
  rw [List.getElem?_map, List.getElem?_range (by omega)]
  rfl

theorem sum_map_div (l : List Nat) (c : ℚ) : (l.map fun (n : Nat) => (n : ℚ) / c).sum = (l.sum : ℚ) / c := by
  induction l with
  | nil => simp
  | cons n l ih => simp only [List.map_cons, List.sum_cons, ih]; push_cast; ring

/-- The area under a histogram -/
def area (h edges : List ℚ) : ℚ := ((List.range (edges.length - 1)).map fun i => h.getD i 0 * (edges.getD (i + 1) 0 - edges.getD i 0)).sum

theorem density_area {vs edges h : List ℚ} (hinc : edges.Pairwise (· < ·)) (hd : density vs edges = some h) : area h edges = 1 := by
  simp only [density] at hd
  split at hd
  · cases hd
  · rename_i h0
    cases hd
    unfold area
    have e : ((List.range (edges.length - 1)).map fun i =>
        (((List.range (edges.length - 1)).map fun i => ((histogram vs edges).getD i 0 : ℚ) / (edges.getD (i + 1) 0 - edges.getD i 0) /
          ((histogram vs edges).sum : ℚ)).getD i 0) * (edges.getD (i + 1) 0 - edges.getD i 0)) =
        (histogram vs edges).map fun (n : Nat) => (n : ℚ) / ((histogram vs edges).sum : ℚ) := by
      apply List.ext_getElem?
      intro i
      rw [List.getElem?_map, List.getElem?_map]
      by_cases hi : i < edges.length - 1
      · rw [List.getElem?_range hi]
        have hh := histogram_getElem? vs edges (i := i) (by omega)
        rw [hh]
        simp only [Option.map_some, Option.some.injEq]
        rw [List.getD_eq_getElem?_getD, List.getElem?_map, List.getElem?_range hi]
        simp only [Option.map_some, Option.getD_some]
        rw [List.getD_eq_getElem?_getD, hh]
        have hw : edges.getD (i + 1) 0 - edges.getD i 0 ≠ 0 := by
          have h1 : i + 1 < edges.length := by omega
          rw [List.getD_eq_getElem _ _ h1, List.getD_eq_getElem _ _ (by omega)]
          have := List.pairwise_iff_getElem.mp hinc i (i + 1) (by omega) h1 (by omega)
          exact ne_of_gt (by linarith)
        simp only [Option.getD_some]
        field_simp
      · rw [List.getElem?_eq_none (by simpa using hi), List.getElem?_eq_none (by unfold histogram; simpa using hi)]
        rfl
    rw [e, sum_map_div]
    have : ((histogram vs edges).sum : ℚ) ≠ 0 := by exact_mod_cast h0
    exact div_self this

theorem minimum_head {edges : List ℚ} (hinc : edges.Pairwise (· < ·)) (hne : edges ≠ []) : minimum edges = edges.head? := by
  cases edges with
  | nil => exact absurd rfl hne
  | cons a r =>
    rw [List.head?_cons, minimum_spec]
    refine ⟨by simp, ?_⟩
    intro v hv
    rcases List.mem_cons.mp hv with rfl | hv
    · rfl
    · exact ((List.pairwise_cons.mp hinc).1 v hv).le

theorem maximum_last {edges : List ℚ} (hinc : edges.Pairwise (· < ·)) (hne : edges ≠ []) : maximum edges = edges.getLast? := by
  rw [List.getLast?_eq_some_getLast hne, maximum_spec]
  refine ⟨List.getLast_mem hne, ?_⟩
  intro v hv
  obtain ⟨i, hi, rfl⟩ := List.getElem_of_mem hv
  rw [List.getLast_eq_getElem]
  by_cases h : i = edges.length - 1
  · subst h; rfl
  · exact (List.pairwise_iff_getElem.mp hinc i (edges.length - 1) hi (by omega) (by omega)).le

/-- The column `col` is the distribution of the latitudes `ys`: zero without any, otherwise of area one and proportional to
the number of latitudes in each interval. -/
def IsDistribution (ys gateLats : List ℚ) (col : Option (List ℚ)) : Prop :=
  ∃ h, col = some h ∧ (ys = [] → h = List.replicate (gateLats.length - 1) 0) ∧ (ys ≠ [] → area h gateLats = 1 ∧
    ∀ i, i + 1 < gateLats.length → h.getD i 0 * (gateLats.getD (i + 1) 0 - gateLats.getD i 0) * ys.length =
      (ys.countP fun y => decide (InCell gateLats i y) : ℕ))

theorem gateColumn_spec {gateLats ys : List ℚ} (hinc : gateLats.Pairwise (· < ·)) (h2 : 2 ≤ gateLats.length)
    (hw : ∀ y ∈ ys, Within gateLats y) : IsDistribution ys gateLats (gateColumn ys gateLats) := by
  have hsum : (histogram ys gateLats).sum = ys.length := by
    rw [histogram_sum hinc h2, List.countP_eq_length]
    intro y hy
    simpa using hw y hy
  by_cases hc : ys = []
  · refine ⟨List.replicate (gateLats.length - 1) 0, ?_, fun _ => rfl, fun h => absurd hc h⟩
    rw [hc]
    rfl
  · have h0 : (histogram ys gateLats).sum ≠ 0 := by
      rw [hsum]; exact (List.length_pos_of_ne_nil hc).ne'
    obtain ⟨h, hh⟩ : ∃ h, density ys gateLats = some h := by
      simp only [density]; rw [if_neg h0]; exact ⟨_, rfl⟩
    refine ⟨h, ?_, fun h => absurd h hc, fun _ => ⟨density_area hinc hh, ?_⟩⟩
    · unfold gateColumn
      rw [if_neg hc, hh]
    intro i hi
    simp only [density] at hh
    rw [if_neg h0, Option.some.injEq] at hh
    rw [← hh, List.getD_eq_getElem?_getD, List.getElem?_map, List.getElem?_range (by omega)]
    simp only [Option.map_some, Option.getD_some]
    have hg := histogram_getElem? ys gateLats hi
    rw [List.getD_eq_getElem?_getD, hg, hsum]
    have hw : gateLats.getD (i + 1) 0 - gateLats.getD i 0 ≠ 0 := by
      rw [List.getD_eq_getElem _ _ hi, List.getD_eq_getElem _ _ (by omega)]
      have := List.pairwise_iff_getElem.mp hinc i (i + 1) (by omega) hi (by omega)
      exact ne_of_gt (by linarith)
    have hl : (ys.length : ℚ) ≠ 0 := by exact_mod_cast (List.length_pos_of_ne_nil hc).ne'
    simp only [Option.getD_some]
    field_simp
    congr 1
    apply List.countP_congr
    intro x _
    simp only [inBin_iff, decide_eq_true_eq]

/-- C103: the columns of a gate are the distributions of the latitudes of all crossings, of those to the west and of those
to the east. -/
theorem C103_distribution {g : ℚ} {gateLats : List ℚ} (hinc : gateLats.Pairwise (· < ·)) (h2 : 2 ≤ gateLats.length)
    (tracks : List Track) :
    let c := crossings g ((maximum gateLats).getD 0) ((minimum gateLats).getD 0) tracks
    (∀ x ∈ c, Within gateLats x.1) ∧
    IsDistribution (c.map (·.1)) gateLats (findCrossings g gateLats tracks).1 ∧
    IsDistribution ((c.filter fun x => decide (x.2 = .ew)).map (·.1)) gateLats (findCrossings g gateLats tracks).2.1 ∧
    IsDistribution ((c.filter fun x => decide (x.2 = .we)).map (·.1)) gateLats (findCrossings g gateLats tracks).2.2 := by
  intro c
  have hne : gateLats ≠ [] := by rintro rfl; simp at h2
  have hlat : (minimum gateLats).getD 0 < (maximum gateLats).getD 0 := by
    rw [minimum_head hinc hne, maximum_last hinc hne, List.getLast?_eq_getElem?, List.head?_eq_getElem?]
    rw [List.getElem?_eq_getElem (by omega), List.getElem?_eq_getElem (by omega)]
    exact List.pairwise_iff_getElem.mp hinc 0 (gateLats.length - 1) (by omega) (by omega) (by omega)
  have hw : ∀ x ∈ c, Within gateLats x.1 := by
    rintro ⟨y, dir⟩ hx
    obtain ⟨a, b, _, _, _, h3, h4⟩ := (C103_crossings hlat tracks y dir).mp hx
    rw [minimum_head hinc hne] at h3
    rw [maximum_last hinc hne] at h4
    refine ⟨gateLats.head hne, gateLats.getLast hne, List.head?_eq_some_head hne, List.getLast?_eq_some_getLast hne, ?_, ?_⟩
    · rw [List.head?_eq_some_head hne] at h3; exact h3
    · rw [List.getLast?_eq_some_getLast hne] at h4; exact h4
  refine ⟨hw, gateColumn_spec hinc h2 ?_, gateColumn_spec hinc h2 ?_, gateColumn_spec hinc h2 ?_⟩
  · intro y hy
    obtain ⟨x, hx, rfl⟩ := List.mem_map.mp hy
    exact hw x hx
  · intro y hy
    obtain ⟨x, hx, rfl⟩ := List.mem_map.mp hy
    exact hw x (List.mem_filter.mp hx).1
  · intro y hy
    obtain ⟨x, hx, rfl⟩ := List.mem_map.mp hy
    exact hw x (List.mem_filter.mp hx).1

/-- C103 does not hold for rates: twice as many tracks give the same columns, although they are labelled as numbers of
crossings per year. -/
theorem C103_rate_fails (g : ℚ) (gateLats : List ℚ) (tracks : List Track) :
    findCrossings g gateLats (tracks ++ tracks) = findCrossings g gateLats tracks := by
  have hcol : ∀ vs : List ℚ, gateColumn (vs ++ vs) gateLats = gateColumn vs gateLats := by
    intro vs
    unfold gateColumn
    by_cases h : vs = []
    · rw [h]; rfl
    · rw [if_neg h, if_neg (by simpa using h)]
      have hh : histogram (vs ++ vs) gateLats = (histogram vs gateLats).map (2 * ·) := by
        unfold histogram
        rw [List.map_map]
        apply List.map_congr_left
        intro i _
        simp only [List.countP_append, Function.comp]
        omega
      have hs : (histogram (vs ++ vs) gateLats).sum = 2 * (histogram vs gateLats).sum := by
        rw [hh, List.sum_map_mul_left]; simp
      simp only [density]
      rw [hs]
      by_cases h0 : (histogram vs gateLats).sum = 0
      · rw [h0]; rfl
      · rw [if_neg h0, if_neg (by omega)]
        congr 1
        apply List.map_congr_left
        intro i _
        have hg : (histogram (vs ++ vs) gateLats).getD i 0 = 2 * (histogram vs gateLats).getD i 0 := by
          rw [hh, List.getD_eq_getElem?_getD, List.getD_eq_getElem?_getD, List.getElem?_map]
          cases (histogram vs gateLats)[i]? <;> rfl
        rw [hg]
        push_cast
        have : ((histogram vs gateLats).sum : ℚ) ≠ 0 := by exact_mod_cast h0
        field_simp
  have hc : ∀ a b, crossings g a b (tracks ++ tracks) = crossings g a b tracks ++ crossings g a b tracks := by
    intro a b; unfold crossings; rw [List.flatMap_append]
  simp only [findCrossings, hc, List.map_append, List.filter_append, hcol]

/-- C103 does not hold for a record on the gate itself: a storm that comes from the west, is observed on the meridian and
goes on is counted twice, and one that turns back there is counted once in either direction. -/
theorem C103_on_gate_fails {g latMin latMax : ℚ} (hlat : latMin < latMax) {a b c : Obs} (ha : a.lon < g) (hb : b.lon = g)
    (h1 : latMin ≤ b.lat) (h2 : b.lat ≤ latMax) :
    (g < c.lon → crossings g latMax latMin [[a, b, c]] = [(b.lat, .we), (b.lat, .we)]) ∧
    (c.lon < g → crossings g latMax latMin [[a, b, c]] = [(b.lat, .we), (b.lat, .ew)]) := by
  have e1 : crossing g latMax latMin (a, b) = some (b.lat, .we) := by
    rw [C103_leg hlat]
    refine ⟨.inl ⟨by linarith, rfl⟩, ⟨1, by norm_num, le_rfl, ?_⟩, h1, h2⟩
    unfold along pt; ext <;> simp [hb]
  have hm : MeetsMeridian b c g b.lat := by
    refine ⟨0, le_rfl, by norm_num, ?_⟩
    unfold along pt; ext <;> simp [hb]
  constructor
  · intro hc
    have e2 : crossing g latMax latMin (b, c) = some (b.lat, .we) := by
      rw [C103_leg hlat]
      exact ⟨.inl ⟨by linarith, rfl⟩, hm, h1, h2⟩
    simp [crossings, segments, e1, e2]
  · intro hc
    have e2 : crossing g latMax latMin (b, c) = some (b.lat, .ew) := by
      rw [C103_leg hlat]
      exact ⟨.inr ⟨by linarith, rfl⟩, hm, h1, h2⟩
    simp [crossings, segments, e1, e2]

example : crossings 2 2 0 sample = [(1, .we)] ∧ findCrossings 2 [0, 1, 2] sample = (some [0, 1], some [0, 0], some [0, 1]) ∧
    crossings 3 2 0 [[⟨1, 1, 990, 2000⟩, ⟨3, 1, 980, 2000⟩, ⟨4, 1, 980, 2000⟩]] = [(1, .we), (1, .we)] := by decide +kernel

end Tcrm.Evaluate
