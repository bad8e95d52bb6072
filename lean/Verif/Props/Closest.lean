import Verif.Model.Closest
import Verif.Spec.Closest
import Verif.Lemmas.Sphere
import Mathlib.Analysis.Convex.SpecificFunctions.Deriv
import Mathlib.Analysis.Convex.Deriv
import Mathlib.Analysis.SpecialFunctions.Sqrt
/-!
C137: the distance stored for a track and a location is that of their closest approach.
-/
namespace Tcrm.Closest
open Real Tcrm.Sphere

theorem planar_comm (p q : ℝ × ℝ) : planar p q = planar q p := by
  unfold planar; congr 1; ring

theorem planar_sq (p q : ℝ × ℝ) : planar p q ^ 2 = (p.1 - q.1) ^ 2 + (p.2 - q.2) ^ 2 := by
  unfold planar; exact sq_sqrt (by positivity)

theorem planar_nonneg (p q : ℝ × ℝ) : 0 ≤ planar p q := sqrt_nonneg _

theorem planar_le {p q r : ℝ × ℝ} (h : (p.1 - q.1) ^ 2 + (p.2 - q.2) ^ 2 ≤ (p.1 - r.1) ^ 2 + (p.2 - r.2) ^ 2) :
    planar p q ≤ planar p r := sqrt_le_sqrt h

/-- The point of a segment at the fraction `t` -/
def at_ (a b : ℝ × ℝ) (t : ℝ) : ℝ × ℝ := (a.1 + t * (b.1 - a.1), a.2 + t * (b.2 - a.2))

theorem toSegment_spec (p a b : ℝ × ℝ) :
    (∃ t, 0 ≤ t ∧ t ≤ 1 ∧ toSegment p a b = planar p (at_ a b t)) ∧
      ∀ t, 0 ≤ t → t ≤ 1 → toSegment p a b ≤ planar p (at_ a b t) := by
  unfold toSegment
  have a0 : at_ a b 0 = a := by simp [at_]
  have a1 : at_ a b 1 = b := by simp [at_]
  split_ifs with h
  · subst h
    have : ∀ t, at_ a a t = a := by intro t; simp [at_]
    exact ⟨⟨0, le_refl _, zero_le_one, by rw [this]⟩, fun t _ _ => by rw [this]⟩
  · have hL : 0 < (b.1 - a.1) ^ 2 + (b.2 - a.2) ^ 2 := by
      by_contra hc
      have h1 : (b.1 - a.1) ^ 2 = 0 := by nlinarith [sq_nonneg (b.1 - a.1), sq_nonneg (b.2 - a.2)]
      have h2 : (b.2 - a.2) ^ 2 = 0 := by nlinarith [sq_nonneg (b.1 - a.1), sq_nonneg (b.2 - a.2)]
      apply h
      ext
      · have := pow_eq_zero_iff (two_ne_zero) |>.1 h1; linarith
      · have := pow_eq_zero_iff (two_ne_zero) |>.1 h2; linarith
    simp only
    set L := (b.1 - a.1) ^ 2 + (b.2 - a.2) ^ 2 with hLd
    set D := (p.1 - a.1) * (b.1 - a.1) + (p.2 - a.2) * (b.2 - a.2) with hD
    have expand : ∀ t, (p.1 - (at_ a b t).1) ^ 2 + (p.2 - (at_ a b t).2) ^ 2 =
        (p.1 - a.1) ^ 2 + (p.2 - a.2) ^ 2 - 2 * t * D + t ^ 2 * L := by
      intro t; simp only [at_, hD, hLd]; ring
    split_ifs with h1 h2
    · have hD0 : D ≤ 0 := by
        rcases div_nonpos_iff.1 h1 with ⟨_, h⟩ | ⟨h, _⟩
        · linarith
        · exact h
      refine ⟨⟨0, le_refl _, zero_le_one, by rw [a0]⟩, fun t t0 t1 => planar_le ?_⟩
      rw [expand]
      nlinarith [mul_nonneg t0 (neg_nonneg.2 hD0), mul_nonneg (sq_nonneg t) hL.le]
    · have hDL : L ≤ D := by rwa [le_div_iff₀ hL, one_mul] at h2
      refine ⟨⟨1, zero_le_one, le_refl _, by rw [a1]⟩, fun t t0 t1 => planar_le ?_⟩
      rw [expand]
      have e1 := expand 1
      rw [a1] at e1
      rw [e1]
      nlinarith [mul_nonneg (sub_nonneg.2 t1) (sub_nonneg.2 hDL), mul_nonneg (mul_nonneg (sub_nonneg.2 t1) (sub_nonneg.2 t1)) hL.le]
    · push Not at h1 h2
      have key : |(a.2 - p.2) * (b.1 - a.1) - (a.1 - p.1) * (b.2 - a.2)| / L * √L = planar p (at_ a b (D / L)) := by
        have hsq : √L ^ 2 = L := sq_sqrt hL.le
        rw [← sq_eq_sq₀ (by positivity) (planar_nonneg _ _), planar_sq, expand, mul_pow, div_pow, sq_abs, hsq]
        field_simp
        rw [hLd, hD]
        ring
      rw [key]
      refine ⟨⟨D / L, h1.le, h2.le, rfl⟩, fun t _ _ => planar_le ?_⟩
      rw [expand, expand]
      have : D = D / L * L := by field_simp
      set r := D / L
      rw [this]
      nlinarith [mul_nonneg (sq_nonneg (t - r)) hL.le]

theorem toLine_spec (p : ℝ × ℝ) : ∀ (c : List (ℝ × ℝ)), 2 ≤ c.length →
    (∃ q, OnCourse c q ∧ toLine p c = planar p q) ∧ ∀ q, OnCourse c q → toLine p c ≤ planar p q
  | [], h => by simp at h
  | [_], h => by simp at h
  | [a, b], _ => by
    obtain ⟨⟨t, t0, t1, ht⟩, hle⟩ := toSegment_spec p a b
    refine ⟨⟨at_ a b t, Or.inr ⟨0, a, b, t, rfl, rfl, t0, t1, rfl⟩, ht⟩, ?_⟩
    rintro q (hq | ⟨i, a', b', s, h1, h2, s0, s1, rfl⟩)
    · rcases List.mem_cons.1 hq with rfl | hq
      · have := hle 0 (le_refl _) zero_le_one
        simpa [at_, toLine] using this
      · rw [List.mem_singleton] at hq
        subst hq
        have := hle 1 zero_le_one (le_refl _)
        simpa [at_, toLine] using this
    · match i, h1, h2 with
      | 0, h1, h2 =>
        simp only [List.getElem?_cons_zero, Option.some.injEq] at h1
        simp only [zero_add, List.getElem?_cons_succ, List.getElem?_cons_zero, Option.some.injEq] at h2
        subst h1 h2
        exact hle s s0 s1
      | i + 1, h1, h2 => simp at h2
  | a :: b :: c :: rest, _ => by
    obtain ⟨⟨t, t0, t1, ht⟩, hle⟩ := toSegment_spec p a b
    obtain ⟨⟨q, hq, hqd⟩, hle'⟩ := toLine_spec p (b :: c :: rest) (by simp)
    have hsh : ∀ q, OnCourse (b :: c :: rest) q → OnCourse (a :: b :: c :: rest) q := by
      rintro q (hq | ⟨i, a', b', s, h1, h2, h3⟩)
      · exact Or.inl (List.mem_cons_of_mem _ hq)
      · exact Or.inr ⟨i + 1, a', b', s, h1, h2, h3⟩
    refine ⟨?_, ?_⟩
    · rcases le_total (toSegment p a b) (toLine p (b :: c :: rest)) with h | h
      · exact ⟨at_ a b t, Or.inr ⟨0, a, b, t, rfl, rfl, t0, t1, rfl⟩, by
          rw [toLine, min_eq_left h, ht]⟩
      · exact ⟨q, hsh q hq, by rw [toLine, min_eq_right h, hqd]⟩
    · rintro q (hq | ⟨i, a', b', s, h1, h2, s0, s1, rfl⟩)
      · rcases List.mem_cons.1 hq with rfl | hq
        · have := hle 0 (le_refl _) zero_le_one
          rw [toLine]
          exact (min_le_left _ _).trans (by simpa [at_] using this)
        · rw [toLine]
          exact (min_le_right _ _).trans (hle' q (Or.inl hq))
      · match i, h1, h2 with
        | 0, h1, h2 =>
          simp only [List.getElem?_cons_zero, Option.some.injEq] at h1
          simp only [zero_add, List.getElem?_cons_succ, List.getElem?_cons_zero, Option.some.injEq] at h2
          subst h1 h2
          rw [toLine]
          exact (min_le_left _ _).trans (hle s s0 s1)
        | i + 1, h1, h2 =>
          rw [toLine]
          exact (min_le_right _ _).trans (hle' _ (Or.inr ⟨i, a', b', s, h1, h2, s0, s1, rfl⟩))

theorem convert_deg (d : ℝ) : Units.convert d "deg" "km" = 111.1251 * d := by
  have h1 : Units.lookup "deg" "km" = some (111.1251, 0) := by decide +kernel
  unfold Units.convert
  rw [if_neg (by decide)]
  have h2 : Units.standardName "deg" = "deg" := by decide
  have h3 : Units.pre "deg" "km" = 0 := by decide +kernel
  have h4 : Units.post "deg" "km" = 0 := by decide +kernel
  rw [h2, h3, h4]
  unfold Units.scale
  rw [h1]
  norm_num
  ring

/-- The distance to one place -/
noncomputable def stored (coords : List (ℝ × ℝ)) (p : ℝ × ℝ) : ℝ :=
  111.1251 * (match coords with
    | [a] => planar a p
    | c => toLine p c)

theorem minimumDistance_eq (coords points : List (ℝ × ℝ)) (h : coords ≠ []) :
    minimumDistance coords points = points.map (stored coords) := by
  unfold minimumDistance
  match coords, h with
  | [a], _ => simp [stored, convert_deg, Function.comp_def]
  | a :: b :: rest, _ => simp [stored, convert_deg, Function.comp_def]

theorem stored_spec (coords : List (ℝ × ℝ)) (h : coords ≠ []) (p : ℝ × ℝ) :
    (∃ q, OnCourse coords q ∧ stored coords p = flat p q) ∧ ∀ q, OnCourse coords q → stored coords p ≤ flat p q := by
  match coords, h with
  | [a], _ =>
    have e : stored [a] p = flat p a := by
      unfold stored flat; simp only [planar_comm a p]; rfl
    refine ⟨⟨a, Or.inl (by simp), e⟩, ?_⟩
    rintro q (hq | ⟨i, a', b', s, h1, h2, _⟩)
    · rw [List.mem_singleton] at hq; subst hq; exact e.le
    · simp at h2
  | a :: b :: rest, _ =>
    obtain ⟨⟨q, hq, hd⟩, hle⟩ := toLine_spec p (a :: b :: rest) (by simp)
    have e : stored (a :: b :: rest) p = 111.1251 * toLine p (a :: b :: rest) := rfl
    refine ⟨⟨q, hq, by rw [e, hd]; rfl⟩, fun q hq => ?_⟩
    rw [e]
    unfold flat
    have := hle q hq
    unfold planar at this
    linarith

theorem zip_map_self {α β γ : Type} (f : α → β) (g : α × β → γ) : ∀ l : List α,
    (l.zip (l.map f)).map g = l.map fun x => g (x, f x)
  | [] => rfl
  | x :: l => by simp [zip_map_self f g l]

theorem processTrack_eq (tracks : List Track) (locations : List Location) :
    processTrack tracks locations = (tracks.filter fun t => t.coords ≠ []).flatMap fun t =>
      locations.map fun l => ⟨l.id, t.id, stored t.coords (l.lon, l.lat)⟩ := by
  unfold processTrack
  induction tracks with
  | nil => rfl
  | cons t ts ih =>
    simp only [List.flatMap_cons, List.filter_cons] at ih ⊢
    rw [ih]
    by_cases ht : t.coords = []
    · simp [ht]
    · rw [if_neg (by simpa using ht), if_pos (by simpa using ht), minimumDistance_eq _ _ ht, List.map_map,
        zip_map_self, List.flatMap_cons]
      rfl

/-- C137: every track with positions has one row for every location, with the smallest distance of its course from the
location, measured in the plane of longitude and latitude. -/
theorem C137_planar (tracks : List Track) (locations : List Location) :
    (∀ r, r ∈ processTrack tracks locations ↔ ∃ t ∈ tracks, ∃ l ∈ locations, t.coords ≠ [] ∧ r.loc = l.id ∧
      r.event = t.id ∧ (∃ q, OnCourse t.coords q ∧ r.dist = flat (l.lon, l.lat) q) ∧
      ∀ q, OnCourse t.coords q → r.dist ≤ flat (l.lon, l.lat) q) ∧
    (processTrack tracks locations).length =
      (tracks.countP fun t => t.coords ≠ []) * locations.length := by
  rw [processTrack_eq]
  refine ⟨fun r => ?_, ?_⟩
  · simp only [List.mem_flatMap, List.mem_filter, List.mem_map, decide_eq_true_eq]
    constructor
    · rintro ⟨t, ⟨ht, hne⟩, l, hl, rfl⟩
      exact ⟨t, ht, l, hl, hne, rfl, rfl, stored_spec t.coords hne _⟩
    · rintro ⟨t, ht, l, hl, hne, h1, h2, ⟨q, hq, hd⟩, hle⟩
      refine ⟨t, ⟨ht, hne⟩, l, hl, ?_⟩
      obtain ⟨⟨q', hq', hd'⟩, hle'⟩ := stored_spec t.coords hne (l.lon, l.lat)
      have : stored t.coords (l.lon, l.lat) = r.dist :=
        le_antisymm (by rw [hd]; exact hle' q hq) (by rw [hd']; exact hle q' hq')
      cases r
      simp only at h1 h2 this
      rw [h1, h2, this]
  · rw [List.length_flatMap, List.countP_eq_length_filter]
    simp

/-! Flat and true distances. -/

theorem mul_sin_le {c x : ℝ} (c0 : 0 ≤ c) (c1 : c ≤ 1) (x0 : 0 ≤ x) (x1 : x ≤ π) : c * sin x ≤ sin (c * x) := by
  have := strictConcaveOn_sin_Icc.concaveOn.2 (x := x) (y := 0) ⟨x0, x1⟩ ⟨le_refl _, pi_pos.le⟩ c0 (sub_nonneg.2 c1)
    (by ring)
  simpa using this

theorem convex_cos_sqrt : ConvexOn ℝ (Set.Icc 0 (π ^ 2)) (fun t => cos (√t)) := by
  have hd : ∀ t ∈ interior (Set.Icc (0 : ℝ) (π ^ 2)), HasDerivAt (fun t => cos (√t)) (-(sin (√t) / √t) / 2) t := by
    intro t ht
    rw [interior_Icc] at ht
    have := (hasDerivAt_sqrt ht.1.ne').cos
    refine HasDerivAt.congr_deriv this ?_
    ring
  apply MonotoneOn.convexOn_of_deriv (convex_Icc _ _)
  · exact (continuous_cos.comp continuous_sqrt).continuousOn
  · exact fun t ht => (hd t ht).differentiableAt.differentiableWithinAt
  · intro s hs t ht hst
    rw [(hd s hs).deriv, (hd t ht).deriv]
    rw [interior_Icc] at hs ht
    have s0 : 0 < √s := sqrt_pos.2 hs.1
    have t0 : 0 < √t := sqrt_pos.2 ht.1
    have hle : √s ≤ √t := sqrt_le_sqrt hst
    have ht1 : √t ≤ π := by rw [sqrt_le_left pi_pos.le]; exact ht.2.le
    have := mul_sin_le (c := √s / √t) (by positivity) (by rw [div_le_one t0]; exact hle) t0.le ht1
    rw [div_mul_cancel₀ _ t0.ne'] at this
    have h2 : sin (√t) / √t ≤ sin (√s) / √s := by
      rw [div_le_div_iff₀ t0 s0]
      rw [div_mul_eq_mul_div, div_le_iff₀ t0] at this
      linarith
    linarith

/-- On a sphere the hypotenuse is shorter than in the plane. -/
theorem cos_hyp_le {a b : ℝ} (h : √(a ^ 2 + b ^ 2) ≤ π / 2) : cos (√(a ^ 2 + b ^ 2)) ≤ cos a * cos b := by
  have hr : a ^ 2 + b ^ 2 ≤ (π / 2) ^ 2 := by
    rwa [sqrt_le_left (by positivity)] at h
  have h1 : (a + b) ^ 2 ≤ π ^ 2 := by nlinarith [sq_nonneg (a - b)]
  have h2 : (a - b) ^ 2 ≤ π ^ 2 := by nlinarith [sq_nonneg (a + b)]
  have := convex_cos_sqrt.2 (⟨sq_nonneg _, h1⟩ : (a + b) ^ 2 ∈ Set.Icc 0 (π ^ 2))
    (⟨sq_nonneg _, h2⟩ : (a - b) ^ 2 ∈ Set.Icc 0 (π ^ 2)) (by norm_num : (0 : ℝ) ≤ 1 / 2)
    (by norm_num : (0 : ℝ) ≤ 1 / 2) (by norm_num)
  simp only [smul_eq_mul, sqrt_sq_eq_abs, cos_abs] at this
  rw [show 1 / 2 * (a + b) ^ 2 + 1 / 2 * (a - b) ^ 2 = a ^ 2 + b ^ 2 by ring] at this
  rw [cos_add, cos_sub] at this
  linarith

theorem angle_le (lon lat lon' lat' : ℝ) : InnerProductGeometry.angle (position lon lat) (position lon' lat') ≤
    √((rad lon - rad lon') ^ 2 + (rad lat - rad lat') ^ 2) := by
  set a := (rad lat' - rad lat) / 2 with ha
  set b := (rad lon' - rad lon) / 2 with hb
  have e : √((rad lon - rad lon') ^ 2 + (rad lat - rad lat') ^ 2) = 2 * √(a ^ 2 + b ^ 2) := by
    rw [show (rad lon - rad lon') ^ 2 + (rad lat - rad lat') ^ 2 = 2 ^ 2 * (a ^ 2 + b ^ 2) by rw [ha, hb]; ring,
      sqrt_mul (by positivity), sqrt_sq (by norm_num)]
  rw [e]
  by_cases h : √(a ^ 2 + b ^ 2) ≤ π / 2
  · have hcos := cos_hyp_le h
    have hc0 : 0 ≤ cos (√(a ^ 2 + b ^ 2)) := cos_nonneg_of_neg_pi_div_two_le_of_le (by linarith [pi_pos, sqrt_nonneg (a ^ 2 + b ^ 2)]) h
    have hin := hav_inner lon lat lon' lat'
    rw [← ha, ← hb] at hin
    have hcc : cos (rad lat) * cos (rad lat') ≤ cos a ^ 2 := by
      have e1 : cos (rad lat) * cos (rad lat') = (cos (rad lat' - rad lat) + cos (rad lat' + rad lat)) / 2 := by
        rw [cos_sub, cos_add]; ring
      have e2 : cos a ^ 2 = (1 + cos (rad lat' - rad lat)) / 2 := by
        rw [cos_sq, ha]; ring_nf
      rw [e1, e2]
      linarith [cos_le_one (rad lat' + rad lat)]
    have hle : (1 - inner ℝ (position lon lat) (position lon' lat')) / 2 ≤ sin (√(a ^ 2 + b ^ 2)) ^ 2 := by
      rw [← hin]
      have h1 := sin_sq_add_cos_sq (√(a ^ 2 + b ^ 2))
      have h2 := sin_sq_add_cos_sq a
      have h3 := sin_sq_add_cos_sq b
      have h4 : cos (√(a ^ 2 + b ^ 2)) ^ 2 ≤ (cos a * cos b) ^ 2 := by gcongr
      nlinarith [mul_le_mul_of_nonneg_right hcc (sq_nonneg (sin b))]
    have hang : InnerProductGeometry.angle (position lon lat) (position lon' lat') =
        arccos (inner ℝ (position lon lat) (position lon' lat')) := by
      rw [InnerProductGeometry.angle, norm_position, norm_position, mul_one, div_one]
    rw [hang]
    have hcos2 : cos (2 * √(a ^ 2 + b ^ 2)) ≤ inner ℝ (position lon lat) (position lon' lat') := by
      rw [cos_two_mul, cos_sq']; linarith
    calc arccos (inner ℝ (position lon lat) (position lon' lat')) ≤ arccos (cos (2 * √(a ^ 2 + b ^ 2))) :=
          arccos_le_arccos hcos2
      _ = 2 * √(a ^ 2 + b ^ 2) := arccos_cos (by positivity) (by linarith)
  · push Not at h
    linarith [InnerProductGeometry.angle_le_pi (position lon lat) (position lon' lat')]

theorem km_bounds : 111.1251 ≤ 6367 * (π / 180) ∧ 6367 * (π / 180) ≤ 111.1251 * 1.000001 := by
  have h1 := pi_gt_d20
  have h2 := pi_lt_d6
  constructor <;> norm_num at * <;> linarith

theorem between_le (p q : ℝ × ℝ) : between p q ≤ 1.000001 * flat p q := by
  unfold between surface flat
  have h := angle_le p.1 p.2 q.1 q.2
  have e : √((rad p.1 - rad q.1) ^ 2 + (rad p.2 - rad q.2) ^ 2) = π / 180 * √((p.1 - q.1) ^ 2 + (p.2 - q.2) ^ 2) := by
    rw [show (rad p.1 - rad q.1) ^ 2 + (rad p.2 - rad q.2) ^ 2 = (π / 180) ^ 2 * ((p.1 - q.1) ^ 2 + (p.2 - q.2) ^ 2) by
      unfold rad; ring, sqrt_mul (by positivity), sqrt_sq (by positivity)]
  rw [e] at h
  have hs := sqrt_nonneg ((p.1 - q.1) ^ 2 + (p.2 - q.2) ^ 2)
  nlinarith [mul_le_mul_of_nonneg_right km_bounds.2 hs]

/-- C137, partial: the distance stored is never short: the track did come that near (to one part in a million). -/
theorem C137_never_short_partial (tracks : List Track) (locations : List Location) (r : Row)
    (h : r ∈ processTrack tracks locations) : ∃ t ∈ tracks, ∃ l ∈ locations, r.loc = l.id ∧ r.event = t.id ∧
      ∃ q, OnCourse t.coords q ∧ between (l.lon, l.lat) q ≤ 1.000001 * r.dist := by
  obtain ⟨t, ht, l, hl, -, h1, h2, ⟨q, hq, hd⟩, -⟩ := ((C137_planar tracks locations).1 r).1 h
  exact ⟨t, ht, l, hl, h1, h2, q, hq, by rw [hd]; exact between_le _ _⟩

/-- C137 fails away from the equator: for a storm due east or west the distance stored exceeds the distance by the
reciprocal of the cosine of the latitude (less one part in a million). -/
theorem C137_latitude_fails (lat lon d : ℝ) (hlat : |lat| ≤ 90) (hd : |d| ≤ 180) (id : ℕ × ℕ) (n : ℕ) :
    ∃ r : Row, processTrack [⟨id, [(lon + d, lat)]⟩] [⟨n, lon, lat⟩] = [r] ∧ r.dist = 111.1251 * |d| ∧
      between (lon, lat) (lon + d, lat) ≤ 1.000001 * cos (lat * π / 180) * r.dist := by
  have hst : stored [(lon + d, lat)] (lon, lat) = 111.1251 * |d| := by
    simp only [stored, planar]
    rw [show (lon + d - lon) ^ 2 + (lat - lat) ^ 2 = d ^ 2 by ring, sqrt_sq_eq_abs]
  refine ⟨⟨n, id, stored [(lon + d, lat)] (lon, lat)⟩, ?_, hst, ?_⟩
  · rw [processTrack_eq]; simp
  · simp only [hst]
    unfold between surface
    simp only
    have hc : 0 ≤ cos (rad lat) := cos_rad_nonneg hlat
    set b := |d| * (π / 360) with hb
    have b0 : 0 ≤ b := by positivity
    have b1 : b ≤ π / 2 := by rw [hb]; nlinarith [pi_pos, abs_nonneg d]
    have hin := hav_inner lon lat (lon + d) lat
    have e1 : sin ((rad (lon + d) - rad lon) / 2) ^ 2 = sin b ^ 2 := by
      have : (rad (lon + d) - rad lon) / 2 = d * (π / 360) := by unfold rad; ring
      rw [this, hb]
      rcases abs_cases d with ⟨h, _⟩ | ⟨h, _⟩ <;> rw [h]
      rw [neg_mul, sin_neg]; ring
    rw [e1, sub_self, zero_div, sin_zero] at hin
    have hms := mul_sin_le hc (cos_le_one _) b0 (by linarith [pi_pos])
    have hs0 : 0 ≤ sin b := sin_nonneg_of_nonneg_of_le_pi b0 (by linarith [pi_pos])
    have hcb : cos (rad lat) * b ≤ π / 2 := by nlinarith [cos_le_one (rad lat)]
    have hcb0 : 0 ≤ cos (rad lat) * b := by positivity
    have hsq : (cos (rad lat) * sin b) ^ 2 ≤ sin (cos (rad lat) * b) ^ 2 := by gcongr
    have hang : InnerProductGeometry.angle (position lon lat) (position (lon + d) lat) ≤ 2 * (cos (rad lat) * b) := by
      rw [InnerProductGeometry.angle, norm_position, norm_position, mul_one, div_one]
      calc arccos (inner ℝ (position lon lat) (position (lon + d) lat))
          ≤ arccos (cos (2 * (cos (rad lat) * b))) := by
            apply arccos_le_arccos
            rw [cos_two_mul, cos_sq']
            nlinarith
        _ = 2 * (cos (rad lat) * b) := arccos_cos (by positivity) (by linarith)
    have hrad : lat * π / 180 = rad lat := rfl
    rw [hrad]
    have hk := km_bounds.2
    have : 0 ≤ cos (rad lat) * |d| := by positivity
    rw [hb] at hang
    nlinarith [mul_le_mul_of_nonneg_right hk this]

/-- C137 fails across the meridian of Greenwich: longitudes on its two sides are taken to be far apart. -/
theorem C137_greenwich_fails (lat e : ℝ) (he : 0 ≤ e) (id : ℕ × ℕ) (n : ℕ) :
    ∃ r : Row, processTrack [⟨id, [(e, lat)]⟩] [⟨n, 360 - e, lat⟩] = [r] ∧ r.dist = 111.1251 * |360 - 2 * e| ∧
      between (360 - e, lat) (e, lat) ≤ 222.26 * e := by
  have hst : stored [(e, lat)] (360 - e, lat) = 111.1251 * |360 - 2 * e| := by
    simp only [stored, planar]
    rw [show (e - (360 - e)) ^ 2 + (lat - lat) ^ 2 = (360 - 2 * e) ^ 2 by ring, sqrt_sq_eq_abs]
  refine ⟨⟨n, id, stored [(e, lat)] (360 - e, lat)⟩, ?_, hst, ?_⟩
  · rw [processTrack_eq]; simp
  · have hp : position (360 - e) lat = position (-e) lat := by
      unfold position
      rw [show (360 - e) * π / 180 = -e * π / 180 + 2 * π by ring, cos_add_two_pi, sin_add_two_pi]
    have h := between_le (-e, lat) (e, lat)
    unfold between at h ⊢
    simp only at h ⊢
    rw [hp]
    refine h.trans ?_
    unfold flat
    simp only
    rw [show (-e - e) ^ 2 + (lat - lat) ^ 2 = (2 * e) ^ 2 by ring, sqrt_sq (by linarith)]
    norm_num
    linarith

/-- A track of three positions and a location abreast of its second leg: 2 degrees in the plane. -/
example : ∃ r, processTrack [⟨(1, 2), [(150, -20), (151, -19), (151, -10)]⟩] [⟨7, 153, -15⟩] = [r] ∧
    r.dist = 222.2502 := by
  rw [processTrack_eq]
  refine ⟨_, rfl, ?_⟩
  have e1 : √(81 : ℝ) = 9 := by rw [show (81 : ℝ) = 9 ^ 2 by norm_num]; exact sqrt_sq (by norm_num)
  have e2 : (2 : ℝ) ≤ √20 := le_sqrt_of_sq_le (by norm_num)
  norm_num [stored, toLine, toSegment, planar, e1]
  norm_num [min_eq_right e2]

/-- At 60 degrees the distance is half of the one stored. -/
example : ∃ r : Row, processTrack [⟨(0, 0), [(151, -60)]⟩] [⟨1, 150, -60⟩] = [r] ∧ r.dist = 111.1251 ∧
    between (150, -60) (151, -60) ≤ 56 := by
  obtain ⟨r, h1, h2, h3⟩ := C137_latitude_fails (-60) 150 1 (by norm_num) (by norm_num) (0, 0) 1
  rw [show (150 : ℝ) + 1 = 151 by norm_num] at h1 h3
  rw [abs_one, mul_one] at h2
  refine ⟨r, h1, h2, h3.trans ?_⟩
  rw [show (-60 : ℝ) * π / 180 = -(π / 3) by ring, cos_neg, cos_pi_div_three, h2]
  norm_num

end Tcrm.Closest
