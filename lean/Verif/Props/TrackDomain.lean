import Verif.Spec.DataProc
import Mathlib.Data.List.Induction
import Mathlib.Tactic.Linarith
/-!
C34: the automatic track domain.
-/
namespace Tcrm.DataProc

/-! ### One limit at a time -/

/-- One of the four limits: the loop for a lower limit of `c`. -/
def minStep (c : Obs → ℚ) (ins : Obs → Bool) (s : ℚ × ℚ) (o : Obs) : ℚ × ℚ :=
  let lim := min (if o.index = 1 then 9999 else s.2) (c o)
  (⌊if ins o then min s.1 lim else s.1⌋, lim)

theorem neg_max' (a b : ℚ) : -max a b = min (-a) (-b) := by
  rcases le_total a b with h | h
  · rw [max_eq_right h, min_eq_right (by linarith)]
  · rw [max_eq_left h, min_eq_left (by linarith)]

theorem xMin_eq (wf : Box) : ∀ (obs : List Obs) (s : Box × Box),
    (obs.foldl (domainStep wf) s).1.xMin = (obs.foldl (minStep (·.lon) (isIn wf)) (s.1.xMin, s.2.xMin)).1
  | [], _ => rfl
  | o :: obs, s => by
    simp only [List.foldl_cons]
    rw [xMin_eq wf obs]
    congr 2
    simp only [domainStep, minStep, roundBox, extendPoint, extendBox, noLimits]
    split <;> split <;> rfl

theorem yMin_eq (wf : Box) : ∀ (obs : List Obs) (s : Box × Box),
    (obs.foldl (domainStep wf) s).1.yMin = (obs.foldl (minStep (·.lat) (isIn wf)) (s.1.yMin, s.2.yMin)).1
  | [], _ => rfl
  | o :: obs, s => by
    simp only [List.foldl_cons]
    rw [yMin_eq wf obs]
    congr 2
    simp only [domainStep, minStep, roundBox, extendPoint, extendBox, noLimits]
    split <;> split <;> rfl

theorem xMax_eq (wf : Box) : ∀ (obs : List Obs) (s : Box × Box),
    -(obs.foldl (domainStep wf) s).1.xMax = (obs.foldl (minStep (fun o => -o.lon) (isIn wf)) (-s.1.xMax, -s.2.xMax)).1
  | [], _ => rfl
  | o :: obs, s => by
    simp only [List.foldl_cons]
    rw [xMax_eq wf obs]
    congr 2
    simp only [domainStep, minStep, roundBox, extendPoint, extendBox, noLimits]
    split <;> split <;> simp [neg_max', ← Int.cast_neg, ← Int.floor_neg]

theorem yMax_eq (wf : Box) : ∀ (obs : List Obs) (s : Box × Box),
    -(obs.foldl (domainStep wf) s).1.yMax = (obs.foldl (minStep (fun o => -o.lat) (isIn wf)) (-s.1.yMax, -s.2.yMax)).1
  | [], _ => rfl
  | o :: obs, s => by
    simp only [List.foldl_cons]
    rw [yMax_eq wf obs]
    congr 2
    simp only [domainStep, minStep, roundBox, extendPoint, extendBox, noLimits]
    split <;> split <;> simp [neg_max', ← Int.cast_neg, ← Int.floor_neg]

/-- `q` is in the track that the record ends with. -/
def InLastTrack (obs : List Obs) (q : Obs) : Prop :=
  ∃ pre seg, obs = pre ++ q :: seg ∧ ∀ s ∈ seg, s.index ≠ 1

theorem isIn_iff (wf : Box) (o : Obs) : isIn wf o = true ↔ In wf o := by
  unfold isIn In
  simp only [Bool.and_eq_true, decide_eq_true_eq]
  tauto

theorem inLastTrack_snoc {obs : List Obs} {o q : Obs} :
    InLastTrack (obs ++ [o]) q ↔ q = o ∨ (o.index ≠ 1 ∧ InLastTrack obs q) := by
  constructor
  · rintro ⟨pre, seg, h, hs⟩
    rcases List.eq_nil_or_concat seg with rfl | ⟨seg', x, rfl⟩
    · left
      have := List.append_inj' h rfl
      simpa using this.2.symm
    · right
      have h' : obs ++ [o] = (pre ++ q :: seg') ++ [x] := by rw [h]; simp
      have := List.append_inj' h' rfl
      have hx : o = x := by simpa using this.2
      refine ⟨?_, pre, seg', this.1, fun s hs' => hs s (by simp [hs'])⟩
      rw [hx]
      exact hs x (by simp)
  · rintro (rfl | ⟨ho, pre, seg, rfl, hs⟩)
    · exact ⟨obs, [], rfl, by simp⟩
    · refine ⟨pre, seg ++ [o], by simp, ?_⟩
      intro s h
      rcases List.mem_append.1 h with h | h
      · exact hs s h
      · simp only [List.mem_singleton] at h; rw [h]; exact ho

theorem entersFrom_snoc {wf : Box} {obs : List Obs} {o q : Obs} :
    EntersFrom wf (obs ++ [o]) q ↔ EntersFrom wf obs q ∨ (InLastTrack (obs ++ [o]) q ∧ In wf o) := by
  constructor
  · rintro ⟨pre, seg, post, h, hs, hin⟩
    rcases List.eq_nil_or_concat post with rfl | ⟨post', x, rfl⟩
    · right
      rw [List.append_nil] at h
      refine ⟨⟨pre, seg, h, hs⟩, ?_⟩
      have : (obs ++ [o]).getLast (by simp) = (pre ++ q :: seg).getLast (by simp) := by simp only [h]
      rw [List.getLast_append_of_ne_nil _ (by simp), List.getLast_append_of_ne_nil _ (by simp)] at this
      simp only [List.getLast_singleton] at this
      rw [this]
      exact hin
    · left
      have h' : obs ++ [o] = (pre ++ (q :: seg) ++ post') ++ [x] := by rw [h]; simp
      have := List.append_inj' h' rfl
      exact ⟨pre, seg, post', this.1, hs, hin⟩
  · rintro (⟨pre, seg, post, rfl, hs, hin⟩ | ⟨⟨pre, seg, h, hs⟩, hin⟩)
    · exact ⟨pre, seg, post ++ [o], by simp, hs, hin⟩
    · refine ⟨pre, seg, [], by rw [h]; simp, hs, ?_⟩
      have : (obs ++ [o]).getLast (by simp) = (pre ++ q :: seg).getLast (by simp) := by simp only [h]
      rw [List.getLast_append_of_ne_nil _ (by simp), List.getLast_append_of_ne_nil _ (by simp)] at this
      simp only [List.getLast_singleton] at this
      rw [← this]
      exact hin

/-- Lower bounds. -/
theorem minStep_le (c : Obs → ℚ) (wf : Box) (w : ℚ) (obs : List Obs) :
    (obs.foldl (minStep c (isIn wf)) (w, 9999)).1 ≤ w ∧
    (∀ q, EntersFrom wf obs q → (obs.foldl (minStep c (isIn wf)) (w, 9999)).1 ≤ c q) ∧
    (∀ q, InLastTrack obs q → (obs.foldl (minStep c (isIn wf)) (w, 9999)).2 ≤ c q) := by
  induction obs using List.reverseRecOn with
  | nil =>
    refine ⟨le_refl _, ?_, ?_⟩
    · rintro q ⟨pre, seg, post, h, _⟩; simp at h
    · rintro q ⟨pre, seg, h, _⟩; simp at h
  | append_singleton obs o ih =>
    obtain ⟨h1, h2, h3⟩ := ih
    rw [List.foldl_append]
    simp only [List.foldl_cons, List.foldl_nil]
    generalize obs.foldl (minStep c (isIn wf)) (w, 9999) = s at h1 h2 h3
    have hlim : ∀ q, InLastTrack (obs ++ [o]) q → min (if o.index = 1 then 9999 else s.2) (c o) ≤ c q := by
      intro q hq
      rcases inLastTrack_snoc.1 hq with rfl | ⟨ho, hq⟩
      · exact min_le_right _ _
      · rw [if_neg ho]
        exact le_trans (min_le_left _ _) (h3 q hq)
    refine ⟨?_, ?_, hlim⟩
    · simp only [minStep]
      refine le_trans (Int.floor_le _) ?_
      split
      · exact le_trans (min_le_left _ _) h1
      · exact h1
    · intro q hq
      simp only [minStep]
      refine le_trans (Int.floor_le _) ?_
      rcases entersFrom_snoc.1 hq with hq | ⟨hq, hin⟩
      · split
        · exact le_trans (min_le_left _ _) (h2 q hq)
        · exact h2 q hq
      · rw [if_pos ((isIn_iff wf o).2 hin)]
        exact le_trans (min_le_right _ _) (hlim q hq)

theorem floor_min (a b : ℚ) : ⌊min a b⌋ = min ⌊a⌋ ⌊b⌋ := by
  rcases le_total a b with h | h
  · rw [min_eq_left h, min_eq_left (Int.floor_mono h)]
  · rw [min_eq_right h, min_eq_right (Int.floor_mono h)]

/-- The limit is attained. -/
theorem minStep_attained (c : Obs → ℚ) (wf : Box) (w : ℚ) (obs : List Obs) (hb : ∀ o ∈ obs, c o ≤ 9999)
    (hne : obs ≠ []) :
    ((obs.foldl (minStep c (isIn wf)) (w, 9999)).1 = ⌊w⌋ ∨
      ∃ q, EntersFrom wf obs q ∧ (obs.foldl (minStep c (isIn wf)) (w, 9999)).1 = ⌊c q⌋) ∧
    ∃ q, InLastTrack obs q ∧ (obs.foldl (minStep c (isIn wf)) (w, 9999)).2 = c q := by
  induction obs using List.reverseRecOn with
  | nil => exact absurd rfl hne
  | append_singleton obs o ih =>
    rw [List.foldl_append]
    simp only [List.foldl_cons, List.foldl_nil]
    have ho : c o ≤ 9999 := hb o (by simp)
    have hself : InLastTrack (obs ++ [o]) o := inLastTrack_snoc.2 (Or.inl rfl)
    have hstate : (((obs.foldl (minStep c (isIn wf)) (w, 9999)).1 = w ∨
        (obs.foldl (minStep c (isIn wf)) (w, 9999)).1 = ⌊w⌋ ∨
        ∃ q, EntersFrom wf obs q ∧ (obs.foldl (minStep c (isIn wf)) (w, 9999)).1 = ⌊c q⌋) ∧
        ((obs.foldl (minStep c (isIn wf)) (w, 9999)).2 = 9999 ∨
          ∃ q, InLastTrack obs q ∧ (obs.foldl (minStep c (isIn wf)) (w, 9999)).2 = c q)) := by
      by_cases hn : obs = []
      · subst hn; exact ⟨Or.inl rfl, Or.inl rfl⟩
      · obtain ⟨a, b⟩ := ih (fun x hx => hb x (by simp [hx])) hn
        exact ⟨Or.inr a, Or.inr b⟩
    generalize obs.foldl (minStep c (isIn wf)) (w, 9999) = s at hstate
    obtain ⟨ha, hl⟩ := hstate
    have hlim : ∃ q, InLastTrack (obs ++ [o]) q ∧ min (if o.index = 1 then 9999 else s.2) (c o) = c q := by
      by_cases hi : o.index = 1
      · rw [if_pos hi]
        exact ⟨o, hself, min_eq_right ho⟩
      · rw [if_neg hi]
        rcases le_total (c o) s.2 with h | h
        · exact ⟨o, hself, min_eq_right h⟩
        · rcases hl with hl | ⟨q, hq, hl⟩
          · exact ⟨o, hself, min_eq_right (by rw [hl]; exact ho)⟩
          · exact ⟨q, inLastTrack_snoc.2 (Or.inr ⟨hi, hq⟩), by rw [min_eq_left h, hl]⟩
    refine ⟨?_, hlim⟩
    have hfl : ⌊s.1⌋ = ⌊w⌋ ∨ ∃ q, EntersFrom wf (obs ++ [o]) q ∧ ⌊s.1⌋ = ⌊c q⌋ := by
      rcases ha with ha | ha | ⟨q, hq, ha⟩
      · left; rw [ha]
      · left; rw [ha, Int.floor_intCast]
      · right; exact ⟨q, entersFrom_snoc.2 (Or.inl hq), by rw [ha, Int.floor_intCast]⟩
    simp only [minStep]
    by_cases hin : isIn wf o = true
    · rw [if_pos hin, floor_min]
      obtain ⟨q, hq, hqe⟩ := hlim
      rcases le_total ⌊s.1⌋ ⌊min (if o.index = 1 then 9999 else s.2) (c o)⌋ with h | h
      · rw [min_eq_left h]
        rcases hfl with h' | ⟨q', h1, h2⟩
        · left; rw [h']
        · right; exact ⟨q', h1, by rw [h2]⟩
      · rw [min_eq_right h]
        right
        exact ⟨q, entersFrom_snoc.2 (Or.inr ⟨hq, (isIn_iff wf o).1 hin⟩), by rw [hqe]⟩
    · rw [if_neg hin]
      rcases hfl with h' | ⟨q', h1, h2⟩
      · left; rw [h']
      · right; exact ⟨q', h1, by rw [h2]⟩

/-! ### C34 -/

/-- C34: the track domain contains the wind-field domain, for all data. -/
theorem C34_contains_region (wf : Box) (obs : List Obs) :
    (trackDomain wf obs).xMin ≤ wf.xMin ∧ wf.xMax ≤ (trackDomain wf obs).xMax ∧
    (trackDomain wf obs).yMin ≤ wf.yMin ∧ wf.yMax ≤ (trackDomain wf obs).yMax := by
  unfold trackDomain
  have h1 := (minStep_le (·.lon) wf wf.xMin obs).1
  have h2 := (minStep_le (fun o => -o.lon) wf (-wf.xMax) obs).1
  have h3 := (minStep_le (·.lat) wf wf.yMin obs).1
  have h4 := (minStep_le (fun o => -o.lat) wf (-wf.yMax) obs).1
  have e1 := xMin_eq wf obs (wf, noLimits)
  have e2 := xMax_eq wf obs (wf, noLimits)
  have e3 := yMin_eq wf obs (wf, noLimits)
  have e4 := yMax_eq wf obs (wf, noLimits)
  simp only [noLimits, neg_neg] at e1 e2 e3 e4 ⊢
  rw [← e1] at h1
  rw [← e2] at h2
  rw [← e3] at h3
  rw [← e4] at h4
  exact ⟨h1, by linarith, h3, by linarith⟩

/-- C34 in part: the track domain contains every observation at or after which the track is still
inside the wind-field domain at least once. -/
theorem C34_contains_until_last_inside_partial (wf : Box) (obs : List Obs) {q : Obs} (hq : EntersFrom wf obs q) :
    In (trackDomain wf obs) q := by
  unfold trackDomain In
  have h1 := (minStep_le (·.lon) wf wf.xMin obs).2.1 q hq
  have h2 := (minStep_le (fun o => -o.lon) wf (-wf.xMax) obs).2.1 q hq
  have h3 := (minStep_le (·.lat) wf wf.yMin obs).2.1 q hq
  have h4 := (minStep_le (fun o => -o.lat) wf (-wf.yMax) obs).2.1 q hq
  have e1 := xMin_eq wf obs (wf, noLimits)
  have e2 := xMax_eq wf obs (wf, noLimits)
  have e3 := yMin_eq wf obs (wf, noLimits)
  have e4 := yMax_eq wf obs (wf, noLimits)
  simp only [noLimits, neg_neg] at e1 e2 e3 e4 ⊢
  rw [← e1] at h1
  rw [← e2] at h2
  rw [← e3] at h3
  rw [← e4] at h4
  exact ⟨h1, by linarith, h3, by linarith⟩

/-- C34: if there is any data the limits are whole degrees, and no larger than needed: each is that of
the wind-field domain or of an observation that must be covered, rounded outwards. -/
theorem C34_whole_degrees_and_tight (wf : Box) {obs : List Obs} (hne : obs ≠ [])
    (hb : ∀ o ∈ obs, |o.lon| ≤ 9999 ∧ |o.lat| ≤ 9999) :
    ((trackDomain wf obs).xMin = ⌊wf.xMin⌋ ∨ ∃ q, EntersFrom wf obs q ∧ (trackDomain wf obs).xMin = ⌊q.lon⌋) ∧
    ((trackDomain wf obs).xMax = ⌈wf.xMax⌉ ∨ ∃ q, EntersFrom wf obs q ∧ (trackDomain wf obs).xMax = ⌈q.lon⌉) ∧
    ((trackDomain wf obs).yMin = ⌊wf.yMin⌋ ∨ ∃ q, EntersFrom wf obs q ∧ (trackDomain wf obs).yMin = ⌊q.lat⌋) ∧
    ((trackDomain wf obs).yMax = ⌈wf.yMax⌉ ∨ ∃ q, EntersFrom wf obs q ∧ (trackDomain wf obs).yMax = ⌈q.lat⌉) := by
  have b1 : ∀ o ∈ obs, o.lon ≤ 9999 := fun o ho => (abs_le.1 (hb o ho).1).2
  have b2 : ∀ o ∈ obs, -o.lon ≤ 9999 := fun o ho => by have := (abs_le.1 (hb o ho).1).1; linarith
  have b3 : ∀ o ∈ obs, o.lat ≤ 9999 := fun o ho => (abs_le.1 (hb o ho).2).2
  have b4 : ∀ o ∈ obs, -o.lat ≤ 9999 := fun o ho => by have := (abs_le.1 (hb o ho).2).1; linarith
  unfold trackDomain
  have h1 := (minStep_attained (·.lon) wf wf.xMin obs b1 hne).1
  have h2 := (minStep_attained (fun o => -o.lon) wf (-wf.xMax) obs b2 hne).1
  have h3 := (minStep_attained (·.lat) wf wf.yMin obs b3 hne).1
  have h4 := (minStep_attained (fun o => -o.lat) wf (-wf.yMax) obs b4 hne).1
  have e1 := xMin_eq wf obs (wf, noLimits)
  have e2 := xMax_eq wf obs (wf, noLimits)
  have e3 := yMin_eq wf obs (wf, noLimits)
  have e4 := yMax_eq wf obs (wf, noLimits)
  simp only [noLimits, neg_neg] at e1 e2 e3 e4 ⊢
  rw [← e1] at h1
  rw [← e2] at h2
  rw [← e3] at h3
  rw [← e4] at h4
  simp only [Int.floor_neg, Int.cast_neg, neg_inj] at h2 h4
  exact ⟨h1, h2, h3, h4⟩

/-- C34 fails: observations after the track has left the wind-field domain for good are not covered. A
track with one observation in a domain with whole-degree limits and the next one east of it. -/
theorem C34_after_leaving_not_covered {wf : Box} (hw : ∃ n : ℤ, wf.xMax = n) {x y : Obs} (hx : In wf x)
    (hy : y.index ≠ 1) (hout : wf.xMax < y.lon)
    (hb : ∀ o ∈ [{ x with index := 1 }, y], |o.lon| ≤ 9999 ∧ |o.lat| ≤ 9999) :
    IsTrack [{ x with index := 1 }, y] ∧ ¬ In (trackDomain wf [{ x with index := 1 }, y]) y := by
  refine ⟨⟨_, _, rfl, rfl, by simpa using hy⟩, ?_⟩
  obtain ⟨n, hn⟩ := hw
  have hny : ¬ In wf y := fun h => by have := h.2.1; linarith
  rintro ⟨-, h, -⟩
  rcases (C34_whole_degrees_and_tight wf (by simp) hb).2.1 with e | ⟨q, hq, e⟩
  · rw [e, hn, Int.ceil_intCast] at h
    linarith
  · have hq' : EntersFrom wf (([] ++ [({ x with index := 1 } : Obs)]) ++ [y]) q := hq
    rcases entersFrom_snoc.1 hq' with hq' | ⟨-, hq'⟩
    · rcases entersFrom_snoc.1 hq' with ⟨pre, seg, post, hnil, -⟩ | ⟨hl, -⟩
      · simp at hnil
      · rcases inLastTrack_snoc.1 hl with rfl | ⟨-, pre, seg, hnil, -⟩
        · have : ⌈x.lon⌉ ≤ n := Int.ceil_le.2 (by rw [← hn]; exact hx.2.1)
          have h' : ((⌈x.lon⌉ : ℤ) : ℚ) ≤ (n : ℚ) := by exact_mod_cast this
          rw [e] at h
          simp only at h
          linarith
        · simp at hnil
    · exact hny hq'

/-- C34 without data: the domain is the wind-field domain as it is, and its limits need not be whole. -/
theorem C34_no_data (wf : Box) : trackDomain wf [] = wf := rfl

example : trackDomain ⟨100, 110, -20, -10⟩ [⟨1, 95.5, -5⟩, ⟨0, 101, -12⟩, ⟨0, 120, -13⟩, ⟨1, 50, -5⟩, ⟨0, 60, -6⟩] =
    ⟨95, 110, -20, -5⟩ := by decide +kernel

end Tcrm.DataProc
