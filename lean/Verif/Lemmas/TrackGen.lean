import Verif.Spec.TrackGen
import Mathlib.Tactic.Linarith
import Mathlib.Tactic.Ring
import Mathlib.Tactic.Positivity
import Mathlib.Tactic.FieldSimp
import Mathlib.Tactic.NormNum
namespace Tcrm.TrackGen
open Tcrm.Cells

variable {G N : Type}

theorem mod360_range (x : ℚ) : 0 ≤ mod360 x ∧ mod360 x < 360 := by
  have h1 := Int.floor_le (x / 360)
  have h2 := Int.lt_floor_add_one (x / 360)
  rw [le_div_iff₀ (by norm_num)] at h1
  rw [div_lt_iff₀ (by norm_num)] at h2
  simp only [mod360]
  constructor <;> linarith

theorem flt_some {a b : F} (h : F.lt a b = true) : ∃ x y, a = some x ∧ b = some y ∧ x < y := by
  cases a <;> cases b <;> simp [F.lt] at h ⊢
  exact h

theorem getPoci_some (env : Env N) (penv : ℚ) (p : F) (lat jday eps e : ℚ)
    (h : getPoci env penv p lat jday eps = some e) : ∃ x, p = some x := by
  cases p with
  | none => simp [getPoci] at h
  | some x => exact ⟨x, rfl⟩

theorem valid_step {p e : F} {age : ℚ} (h : notValidTrackStep p e age = false)
    (hp : ∀ y, e = some y → ∃ x, p = some x) :
    ∃ x y, p = some x ∧ e = some y ∧ (12 < age → 5 ≤ y - x) ∧ (age ≤ 12 → 2 ≤ y - x) := by
  cases e with
  | none => simp [notValidTrackStep] at h
  | some y =>
    obtain ⟨x, rfl⟩ := hp y rfl
    refine ⟨x, y, rfl, rfl, ?_, ?_⟩
    · intro ha
      by_contra hc
      simp [notValidTrackStep, F.sub, F.lt, ha, not_le.1 hc] at h
    · intro ha
      by_contra hc
      simp [notValidTrackStep, F.sub, F.lt, ha, not_le.1 hc, not_lt.2 ha] at h

theorem trackStep_some (R : Rng G) (env : Env N) (eps : Option ℚ) (pe lf : ℚ) (i : ℕ) (s s' : St G)
    (row : Row) (h : trackStep R env eps pe lf i s = .ok (some row, s')) :
    s'.row = row ∧ row.age = s.row.age + env.dt ∧ Follows env s.row row ∧ GoodStep env.gl row := by
  simp only [trackStep] at h
  split at h
  · simp at h
  rename_i hin
  split at h
  · simp at h
  split at h
  · simp at h
  split at h
  · simp at h
  rcases ite_eq_iff.1 h with ⟨-, h⟩ | ⟨hv, h⟩
  · simp at h
  simp only [Except.ok.injEq, Prod.mk.injEq, Option.some.injEq] at h
  obtain ⟨hrow, hs⟩ := h
  rw [Bool.not_eq_true] at hv
  subst hrow
  subst hs
  refine ⟨rfl, rfl, rfl, ?_, abs_nonneg _, ?_, ?_⟩
  · simp only [outside, decide_eq_true_eq, not_or, not_lt, not_le] at hin
    exact ⟨hin.1, hin.2.1, hin.2.2.1, hin.2.2.2⟩
  · exact mod360_range _
  · exact valid_step hv (fun y hy => getPoci_some _ _ _ _ _ _ _ hy)

theorem trackLoop_ok (R : Rng G) (env : Env N) (eps : Option ℚ) (pe lf : ℚ) (k i : ℕ) (s : St G)
    (rows : List Row) (g : G) (h : trackLoop R env eps pe lf k i s = .ok (rows, g)) :
    rows.length ≤ k ∧ (∀ r ∈ rows, GoodStep env.gl r) ∧
    (∀ (m : ℕ) (r : Row), (s.row :: rows)[m]? = some r → r.age = s.row.age + m * env.dt) ∧
    (∀ (m : ℕ) (a b : Row), (s.row :: rows)[m]? = some a → rows[m]? = some b → Follows env a b) := by
  induction k generalizing i s rows g with
  | zero =>
    simp only [trackLoop, Except.ok.injEq, Prod.mk.injEq] at h
    obtain ⟨rfl, -⟩ := h
    refine ⟨by simp, by simp, ?_, by simp⟩
    intro m r hm
    cases m with
    | zero => simp at hm; subst hm; simp
    | succ m => simp at hm
  | succ k ih =>
    simp only [trackLoop] at h
    split at h
    · simp at h
    · simp only [Except.ok.injEq, Prod.mk.injEq] at h
      obtain ⟨rfl, -⟩ := h
      refine ⟨by simp, by simp, ?_, by simp⟩
      intro m r hm
      cases m with
      | zero => simp at hm; subst hm; simp
      | succ m => simp at hm
    · rename_i row s' hs
      split at h
      · simp at h
      rename_i rows' g' hl
      simp only [Except.ok.injEq, Prod.mk.injEq] at h
      obtain ⟨rfl, rfl⟩ := h
      obtain ⟨hr, ha, hf, hg⟩ := trackStep_some R env eps pe lf i s s' row hs
      obtain ⟨i1, i2, i3, i4⟩ := ih (i + 1) s' rows' g' hl
      rw [hr] at i3 i4
      refine ⟨by simp; omega, ?_, ?_, ?_⟩
      · intro r hr'
        rcases List.mem_cons.1 hr' with rfl | h'
        · exact hg
        · exact i2 r h'
      · intro m r hm
        cases m with
        | zero => simp at hm; subst hm; simp
        | succ m =>
          rw [List.getElem?_cons_succ] at hm
          rw [i3 m r hm, ha]
          push_cast; ring
      · intro m a b hma hmb
        cases m with
        | zero =>
          simp at hma hmb
          rw [← hma, ← hmb]; exact hf
        | succ m =>
          rw [List.getElem?_cons_succ] at hma hmb
          exact i4 m a b hma hmb

theorem roundHalfEven_mono {x y : ℚ} (h : x ≤ y) : roundHalfEven x ≤ roundHalfEven y := by
  have hf : ⌊x⌋ ≤ ⌊y⌋ := Int.floor_mono h
  have bounds : ∀ z : ℚ, ⌊z⌋ ≤ roundHalfEven z ∧ roundHalfEven z ≤ ⌊z⌋ + 1 := by
    intro z
    simp only [roundHalfEven]
    split
    · omega
    · split
      · omega
      · split <;> omega
  rcases hf.lt_or_eq with hlt | heq
  · have := (bounds x).2
    have := (bounds y).1
    omega
  · simp only [roundHalfEven, heq]
    split_ifs <;> first | omega | (exfalso; linarith)

theorem round2_lt {x y : ℚ} (h : round2 x < round2 y) : x < y := by
  by_contra hc
  push Not at hc
  have := roundHalfEven_mono (x := 100 * y) (y := 100 * x) (by linarith)
  have h2 : (roundHalfEven (100 * y) : ℚ) ≤ roundHalfEven (100 * x) := by exact_mod_cast this
  simp only [round2] at h
  have h3 : (roundHalfEven (100 * y) : ℚ) / 100 ≤ roundHalfEven (100 * x) / 100 := by
    apply div_le_div_of_nonneg_right h2; norm_num
  linarith

theorem accept_valid (env : Env N) (t : Track) (h : accept env t = true) :
    ValidTrack env.inner t.rows := by
  simp only [accept] at h
  split at h
  · rename_i first rest last hrows hlast
    simp only [Bool.and_eq_true, Bool.not_eq_true', decide_eq_false_iff_not, not_lt,
      List.all_eq_true] at h
    obtain ⟨⟨⟨⟨⟨h1, h2⟩, h3⟩, h4, h5⟩, h6⟩, h7⟩ := h
    have hhead : t.rows.head? = some first := by rw [hrows]; rfl
    refine ⟨by rw [hrows]; simp, ⟨last, List.mem_of_getLast? hlast, h1⟩, ?_, ?_, ?_, ?_, ?_⟩
    · intro r hr
      rw [hhead, Option.some.injEq] at hr
      subst hr
      obtain ⟨x, y, hx, hy, hxy⟩ := flt_some h2
      cases hx
      cases hpo : first.poci <;> cases hpr : first.pressure <;> simp [F.sub, hpo, hpr] at hy
      exact ⟨_, _, rfl, rfl, by rw [hy]; exact hxy⟩
    · intro r hr
      obtain ⟨x, y, hx, hy, hxy⟩ := flt_some (h3 r hr)
      cases hpo : r.poci <;> cases hpr : r.pressure <;> simp [hpo, hpr] at hx hy
      exact ⟨_, _, rfl, rfl, round2_lt (by rw [hx, hy]; exact hxy)⟩
    · intro r hr
      obtain ⟨x, y, hx, hy, hxy⟩ := flt_some (h4 r hr)
      obtain ⟨x', y', hx', hy', hxy'⟩ := flt_some (h5 r hr)
      cases hx
      cases hy'
      rw [hy] at hx'
      cases hx'
      exact ⟨y, hy, hxy, hxy'⟩
    · intro r hr
      rw [hhead, Option.some.injEq] at hr
      subst hr
      obtain ⟨x, y, hx, hy, hxy⟩ := flt_some h6
      cases hy
      exact ⟨x, hx, hxy⟩
    · intro l hl r hr
      rw [hl] at h7
      simp only [List.all_eq_true, decide_eq_true_eq] at h7
      exact h7 r hr
  · simp at h

/-- Facts about the tracks of a loop, given facts about each attempt. -/
theorem genLoop_ok (R : Rng G) (env : Env N) (init : Init) (year simId : ℤ)
    (I : W G N → Prop) (P : Track → Prop)
    (hI : ∀ fuel j w o w', I w → attempt R env fuel init year simId j w = .ok (o, w') → I w')
    (hP : ∀ fuel j w t w', I w → attempt R env fuel init year simId j w = .ok (some t, w') →
      P t ∧ t.num = j ∧ t.simId = simId)
    (fuel todo j : ℕ) (w : W G N) (ts : List Track) (w' : W G N) (hw : I w)
    (h : genLoop R env init year simId fuel todo j w = .ok (ts, w')) :
    ts.length = todo ∧ I w' ∧ (∀ t ∈ ts, P t) ∧
      ∀ (k : ℕ) (t : Track), ts[k]? = some t → t.num = j + k ∧ t.simId = simId := by
  induction fuel generalizing todo j w ts w' with
  | zero =>
    cases todo with
    | zero =>
      simp only [genLoop, Except.ok.injEq, Prod.mk.injEq] at h
      obtain ⟨rfl, rfl⟩ := h
      simp [hw]
    | succ todo => simp [genLoop] at h
  | succ fuel ih =>
    cases todo with
    | zero =>
      simp only [genLoop, Except.ok.injEq, Prod.mk.injEq] at h
      obtain ⟨rfl, rfl⟩ := h
      simp [hw]
    | succ todo =>
      simp only [genLoop] at h
      split at h
      · simp at h
      · rename_i w1 ha
        exact ih (todo + 1) j w1 ts w' (hI _ _ _ _ _ hw ha) h
      · rename_i t w1 ha
        split at h
        · simp at h
        rename_i ts' w2 hl
        simp only [Except.ok.injEq, Prod.mk.injEq] at h
        obtain ⟨rfl, rfl⟩ := h
        obtain ⟨hPt, hn, hsim⟩ := hP _ _ _ _ _ hw ha
        obtain ⟨i1, i2, i3, i4⟩ := ih todo (j + 1) w1 ts' w2 (hI _ _ _ _ _ hw ha) hl
        refine ⟨by simp [i1], i2, ?_, ?_⟩
        · intro t' ht'
          rcases List.mem_cons.1 ht' with rfl | h'
          · exact hPt
          · exact i3 t' h'
        · intro k t' hk
          cases k with
          | zero => simp at hk; subst hk; simp [hn, hsim]
          | succ k =>
            rw [List.getElem?_cons_succ] at hk
            obtain ⟨e1, e2⟩ := i4 k t' hk
            exact ⟨by omega, e2⟩

/-- What an attempt that keeps a track has done. -/
theorem attempt_some (R : Rng G) (env : Env N) (fuel : ℕ) (init : Init) (year simId : ℤ) (j : ℕ)
    (w w' : W G N) (t : Track) (h : attempt R env fuel init year simId j w = .ok (some t, w')) :
    t.num = j ∧ t.simId = simId ∧ accept env t = true ∧ 2 ≤ t.gen.envPressure - t.gen.pressure ∧
    ∃ w1 g, sampleGenesis R env fuel init year w = .ok (t.gen, w1) ∧
      singleTrack R env w1.rmwEps t.gen w1.g = .ok (t.rows, g) ∧ w' = { w1 with g := g } := by
  simp only [attempt] at h
  split at h
  · simp at h
  rename_i gen w1 hg
  split at h
  · simp at h
  split at h
  · simp at h
  rename_i hdef
  split at h
  · simp at h
  rename_i rows g hs
  simp only [Except.ok.injEq, Prod.mk.injEq] at h
  obtain ⟨h1, rfl⟩ := h
  split at h1
  · rename_i hacc
    simp only [Option.some.injEq] at h1
    subst h1
    exact ⟨rfl, rfl, hacc, not_lt.1 hdef, w1, g, hg, hs, rfl⟩
  · simp at h1

theorem singleTrack_ok (R : Rng G) (env : Env N) (eps : Option ℚ) (gen : Genesis) (g g' : G)
    (rows : List Row) (h : singleTrack R env eps gen g = .ok (rows, g')) :
    rows.length ≤ env.maxTimeSteps ∧
    (∃ poci, rows.head? = some ⟨0, gen.lon, gen.lat, gen.speed, gen.bearing, some gen.pressure, poci,
      some gen.rmax⟩) ∧
    (∀ r ∈ rows.tail, GoodStep env.gl r) ∧
    (∀ (m : ℕ) (r : Row), rows[m]? = some r → r.age = m * env.dt) ∧
    (∀ (m : ℕ) (a b : Row), rows[m]? = some a → rows[m + 1]? = some b → Follows env a b) := by
  simp only [singleTrack] at h
  split at h
  · simp at h
  rename_i h0
  split at h
  · simp at h
  rename_i rows' g1 hl
  simp only [Except.ok.injEq, Prod.mk.injEq] at h
  obtain ⟨rfl, rfl⟩ := h
  obtain ⟨h1, h2, h3, h4⟩ := trackLoop_ok _ _ _ _ _ _ _ _ _ _ hl
  refine ⟨by simp; omega, ⟨_, rfl⟩, h2, ?_, ?_⟩
  · intro m r hm
    have := h3 m r hm
    simpa using this
  · intro m a b hma hmb
    rw [List.getElem?_cons_succ] at hmb
    exact h4 m a b hma hmb

end Tcrm.TrackGen
