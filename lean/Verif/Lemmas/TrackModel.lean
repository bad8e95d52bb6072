import Verif.Spec.TrackModel
import Verif.Lemmas.TrackGenRun
namespace Tcrm.TrackGen
open Tcrm.Cells

variable {G N : Type}

/-- The new position of a step. -/
def target (env : Env N) (s : St G) : ℚ × ℚ :=
  env.move s.row.bearing (env.dt * s.row.speed) s.row.lon s.row.lat

/-- What a step inside the domain does. -/
structure StepFacts (R : Rng G) (env : Env N) (eps pe lf : ℚ) (i : ℕ) (s s' : St G) (cell : ℤ)
    (land : Bool) : Prop where
  hcell : getCellNum (target env s).1 (target env s).2 env.gl env.gs = .ok cell
  hland : land = env.onLand (target env s).1 (target env s).2
  age : s'.row.age = s.row.age + env.dt
  lon : s'.row.lon = (target env s).1
  lat : s'.row.lat = (target env s).2
  jday : s'.jday = mod365 (s.jday + env.dt / 24)
  dpChi : s'.dpChi = (env.dpStats cell land).alpha * s.dpChi + (env.dpStats cell land).phi * (R.logistic s.g).1
  dp : s'.dp = if i = 1 then s.dp + (env.dpStats cell land).sigma * s'.dpChi
    else (env.dpStats cell land).mu + (env.dpStats cell land).sigma * s'.dpChi
  bChi : s'.bChi = (env.bStats cell land).alpha * s.bChi +
    (env.bStats cell land).phi * (R.logistic (R.logistic s.g).2).1
  bearing : s'.row.bearing = mod360 (if i = 1 then s.theta + env.degrees ((env.bStats cell land).sigma * s'.bChi)
    else env.degrees ((env.bStats cell land).mu + (env.bStats cell land).sigma * s'.bChi))
  vChi : s'.vChi = (env.vStats cell land).alpha * s.vChi +
    (env.vStats cell land).phi * (R.logistic (R.logistic (R.logistic s.g).2).2).1
  speed : s'.row.speed = abs (if i = 1 then s.v + |(env.vStats cell land).sigma * s'.vChi|
    else |(env.vStats cell land).mu + (env.vStats cell land).sigma * s'.vChi|)
  g : s'.g = (R.logistic (R.logistic (R.logistic s.g).2).2).2
  tol : s'.tol = if land then s.tol + env.dt else s.tol
  pressure : s'.row.pressure = if land then landPressure env lf s'.tol s
    else seaPressure env cell s'.dp s.row.pressure
  poci : s'.row.poci = getPoci env (env.envPressure s'.jday s'.row.lat s'.row.lon) s'.row.pressure
    s'.row.lat s'.jday pe
  rmax : s'.row.rmax = rmaxModel env (F.sub s'.row.poci s'.row.pressure) s'.row.lat eps
  offPressure : s'.offPressure = if land then s.offPressure else s'.row.pressure
  offPoci : s'.offPoci = if land then s.offPoci else s'.row.poci
  lfSpeed : s'.lfSpeed = if land then s.lfSpeed else s'.row.speed

theorem trackStep_inv (R : Rng G) (env : Env N) (eps : Option ℚ) (pe lf : ℚ) (i : ℕ) (s s' : St G)
    (o : Option Row) (h : trackStep R env eps pe lf i s = .ok (o, s')) :
    (outside env.gl (target env s).1 (target env s).2 = true ∧ o = none ∧ s' = s) ∨
    (outside env.gl (target env s).1 (target env s).2 = false ∧
      ∃ e cell, eps = some e ∧
        StepFacts R env e pe lf i s s' cell (env.onLand (target env s).1 (target env s).2) ∧
        o = if notValidTrackStep s'.row.pressure s'.row.poci s'.row.age then none else some s'.row) := by
  simp only [trackStep] at h
  split at h
  · rename_i ho
    simp only [Except.ok.injEq, Prod.mk.injEq] at h
    exact .inl ⟨ho, h.1.symm, h.2.symm⟩
  rename_i ho
  rw [Bool.not_eq_true] at ho
  right
  refine ⟨ho, ?_⟩
  split at h
  · simp at h
  rename_i cell hcell
  split at h
  · simp at h
  split at h
  · simp at h
  rename_i e
  refine ⟨e, cell, rfl, ?_⟩
  rcases ite_eq_iff.1 h with ⟨hv, h⟩ | ⟨hv, h⟩
  all_goals
    simp only [Except.ok.injEq, Prod.mk.injEq] at h
    obtain ⟨rfl, rfl⟩ := h
  · rw [if_pos hv]
    exact ⟨⟨hcell, rfl, rfl, rfl, rfl, rfl, rfl, rfl, rfl, rfl, rfl, rfl, rfl, rfl, rfl, rfl, rfl, rfl, rfl, rfl⟩, rfl⟩
  · rw [if_neg hv]
    exact ⟨⟨hcell, rfl, rfl, rfl, rfl, rfl, rfl, rfl, rfl, rfl, rfl, rfl, rfl, rfl, rfl, rfl, rfl, rfl, rfl, rfl⟩, rfl⟩

/-- The states of the loop, one after each time step. -/
def traj (R : Rng G) (env : Env N) (eps : Option ℚ) (pe lf : ℚ) (s0 : St G) : ℕ → St G
  | 0 => s0
  | i + 1 =>
    match trackStep R env eps pe lf (i + 1) (traj R env eps pe lf s0 i) with
    | .ok r => r.2
    | .error _ => traj R env eps pe lf s0 i

theorem trackLoop_traj (R : Rng G) (env : Env N) (eps : Option ℚ) (pe lf : ℚ) (s0 : St G) (k m : ℕ)
    (rows : List Row) (g : G)
    (h : trackLoop R env eps pe lf k (m + 1) (traj R env eps pe lf s0 m) = .ok (rows, g)) :
    rows.length ≤ k ∧
    (∀ j, j < rows.length → ∃ row, rows[j]? = some row ∧
      trackStep R env eps pe lf (m + j + 1) (traj R env eps pe lf s0 (m + j)) =
        .ok (some row, traj R env eps pe lf s0 (m + j + 1))) ∧
    (rows.length < k → trackStep R env eps pe lf (m + rows.length + 1) (traj R env eps pe lf s0 (m + rows.length)) =
        .ok (none, traj R env eps pe lf s0 (m + rows.length + 1))) ∧
    (g = (traj R env eps pe lf s0 (m + rows.length + if rows.length < k then 1 else 0)).g) := by
  induction k generalizing m rows g with
  | zero =>
    simp only [trackLoop, Except.ok.injEq, Prod.mk.injEq] at h
    obtain ⟨rfl, rfl⟩ := h
    simp
  | succ k ih =>
    simp only [trackLoop] at h
    split at h
    · simp at h
    · rename_i s' hs
      simp only [Except.ok.injEq, Prod.mk.injEq] at h
      obtain ⟨rfl, rfl⟩ := h
      have e : traj R env eps pe lf s0 (m + 1) = s' := by simp only [traj, hs]
      simp [e, hs]
    · rename_i row s' hs
      split at h
      · simp at h
      rename_i rows' g' hl
      simp only [Except.ok.injEq, Prod.mk.injEq] at h
      obtain ⟨rfl, rfl⟩ := h
      have e : traj R env eps pe lf s0 (m + 1) = s' := by simp only [traj, hs]
      rw [← e] at hl hs
      obtain ⟨i1, i2, i3, i4⟩ := ih (m + 1) rows' g' hl
      refine ⟨by simp; omega, ?_, ?_, ?_⟩
      · intro j hj
        cases j with
        | zero => exact ⟨row, rfl, hs⟩
        | succ j =>
          obtain ⟨r, h1, h2⟩ := i2 j (by simpa using hj)
          refine ⟨r, by simpa using h1, ?_⟩
          have e1 : m + 1 + j = m + (j + 1) := by omega
          rw [e1] at h2
          exact h2
      · intro hlt
        have := i3 (by simpa using hlt)
        have e1 : m + 1 + rows'.length = m + (row :: rows').length := by simp; omega
        rw [e1] at this
        exact this
      · have e1 : m + 1 + rows'.length = m + (row :: rows').length := by simp; omega
        rw [i4, e1]
        simp

/-! ### The values of a track -/

/-- The generator after a number of logistic variates. -/
def after (R : Rng G) (g : G) : ℕ → G
  | 0 => g
  | k + 1 => (R.logistic (after R g k)).2

/-- The values at each time step, from the states of the loop. -/
def pathOf (R : Rng G) (env : Env N) (eps : Option ℚ) (pe lf : ℚ) (s0 : St G) : Path :=
  let t := traj R env eps pe lf s0
  let pos : ℕ → ℚ × ℚ := fun i => match i with
    | 0 => (s0.row.lon, s0.row.lat)
    | i + 1 => target env (t i)
  { lon := fun i => (pos i).1
    lat := fun i => (pos i).2
    speed := fun i => (t i).row.speed
    bearing := fun i => (t i).row.bearing
    day := fun i => (t i).jday
    centre := fun i => (t i).row.pressure
    outer := fun i => (t i).row.poci
    rmax := fun i => (t i).row.rmax
    cell := fun i => match getCellNum (pos i).1 (pos i).2 env.gl env.gs with
      | .ok c => c
      | .error _ => 0
    land := fun i => env.onLand (pos i).1 (pos i).2
    chiP := fun i => (t i).dpChi
    chiB := fun i => (t i).bChi
    chiV := fun i => (t i).vChi
    rate := fun i => (t i).dp }

theorem mod360_wraps (x : ℚ) : Wraps 360 x (mod360 x) := by
  refine ⟨(mod360_range x).1, (mod360_range x).2, ⌊x / 360⌋, ?_⟩
  unfold mod360
  ring

theorem mod365_wraps (x : ℚ) : Wraps 365 x (mod365 x) := by
  have h1 := Int.floor_le (x / 365)
  have h2 := Int.lt_floor_add_one (x / 365)
  rw [le_div_iff₀ (by norm_num)] at h1
  rw [div_lt_iff₀ (by norm_num)] at h2
  refine ⟨?_, ?_, ⌊x / 365⌋, ?_⟩ <;> unfold mod365 <;> linarith

theorem wraps_add {m x y z w : ℚ} (h : Wraps m x y) (h' : Wraps m (y + z) w) : Wraps m (x + z) w := by
  obtain ⟨-, -, k, hk⟩ := h
  obtain ⟨h1, h2, l, hl⟩ := h'
  refine ⟨h1, h2, k + l, ?_⟩
  push_cast
  linarith

theorem getPoci_isOuter (env : Env N) (ambient : ℚ) (p : F) (lat day eps : ℚ) :
    IsOuter env ambient p lat day eps (getPoci env ambient p lat day eps) := by
  intro e
  unfold getPoci
  cases p with
  | none => simp
  | some p =>
    simp only [Option.bind_some, Option.some.injEq, exists_eq_left']
    by_cases h1 : ambient < p
    · rw [if_pos h1]
      simp [not_le.2 h1]
    · rw [if_neg h1]
      by_cases h2 : p = env.missing
      · rw [if_pos h2]
        simp [h2]
      · rw [if_neg h2]
        simp only [Option.some.injEq, ne_eq, h2, not_false_eq_true, not_lt.1 h1, true_and]
        constructor
        · intro h
          rw [← h]
          ring
        · intro h
          rw [h]
          ring

section Run

variable (R : Rng G) (env : Env N) (e pe lf : ℚ) (s0 : St G)

/-- The state at the beginning of a track. -/
structure Start (s : St G) : Prop where
  age : s.row.age = 0
  tol : s.tol = 0
  offPressure : s.offPressure = s.row.pressure
  offPoci : s.offPoci = s.row.poci
  lfSpeed : s.lfSpeed = s.row.speed
  theta : s.theta = s.row.bearing
  v : s.v = s.row.speed
  vChi : s.vChi = 0
  bChi : s.bChi = 0
  dpChi : s.dpChi = 0
  dp : s.dp = 0

/-- Step `j + 1` was computed. -/
def Good (j : ℕ) : Prop :=
  StepFacts R env e pe lf (j + 1) (traj R env (some e) pe lf s0 j) (traj R env (some e) pe lf s0 (j + 1))
    ((pathOf R env (some e) pe lf s0).cell (j + 1)) ((pathOf R env (some e) pe lf s0).land (j + 1))

variable {R env e pe lf s0}

local notation "𝔱" => traj R env (some e) pe lf s0
local notation "𝔵" => pathOf R env (some e) pe lf s0

theorem run_position {n : ℕ} (h : ∀ j, j < n → Good R env e pe lf s0 j) {j : ℕ} (hj : j ≤ n) :
    (𝔱 j).row.lon = (𝔵).lon j ∧ (𝔱 j).row.lat = (𝔵).lat j := by
  cases j with
  | zero => exact ⟨rfl, rfl⟩
  | succ j =>
    have f := h j (by omega)
    exact ⟨f.lon, f.lat⟩

theorem run_age (hs : Start s0) {n : ℕ} (h : ∀ j, j < n → Good R env e pe lf s0 j) {j : ℕ} (hj : j ≤ n) :
    (𝔱 j).row.age = j * env.dt := by
  induction j with
  | zero => simp [traj, hs.age]
  | succ j ih =>
    rw [(h j (by omega)).age, ih (by omega)]
    push_cast
    ring

theorem run_tol (hs : Start s0) {n : ℕ} (h : ∀ j, j < n → Good R env e pe lf s0 j) {j : ℕ} (hj : j ≤ n) :
    (𝔱 j).tol = hoursOverLand 𝔵 env.dt j := by
  induction j with
  | zero => simp [traj, hs.tol, hoursOverLand]
  | succ j ih =>
    rw [(h j (by omega)).tol, ih (by omega)]
    unfold hoursOverLand
    rw [List.range_succ (n := j + 1), List.filter_append, List.length_append]
    cases hl : (𝔵).land (j + 1)
    · simp [hl]
    · simp [hl]
      ring

theorem run_coast (hs : Start s0) {n : ℕ} (h : ∀ j, j < n → Good R env e pe lf s0 j) {j : ℕ} (hj : j ≤ n)
    {k : ℕ} (hk : LastAtSea 𝔵 (j + 1) k) :
    (𝔱 j).offPressure = (𝔵).centre k ∧ (𝔱 j).offPoci = (𝔵).outer k ∧ (𝔱 j).lfSpeed = (𝔵).speed k := by
  induction j with
  | zero =>
    obtain ⟨h1, -, -⟩ := hk
    obtain rfl : k = 0 := by omega
    exact ⟨hs.offPressure, hs.offPoci, hs.lfSpeed⟩
  | succ j ih =>
    have f := h j (by omega)
    obtain ⟨h1, h2, h3⟩ := hk
    rw [f.offPressure, f.offPoci, f.lfSpeed]
    by_cases hkj : k = j + 1
    · subst hkj
      have hl : (𝔵).land (j + 1) = false := by
        rcases h2 with h2 | h2
        · omega
        · exact h2
      simp only [hl, Bool.false_eq_true, if_false]
      exact ⟨rfl, rfl, rfl⟩
    · have hl : (𝔵).land (j + 1) = true := h3 (j + 1) (by omega) (by omega)
      simp only [hl, if_true]
      exact ih (by omega) ⟨by omega, h2, fun i hi hi' => h3 i hi (by omega)⟩

theorem run_day {n : ℕ} (h : ∀ j, j < n → Good R env e pe lf s0 j) {j : ℕ} (hj : j < n) :
    Wraps 365 ((𝔵).day 0 + (j + 1 : ℕ) * env.dt / 24) ((𝔵).day (j + 1)) := by
  induction j with
  | zero =>
    have e1 : (𝔵).day 1 = mod365 ((𝔵).day 0 + env.dt / 24) := (h 0 hj).jday
    rw [e1]
    simpa using mod365_wraps ((𝔵).day 0 + env.dt / 24)
  | succ j ih =>
    have e1 : (𝔵).day (j + 2) = mod365 ((𝔵).day (j + 1) + env.dt / 24) := (h (j + 1) hj).jday
    have := wraps_add (ih (by omega)) (mod365_wraps ((𝔵).day (j + 1) + env.dt / 24))
    rw [← e1] at this
    convert this using 1
    push_cast
    ring

theorem run_draws {n : ℕ} (h : ∀ j, j < n → Good R env e pe lf s0 j) {j : ℕ} (hj : j ≤ n) :
    (𝔱 j).g = after R s0.g (3 * j) := by
  induction j with
  | zero => rfl
  | succ j ih =>
    rw [(h j (by omega)).g, ih (by omega)]
    rfl

/-- The random numbers of a track. -/
def drawsOf (R : Rng G) (e pe lf : ℚ) (g : G) : Draws :=
  ⟨pe, lf, e, fun k => (R.logistic (after R g k)).1⟩

theorem run_evolves (hs : Start s0) {n : ℕ} (h : ∀ j, j < n → Good R env e pe lf s0 j) {j : ℕ} (hj : j < n) :
    StepLaw env 𝔵 (drawsOf R e pe lf s0.g) (j + 1) := by
  have f := h j hj
  have hpos := run_position h (show j + 1 ≤ n by omega)
  have hg := run_draws h (show j ≤ n by omega)
  have hcell := f.hcell
  constructor
  · exact hcell
  · rfl
  · exact run_day h hj
  · have := f.dpChi
    rw [hg] at this
    exact this
  · have := f.bChi
    rw [hg] at this
    exact this
  · have := f.vChi
    rw [hg] at this
    exact this
  · have := f.dp
    simp only
    change (𝔱 (j + 1)).dp = _
    rw [this]
    by_cases hi : j + 1 = 1
    · obtain rfl : j = 0 := by omega
      simp only [if_true, traj, hs.dp]
      rfl
    · rw [if_neg hi, if_neg hi]
      rfl
  · simp only
    change Wraps 360 _ (𝔱 (j + 1)).row.bearing
    rw [f.bearing]
    by_cases hi : j + 1 = 1
    · obtain rfl : j = 0 := by omega
      simp only [if_true]
      have : (𝔱 0).theta = (𝔵).bearing 0 := hs.theta
      rw [this]
      exact mod360_wraps _
    · rw [if_neg hi, if_neg hi]
      exact mod360_wraps _
  · simp only
    change (𝔱 (j + 1)).row.speed = _
    rw [f.speed]
    by_cases hi : j + 1 = 1
    · obtain rfl : j = 0 := by omega
      simp only [if_true]
      have : (𝔱 0).v = (𝔵).speed 0 := hs.v
      rw [this]
      rfl
    · rw [if_neg hi, if_neg hi, abs_abs]
      rfl
  · have hp := f.pressure
    split
    · rename_i hl
      rw [if_pos hl] at hp
      intro k hk p
      obtain ⟨c1, c2, c3⟩ := run_coast hs h (show j ≤ n by omega) hk
      have ht := run_tol hs h (show j + 1 ≤ n by omega)
      have hprev : (𝔱 j).row.poci = (𝔵).outer (j + 1 - 1) := rfl
      change (𝔱 (j + 1)).row.pressure = some p ↔ _
      rw [hp]
      unfold landPressure
      rw [c1, c2, c3, hprev, ht]
      cases (𝔵).outer k <;> cases (𝔵).centre k <;> cases (𝔵).outer (j + 1 - 1) <;>
        simp [F.sub, F.mul]
      rw [eq_comm, show (drawsOf R e pe lf s0.g).land = lf from rfl]
      ring_nf
    · rename_i hl
      rw [if_neg hl] at hp
      intro p
      have hprev : (𝔱 j).row.pressure = (𝔵).centre (j + 1 - 1) := rfl
      change (𝔱 (j + 1)).row.pressure = some p ↔ _
      rw [hp, hprev]
      unfold seaPressure
      have hr : (𝔱 (j + 1)).dp = (𝔵).rate (j + 1) := rfl
      rw [hr]
      cases (𝔵).centre (j + 1 - 1) with
      | none => simp [F.add, F.lt]
      | some q =>
        simp only [F.add, F.lt, Option.bind_some, Option.map_some, decide_eq_true_eq, Option.some.injEq,
          exists_eq_left', mul_comm env.dt]
        split <;> simp [eq_comm]
  · have := getPoci_isOuter env (env.envPressure ((𝔱 (j + 1)).jday) ((𝔱 (j + 1)).row.lat)
      ((𝔱 (j + 1)).row.lon)) (𝔱 (j + 1)).row.pressure (𝔱 (j + 1)).row.lat (𝔱 (j + 1)).jday pe
    rw [← f.poci, hpos.1, hpos.2] at this
    exact this
  · intro r
    have hr := f.rmax
    rw [hpos.2] at hr
    change (𝔱 (j + 1)).row.rmax = some r ↔ _
    rw [hr]
    have e1 : (𝔱 (j + 1)).row.poci = (𝔵).outer (j + 1) := rfl
    have e2 : (𝔱 (j + 1)).row.pressure = (𝔵).centre (j + 1) := rfl
    rw [e1, e2]
    cases (𝔵).outer (j + 1) <;> cases (𝔵).centre (j + 1) <;> simp [F.sub, rmaxModel]
    rw [eq_comm, sub_eq_add_neg 4.22, ← neg_mul]
    rfl

end Run

end Tcrm.TrackGen
