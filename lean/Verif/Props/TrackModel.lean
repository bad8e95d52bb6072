import Verif.Lemmas.TrackModel
import Verif.Props.TrackGen
import Verif.Props.Cdf
/-!
C146: every synthetic track obeys the track model.
-/
namespace Tcrm.TrackGen
open Tcrm.Cells

variable {G N : Type}

theorem outside_iff (gl : Limit) (lon lat : ℚ) : outside gl lon lat = true ↔ ¬ InDomain gl lon lat := by
  simp only [outside, decide_eq_true_eq, InDomain]
  constructor
  · rintro (h | h | h | h) ⟨h1, h2, h3, h4⟩ <;> linarith
  · intro h
    by_contra hc
    push Not at hc
    exact h ⟨hc.1, hc.2.1, hc.2.2.1, hc.2.2.2⟩

theorem filled_iff (p e : F) (age : ℚ) (hp : ∀ y, e = some y → ∃ x, p = some x) :
    notValidTrackStep p e age = true ↔
      ∀ y x, e = some y → p = some x → y - x < if 12 < age then 5 else 2 := by
  unfold notValidTrackStep
  cases e with
  | none => simp
  | some y =>
    obtain ⟨x, rfl⟩ := hp y rfl
    by_cases ha : 12 < age
    · simp [F.sub, F.lt, ha, not_le.2 ha]
    · simp [F.sub, F.lt, ha, not_lt.1 ha]

/-- **C146**: a track that is returned is exactly the beginning of a path that obeys the track model,
for the random numbers drawn: two for the outer pressure and the decay over land, then three logistic
variates for every step. -/
theorem C146_single_track (R : Rng G) (env : Env N) (eps : Option ℚ) (gen : Genesis) (g g' : G)
    (rows : List Row) (h : singleTrack R env eps gen g = .ok (rows, g')) :
    ∃ (x : Path) (d : Draws), Obeys env gen d x rows.length ∧
      (∀ i, i < rows.length → rows[i]? = some (x.row env.dt i)) ∧
      d.outer = (R.normal 0 2.5717 g).1 ∧
      d.land = (R.lognorm 0.69527 (-0.06146) 0.0471 (R.normal 0 2.5717 g).2).1 ∧
      (∀ e, eps = some e → d.size = e) ∧
      ∃ gs : ℕ → G, gs 0 = (R.lognorm 0.69527 (-0.06146) 0.0471 (R.normal 0 2.5717 g).2).2 ∧
        ∀ k, R.logistic (gs k) = (d.logistic k, gs (k + 1)) := by
  simp only [singleTrack] at h
  split at h
  · simp at h
  rename_i h0
  split at h
  · simp at h
  rename_i rows' g1 hl
  simp only [Except.ok.injEq, Prod.mk.injEq] at h
  obtain ⟨rfl, rfl⟩ := h
  set pe := (R.normal 0 2.5717 g).1 with hpe
  set lf := (R.lognorm 0.69527 (-0.06146) 0.0471 (R.normal 0 2.5717 g).2).1 with hlf
  set g0 := (R.lognorm 0.69527 (-0.06146) 0.0471 (R.normal 0 2.5717 g).2).2 with hg0
  set s0 : St G := { row := ⟨0, gen.lon, gen.lat, gen.speed, gen.bearing, some gen.pressure,
        getPoci env gen.envPressure (some gen.pressure) gen.lat (env.dayOfYear gen.time) pe, some gen.rmax⟩
                     jday := env.dayOfYear gen.time, tol := 0, offPressure := some gen.pressure
                     offPoci := getPoci env gen.envPressure (some gen.pressure) gen.lat
                       (env.dayOfYear gen.time) pe
                     lfSpeed := gen.speed, theta := gen.bearing, v := gen.speed, vChi := 0, bChi := 0
                     dpChi := 0, dp := 0, g := g0 } with hs0
  have hstart : Start s0 := ⟨rfl, rfl, rfl, rfl, rfl, rfl, rfl, rfl, rfl, rfl, rfl⟩
  have e0 : s0 = traj R env eps pe lf s0 0 := rfl
  rw [e0, show (1 : ℕ) = 0 + 1 from rfl] at hl
  obtain ⟨l1, l2, l3, -⟩ := trackLoop_traj R env eps pe lf s0 _ 0 rows' g1 hl
  simp only [Nat.zero_add] at l2 l3
  have hin : ∀ j o, trackStep R env eps pe lf (j + 1) (traj R env eps pe lf s0 j) =
      .ok (o, traj R env eps pe lf s0 (j + 1)) →
      InDomain env.gl ((pathOf R env eps pe lf s0).lon (j + 1)) ((pathOf R env eps pe lf s0).lat (j + 1)) →
      ∃ e, eps = some e ∧ ∃ cell, StepFacts R env e pe lf (j + 1) (traj R env eps pe lf s0 j)
        (traj R env eps pe lf s0 (j + 1)) cell ((pathOf R env eps pe lf s0).land (j + 1)) ∧
        o = if notValidTrackStep (traj R env eps pe lf s0 (j + 1)).row.pressure
          (traj R env eps pe lf s0 (j + 1)).row.poci (traj R env eps pe lf s0 (j + 1)).row.age
          then none else some (traj R env eps pe lf s0 (j + 1)).row := by
    intro j o hst hdom
    rcases trackStep_inv R env eps pe lf _ _ _ _ hst with ⟨ho, -, -⟩ | ⟨-, e, cell, h1, h2, h3⟩
    · exact absurd hdom ((outside_iff _ _ _).1 ho)
    · exact ⟨e, h1, cell, h2, h3⟩
  have hkept : ∀ j, j < rows'.length →
      InDomain env.gl ((pathOf R env eps pe lf s0).lon (j + 1)) ((pathOf R env eps pe lf s0).lat (j + 1)) := by
    intro j hj
    obtain ⟨row, -, hst⟩ := l2 j hj
    rcases trackStep_inv R env eps pe lf _ _ _ _ hst with ⟨-, ho, -⟩ | ⟨ho, -⟩
    · cases ho
    · by_contra hc
      have := (outside_iff _ _ _).2 hc
      change outside env.gl (target env (traj R env eps pe lf s0 j)).1
        (target env (traj R env eps pe lf s0 j)).2 = true at this
      rw [ho] at this
      cases this
  refine ⟨pathOf R env eps pe lf s0, drawsOf R (eps.getD 0) pe lf g0, ?_, ?_, rfl, rfl, ?_, after R g0, rfl,
    fun k => rfl⟩
  · have hcoll : ∀ e, eps = some e → ∀ j o, trackStep R env eps pe lf (j + 1) (traj R env eps pe lf s0 j) =
        .ok (o, traj R env eps pe lf s0 (j + 1)) →
        InDomain env.gl ((pathOf R env eps pe lf s0).lon (j + 1)) ((pathOf R env eps pe lf s0).lat (j + 1)) →
        Good R env e pe lf s0 j := by
      rintro e rfl j o hst hdom
      obtain ⟨e', h1, cell, h2, -⟩ := hin j o hst hdom
      cases h1
      have hc : (pathOf R env (some e) pe lf s0).cell (j + 1) = cell := by
        have := h2.hcell
        simp only [pathOf, this]
      unfold Good
      rw [hc]
      exact h2
    have hmoves : ∀ j, j ≤ rows'.length → Moves env (pathOf R env eps pe lf s0) (j + 1) := by
      intro j hj
      cases j with
      | zero => rfl
      | succ j =>
        obtain ⟨row, -, hst⟩ := l2 j (by omega)
        obtain ⟨e, h1, -⟩ := hin j _ hst (hkept j (by omega))
        subst h1
        have hall : ∀ k, k < j + 1 → Good R env e pe lf s0 k := fun k hk => by
          obtain ⟨_, -, hst⟩ := l2 k (by omega)
          exact hcoll e rfl k _ hst (hkept k (by omega))
        have hpos := run_position hall (le_refl (j + 1))
        unfold Moves
        rw [Nat.add_sub_cancel, ← hpos.1, ← hpos.2]
        rfl
    refine ⟨⟨rfl, rfl⟩, ⟨rfl, rfl⟩, ⟨rfl, rfl, getPoci_isOuter _ _ _ _ _ _⟩, rfl, ⟨rfl, rfl, rfl⟩,
      ⟨by simp, by simp; omega⟩, ?_, ?_⟩
    · intro i hi hin'
      obtain ⟨j, rfl⟩ : ∃ j, i = j + 1 := ⟨i - 1, by omega⟩
      have hj : j < rows'.length := by simpa using hin'
      obtain ⟨row, hrow, hst⟩ := l2 j hj
      obtain ⟨e, h1, cell, h2, h3⟩ := hin j _ hst (hkept j hj)
      subst h1
      have hall : ∀ k, k < j + 1 → Good R env e pe lf s0 k := fun k hk => by
        obtain ⟨_, -, hst⟩ := l2 k (by omega)
        exact hcoll e rfl k _ hst (hkept k (by omega))
      refine ⟨hmoves j (by omega), hkept j hj, run_evolves hstart hall (by omega), ?_⟩
      intro hf
      have hage := run_age hstart hall (le_refl (j + 1))
      have hv := (filled_iff (traj R env (some e) pe lf s0 (j + 1)).row.pressure
        (traj R env (some e) pe lf s0 (j + 1)).row.poci (traj R env (some e) pe lf s0 (j + 1)).row.age
        (fun y hy => getPoci_some _ _ _ _ _ _ _ (h2.poci.symm.trans hy))).2 (by rw [hage]; exact hf)
      rw [if_pos hv] at h3
      cases h3
    · intro hlt
      refine ⟨hmoves _ (le_refl _), ?_⟩
      have hlen : (s0.row :: rows').length = rows'.length + 1 := rfl
      have hst := l3 (by simp at hlt; omega)
      by_cases hdom : InDomain env.gl ((pathOf R env eps pe lf s0).lon (rows'.length + 1))
          ((pathOf R env eps pe lf s0).lat (rows'.length + 1))
      · right
        obtain ⟨e, h1, cell, h2, h3⟩ := hin _ _ hst hdom
        subst h1
        have hall : ∀ k, k < rows'.length + 1 → Good R env e pe lf s0 k := fun k hk => by
          by_cases hk' : k = rows'.length
          · subst hk'
            exact hcoll e rfl _ _ hst hdom
          · obtain ⟨_, -, hst⟩ := l2 k (by omega)
            exact hcoll e rfl k _ hst (hkept k (by omega))
        refine ⟨run_evolves hstart hall (by omega), ?_⟩
        have hage := run_age hstart hall (le_refl (rows'.length + 1))
        have hv : notValidTrackStep (traj R env (some e) pe lf s0 (rows'.length + 1)).row.pressure
            (traj R env (some e) pe lf s0 (rows'.length + 1)).row.poci
            (traj R env (some e) pe lf s0 (rows'.length + 1)).row.age = true := by
          by_contra hc
          rw [if_neg hc] at h3
          cases h3
        have := (filled_iff _ _ _
          (fun y hy => getPoci_some _ _ _ _ _ _ _ (h2.poci.symm.trans hy))).1 hv
        rw [hage] at this
        exact this
      · exact .inl hdom
  · intro i hi
    cases i with
    | zero => simp [Path.row, pathOf, traj, hs0]
    | succ j =>
      have hj : j < rows'.length := by simpa using hi
      obtain ⟨row, hrow, hst⟩ := l2 j hj
      obtain ⟨e, h1, cell, h2, h3⟩ := hin j _ hst (hkept j hj)
      subst h1
      have hall : ∀ k, k < j + 1 → Good R env e pe lf s0 k := fun k hk => by
        obtain ⟨_, -, hst⟩ := l2 k (by omega)
        obtain ⟨e', h1, cell, h2, -⟩ := hin k _ hst (hkept k (by omega))
        cases h1
        have hc : (pathOf R env (some e) pe lf s0).cell (k + 1) = cell := by
          have := h2.hcell
          simp only [pathOf, this]
        unfold Good
        rw [hc]
        exact h2
      have hage := run_age hstart hall (le_refl (j + 1))
      have hpos := run_position hall (le_refl (j + 1))
      rw [List.getElem?_cons_succ, hrow, Option.some.injEq]
      split at h3
      · cases h3
      · cases h3
        unfold Path.row
        rw [← hage, ← hpos.1, ← hpos.2]
        rfl
  · rintro e rfl
    rfl

/-! ### The model determines the track -/

/-- Two paths agree in the values of a time step. -/
structure Agree (x y : Path) (i : ℕ) : Prop where
  lon : x.lon i = y.lon i
  lat : x.lat i = y.lat i
  speed : x.speed i = y.speed i
  bearing : x.bearing i = y.bearing i
  centre : x.centre i = y.centre i
  outer : x.outer i = y.outer i
  rmax : x.rmax i = y.rmax i
  chiP : x.chiP i = y.chiP i
  chiB : x.chiB i = y.chiB i
  chiV : x.chiV i = y.chiV i
  land : 0 < i → x.land i = y.land i

theorem wraps_unique {m x y z : ℚ} (h : Wraps m x y) (h' : Wraps m x z) : y = z := by
  obtain ⟨h1, h2, k, hk⟩ := h
  obtain ⟨h3, h4, l, hl⟩ := h'
  have hm : 0 < m := by linarith
  have e : y - z = (l - k) * m := by linarith
  have : l = k := by
    by_contra hne
    rcases lt_or_gt_of_ne hne with hlt | hlt
    · have : (l : ℚ) + 1 ≤ k := by exact_mod_cast hlt
      nlinarith
    · have : (k : ℚ) + 1 ≤ l := by exact_mod_cast hlt
      nlinarith
  rw [this] at e
  linarith

theorem isOuter_unique {env : Env N} {a : ℚ} {c : F} {lat day eps : ℚ} {o o' : F}
    (h : IsOuter env a c lat day eps o) (h' : IsOuter env a c lat day eps o') : o = o' :=
  Option.ext fun e => (h e).trans (h' e).symm

theorem hoursOverLand_congr {x y : Path} (dt : ℚ) (i : ℕ) (h : ∀ j, 0 < j → j ≤ i → x.land j = y.land j) :
    hoursOverLand x dt i = hoursOverLand y dt i := by
  unfold hoursOverLand
  congr 3
  apply List.filter_congr
  intro j hj
  rw [List.mem_range] at hj
  by_cases h0 : 0 < j
  · rw [h j h0 (by omega)]
  · simp [h0]

theorem lastAtSea_exists (x : Path) (i : ℕ) (hi : 0 < i) : ∃ k, LastAtSea x i k := by
  induction i with
  | zero => omega
  | succ i ih =>
    by_cases h0 : i = 0
    · exact ⟨0, by omega, .inl rfl, fun j hj hj' => by omega⟩
    · cases hl : x.land i with
      | false => exact ⟨i, by omega, .inr hl, fun j hj hj' => by omega⟩
      | true =>
        obtain ⟨k, h1, h2, h3⟩ := ih (by omega)
        refine ⟨k, by omega, h2, fun j hj hj' => ?_⟩
        by_cases hji : j = i
        · rw [hji]; exact hl
        · exact h3 j hj (by omega)

theorem evolves_unique {env : Env N} {x y : Path} {d : Draws} {i : ℕ} (hi : 0 < i)
    (hday : x.day 0 = y.day 0) (h0 : ∀ j, j < i → Agree x y j)
    (hpos : x.lon i = y.lon i ∧ x.lat i = y.lat i)
    (hx : StepLaw env x d i) (hy : StepLaw env y d i) : Agree x y i := by
  have hcell : x.cell i = y.cell i := by
    have h1 := hx.cell
    rw [hpos.1, hpos.2, hy.cell] at h1
    exact (Except.ok.inj h1).symm
  have hland : x.land i = y.land i := by rw [hx.land, hy.land, hpos.1, hpos.2]
  have hd : x.day i = y.day i := by
    have h1 := hx.day
    rw [hday] at h1
    exact wraps_unique h1 hy.day
  have hprev := h0 (i - 1) (by omega)
  have hcP : x.chiP i = y.chiP i := by
    have h1 := hx.chiP
    have h2 := hy.chiP
    unfold Autoregressive at h1 h2
    rw [h1, h2, hcell, hland, hprev.chiP]
  have hcB : x.chiB i = y.chiB i := by
    have h1 := hx.chiB
    have h2 := hy.chiB
    unfold Autoregressive at h1 h2
    rw [h1, h2, hcell, hland, hprev.chiB]
  have hcV : x.chiV i = y.chiV i := by
    have h1 := hx.chiV
    have h2 := hy.chiV
    unfold Autoregressive at h1 h2
    rw [h1, h2, hcell, hland, hprev.chiV]
  have hrate : x.rate i = y.rate i := by
    have h1 := hx.rate
    have h2 := hy.rate
    simp only at h1 h2
    rw [h1, h2, hcell, hland, hcP]
  have hb : x.bearing i = y.bearing i := by
    have h1 := hx.bearing
    have h2 := hy.bearing
    simp only at h1 h2
    rw [hcell, hland, hcB, (h0 0 hi).bearing] at h1
    exact wraps_unique h1 h2
  have hs : x.speed i = y.speed i := by
    have h1 := hx.speed
    have h2 := hy.speed
    simp only at h1 h2
    rw [h1, h2, hcell, hland, hcV, (h0 0 hi).speed]
  have hc : x.centre i = y.centre i := by
    have h1 := hx.centre
    have h2 := hy.centre
    rw [hland] at h1
    split at h1
    · rename_i hl
      rw [if_pos hl] at h2
      obtain ⟨k, hk⟩ := lastAtSea_exists x i hi
      have hk' : LastAtSea y i k := by
        obtain ⟨a, b, c⟩ := hk
        refine ⟨a, ?_, fun j hj hj' => ?_⟩
        · rcases b with b | b
          · exact .inl b
          · by_cases h00 : k = 0
            · exact .inl h00
            · right
              rw [← (h0 k a).land (by omega)]
              exact b
        · rw [← (h0 j hj').land (by omega)]
          exact c j hj hj'
      have hhours : hoursOverLand x env.dt i = hoursOverLand y env.dt i := by
        apply hoursOverLand_congr
        intro j hj hj'
        by_cases hji : j = i
        · rw [hji]; exact hland
        · exact (h0 j (by omega)).land hj
      apply Option.ext
      intro p
      rw [h1 k hk p, h2 k hk' p, hhours, (h0 k hk.1).outer, (h0 k hk.1).centre,
        (h0 k hk.1).speed, hprev.outer]
    · rename_i hl
      rw [if_neg hl] at h2
      apply Option.ext
      intro p
      rw [h1 p, h2 p, hcell, hrate, hprev.centre]
  have ho : x.outer i = y.outer i := by
    have h1 := hx.outer
    rw [hd, hpos.1, hpos.2, hc] at h1
    exact isOuter_unique h1 hy.outer
  have hr : x.rmax i = y.rmax i := by
    apply Option.ext
    intro r
    rw [hx.rmax r, hy.rmax r, ho, hc, hpos.2]
  exact ⟨hpos.1, hpos.2, hs, hb, hc, ho, hr, hcP, hcB, hcV, fun _ => hland⟩

theorem moves_unique {env : Env N} {x y : Path} {i : ℕ} (h : Agree x y (i - 1)) (hx : Moves env x i)
    (hy : Moves env y i) : x.lon i = y.lon i ∧ x.lat i = y.lat i := by
  unfold Moves at hx hy
  rw [h.bearing, h.speed, h.lon, h.lat, ← hy] at hx
  exact ⟨congrArg Prod.fst hx, congrArg Prod.snd hx⟩

theorem obeys_agree {env : Env N} {gen : Genesis} {d : Draws} {x y : Path} {n m : ℕ}
    (hx : Obeys env gen d x n) (hy : Obeys env gen d y m) (i : ℕ) (hi : i < n) (hi' : i < m) :
    Agree x y i := by
  induction i using Nat.strong_induction_on with
  | _ i ih =>
    by_cases h0 : i = 0
    · subst h0
      have hday : x.day 0 = y.day 0 := hx.day.trans hy.day.symm
      have ho := hx.intensity.2.2
      rw [hday] at ho
      exact ⟨hx.position.1.trans hy.position.1.symm, hx.position.2.trans hy.position.2.symm,
        hx.motion.1.trans hy.motion.1.symm, hx.motion.2.trans hy.motion.2.symm,
        hx.intensity.1.trans hy.intensity.1.symm, isOuter_unique ho hy.intensity.2.2,
        hx.intensity.2.1.trans hy.intensity.2.1.symm, hx.chi.1.trans hy.chi.1.symm,
        hx.chi.2.1.trans hy.chi.2.1.symm, hx.chi.2.2.trans hy.chi.2.2.symm, fun h => absurd h (by omega)⟩
    · obtain ⟨a1, -, a3, -⟩ := hx.steps i (by omega) hi
      obtain ⟨b1, -, b3, -⟩ := hy.steps i (by omega) hi'
      have hprev : ∀ j, j < i → Agree x y j := fun j hj => ih j hj (by omega) (by omega)
      exact evolves_unique (by omega) (hx.day.trans hy.day.symm) hprev
        (moves_unique (hprev (i - 1) (by omega)) a1 b1) a3 b3

theorem obeys_not_shorter {env : Env N} {gen : Genesis} {d : Draws} {x y : Path} {n m : ℕ}
    (hx : Obeys env gen d x n) (hy : Obeys env gen d y m) : ¬ n < m := by
  intro hlt
  obtain ⟨a1, a2⟩ := hx.ends (lt_of_lt_of_le hlt hy.length.2)
  obtain ⟨b1, b2, b3, b4⟩ := hy.steps n hx.length.1 hlt
  have hprev : ∀ j, j < n → Agree x y j := fun j hj => obeys_agree hx hy j hj (by omega)
  have hpos := moves_unique (hprev (n - 1) (by have := hx.length.1; omega)) a1 b1
  rcases a2 with a2 | ⟨a2, a3⟩
  · rw [hpos.1, hpos.2] at a2
    exact a2 b2
  · have h := evolves_unique hx.length.1 (hx.day.trans hy.day.symm) hprev hpos a2 b3
    refine b4 fun e p he hp => ?_
    exact a3 e p (h.outer.trans he) (h.centre.trans hp)

/-- **C146**: the model leaves no choice: genesis and random numbers determine the length and all rows
of a track. -/
theorem C146_determined {env : Env N} {gen : Genesis} {d : Draws} {x y : Path} {n m : ℕ}
    (hx : Obeys env gen d x n) (hy : Obeys env gen d y m) :
    n = m ∧ ∀ i, i < n → x.row env.dt i = y.row env.dt i := by
  have hnm : n = m := by
    have h1 := obeys_not_shorter hx hy
    have h2 := obeys_not_shorter hy hx
    omega
  refine ⟨hnm, fun i hi => ?_⟩
  have h := obeys_agree hx hy i hi (by omega)
  unfold Path.row
  rw [h.lon, h.lat, h.speed, h.bearing, h.centre, h.outer, h.rmax]

/-! ### Genesis -/

theorem sampleOr_none (R : Rng G) (table : List (ℚ × ℚ)) (g g' : G) (v : ℚ)
    (h : sampleOr R none table g = .ok (v, g')) : DrawnFrom R table v := by
  simp only [sampleOr, truthy, Option.filter_none] at h
  split at h
  · simp at h
  rename_i x hx
  simp only [Except.ok.injEq, Prod.mk.injEq] at h
  obtain ⟨rfl, -⟩ := h
  exact ⟨_, ⟨g, rfl⟩, (Tcrm.Cdf.C06_quantile _ _ _).1 hx⟩

theorem sampleGenesis_time (R : Rng G) (env : Env N) (fuel : ℕ) (init : Init) (year : ℤ)
    (w w1 : W G N) (gen : Genesis) (h : sampleGenesis R env fuel init year w = .ok (gen, w1)) :
    ∃ u, Uniform R 0 24 u ∧ env.time year gen.day ⌊u⌋ = some gen.time := by
  simp only [sampleGenesis, bind, Except.bind] at h
  split at h
  · simp at h
  rename_i v1 h1
  obtain ⟨lon, lat, g1⟩ := v1
  simp only at h
  split at h
  · simp at h
  split at h
  · simp at h
  split at h
  · simp at h
  split at h
  · simp at h
  rename_i v5 h5
  split at h
  · simp at h
  rename_i t h6
  split at h
  · simp at h
  split at h
  · simp at h
  simp only [pure, Except.pure, Except.ok.injEq, Prod.mk.injEq] at h
  obtain ⟨rfl, -⟩ := h
  refine ⟨_, ⟨v5.2, rfl⟩, ?_⟩
  split at h6
  · rename_i t' ht
    simp only [Except.ok.injEq] at h6
    rw [← h6]
    exact ht
  · cases h6

theorem drawRmax_ok (env : Env N) (dp lat : ℚ) (fuel : ℕ) (n n' : N) (r e : ℚ)
    (h : drawRmax env dp lat fuel n = .ok (r, e, n')) :
    (∃ m, (env.npNormal 0.335 m).1 = e) ∧ r ≤ 100 ∧
      r = env.exp (4.22 - 0.0198 * dp + 0.0023 * |lat| + e) := by
  induction fuel generalizing n with
  | zero => simp [drawRmax] at h
  | succ fuel ih =>
    simp only [drawRmax] at h
    split at h
    · exact ih _ h
    · rename_i hr
      simp only [Except.ok.injEq, Prod.mk.injEq] at h
      obtain ⟨rfl, rfl, -⟩ := h
      refine ⟨⟨n, rfl⟩, not_lt.1 hr, ?_⟩
      rw [sub_eq_add_neg 4.22, ← neg_mul]

theorem upperProb_spec (table : List (ℚ × ℚ)) (top p : ℚ) (h : upperProb table top = some p) :
    ProbabilityBelow table top p := by
  unfold upperProb at h
  set ix := Tcrm.Cdf.searchsorted (table.map (·.1)) top with hix
  have hbelow : ∀ (j : ℕ) (r : ℚ × ℚ), j < ix → table[j]? = some r → r.1 < top := by
    intro j r hj hr
    have hlt : j < table.length := (List.getElem?_eq_some_iff.1 hr).1
    have := List.not_of_lt_findIdx (p := fun v : ℚ => decide (top ≤ v)) (xs := table.map (fun r : ℚ × ℚ => r.1)) (i := j) hj
    simp only [List.getElem_map] at this
    rw [(List.getElem?_eq_some_iff.1 hr).2] at this
    simpa using this
  have hat : ∀ r, table[ix]? = some r → top ≤ r.1 := by
    intro r hr
    have hlt : ix < table.length := (List.getElem?_eq_some_iff.1 hr).1
    have := List.findIdx_getElem (p := fun v : ℚ => decide (top ≤ v)) (xs := table.map (fun r : ℚ × ℚ => r.1))
      (w := by simpa [hix, Tcrm.Cdf.searchsorted] using hlt)
    simp only [List.getElem_map, decide_eq_true_eq] at this
    have e : table[ix] = r := (List.getElem?_eq_some_iff.1 hr).2
    rw [← e]
    exact this
  simp only at h
  split at h
  · rename_i h0
    rw [Option.map_eq_some_iff] at h
    obtain ⟨⟨v, p'⟩, hl, rfl⟩ := h
    have hne : table ≠ [] := by rintro rfl; simp at hl
    have hlen : 0 < table.length := List.length_pos_iff.2 hne
    refine ⟨table.length - 1, v, ?_, .inr ⟨by omega, table[0], by simp, ?_⟩⟩
    · rw [← hl, List.getLast?_eq_getElem?]
    · exact hat _ (by rw [h0]; simp)
  · rename_i h0
    rw [Option.map_eq_some_iff] at h
    obtain ⟨⟨v, p'⟩, hl, rfl⟩ := h
    refine ⟨ix - 1, v, hl, .inl ⟨fun j r hj hr => hbelow j r (by omega) hr, ?_⟩⟩
    have e : ix - 1 + 1 = ix := by omega
    rw [e]
    exact hat

/-- **C147**: the genesis conditions of every track of an event set are drawn from the distribution of
origins and the distributions of the cell of the origin; the year is common to the tracks of a
simulation; and the deviation of the radius at genesis is the one used throughout the track. -/
theorem C147_genesis (R : Rng G) (env : Env N) (fuel n : ℕ) (simId : ℤ) (w w' : W G N) (ts : List Track)
    (h : generateTracks R env fuel n simId {} w = .ok (ts, w')) :
    ∃ y, Uniform R 1900 9998 y ∧ ∀ t ∈ ts, ∃ (eps : ℚ) (x : Path) (d : Draws),
      Sampled R env ⌊y⌋ t.gen eps ∧ Obeys env t.gen d x t.rows.length ∧
      (∀ i, i < t.rows.length → t.rows[i]? = some (x.row env.dt i)) ∧ d.size = eps := by
  simp only [generateTracks] at h
  refine ⟨_, ⟨w.g, rfl⟩, ?_⟩
  obtain ⟨-, -, h3, -⟩ := genLoop_ok R env {} _ simId (fun _ => True)
    (fun t => ∃ (eps : ℚ) (x : Path) (d : Draws),
      Sampled R env ⌊(R.uniform 1900 9998 w.g).1⌋ t.gen eps ∧ Obeys env t.gen d x t.rows.length ∧
      (∀ i, i < t.rows.length → t.rows[i]? = some (x.row env.dt i)) ∧ d.size = eps)
    (fun _ _ _ _ _ _ _ => trivial)
    (fun fuel j w t w' _ ha => by
      obtain ⟨a, b, -, -, w1, g, hg, hs, -⟩ := attempt_some R env fuel {} _ simId j w w' t ha
      refine ⟨?_, a, b⟩
      obtain ⟨g1, cell, g2, g3, g4, g5, c1, c2, c3, c4, c5, -, c7, c8, -⟩ :=
        sampleGenesis_ok R env fuel {} _ w w1 t.gen hg
      have htime := sampleGenesis_time R env fuel {} _ w w1 t.gen hg
      obtain ⟨x, d, d1, d2, -, -, d5, -⟩ := C146_single_track R env _ _ _ _ _ hs
      simp only [genesisRmax, truthy, Option.filter_none] at c8
      split at c8
      · simp at c8
      split at c8
      · simp at c8
      rename_i r eps n' hr
      simp only [Except.ok.injEq, Prod.mk.injEq] at c8
      obtain ⟨e1, e2, -⟩ := c8
      refine ⟨eps, x, d, ⟨?_, ⟨cell, c2, sampleOr_none R _ _ _ _ c3, sampleOr_none R _ _ _ _ c4,
        sampleOr_none R _ _ _ _ c5, ?_⟩, htime, ?_⟩, d1, d2, d5 eps e2.symm⟩
      · simp only [genesisPoint, truthy, Option.filter_none] at c1
        split at c1
        · simp at c1
        rename_i a b ho
        simp only [Except.ok.injEq, Prod.mk.injEq] at c1
        obtain ⟨rfl, rfl, -⟩ := c1
        exact ⟨_, _, ⟨_, rfl⟩, ⟨_, rfl⟩, ho⟩
      · simp only [genesisPressure, truthy, Option.filter_none] at c7
        split at c7
        · simp at c7
        rename_i p hp
        split at c7
        · simp at c7
        rename_i v hv
        simp only [Except.ok.injEq, Prod.mk.injEq] at c7
        obtain ⟨rfl, -⟩ := c7
        exact ⟨p, _, upperProb_spec _ _ _ hp, ⟨_, rfl⟩, (Tcrm.Cdf.C06_quantile _ _ _).1 hv⟩
      · rw [← e1]
        exact drawRmax_ok env _ _ _ _ _ _ _ hr)
    fuel n 0 _ ts w' trivial h
  exact h3

/-- **C147**: with a generator whose variates lie in the range asked for, the hour is a valid hour and
the year a valid year. -/
theorem C147_hour (R : Rng G) (hR : ∀ a b g, a < b → a ≤ (R.uniform a b g).1 ∧ (R.uniform a b g).1 < b)
    (u y : ℚ) (hu : Uniform R 0 24 u) (hy : Uniform R 1900 9998 y) :
    (0 ≤ ⌊u⌋ ∧ ⌊u⌋ ≤ 23) ∧ 1900 ≤ ⌊y⌋ ∧ ⌊y⌋ ≤ 9997 := by
  obtain ⟨g, rfl⟩ := hu
  obtain ⟨g', rfl⟩ := hy
  have h1 := hR 0 24 g (by norm_num)
  have h2 := hR 1900 9998 g' (by norm_num)
  have h3 : ⌊(R.uniform 0 24 g).1⌋ < 24 := Int.floor_lt.2 (by exact_mod_cast h1.2)
  have h4 : ⌊(R.uniform 1900 9998 g').1⌋ < 9998 := Int.floor_lt.2 (by exact_mod_cast h2.2)
  exact ⟨⟨Int.le_floor.2 (by exact_mod_cast h1.1), by omega⟩, Int.le_floor.2 (by exact_mod_cast h2.1), by omega⟩

/-- The hypotheses are met: an event set of two tracks of three steps. -/
example : ∃ ts w', generateTracks tape calm 5 2 0 {} ⟨[1 / 2, 1 / 2, 1 / 2], 0, none, none⟩ = .ok (ts, w') ∧
    ts.map (·.rows.length) = [3, 3] := by
  have : observe (fun t => t.rows.length)
      (generateTracks tape calm 5 2 0 {} ⟨[1 / 2, 1 / 2, 1 / 2], 0, none, none⟩) = some [3, 3] := by
    decide +kernel
  cases h : generateTracks tape calm 5 2 0 {} ⟨[1 / 2, 1 / 2, 1 / 2], 0, none, none⟩ with
  | error e => rw [h] at this; simp [observe] at this
  | ok r =>
    obtain ⟨ts, w'⟩ := r
    rw [h] at this
    exact ⟨ts, w', rfl, by simpa [observe] using this⟩

/-! ### Rejection -/

theorem roundHalfEven_near (x : ℚ) : x - 1 / 2 ≤ roundHalfEven x ∧ (roundHalfEven x : ℚ) ≤ x + 1 / 2 := by
  have h1 := Int.floor_le x
  have h2 := Int.lt_floor_add_one x
  simp only [roundHalfEven]
  split_ifs <;> push_cast <;> constructor <;> linarith

/-- Half way between two integers it is the even one. -/
theorem roundHalfEven_tie {x : ℚ} (h : |(roundHalfEven x : ℚ) - x| = 1 / 2) : roundHalfEven x % 2 = 0 := by
  have h1 := Int.floor_le x
  have h2 := Int.lt_floor_add_one x
  simp only [roundHalfEven] at h ⊢
  split_ifs at h ⊢ with h3 h4 h5
  · rw [abs_of_nonpos (by linarith)] at h; linarith
  · push_cast at h; rw [abs_of_nonneg (by linarith)] at h; linarith
  · exact h5
  · omega

/-- Rounding to two decimals changes a number by at most half a hundredth. -/
theorem round2_near (x : ℚ) : |round2 x - x| ≤ 1 / 200 := by
  have h := roundHalfEven_near (100 * x)
  unfold round2
  rw [abs_le]
  constructor <;> linarith

/-- **C14**: a candidate is rejected only for a reason: it is kept if it lives for at least 12 hours, is
more than 1 hPa deep at genesis and more than 0.01 hPa (the accuracy of the test) throughout, between 5
and 500 km in size, below 100 km at genesis, and inside the inner domain. -/
theorem C14_rejected_only (env : Env N) (t : Track) (hv : ValidTrack env.inner t.rows)
    (hl : ∀ r, t.rows.getLast? = some r → 12 ≤ r.age)
    (hd : ∀ r ∈ t.rows, ∀ p e, r.pressure = some p → r.poci = some e → 1 / 100 < e - p) :
    accept env t = true := by
  unfold accept
  split
  · rename_i first rest last hrows hlast
    simp only [Bool.and_eq_true, Bool.not_eq_true', decide_eq_false_iff_not, not_lt,
      List.all_eq_true]
    have hhead : t.rows.head? = some first := by rw [hrows]; rfl
    refine ⟨⟨⟨⟨⟨hl last hlast, ?_⟩, ?_⟩, ?_, ?_⟩, ?_⟩, ?_⟩
    · obtain ⟨p, e, h1, h2, h3⟩ := hv.initDeficit first hhead
      simpa [h1, h2, F.sub, F.lt] using h3
    · intro r hr
      obtain ⟨p, e, h1, h2, -⟩ := hv.pressures r hr
      have h3 := hd r hr p e h1 h2
      have h4 := abs_le.1 (round2_near p)
      have h5 := abs_le.1 (round2_near e)
      simp only [h1, h2, Option.map_some, F.lt, decide_eq_true_eq]
      linarith [h4.1, h4.2, h5.1, h5.2]
    · intro r hr
      obtain ⟨x, h1, h2, -⟩ := hv.size r hr
      simpa [h1, F.lt] using h2
    · intro r hr
      obtain ⟨x, h1, -, h2⟩ := hv.size r hr
      simpa [h1, F.lt] using h2
    · obtain ⟨x, h1, h2⟩ := hv.initSize first hhead
      simpa [h1, F.lt] using h2
    · cases hi : env.inner with
      | none => rfl
      | some l =>
        simp only [List.all_eq_true, decide_eq_true_eq]
        exact hv.inner l hi
  · rename_i h
    obtain ⟨r0, rest, hr⟩ := List.exists_cons_of_ne_nil hv.nonempty
    have : t.rows.getLast? = some (t.rows.getLast hv.nonempty) := List.getLast?_eq_some_getLast hv.nonempty
    exact absurd this (fun e => h r0 rest _ hr e)

/-- **C14**: an attempt whose storm stays in the domain on its first step and is at least 2 hPa deep is
kept if and only if its track passes the tests. -/
theorem C14_attempt (R : Rng G) (env : Env N) (fuel : ℕ) (init : Init) (year simId : ℤ) (j : ℕ)
    (w w1 : W G N) (gen : Genesis) (rows : List Row) (g : G)
    (hs : sampleGenesis R env fuel init year w = .ok (gen, w1))
    (h1 : singleTrack R env w1.rmwEps gen w1.g = .ok (rows, g)) :
    attempt R env fuel init year simId j w = .ok
      (let next := env.move gen.bearing (env.dt * gen.speed) gen.lon gen.lat
      if (env.gl.xMin ≤ next.1 ∧ next.1 ≤ env.gl.xMax ∧ env.gl.yMin ≤ next.2 ∧ next.2 ≤ env.gl.yMax) ∧
          2 ≤ gen.envPressure - gen.pressure then
        (if accept env ⟨j, simId, gen, rows⟩ then some ⟨j, simId, gen, rows⟩ else none, { w1 with g := g })
      else (none, w1)) := by
  simp only [attempt, hs, h1]
  by_cases ha : env.gl.xMin ≤ (env.move gen.bearing (env.dt * gen.speed) gen.lon gen.lat).1 ∧
      (env.move gen.bearing (env.dt * gen.speed) gen.lon gen.lat).1 ≤ env.gl.xMax ∧
      env.gl.yMin ≤ (env.move gen.bearing (env.dt * gen.speed) gen.lon gen.lat).2 ∧
      (env.move gen.bearing (env.dt * gen.speed) gen.lon gen.lat).2 ≤ env.gl.yMax
  · rw [if_neg (by push Not; exact ⟨⟨ha.1, ha.2.1⟩, ha.2.2.1, ha.2.2.2⟩)]
    by_cases hp : gen.envPressure - gen.pressure < 2
    · rw [if_pos hp, if_neg (by rintro ⟨-, h⟩; linarith)]
    · have c := And.intro ha (not_lt.1 hp)
      rw [if_neg hp]
      simp only [c, and_self, if_true]
  · rw [if_pos (by rintro ⟨⟨a, b⟩, c, d⟩; exact ha ⟨a, b, c, d⟩), if_neg (by rintro ⟨h, -⟩; exact ha h)]

end Tcrm.TrackGen
