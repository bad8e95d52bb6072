import Verif.Lemmas.TrackGenRun
/-!
C04, C13, C14, C15, C16, C53, C55: synthetic track generation.

All statements quantify over the random number generators (`Rng G`, and the global numpy
generator inside `Env N`), over the cell statistics, sampling tables, land mask, pressure field
and calendar (`Env N`), and over prescribed initial values (`Init`).
-/
namespace Tcrm.TrackGen
open Tcrm.Cells

variable {G N : Type}

/-- **C13**: a single track starts with the genesis values at age 0; the age of step `m` is
`m·dt`; it has at most `maxTimeSteps` steps; every step follows its predecessor; and every step
after genesis is a `GoodStep` (inside the domain, speed ≥ 0, bearing in [0,360), deficit at least
2 hPa until hour 12 and 5 hPa afterwards). -/
theorem C13_single_track (R : Rng G) (env : Env N) (eps : Option ℚ) (gen : Genesis) (g g' : G)
    (rows : List Row) (h : singleTrack R env eps gen g = .ok (rows, g')) :
    rows.length ≤ env.maxTimeSteps ∧
    (∃ poci, rows.head? = some ⟨0, gen.lon, gen.lat, gen.speed, gen.bearing, some gen.pressure, poci,
      some gen.rmax⟩) ∧
    (∀ r ∈ rows.tail, GoodStep env.gl r) ∧
    (∀ (m : ℕ) (r : Row), rows[m]? = some r → r.age = m * env.dt) ∧
    (∀ (m : ℕ) (a b : Row), rows[m]? = some a → rows[m + 1]? = some b → Follows env a b) :=
  singleTrack_ok R env eps gen g g' rows h

/-- **C14**: if the generation of `n` tracks returns, it returns exactly `n` tracks, numbered
`0 … n-1` with the simulation id, each of them valid, and each starting at least 2 hPa below the
environmental pressure used for it. -/
theorem C14_generateTracks (R : Rng G) (env : Env N) (fuel n : ℕ) (simId : ℤ) (init : Init)
    (w w' : W G N) (ts : List Track) (h : generateTracks R env fuel n simId init w = .ok (ts, w')) :
    ts.length = n ∧
    (∀ (k : ℕ) (t : Track), ts[k]? = some t → t.num = k ∧ t.simId = simId) ∧
    ∀ t ∈ ts, ValidTrack env.inner t.rows ∧ 2 ≤ t.gen.envPressure - t.gen.pressure := by
  obtain ⟨h1, -, h3, h4⟩ := genLoop_ok R env init _ simId (fun _ => True)
    (fun t => ValidTrack env.inner t.rows ∧ 2 ≤ t.gen.envPressure - t.gen.pressure)
    (fun _ _ _ _ _ _ _ => trivial)
    (fun fuel j w t w' _ ha => by
      obtain ⟨a, b, c, d, -⟩ := attempt_some R env fuel init _ simId j w w' t ha
      exact ⟨⟨accept_valid env t c, d⟩, a, b⟩)
    fuel n 0 _ ts w' trivial h
  refine ⟨h1, fun k t hk => ?_, h3⟩
  have := h4 k t hk
  exact ⟨by omega, this.2⟩

/-- **C13** for event sets: in a domain with integer limits, every position of every generated
track, including the genesis point, is inside the domain, and every track satisfies the
conclusions of `C13_single_track`. -/
theorem C13_generated_tracks (R : Rng G) (env : Env N) (fuel n : ℕ) (simId : ℤ) (init : Init)
    (w w' : W G N) (ts : List Track) (h : generateTracks R env fuel n simId init w = .ok (ts, w'))
    (x0 x1 y0 y1 : ℤ) (hgl : env.gl = ⟨x0, x1, y0, y1⟩) :
    ∀ t ∈ ts, (∀ r ∈ t.rows, InDomain env.gl r.lon r.lat) ∧ t.rows.length ≤ env.maxTimeSteps ∧
      (∀ r ∈ t.rows.tail, GoodStep env.gl r) ∧
      (∀ (m : ℕ) (r : Row), t.rows[m]? = some r → r.age = m * env.dt) ∧
      (∀ (m : ℕ) (a b : Row), t.rows[m]? = some a → t.rows[m + 1]? = some b → Follows env a b) := by
  obtain ⟨-, -, h3, -⟩ := genLoop_ok R env init _ simId (fun _ => True) _
    (fun _ _ _ _ _ _ _ => trivial)
    (fun fuel j w t w' _ ha => by
      obtain ⟨a, b, -, -, w1, g, hg, hs, -⟩ := attempt_some R env fuel init _ simId j w w' t ha
      obtain ⟨_, cell, _, _, _, _, -, hc, -⟩ := sampleGenesis_ok R env fuel init _ w w1 t.gen hg
      exact ⟨(⟨cell, hc, w1.rmwEps, w1.g, g, hs⟩ : ∃ cell,
        getCellNum t.gen.lon t.gen.lat env.gl env.gs = .ok cell ∧ ∃ eps g0 g1,
          singleTrack R env eps t.gen g0 = .ok (t.rows, g1)), a, b⟩)
    fuel n 0 _ ts w' trivial h
  intro t ht
  obtain ⟨cell, hc, eps, g0, g1, hs⟩ := h3 t ht
  obtain ⟨s1, ⟨poci, s2⟩, s3, s4, s5⟩ := singleTrack_ok R env eps t.gen g0 g1 t.rows hs
  refine ⟨?_, s1, s3, s4, s5⟩
  intro r hr
  rcases hrows : t.rows with _ | ⟨r0, rest⟩
  · rw [hrows] at hr; simp at hr
  rw [hrows] at hr s2 s3
  rcases List.mem_cons.1 hr with rfl | hr
  · simp only [List.head?_cons, Option.some.injEq] at s2
    subst s2
    simp only [getCellNum] at hc
    split at hc
    · simp at hc
    rename_i hin
    rw [hgl] at hin ⊢
    simp only [not_or, not_lt, not_le, Int.cast_lt,
      Int.cast_le] at hin
    obtain ⟨i1, i2, i3, i4⟩ := hin
    exact ⟨Int.le_floor.1 i1, Int.floor_lt.1 i2, Int.lt_ceil.1 i3, Int.ceil_le.1 i4⟩
  · exact (s3 r hr).inside

/-! ### A concrete generator and environment for the examples and counterexamples -/

/-- The module-level generator: a tape of numbers used for `uniform`; the other distributions
return 0. -/
def tape : Rng (List ℚ) where
  ofKey := fun k => [1 / 2, (k : ℚ) / 8, 1 / 2]
  uniform := fun a b g => match g with
    | [] => (a + (b - a) / 2, [])
    | u :: t => (a + (b - a) * u, t)
  normal := fun _ _ g => (0, g)
  logistic := fun g => (0, g)
  lognorm := fun _ _ _ g => (0, g)

/-- A calm ocean: storms stay where they form (longitude 100–140, chosen by the first variate)
and keep 950 hPa; the environmental pressure increases with longitude; the global generator
returns 0, 1/10, 2/10, … -/
def calm : Env ℕ where
  gl := ⟨100, 140, -30, 0⟩
  gs := ⟨40, 30⟩
  inner := none
  dt := 6
  maxTimeSteps := 3
  move := fun _ _ lon lat => (lon, lat)
  envPressure := fun _ _ lon => 1000 + lon / 10
  onLand := fun _ _ => false
  dpStats := fun _ _ => ⟨0, 0, 0, 0⟩
  bStats := fun _ _ => ⟨0, 0, 0, 0⟩
  vStats := fun _ _ => ⟨0, 0, 0, 0⟩
  pMin := fun _ => 0
  pSig := fun _ => 0
  exp := fun x => 10 * x
  degrees := fun x => x
  season := fun _ => 0
  missing := 9223372036854775807
  origin := fun u1 u2 => .ok (100 + 40 * u1, -30 * u2)
  cdfBearing := fun _ => [(90, 1)]
  cdfSpeed := fun _ => [(5, 1)]
  cdfDay := fun _ => [(32, 1)]
  cdfPressure := fun _ => [(950, 1)]
  sizeDist := false
  time := fun _ d h => some (24 * d + h)
  dayOfYear := fun t => t / 24
  npNormal := fun _ n => ((n : ℚ) / 10, n + 1)

/-- Fields of the tracks of a successful call. -/
def observe {α β : Type} (f : Track → α) (r : Except Err (List Track × β)) : Option (List α) :=
  match r with
  | .ok (ts, _) => some (ts.map f)
  | .error _ => none

/-- The hypotheses of C13 and C14 are met: two tracks are generated. -/
example : observe (fun t => (t.num, t.rows.length, t.gen.lon))
    (generateTracks tape calm 5 2 7 {} ⟨[1/2, 1/4, 1/2, 0, 0, 0, 0, 0, 3/4, 1/2], 0, none, none⟩) =
    some [(0, 3, 110), (1, 3, 130)] := by decide +kernel

/-! ### C14: generation need not terminate -/

/-- The same ocean, but every storm leaves the domain at once. -/
def windy : Env ℕ := { calm with move := fun _ _ lon lat => (lon + 100, lat) }

/-- **C14**, limit of the claim: the loop has no bound on rejected candidates; in this environment
no number of passes suffices, for any positive number of tracks and any state. -/
theorem C14_may_run_forever (fuel : ℕ) (w : W (List ℚ) ℕ) :
    ∀ ts w', generateTracks tape windy fuel 1 0 {} w ≠ .ok (ts, w') := by
  intro ts w' h
  obtain ⟨h1, -, h3, -⟩ := genLoop_ok tape windy {} _ 0 (fun _ => True) (fun _ => False)
    (fun _ _ _ _ _ _ _ => trivial)
    (fun fuel j w t w' _ ha => by
      exfalso
      obtain ⟨-, -, -, -, w1, g, hg, -, -⟩ := attempt_some tape windy fuel {} _ 0 j w w' t ha
      simp only [attempt, hg] at ha
      rw [if_pos] at ha
      · simp at ha
      · obtain ⟨_, cell, _, _, _, _, -, hc, -⟩ := sampleGenesis_ok tape windy fuel {} _ w w1 t.gen hg
        simp only [getCellNum] at hc
        split at hc
        · simp at hc
        rename_i hin
        rintro ⟨⟨-, h2⟩, -⟩
        push Not at hin
        have e1 : windy.gl.xMin = 100 := rfl
        have e2 : windy.gl.xMax = 140 := rfl
        have e3 : (windy.move t.gen.bearing (windy.dt * t.gen.speed) t.gen.lon t.gen.lat).1 =
          t.gen.lon + 100 := rfl
        have := Int.floor_le t.gen.lon
        linarith [hin.1])
    fuel 1 0 _ ts w' trivial h
  cases ts with
  | nil => simp at h1
  | cons t ts => exact h3 t (by simp)

/-! ### C15: genesis conditions -/

/-- **C15**, what holds: a prescribed value other than zero is used by every track. -/
theorem C15_prescribed_partial (R : Rng G) (env : Env N) (fuel n : ℕ) (simId : ℤ) (init : Init)
    (w w' : W G N) (ts : List Track) (h : generateTracks R env fuel n simId init w = .ok (ts, w')) :
    ∀ t ∈ ts,
      (∀ a b, init.lon = some a → a ≠ 0 → init.lat = some b → b ≠ 0 → t.gen.lon = a ∧ t.gen.lat = b) ∧
      (∀ a, init.bearing = some a → a ≠ 0 → t.gen.bearing = a) ∧
      (∀ a, init.speed = some a → a ≠ 0 → t.gen.speed = a) ∧
      (∀ a, init.pressure = some a → a ≠ 0 → t.gen.pressure = a) ∧
      (∀ a, init.day = some a → a ≠ 0 → t.gen.day = a) ∧
      (∀ a, init.rmax = some a → a ≠ 0 → t.gen.rmax = a) := by
  have tr : ∀ (o : Option ℚ) a, o = some a → a ≠ 0 → truthy o = some a := by
    rintro _ a rfl ha
    simp [truthy, Option.filter, ha]
  obtain ⟨-, -, h3, -⟩ := genLoop_ok R env init _ simId (fun _ => True) _
    (fun _ _ _ _ _ _ _ => trivial)
    (fun fuel j w t w' _ ha => by
      obtain ⟨a, b, -, -, w1, g, hg, -, -⟩ := attempt_some R env fuel init _ simId j w w' t ha
      exact ⟨(⟨_, _, _, _, hg⟩ : ∃ year fuel w w1, sampleGenesis R env fuel init year w =
        .ok (t.gen, w1)), a, b⟩)
    fuel n 0 _ ts w' trivial h
  intro t ht
  obtain ⟨year, fuel, w, w1, hg⟩ := h3 t ht
  obtain ⟨_, cell, _, _, _, _, k1, k2, k3, k4, k5, k6, k7, k8, k9⟩ :=
    sampleGenesis_ok R env fuel init year w w1 t.gen hg
  refine ⟨?_, ?_, ?_, ?_, ?_, ?_⟩
  · intro a b ha ha0 hb hb0
    rw [genesisPoint, tr _ a ha ha0, tr _ b hb hb0] at k1
    simp only [Except.ok.injEq, Prod.mk.injEq] at k1
    exact ⟨k1.1.symm, k1.2.1.symm⟩
  · intro a ha ha0
    rw [sampleOr, tr _ a ha ha0] at k3
    simp only [Except.ok.injEq, Prod.mk.injEq] at k3
    exact k3.1.symm
  · intro a ha ha0
    rw [sampleOr, tr _ a ha ha0] at k4
    simp only [Except.ok.injEq, Prod.mk.injEq] at k4
    exact k4.1.symm
  · intro a ha ha0
    rw [genesisPressure, tr _ a ha ha0] at k7
    simp only [Except.ok.injEq, Prod.mk.injEq] at k7
    exact k7.1.symm
  · intro a ha ha0
    rw [sampleOr, tr _ a ha ha0] at k5
    simp only [Except.ok.injEq, Prod.mk.injEq] at k5
    exact k5.1.symm
  · intro a ha ha0
    rw [genesisRmax, tr _ a ha ha0] at k8
    simp only [Except.ok.injEq, Prod.mk.injEq] at k8
    exact k8.1.symm

/-- **C15**, what the code does with the environmental pressure: in one call, all tracks use one
and the same value (if the pressure field is never zero). -/
theorem C15_one_environment_pressure (R : Rng G) (env : Env N) (fuel n : ℕ) (simId : ℤ) (init : Init)
    (w w' : W G N) (ts : List Track) (hne : ∀ d la lo, env.envPressure d la lo ≠ 0)
    (h : generateTracks R env fuel n simId init w = .ok (ts, w')) :
    ∀ t ∈ ts, ∀ t' ∈ ts, t.gen.envPressure = t'.gen.envPressure := by
  -- the final state records the pressure; it never changes once it is set
  have step : ∀ fuel year w gen w1, sampleGenesis R env fuel init year w = .ok (gen, w1) →
      w1.envP = some gen.envPressure ∧ gen.envPressure ≠ 0 ∧
      ∀ p, w.envP = some p → p ≠ 0 → gen.envPressure = p := by
    intro fuel year w gen w1 hg
    obtain ⟨_, cell, _, _, _, _, -, -, -, -, -, k6, -, -, k9⟩ :=
      sampleGenesis_ok R env fuel init year w w1 gen hg
    refine ⟨k9, ?_, ?_⟩
    · rw [k6]
      cases ht : truthy w.envP with
      | none => exact hne _ _ _
      | some p =>
        cases hw : w.envP with
        | none => rw [hw] at ht; simp [truthy] at ht
        | some q =>
          rw [hw] at ht
          simp only [truthy, Option.filter] at ht
          split at ht
          · rename_i hq
            cases ht
            simpa using hq
          · simp at ht
    · intro p hp hp0
      rw [k6, hp]
      simp [truthy, Option.filter, hp0]
  -- once set to a non-zero value it stays
  have stay : ∀ p, p ≠ 0 → ∀ year fuel todo j (w : W G N) ts w', w.envP = some p →
      genLoop R env init year simId fuel todo j w = .ok (ts, w') →
      ∀ t ∈ ts, t.gen.envPressure = p := by
    intro p hp year fuel todo j w ts w' hw hl
    obtain ⟨-, -, h3, -⟩ := genLoop_ok R env init year simId (fun w => w.envP = some p)
      (fun t => t.gen.envPressure = p)
      (fun fuel j w o w' hI ha => by
        simp only [attempt] at ha
        split at ha
        · simp at ha
        rename_i gen w1 hg
        have hp' := (step _ _ _ _ _ hg).2.2 p hI hp
        have hw1 := (step _ _ _ _ _ hg).1
        rw [hp'] at hw1
        split at ha
        · simp only [Except.ok.injEq, Prod.mk.injEq] at ha; rw [← ha.2]; exact hw1
        split at ha
        · simp only [Except.ok.injEq, Prod.mk.injEq] at ha; rw [← ha.2]; exact hw1
        split at ha
        · simp at ha
        simp only [Except.ok.injEq, Prod.mk.injEq] at ha; rw [← ha.2]; exact hw1)
      (fun fuel j w t w' hI ha => by
        obtain ⟨a, b, -, -, w1, g, hg, -, -⟩ := attempt_some R env fuel init year simId j w w' t ha
        exact ⟨(step _ _ _ _ _ hg).2.2 p hI hp, a, b⟩)
      fuel todo j w ts w' hw hl
    exact h3
  -- the first attempt sets it
  have first : ∀ year fuel todo j (w : W G N) ts w',
      genLoop R env init year simId fuel todo j w = .ok (ts, w') →
      ∃ p, ∀ t ∈ ts, t.gen.envPressure = p := by
    intro year fuel todo j w ts w' hl
    cases todo with
    | zero =>
      have : ts = [] := by cases fuel <;> simp [genLoop] at hl <;> exact hl.1
      exact ⟨0, by simp [this]⟩
    | succ todo =>
      cases fuel with
      | zero => simp [genLoop] at hl
      | succ fuel =>
        simp only [genLoop] at hl
        split at hl
        · simp at hl
        · rename_i w1 ha
          simp only [attempt] at ha
          split at ha
          · simp at ha
          rename_i gen w2 hg
          obtain ⟨e1, e2, -⟩ := step _ _ _ _ _ hg
          have : w1.envP = some gen.envPressure := by
            split at ha
            · simp only [Except.ok.injEq, Prod.mk.injEq] at ha; rw [← ha.2]; exact e1
            split at ha
            · simp only [Except.ok.injEq, Prod.mk.injEq] at ha; rw [← ha.2]; exact e1
            split at ha
            · simp at ha
            simp only [Except.ok.injEq, Prod.mk.injEq] at ha; rw [← ha.2]; exact e1
          exact ⟨gen.envPressure, stay _ e2 _ _ _ _ _ _ _ this hl⟩
        · rename_i t w1 ha
          obtain ⟨-, -, -, -, w2, g, hg, -, rfl⟩ := attempt_some R env fuel init year simId j w w1 t ha
          obtain ⟨e1, e2, -⟩ := step _ _ _ _ _ hg
          split at hl
          · simp at hl
          rename_i ts' w3 hl'
          simp only [Except.ok.injEq, Prod.mk.injEq] at hl
          obtain ⟨rfl, rfl⟩ := hl
          refine ⟨t.gen.envPressure, fun t' ht' => ?_⟩
          rcases List.mem_cons.1 ht' with rfl | ht'
          · rfl
          · exact stay _ e2 _ _ _ _ _ _ _ (by exact e1) hl' t' ht'
  obtain ⟨p, hp⟩ := first _ _ _ _ _ _ _ h
  intro t ht t' ht'
  rw [hp t ht, hp t' ht']

/-- **C15** is false: the second track forms at longitude 130, where the environmental pressure
is 1013 hPa, but uses the 1011 hPa of the first track's genesis point. -/
theorem C15_environment_pressure_leaks :
    observe (fun t => (t.gen.lon, t.gen.envPressure, calm.envPressure t.gen.day t.gen.lat t.gen.lon))
    (generateTracks tape calm 5 2 7 {} ⟨[1/2, 1/4, 1/2, 0, 0, 0, 0, 0, 3/4, 1/2], 0, none, none⟩) =
    some [(110, 1011, 1011), (130, 1011, 1013)] := by decide +kernel

/-- **C15** is false: a prescribed bearing of 0 (due north) is ignored. -/
theorem C15_zero_bearing_ignored :
    observe (fun t => t.gen.bearing)
    (generateTracks tape calm 5 1 7 { bearing := some 0 } ⟨[], 0, none, none⟩) = some [90] := by
  decide +kernel

/-! ### C04: splitting the simulations over ranks -/

/-- Files written by a rank. -/
def files (r : Except Err (List (ℕ × List Track))) : List (ℕ × List Track) :=
  match r with
  | .ok l => l
  | .error _ => []

/-- Rank `p` of a run writes the files of the simulations `p`, `p + P`, …, with the counts drawn
for them; nothing else. -/
theorem runRank_mem (R : Rng G) (env : Env N) (fuel : ℕ) (ss ts : ℤ) (counts : List ℕ) (g0 : G)
    (n0 : N) (P p : ℕ) (hP : 0 < P) (outs : List (ℕ × List Track))
    (h : runRank R env fuel ss ts counts g0 n0 P p = .ok outs) (o : ℕ × List Track) (ho : o ∈ outs) :
    ∃ c, counts[o.1]? = some c ∧ (1 < P → ts ≠ 0) ∧
      ∃ s1 t, runSim R env fuel ts (counts.length - 1) (o.1, c) s1 = .ok (o, t) := by
  simp only [runRank] at h
  split at h
  · simp at h
  rename_i hseed
  split at h
  · simp at h
  obtain ⟨sim, hm, s1, t, hr⟩ := runSims_mem R env fuel ts _ _ _ outs h o ho
  obtain ⟨k, hk⟩ := List.mem_iff_getElem?.1 hm
  rw [Tcrm.Balanced.balanced_getElem? _ _ _ _ hP] at hk
  simp only [List.getElem?_map, List.getElem?_zipIdx, Option.map_map, Option.map_eq_some_iff] at hk
  obtain ⟨c, hc, rfl⟩ := hk
  have hi := runSim_index R env fuel ts _ _ s1 t o hr
  simp only [Function.comp, Nat.zero_add] at hi hr
  refine ⟨c, by rw [hi]; exact hc, ?_, s1, t, ?_⟩
  · intro hP1 h0
    exact hseed ⟨hP1, Or.inr h0⟩
  · rw [hi]; exact hr

/-- **C04**, what holds: if the variates of the global generator do not depend on its history
(the other generators are re-seeded per simulation), a simulation gets the same tracks whatever
the numbers of ranks, and for any two runs with the same non-zero track seed. -/
theorem C04_split_partial (R : Rng G) (env : Env N)
    (hfree : ∀ s n n', (env.npNormal s n).1 = (env.npNormal s n').1)
    (fuel fuel' : ℕ) (ss ts : ℤ) (hts : ts ≠ 0) (counts : List ℕ) (g0 g0' : G) (n0 n0' : N)
    (P p P' p' : ℕ) (hP : 0 < P) (hP' : 0 < P') (outs outs' : List (ℕ × List Track))
    (h : runRank R env fuel ss ts counts g0 n0 P p = .ok outs)
    (h' : runRank R env fuel' ss ts counts g0' n0' P' p' = .ok outs')
    (o o' : ℕ × List Track) (ho : o ∈ outs) (ho' : o' ∈ outs') (hi : o.1 = o'.1) : o = o' := by
  obtain ⟨c, hc, -, s1, t, hr⟩ := runRank_mem R env fuel ss ts counts g0 n0 P p hP outs h o ho
  obtain ⟨c', hc', -, s1', t', hr'⟩ :=
    runRank_mem R env fuel' ss ts counts g0' n0' P' p' hP' outs' h' o' ho'
  rw [← hi, hc] at hc'
  cases hc'
  rw [← hi] at hr'
  exact runSim_rel R env (fun _ _ => True) (fun s n n' _ => ⟨hfree s n n', trivial⟩) fuel fuel' ts hts
    _ _ s1 s1' trivial trivial o o' t t' hr hr'

/-- **C04**, what holds without any assumption on the global generator: the first simulation of
a rank (simulation `i` on rank `i`) is the same for every number of ranks greater than `i`. -/
theorem C04_first_simulation_partial (R : Rng G) (env : Env N) (fuel fuel' : ℕ) (ss ts : ℤ)
    (hts : ts ≠ 0) (counts : List ℕ) (g0 g0' : G) (n0 : N) (P P' i : ℕ) (hP : i < P) (hP' : i < P')
    (o o' : ℕ × List Track) (rest rest' : List (ℕ × List Track))
    (h : runRank R env fuel ss ts counts g0 n0 P i = .ok (o :: rest))
    (h' : runRank R env fuel' ss ts counts g0' n0 P' i = .ok (o' :: rest')) : o = o' ∧ o.1 = i := by
  have key : ∀ (fuel : ℕ) (g0 : G) (P : ℕ) (o : ℕ × List Track) (rest : List (ℕ × List Track)),
      i < P → runRank R env fuel ss ts counts g0 n0 P i = .ok (o :: rest) →
      ∃ c t, counts[i]? = some c ∧
        runSim R env fuel ts (counts.length - 1) (i, c) ⟨g0, n0, none⟩ = .ok (o, t) := by
    intro fuel g0 P o rest hP h
    simp only [runRank] at h
    split at h
    · simp at h
    split at h
    · simp at h
    have hb := Tcrm.Balanced.balanced_getElem? (counts.zipIdx.map fun c => (c.2, c.1)) P i 0 (by omega)
    cases hl : Tcrm.Balanced.balanced (counts.zipIdx.map fun c => (c.2, c.1)) P i with
    | nil => rw [hl] at h; simp [runSims] at h
    | cons sim sims =>
      rw [hl] at h hb
      simp only [List.getElem?_cons_zero, Nat.zero_mul, Nat.add_zero, List.getElem?_map,
        List.getElem?_zipIdx, Option.map_map] at hb
      obtain ⟨c, hc, hs⟩ := Option.map_eq_some_iff.1 hb.symm
      simp only [Function.comp, Nat.zero_add] at hs
      simp only [runSims] at h
      split at h
      · simp at h
      rename_i out s1 h1
      split at h
      · simp at h
      simp only [Except.ok.injEq, List.cons.injEq] at h
      obtain ⟨rfl, -⟩ := h
      exact ⟨c, s1, hc, by rw [hs]; exact h1⟩
  obtain ⟨c, t, hc, hr⟩ := key fuel g0 P o rest hP h
  obtain ⟨c', t', hc', hr'⟩ := key fuel' g0' P' o' rest' hP' h'
  rw [hc] at hc'
  cases hc'
  refine ⟨runSim_rel R env Eq (fun s n n' e => by subst e; exact ⟨rfl, rfl⟩) fuel fuel' ts hts _ _ ⟨g0, n0, none⟩
    ⟨g0', n0, none⟩
    rfl rfl o o' t t' hr hr', runSim_index R env fuel ts _ _ _ t o hr⟩

/-- **C04** is false: with two simulations of one track, the track of simulation 1 has a
different size when one rank runs both simulations than when a second rank runs it, because the
size variate comes from the global numpy generator, which is not re-seeded per simulation.
(The three runs below also meet the hypotheses of the two partial theorems.) -/
theorem C04_split_changes_tracks :
    (files (runRank tape calm 5 1 1 [1, 1] [] 0 1 0)).map
      (fun f => (f.1, f.2.map fun t => t.gen.rmax)) = [(0, [15283/500]), (1, [31467/1000])] ∧
    (files (runRank tape calm 5 1 1 [1, 1] [] 0 2 0)).map
      (fun f => (f.1, f.2.map fun t => t.gen.rmax)) = [(0, [15283/500])] ∧
    (files (runRank tape calm 5 1 1 [1, 1] [] 0 2 1)).map
      (fun f => (f.1, f.2.map fun t => t.gen.rmax)) = [(1, [30467/1000])] := by
  have e1 : Tcrm.Balanced.balanced (([1, 1] : List ℕ).zipIdx.map fun c => (c.2, c.1)) 1 0 =
      [(0, 1), (1, 1)] := by simp [Tcrm.Balanced.balanced, Tcrm.Balanced.everyNth]
  have e2 : Tcrm.Balanced.balanced (([1, 1] : List ℕ).zipIdx.map fun c => (c.2, c.1)) 2 0 =
      [(0, 1)] := by simp [Tcrm.Balanced.balanced, Tcrm.Balanced.everyNth]
  have e3 : Tcrm.Balanced.balanced (([1, 1] : List ℕ).zipIdx.map fun c => (c.2, c.1)) 2 1 =
      [(1, 1)] := by simp [Tcrm.Balanced.balanced, Tcrm.Balanced.everyNth]
  rw [runRank, runRank, runRank, e1, e2, e3]
  refine ⟨by decide +kernel, by decide +kernel, by decide +kernel⟩

/-- `calm` with a constant global generator: history free, so `C04_split_partial` applies. -/
example : ∀ s n n', (({ calm with npNormal := fun _ n => (1 / 10, n + 1) } : Env ℕ).npNormal s n).1 =
    (({ calm with npNormal := fun _ n => (1 / 10, n + 1) } : Env ℕ).npNormal s n').1 :=
  fun _ _ _ => rfl

/-! ### C16: generator keys -/

/-- **C16**, what holds: within one run different simulations get different keys; across runs,
two streams coincide exactly when seed plus index coincide. -/
theorem C16_keys_partial :
    (∀ seed i j : ℤ, key seed i = key seed j → i = j) ∧
    ∀ s s' i j : ℤ, key s i = key s' j ↔ s - s' = j - i := by
  refine ⟨fun seed i j h => ?_, fun s s' i j => ?_⟩
  · simp only [key] at h; omega
  · simp only [key]; omega

/-- **C16** is false across runs: run with seed `s + 1` reuses, for simulation `i`, the stream of
simulation `i + 1` of the run with seed `s`; so, given the same track counts, all but one of the
event sets start from the same generator. -/
theorem C16_neighbouring_seeds_share_streams (R : Rng G) (s i : ℤ) :
    R.ofKey (key (s + 1) i) = R.ofKey (key s (i + 1)) := by
  simp only [key]; congr 1; omega

example : key 1000 3 = key 1002 1 ∧ (1000 : ℤ) ≠ 1002 := by decide

/-! ### C53: a single simulation -/

/-- **C53** is false: with one simulation, track generation always fails (division by the index
of the last simulation), on every rank that has the simulation. -/
theorem C53_single_simulation_fails (R : Rng G) (env : Env N) (fuel : ℕ) (ss ts : ℤ) (c : ℕ)
    (g0 : G) (n0 : N) (P : ℕ) (hP : P ≤ 1 ∨ (ss ≠ 0 ∧ ts ≠ 0)) :
    runRank R env fuel ss ts [c] g0 n0 P 0 = .error .zeroDivision := by
  have : ¬ (1 < P ∧ (ss = 0 ∨ ts = 0)) := by omega
  simp [runRank, this, Tcrm.Balanced.balanced, Tcrm.Balanced.everyNth, runSims, runSim]

/-- **C53**, what holds: with two or more simulations, on one rank, or on several with both seeds given, the run fails only
if the generation of some event set does (or does not end within `fuel`), and then with its error. -/
theorem C53_several_simulations_partial (R : Rng G) (env : Env N) (fuel : ℕ) (ss ts : ℤ)
    (counts : List ℕ) (h2 : 2 ≤ counts.length) (g0 : G) (n0 : N) (P p : ℕ)
    (hP : P ≤ 1 ∨ (ss ≠ 0 ∧ ts ≠ 0)) (e : Err) (h : runRank R env fuel ss ts counts g0 n0 P p = .error e) :
    ∃ n simId w, generateTracks R env fuel n simId {} w = .error e := by
  have key : ∀ (sims : List (ℕ × ℕ)) (s : RankState G N),
      runSims R env fuel ts (counts.length - 1) sims s = .error e →
      ∃ n simId w, generateTracks R env fuel n simId {} w = .error e := by
    intro sims
    induction sims with
    | nil => intro s h; simp [runSims] at h
    | cons sim rest ih =>
      intro s h
      simp only [runSims] at h
      split at h
      · rename_i e' he
        simp only [runSim] at he
        rw [if_neg (by omega)] at he
        split at he
        · rename_i e2 hg
          simp only [Except.error.injEq] at he h
          subst he
          subst h
          exact ⟨_, _, _, hg⟩
        · simp at he
      · split at h
        · rename_i e' he
          simp only [Except.error.injEq] at h
          subst h
          exact ih _ he
        · simp at h
  simp only [runRank] at h
  rw [if_neg (by omega), if_neg (by rintro rfl; simp at h2)] at h
  exact key _ _ h

theorem runSims_all (R : Rng G) (env : Env N) (fuel : ℕ) (ts : ℤ) (last : ℕ) (sims : List (ℕ × ℕ)) (s : RankState G N)
    (outs : List (ℕ × List Track)) (h : runSims R env fuel ts last sims s = .ok outs) :
    outs.map (fun o => (o.1, o.2.length)) = sims := by
  induction sims generalizing s outs with
  | nil => simp [runSims] at h; subst h; rfl
  | cons sim rest ih =>
    simp only [runSims] at h
    split at h
    · simp at h
    rename_i out s1 h1
    split at h
    · simp at h
    rename_i outs' h2
    simp only [Except.ok.injEq] at h
    subst h
    rw [List.map_cons, ih s1 outs' h2]
    congr 1
    simp only [runSim] at h1
    split at h1
    · simp at h1
    split at h1
    · simp at h1
    rename_i tr w hg
    simp only [Except.ok.injEq, Prod.mk.injEq] at h1
    rw [← h1.1]
    exact Prod.ext rfl (C14_generateTracks R env fuel _ _ _ _ _ _ hg).1

/-- **C53**: if all ranks succeed, there is exactly one event set for every simulation among the files of all ranks, with
as many tracks as were drawn for it. -/
theorem C53_event_sets (R : Rng G) (env : Env N) (fuel : ℕ) (ss ts : ℤ) (counts : List ℕ) (g0 : ℕ → G) (n0 : N) (P : ℕ)
    (hP : 0 < P) (outs : ℕ → List (ℕ × List Track))
    (h : ∀ p < P, runRank R env fuel ss ts counts (g0 p) n0 P p = .ok (outs p)) :
    (((List.range P).flatMap outs).map fun o => (o.1, o.2.length)).Perm (counts.zipIdx.map fun c => (c.2, c.1)) := by
  rw [List.map_flatMap]
  have : (List.range P).flatMap (fun p => (outs p).map fun o => (o.1, o.2.length)) =
      (List.range P).flatMap (Tcrm.Balanced.balanced (counts.zipIdx.map fun c => (c.2, c.1)) P) := by
    rw [List.flatMap_def, List.flatMap_def]
    congr 1
    apply List.map_congr_left
    intro p hp
    have := h p (List.mem_range.1 hp)
    simp only [runRank] at this
    split at this
    · simp at this
    split at this
    · simp at this
    exact runSims_all R env fuel ts _ _ _ _ this
  rw [this]
  exact Tcrm.Balanced.balanced_perm _ P hP

/-! ### C55: optional inputs of the track generator -/

/-- **C55** is false: with a distribution of radii loaded from file, no event set with at least
one track is ever generated, unless a radius is prescribed. -/
theorem C55_size_distribution_unusable (R : Rng G) (env : Env N) (hs : env.sizeDist = true)
    (fuel n : ℕ) (simId : ℤ) (init : Init) (hr : truthy init.rmax = none) (w w' : W G N)
    (ts : List Track) : generateTracks R env fuel (n + 1) simId init w ≠ .ok (ts, w') := by
  intro h
  obtain ⟨h1, -, h3, -⟩ := genLoop_ok R env init _ simId (fun _ => True) (fun _ => False)
    (fun _ _ _ _ _ _ _ => trivial)
    (fun fuel j w t w' _ ha => by
      exfalso
      obtain ⟨-, -, -, -, w1, g, hg, -, -⟩ := attempt_some R env fuel init _ simId j w w' t ha
      obtain ⟨_, cell, _, _, _, _, -, -, -, -, -, -, -, k8, -⟩ :=
        sampleGenesis_ok R env fuel init _ w w1 t.gen hg
      simp [genesisRmax, hr, hs] at k8)
    fuel (n + 1) 0 _ ts w' trivial h
  cases ts with
  | nil => simp at h1
  | cons t ts => exact h3 t (by simp)

example : truthy ({} : Init).rmax = none := rfl


theorem trackLoop_no_eps (R : Rng G) (env : Env N) (pe lf : ℚ) (k i : ℕ) (s : St G)
    (rows : List Row) (g : G) (h : trackLoop R env none pe lf k i s = .ok (rows, g)) : rows = [] := by
  cases k with
  | zero => simp [trackLoop] at h; exact h.1
  | succ k =>
    simp only [trackLoop] at h
    split at h
    · simp at h
    · simp only [Except.ok.injEq, Prod.mk.injEq] at h
      exact h.1.symm
    · rename_i row s' hs
      exfalso
      simp only [trackStep] at hs
      split at hs
      · simp at hs
      split at hs
      · simp at hs
      split at hs <;> simp at hs

/-- **C55** is false: with a prescribed (non-zero) radius, a newly created generator never
produces an event set with at least one track (the variate used for the size evolution is only
set when the radius is sampled). -/
theorem C55_prescribed_radius_unusable (R : Rng G) (env : Env N)
    (fuel n : ℕ) (simId : ℤ) (init : Init) (x : ℚ) (hr : truthy init.rmax = some x) (w w' : W G N)
    (hw : w.rmwEps = none) (ts : List Track) :
    generateTracks R env fuel (n + 1) simId init w ≠ .ok (ts, w') := by
  intro h
  have eps : ∀ fuel year (w w1 : W G N) gen, w.rmwEps = none →
      sampleGenesis R env fuel init year w = .ok (gen, w1) → w1.rmwEps = none := by
    intro fuel year w w1 gen hw hg
    obtain ⟨_, cell, _, _, _, _, -, -, -, -, -, -, -, k8, -⟩ :=
      sampleGenesis_ok R env fuel init year w w1 gen hg
    simp only [genesisRmax, hr, Except.ok.injEq, Prod.mk.injEq] at k8
    rw [← k8.2.1, hw]
  obtain ⟨h1, -, h3, -⟩ := genLoop_ok R env init _ simId (fun w => w.rmwEps = none) (fun _ => False)
    (fun fuel j w o w' hI ha => by
      simp only [attempt] at ha
      split at ha
      · simp at ha
      rename_i gen w1 hg
      have hw1 := eps _ _ _ _ _ hI hg
      split at ha
      · simp only [Except.ok.injEq, Prod.mk.injEq] at ha; rw [← ha.2]; exact hw1
      split at ha
      · simp only [Except.ok.injEq, Prod.mk.injEq] at ha; rw [← ha.2]; exact hw1
      split at ha
      · simp at ha
      simp only [Except.ok.injEq, Prod.mk.injEq] at ha; rw [← ha.2]; exact hw1)
    (fun fuel j w t w' hI ha => by
      exfalso
      obtain ⟨-, -, hacc, -, w1, g, hg, hs, -⟩ := attempt_some R env fuel init _ simId j w w' t ha
      rw [eps _ _ _ _ _ hI hg] at hs
      obtain ⟨r, hr1, hr2⟩ := (accept_valid env t hacc).lives
      simp only [singleTrack] at hs
      split at hs
      · simp at hs
      split at hs
      · simp at hs
      rename_i rows g' hl
      rw [trackLoop_no_eps R env _ _ _ _ _ _ _ hl] at hs
      simp only [Except.ok.injEq, Prod.mk.injEq] at hs
      rw [← hs.1] at hr1
      simp only [List.mem_singleton] at hr1
      rw [hr1] at hr2
      norm_num at hr2)
    fuel (n + 1) 0 { w with g := (R.uniform 1900 9998 w.g).2 } ts w' hw h
  cases ts with
  | nil => simp at h1
  | cons t ts => exact h3 t (by simp)

example : truthy ({ rmax := some 30 } : Init).rmax = some 30 := by decide +kernel

/-! ### C54: genesis pressure below the environment -/

/-- **C54**, what holds: a sampled genesis pressure is below the environmental pressure, provided
the first pressure of the table is, and the generator's `uniform 0 p` does not exceed `p`. -/
theorem C54_genesis_pressure_partial (R : Rng G) (hu : ∀ p g, (R.uniform 0 p g).1 ≤ p)
    (table : List (ℚ × ℚ)) (envP : ℚ) (x : ℚ × ℚ) (hx : table.head? = some x) (hlow : x.1 < envP)
    (g g' : G) (p : ℚ) (h : genesisPressure R none table envP g = .ok (p, g')) : p < envP := by
  have hix : Tcrm.Cdf.searchsorted (table.map (·.1)) envP ≠ 0 := by
    cases table with
    | nil => simp at hx
    | cons y t =>
      simp only [List.head?_cons, Option.some.injEq] at hx
      subst hx
      simp [Tcrm.Cdf.searchsorted, List.findIdx_cons, not_le.2 hlow]
  simp only [genesisPressure, truthy, Option.filter, upperProb, if_neg hix] at h
  split at h
  · simp at h
  rename_i q hq
  split at h
  · simp at h
  rename_i v hv
  simp only [Except.ok.injEq, Prod.mk.injEq] at h
  obtain ⟨rfl, -⟩ := h
  obtain ⟨y, hy, rfl⟩ := Option.map_eq_some_iff.1 hq
  simp only [Tcrm.Cdf.ppf] at hv
  split at hv <;> simp only [Except.ok.injEq, reduceCtorEq] at hv
  rename_i w hw
  subst hv
  have hle : Tcrm.Cdf.searchsorted (table.map (·.2)) (R.uniform 0 y.2 g).1 ≤
      Tcrm.Cdf.searchsorted (table.map (·.1)) envP - 1 := by
    by_contra hc
    push Not at hc
    have := List.not_of_lt_findIdx hc
    simp only [List.getElem_map] at this
    have e : table[Tcrm.Cdf.searchsorted (table.map (·.1)) envP - 1]'(by
      have := List.getElem?_eq_some_iff.1 hy; exact this.1) = y := (List.getElem?_eq_some_iff.1 hy).2
    rw [e] at this
    have := hu y.2 g
    simp_all
  have hlt : Tcrm.Cdf.searchsorted (table.map (·.2)) (R.uniform 0 y.2 g).1 <
      Tcrm.Cdf.searchsorted (table.map (·.1)) envP := by omega
  have hnot := List.not_of_lt_findIdx hlt
  obtain ⟨hl, he⟩ := List.getElem?_eq_some_iff.1 hw
  rw [he] at hnot
  simpa using hnot

/-- **C54** is false in general: if every tabulated pressure is at or above the environmental
pressure, the lookup wraps to the last row and a pressure above the environment is returned. -/
theorem C54_wraps_around :
    genesisPressure tape none [(1000, 1 / 2), (1005, 1)] 990 [3 / 4] = .ok (1005, []) := by
  norm_num [genesisPressure, truthy, upperProb, Tcrm.Cdf.searchsorted, List.findIdx_cons, tape,
    Tcrm.Cdf.ppf]

/-- **C54**: such a genesis is never used: every track returned starts below its environment
(also a consequence of `C14_generateTracks`). -/
theorem C54_generated_tracks (R : Rng G) (env : Env N) (fuel n : ℕ) (simId : ℤ) (init : Init)
    (w w' : W G N) (ts : List Track) (h : generateTracks R env fuel n simId init w = .ok (ts, w')) :
    ∀ t ∈ ts, t.gen.pressure < t.gen.envPressure := by
  intro t ht
  have := ((C14_generateTracks R env fuel n simId init w w' ts h).2.2 t ht).2
  linarith

end Tcrm.TrackGen
