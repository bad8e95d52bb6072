import Verif.Spec.Landfall
import Verif.Props.TrackGen
import Mathlib.Algebra.Order.Field.Basic
/-!
C125 (filling over land) and C126 (central pressure over sea) of generated tracks.
-/
namespace Tcrm.TrackGen
open Tcrm.Cells

variable {G N : Type}

/-- What the loop knows of the rows so far. -/
structure Knows (env : Env N) (pre : List Row) (s : St G) : Prop where
  row : pre.getLast? = some s.row
  tol : s.tol = timeAshore env pre
  off : ∃ o, lastOffshore env pre = some o ∧ s.offPressure = o.pressure ∧ s.offPoci = o.poci ∧
    s.lfSpeed = o.speed

theorem lastOffshore_append (env : Env N) (pre : List Row) (hp : pre ≠ []) (r : Row) :
    lastOffshore env (pre ++ [r]) = if ashore env r then lastOffshore env pre else some r := by
  cases pre with
  | nil => exact absurd rfl hp
  | cons g t =>
    simp only [List.cons_append, lastOffshore, List.filter_append]
    by_cases h : ashore env r
    · simp [h]
    · simp [h, List.getLast?_cons]

theorem timeAshore_append (env : Env N) (pre : List Row) (hp : pre ≠ []) (r : Row) :
    timeAshore env (pre ++ [r]) = if ashore env r then timeAshore env pre + env.dt else timeAshore env pre := by
  cases pre with
  | nil => exact absurd rfl hp
  | cons g t =>
    simp only [List.cons_append, timeAshore, List.tail_cons, List.countP_append]
    by_cases h : ashore env r
    · simp [h]; ring
    · simp [h]

/-- How a row follows from the rows before it. -/
def Evolves (env : Env N) (lfeps : ℚ) (pre : List Row) (b : Row) : Prop :=
  (ashore env b = true → ∃ a o d ea, pre.getLast? = some a ∧ lastOffshore env pre = some o ∧ Deficit o d ∧
    a.poci = some ea ∧ b.pressure = some (ea - d * env.exp (-fillingRate lfeps d o *
      timeAshore env (pre ++ [b])))) ∧
  (ashore env b = false → ∃ a cell pa pb dp, pre.getLast? = some a ∧
    getCellNum b.lon b.lat env.gl env.gs = .ok cell ∧ a.pressure = some pa ∧ b.pressure = some pb ∧
    pb = (if pa + dp * env.dt < env.pMin cell - 4 * env.pSig cell then pa + |dp| * env.dt
      else pa + dp * env.dt))

theorem trackStep_evolves (R : Rng G) (env : Env N) (eps : Option ℚ) (pe lfeps : ℚ) (i : ℕ) (pre : List Row)
    (s s' : St G) (b : Row) (hp : pre ≠ []) (hk : Knows env pre s)
    (h : trackStep R env eps pe lfeps i s = .ok (some b, s')) :
    Evolves env lfeps pre b ∧ Knows env (pre ++ [b]) s' := by
  have hgood := (trackStep_some R env eps pe lfeps i s s' b h).2.2.2
  obtain ⟨p, e, hbp, hbe, -⟩ := hgood.deficit
  simp only [trackStep] at h
  split at h
  · simp at h
  split at h
  · simp at h
  rename_i cell hcell
  split at h
  · simp at h
  split at h
  · simp at h
  rename_i ep
  rcases ite_eq_iff.1 h with ⟨-, h⟩ | ⟨hv, h⟩
  · simp at h
  simp only [Except.ok.injEq, Prod.mk.injEq, Option.some.injEq] at h
  obtain ⟨hrow, hs⟩ := h
  obtain ⟨hk1, hk2, o, ho, ho1, ho2, ho3⟩ := hk
  constructor
  · constructor
    · intro hl
      have hl' : env.onLand (env.move s.row.bearing (env.dt * s.row.speed) s.row.lon s.row.lat).1
          (env.move s.row.bearing (env.dt * s.row.speed) s.row.lon s.row.lat).2 = true := by
        rw [← hrow] at hl; exact hl
      have hpr : b.pressure = landPressure env lfeps (timeAshore env (pre ++ [b])) s := by
        rw [timeAshore_append env pre hp, if_pos hl, ← hk2, ← hrow]
        simp only [hl', if_true]
      rw [hbp] at hpr
      simp only [landPressure, F.sub, F.mul, ho1, ho2, ho3] at hpr
      cases hop : o.pressure with
      | none => cases hoe : o.poci <;> cases hse : s.row.poci <;> simp [hop, hoe, hse] at hpr
      | some po =>
        cases hoe : o.poci with
        | none => cases hse : s.row.poci <;> simp [hop, hoe, hse] at hpr
        | some eo =>
          cases hse : s.row.poci with
          | none => simp [hop, hoe, hse] at hpr
          | some ea =>
            refine ⟨s.row, o, eo - po, ea, hk1, ho, ⟨po, eo, hop, hoe, rfl⟩, hse, ?_⟩
            simp only [hop, hoe, hse, Option.map_some, Option.bind_some, Option.some.injEq] at hpr
            rw [hbp, hpr]
            rfl
    · intro hl
      have hl' : env.onLand (env.move s.row.bearing (env.dt * s.row.speed) s.row.lon s.row.lat).1
          (env.move s.row.bearing (env.dt * s.row.speed) s.row.lon s.row.lat).2 = false := by
        rw [← hrow] at hl; exact hl
      simp only [hl', Bool.false_eq_true, if_false] at hrow
      have hpr := congrArg Row.pressure hrow
      simp only at hpr
      rw [hbp] at hpr
      generalize (stepPressureChange R (env.dpStats cell false) i s.dpChi s.dp s.g).2.1 = dp at hpr
      cases hse : s.row.pressure with
      | none => simp [seaPressure, F.add, F.lt, hse] at hpr
      | some pa =>
        refine ⟨s.row, cell, pa, p, dp, hk1, ?_, hse, hbp, ?_⟩
        · rw [← hrow]; exact hcell
        · simp only [seaPressure, F.add, F.lt, hse, Option.map_some, Option.bind_some, decide_eq_true_eq] at hpr
          split at hpr
          · rename_i hc; rw [if_pos hc]; simpa using hpr.symm
          · rename_i hc; rw [if_neg hc]; simpa using hpr.symm
  · refine ⟨by rw [← hs, ← hrow]; simp, ?_, ?_⟩
    · rw [timeAshore_append env pre hp, ← hk2, ← hs, ← hrow]
      rfl
    · rw [lastOffshore_append env pre hp]
      by_cases hl : ashore env b = true
      · refine ⟨o, by rw [if_pos hl]; exact ho, ?_⟩
        have hl' : env.onLand (env.move s.row.bearing (env.dt * s.row.speed) s.row.lon s.row.lat).1
            (env.move s.row.bearing (env.dt * s.row.speed) s.row.lon s.row.lat).2 = true := by
          rw [← hrow] at hl; exact hl
        rw [← hs]
        simp only [hl', if_true]
        exact ⟨ho1, ho2, ho3⟩
      · refine ⟨b, by rw [if_neg hl], ?_⟩
        have hl' : env.onLand (env.move s.row.bearing (env.dt * s.row.speed) s.row.lon s.row.lat).1
            (env.move s.row.bearing (env.dt * s.row.speed) s.row.lon s.row.lat).2 = false := by
          have hl2 : ashore env b = false := by simpa using hl
          rw [← hrow] at hl2; exact hl2
        rw [← hs, ← hrow]
        simp only [hl', Bool.false_eq_true, if_false]
        exact ⟨trivial, trivial, trivial⟩

theorem trackLoop_evolves (R : Rng G) (env : Env N) (eps : Option ℚ) (pe lfeps : ℚ) (k i : ℕ) (pre : List Row)
    (s : St G) (rows : List Row) (g : G) (hp : pre ≠ []) (hk : Knows env pre s)
    (h : trackLoop R env eps pe lfeps k i s = .ok (rows, g)) :
    ∀ (m : ℕ) (b : Row), rows[m]? = some b → Evolves env lfeps (pre ++ rows.take m) b := by
  induction k generalizing i s rows g pre with
  | zero =>
    simp only [trackLoop, Except.ok.injEq, Prod.mk.injEq] at h
    obtain ⟨rfl, -⟩ := h
    simp
  | succ k ih =>
    simp only [trackLoop] at h
    split at h
    · simp at h
    · simp only [Except.ok.injEq, Prod.mk.injEq] at h
      obtain ⟨rfl, -⟩ := h
      simp
    · rename_i row s' hs
      split at h
      · simp at h
      · rename_i rows' g' hl
        simp only [Except.ok.injEq, Prod.mk.injEq] at h
        obtain ⟨rfl, rfl⟩ := h
        obtain ⟨he, hk'⟩ := trackStep_evolves R env eps pe lfeps i pre s s' row hp hk hs
        have := ih (i + 1) (pre ++ [row]) s' rows' g' (by simp) hk' hl
        intro m b hm
        cases m with
        | zero => simp at hm; subst hm; simpa using he
        | succ m =>
          rw [List.getElem?_cons_succ] at hm
          have := this m b hm
          simpa using this

/-- Every row of a track after the genesis follows from those before it. -/
theorem singleTrack_evolves (R : Rng G) (env : Env N) (eps : Option ℚ) (gen : Genesis) (g g' : G)
    (rows : List Row) (h : singleTrack R env eps gen g = .ok (rows, g')) :
    ∀ (m : ℕ) (b : Row), rows[m + 1]? = some b → Evolves env (fillingVariate R g) (rows.take (m + 1)) b := by
  simp only [singleTrack] at h
  split at h
  · simp at h
  split at h
  · simp at h
  rename_i rows' g'' hl
  simp only [Except.ok.injEq, Prod.mk.injEq] at h
  obtain ⟨rfl, rfl⟩ := h
  intro m b hm
  rw [List.getElem?_cons_succ] at hm
  have := trackLoop_evolves R env eps _ _ _ 1 [_] _ rows' g'' (by simp) ⟨rfl, by simp [timeAshore], ?_⟩ hl m b hm
  · exact this
  · exact ⟨_, rfl, rfl, rfl, rfl⟩

/-! ### C125 -/

/-- C125: the central pressure of every position on land.  The excess of the outer pressure one step
before over the central pressure is the deficit `d` of the last position `o` at sea, times the exponential
of minus the filling rate times the whole time the track has been on land. -/
theorem C125_filling_partial (R : Rng G) (env : Env N) (eps : Option ℚ) (gen : Genesis) (g g' : G)
    (rows : List Row) (h : singleTrack R env eps gen g = .ok (rows, g')) :
    ∀ (m : ℕ) (a b : Row), rows[m]? = some a → rows[m + 1]? = some b → ashore env b = true →
      ∃ o d pb ea, lastOffshore env (rows.take (m + 1)) = some o ∧ Deficit o d ∧ b.pressure = some pb ∧
        a.poci = some ea ∧
        ea - pb = d * env.exp (-fillingRate (fillingVariate R g) d o * timeAshore env (rows.take (m + 2))) := by
  have hev := singleTrack_evolves R env eps gen g g' rows h
  intro m a b ha hb hl
  obtain ⟨a', o, d, ea, h1, h2, h3, h4, h5⟩ := (hev m b hb).1 hl
  have hm : m < rows.length := (List.getElem?_eq_some_iff.1 ha).1
  have haa : a' = a := by
    rw [List.getLast?_eq_getElem?, List.length_take, min_eq_left (by omega),
      List.getElem?_take_of_lt (by omega), Nat.add_sub_cancel, ha] at h1
    exact (Option.some.inj h1).symm
  subst haa
  refine ⟨o, d, _, ea, h2, h3, h5, h4, ?_⟩
  have e : rows.take (m + 1) ++ [b] = rows.take (m + 2) := by
    rw [List.take_add_one (i := m + 1), hb]; rfl
  rw [e]
  ring

/-- C125: with a positive filling rate the deficit becomes smaller from each position on land to the next
position on land (the exponential may be any increasing function with positive values). -/
theorem C125_weakens_partial (R : Rng G) (env : Env N) (hexp : StrictMono env.exp) (hpos : ∀ x, 0 < env.exp x)
    (hdt : 0 < env.dt) (eps : Option ℚ) (gen : Genesis) (g g' : G)
    (rows : List Row) (h : singleTrack R env eps gen g = .ok (rows, g')) :
    ∀ (m : ℕ) (a b c : Row), rows[m]? = some a → rows[m + 1]? = some b → rows[m + 2]? = some c →
      ashore env b = true → ashore env c = true →
      ∃ o d pb pc ea eb, lastOffshore env (rows.take (m + 1)) = some o ∧ Deficit o d ∧
        b.pressure = some pb ∧ c.pressure = some pc ∧ a.poci = some ea ∧ b.poci = some eb ∧
        (0 < d → 0 < fillingRate (fillingVariate R g) d o → 0 < eb - pc ∧ eb - pc < ea - pb) ∧
        (0 < d → fillingRate (fillingVariate R g) d o < 0 → ea - pb < eb - pc) := by
  have hf := C125_filling_partial R env eps gen g g' rows h
  intro m a b c ha hb hc hlb hlc
  obtain ⟨o, d, pb, ea, h1, h2, h3, h4, h5⟩ := hf m a b ha hb hlb
  obtain ⟨o', d', pc, eb, k1, k2, k3, k4, k5⟩ := hf (m + 1) b c hb hc hlc
  have hm : m + 2 < rows.length := (List.getElem?_eq_some_iff.1 hc).1
  have hne : rows.take (m + 1) ≠ [] := by
    intro e
    have := congrArg List.length e
    rw [List.length_take, min_eq_left (by omega)] at this
    simp at this
  have eb' : rows.take (m + 2) = rows.take (m + 1) ++ [b] := by
    rw [List.take_add_one (i := m + 1), hb]; rfl
  have ec' : rows.take (m + 1 + 2) = rows.take (m + 2) ++ [c] := by
    rw [show m + 1 + 2 = m + 2 + 1 from rfl, List.take_add_one (i := m + 2), hc]; rfl
  rw [show m + 1 + 1 = m + 2 from rfl, eb', lastOffshore_append env _ hne, if_pos hlb, h1] at k1
  obtain rfl := Option.some.inj k1
  have hdd : d' = d := by
    obtain ⟨p, e, q1, q2, rfl⟩ := h2
    obtain ⟨p', e', r1, r2, rfl⟩ := k2
    rw [q1] at r1; rw [q2] at r2
    obtain rfl := Option.some.inj r1
    obtain rfl := Option.some.inj r2
    rfl
  subst hdd
  rw [ec', timeAshore_append env _ (by rw [eb']; simp), if_pos hlc] at k5
  refine ⟨o, d', pb, pc, ea, eb, h1, h2, h3, k3, h4, k4, ?_, ?_⟩
  · intro hd hr
    rw [h5, k5]
    refine ⟨mul_pos hd (hpos _), mul_lt_mul_of_pos_left (hexp ?_) hd⟩
    nlinarith
  · intro hd hr
    rw [h5, k5]
    refine mul_lt_mul_of_pos_left (hexp ?_) hd
    nlinarith

/-- C125 (the first failure): the time on land is not counted from the landfall.  If a track comes ashore
after it has been on land before for a time `t > 0` and has been at sea in between, the deficit in its
first step ashore is what the model gives after `t` and a step, not after one step: a sudden loss. -/
theorem C125_second_landfall_fails (R : Rng G) (env : Env N) (hexp : StrictMono env.exp)
    (eps : Option ℚ) (gen : Genesis) (g g' : G)
    (rows : List Row) (h : singleTrack R env eps gen g = .ok (rows, g')) :
    ∀ (m : ℕ) (a b : Row), rows[m]? = some a → rows[m + 1]? = some b → ashore env a = false →
      ashore env b = true → 0 < m → 0 < timeAshore env (rows.take (m + 1)) →
      ∃ d pb ea, Deficit a d ∧ b.pressure = some pb ∧ a.poci = some ea ∧
        (0 < d → 0 < fillingRate (fillingVariate R g) d a →
          ea - pb < d * env.exp (-fillingRate (fillingVariate R g) d a * env.dt)) := by
  have hf := C125_filling_partial R env eps gen g g' rows h
  intro m a b ha hb hla hlb hm0 ht
  obtain ⟨o, d, pb, ea, h1, h2, h3, h4, h5⟩ := hf m a b ha hb hlb
  have hm : m + 1 < rows.length := (List.getElem?_eq_some_iff.1 hb).1
  have hne : ∀ k, 0 < k → rows.take k ≠ [] := by
    intro k hk e
    have := congrArg List.length e
    rw [List.length_take] at this
    simp at this
    rcases this with h | h
    · omega
    · rw [h] at hm; simp at hm
  rw [show rows.take (m + 1) = rows.take m ++ [a] by rw [List.take_add_one (i := m), ha]; rfl,
    lastOffshore_append env _ (hne m hm0), if_neg (by simp [hla])] at h1
  obtain rfl := Option.some.inj h1
  have eb' : rows.take (m + 2) = rows.take (m + 1) ++ [b] := by
    rw [List.take_add_one (i := m + 1), hb]; rfl
  rw [eb', timeAshore_append env _ (hne _ (by omega)), if_pos hlb] at h5
  refine ⟨d, pb, ea, h2, h3, h4, ?_⟩
  intro hd hr
  rw [h5]
  refine mul_lt_mul_of_pos_left (hexp ?_) hd
  nlinarith

/-- C125 (the second failure): the variate of the filling rate is larger than -0.06146 only, so that the
rate is negative for slow and weak cyclones; over land these deepen (`C125_weakens_partial`, last part).
For instance with a deficit of 10 hPa, a speed of 5 km/h and the variate -0.06. -/
theorem C125_negative_rate_fails : ∃ (o : Row) (d lfeps : ℚ), -0.06146 < lfeps ∧ 5 ≤ d ∧ Deficit o d ∧
    0 < o.speed ∧ fillingRate lfeps d o < 0 :=
  ⟨⟨0, 0, 0, 5, 0, some 990, some 1000, none⟩, 10, -0.06, by norm_num, by norm_num,
    ⟨990, 1000, rfl, rfl, by norm_num⟩, by norm_num, by norm_num [fillingRate]⟩

/-- A coast along which a track moves east, on land at odd degrees. The exponential is replaced by a
simple increasing function. -/
def coast : Env ℕ := { calm with
  move := fun _ _ lon lat => (lon + 1, lat)
  onLand := fun lon _ => decide (⌊lon⌋ % 2 = 1)
  exp := fun x => if x < 0 then 1 / (1 - x) else 1 + x }

theorem coast_exp : StrictMono coast.exp ∧ ∀ x, 0 < coast.exp x := by
  have e : coast.exp = fun x : ℚ => if x < 0 then 1 / (1 - x) else 1 + x := rfl
  rw [e]
  constructor
  · intro x y hxy
    simp only
    split
    · rename_i hx
      split
      · rename_i hy
        exact one_div_lt_one_div_of_lt (by linarith) (by linarith)
      · rename_i hy
        have : 1 / (1 - x) < 1 := by rw [div_lt_one (by linarith)]; linarith
        linarith
    · rw [if_neg (by linarith)]
      linarith
  · intro x
    simp only
    split
    · exact one_div_pos.2 (by linarith)
    · linarith

/-- On it there is a track that is on land, at sea and on land again, and one that stays on land. -/
example : (∃ rows g', singleTrack tape { coast with maxTimeSteps := 4 } (some 0)
      ⟨100, -15, 90, 20, 1, 0, 1010, 960, 40⟩ [] = .ok (rows, g') ∧
      rows.map (ashore coast) = [false, true, false, true]) ∧
    ∃ rows g', singleTrack tape { coast with maxTimeSteps := 4, onLand := fun _ _ => true } (some 0)
      ⟨100, -15, 90, 20, 1, 0, 1010, 960, 40⟩ [] = .ok (rows, g') ∧ rows.length = 4 := by
  have h : ∀ {β : Type} (f : List Row → β) (r : Except Err (List Row × List ℚ)) (b : β),
      (match r with | .ok x => some (f x.1) | .error _ => none) = some b →
      ∃ rows g', r = .ok (rows, g') ∧ f rows = b := by
    intro β f r b h
    cases r with
    | error e => cases h
    | ok x => exact ⟨x.1, x.2, rfl, Option.some.inj h⟩
  exact ⟨h _ _ _ (by decide +kernel), h _ _ _ (by decide +kernel)⟩

/-! ### C126 -/

/-- C126: over sea the central pressure never falls from one step to the next to more than four standard
deviations below the least pressure observed in the cell. -/
theorem C126_not_too_deep (R : Rng G) (env : Env N) (hdt : 0 ≤ env.dt) (eps : Option ℚ) (gen : Genesis) (g g' : G)
    (rows : List Row) (h : singleTrack R env eps gen g = .ok (rows, g'))
    (m : ℕ) (a b : Row) (ha : rows[m]? = some a) (hb : rows[m + 1]? = some b) (hl : ashore env b = false) :
    ∃ cell pa pb, getCellNum b.lon b.lat env.gl env.gs = .ok cell ∧ a.pressure = some pa ∧
      b.pressure = some pb ∧ (pb < pa → env.pMin cell - 4 * env.pSig cell ≤ pb) := by
  have hev := singleTrack_evolves R env eps gen g g' rows h
  obtain ⟨a', cell, pa, pb, dp, h1, h2, h3, h4, h5⟩ := (hev m b hb).2 hl
  have hm : m < rows.length := (List.getElem?_eq_some_iff.1 ha).1
  have haa : a' = a := by
    rw [List.getLast?_eq_getElem?, List.length_take, min_eq_left (by omega),
      List.getElem?_take_of_lt (by omega), Nat.add_sub_cancel, ha] at h1
    exact (Option.some.inj h1).symm
  subst haa
  refine ⟨cell, pa, pb, h2, h3, h4, ?_⟩
  intro hlt
  split at h5
  · exfalso
    have : 0 ≤ |dp| * env.dt := mul_nonneg (abs_nonneg _) hdt
    linarith
  · rename_i hn
    rw [h5]
    exact not_lt.1 hn

/-- C126, over a whole stretch at sea: as long as the track stays in cells whose bound is at least `f`, and
has begun at `f` or above, its pressure stays at `f` or above. -/
theorem C126_floor (R : Rng G) (env : Env N) (hdt : 0 ≤ env.dt) (eps : Option ℚ) (gen : Genesis) (g g' : G)
    (rows : List Row) (h : singleTrack R env eps gen g = .ok (rows, g')) (f : ℚ)
    (hf : ∀ r ∈ rows, ∀ cell, getCellNum r.lon r.lat env.gl env.gs = .ok cell →
      f ≤ env.pMin cell - 4 * env.pSig cell)
    (hsea : ∀ r ∈ rows.tail, ashore env r = false) (hg : f ≤ gen.pressure) :
    ∀ (m : ℕ) (r : Row), rows[m]? = some r → ∃ p, r.pressure = some p ∧ f ≤ p := by
  obtain ⟨-, ⟨poci, hhead⟩, -⟩ := C13_single_track R env eps gen g g' rows h
  intro m
  induction m with
  | zero =>
    intro r hr
    rw [List.head?_eq_getElem?] at hhead
    rw [hhead] at hr
    obtain rfl := Option.some.inj hr
    exact ⟨_, rfl, hg⟩
  | succ m ih =>
    intro b hb
    have hmem : b ∈ rows := List.mem_of_getElem? hb
    have htail : b ∈ rows.tail := by
      cases rows with
      | nil => simp at hb
      | cons x t => rw [List.getElem?_cons_succ] at hb; exact List.mem_of_getElem? hb
    have hlen : m < rows.length := by
      have := (List.getElem?_eq_some_iff.1 hb).1
      omega
    obtain ⟨cell, pa, pb, h2, h3, h4, h5⟩ := C126_not_too_deep R env hdt eps gen g g' rows h m rows[m] b
      (List.getElem?_eq_getElem hlen) hb (hsea b htail)
    obtain ⟨p, hp, hfp⟩ := ih rows[m] (List.getElem?_eq_getElem hlen)
    rw [h3] at hp
    obtain rfl := Option.some.inj hp
    refine ⟨pb, h4, ?_⟩
    by_cases hlt : pb < pa
    · exact (hf b hmem cell h2).trans (h5 hlt)
    · exact hfp.trans (not_lt.1 hlt)

/-- A track at sea that falls by 3 hPa a step to the floor of 953 hPa and then rises. -/
example : (match singleTrack tape { calm with maxTimeSteps := 5, pMin := fun _ => 955
                                              pSig := fun _ => 1/2, dpStats := fun _ _ => ⟨0, 0, -1/2, 0⟩ }
      (some 0) ⟨100, -15, 90, 20, 1, 0, 1010, 960, 40⟩ [] with
    | .ok x => some (x.1.map fun r => r.pressure)
    | .error _ => none) =
    some [some 960, some 960, some 957, some 954, some 957] := by decide +kernel

end Tcrm.TrackGen
