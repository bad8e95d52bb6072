import Verif.Spec.StatPlots
import Mathlib.Analysis.Real.Pi.Irrational
import Mathlib.Analysis.SpecialFunctions.Trigonometric.Complex
import Mathlib.Tactic.Linarith
import Mathlib.Tactic.FieldSimp
/-!
C171: the plots of the input data show the data.
-/
namespace Tcrm.StatPlots
open Tcrm.Rates

theorem zip_successive {α : Type} : ∀ xs : List α, xs.tail.zip xs.dropLast = successive xs
  | [] => rfl
  | [_] => rfl
  | a :: b :: l => by
    have := zip_successive (b :: l)
    cases l with
    | nil => rfl
    | cons c l => simpa [successive] using this

theorem successive_append {α : Type} : ∀ (s t : List α) (b : α), s ≠ [] →
    ∃ a, s.getLast? = some a ∧ successive (s ++ b :: t) = successive s ++ (b, a) :: successive (b :: t)
  | [], _, _, h => absurd rfl h
  | [a], t, b, _ => ⟨a, rfl, rfl⟩
  | a :: c :: s, t, b, _ => by
    obtain ⟨z, hz, he⟩ := successive_append (c :: s) t b (by simp)
    refine ⟨z, by simpa using hz, ?_⟩
    simp only [List.cons_append, successive] at he ⊢
    rw [he]

theorem pts_lag (v : Var) (xs : List ℚ) :
    (lagPlot v xs).pts = (successive xs).filter fun p => decide (Observed p) := by
  simp only [lagPlot, scatter, zip_successive, id, Prod.mk.eta, List.map_id']
  refine List.filter_congr fun p _ => ?_
  exact (Bool.decide_and _ _).symm

/-- The points of a plot against the value before are all pairs of an observed value and the observed value before it,
the later one along the axis labelled `t`. -/
theorem C171_lag (v : Var) (xs : List ℚ) :
    Placed (lagPlot v xs) v ((successive xs).filter fun p => decide (Observed p)) := by
  refine ⟨rfl, rfl, by simp [lagPlot, scatter], by simp [lagPlot, scatter], ?_⟩
  rw [pts_lag]
  simp [lagPlot, scatter]

example : (lagPlot .pressure [1000, 990, M, 985, 980]).pts = [(990, 1000), (980, 985)] := by decide +kernel

theorem within_eq : ∀ storms : List (List ℚ), (∀ s ∈ storms, s.head? = some M) →
    ((successive storms.flatten).filter fun p => decide (Observed p)) = withinStorms storms
  | [], _ => rfl
  | [s], _ => by simp [withinStorms]
  | s :: t :: r, h => by
    have ih := within_eq (t :: r) fun u hu => h u (List.mem_cons_of_mem _ hu)
    have hs : s ≠ [] := by
      rintro rfl; simpa using h [] (by simp)
    obtain ⟨t', rfl⟩ : ∃ t', t = M :: t' := by
      have := h t (by simp)
      cases t with
      | nil => simp at this
      | cons a t => simp at this; exact ⟨t, by rw [this]⟩
    obtain ⟨a, _, he⟩ := successive_append s (t' ++ r.flatten) M hs
    have : (s :: (M :: t') :: r).flatten = s ++ M :: (t' ++ r.flatten) := by simp
    rw [this, he, List.filter_append, List.filter_cons]
    have hM : decide (Observed (M, a)) = false := by simp [Observed]
    rw [hM]
    have h2 : ((M :: t') :: r).flatten = M :: (t' ++ r.flatten) := by simp
    rw [h2] at ih
    simp [ih, withinStorms]

/-- If the first value of each storm is missing, the points are the pairs of successive observed values of the same
storm: no point mixes two storms. -/
theorem C171_within (v : Var) (storms : List (List ℚ)) (h : ∀ s ∈ storms, s.head? = some M) :
    Placed (lagPlot v storms.flatten) v (withinStorms storms) := by
  rw [← within_eq storms h]
  exact C171_lag v _

example : (∀ s ∈ [[M, 5, 7], [M, 3, M, 4, 6], [M]], s.head? = some M) ∧
    withinStorms [[M, 5, 7], [M, 3, M, 4, 6], [M]] = [(7, 5), (6, 4)] := by decide +kernel

/-- The speeds, bearings and rates of change are missing in the first row of each storm. -/
theorem C171_starts (u : Num) (u' : ℚ) (pressure dist bear dt : ℕ → ℚ) (indicator : ℕ → ℤ) (i : ℕ)
    (h : indicator i ≠ 0) :
    pressureRate u pressure dt indicator i = missing ∧ maskBearing bear indicator i = M ∧
      bearingRate u' bear dt indicator i = missing ∧ speed dist dt indicator i = missing ∧
      speedRate u dist dt indicator i = missing := by
  have hm : ∀ b, mask b missing = missing := by intro b; cases b <;> rfl
  have h1 : ∀ x, mask (decide (indicator i ≠ 0)) x = missing := fun x => by simp [mask, h]
  have h2 : ∀ a x, mask (a || decide (indicator i ≠ 0)) x = missing := fun a x => by simp [mask, h]
  refine ⟨?_, ?_, ?_, ?_, ?_⟩
  · simp only [pressureRate, h1, hm]
  · simp [maskBearing, h]
  · simp only [bearingRate, h1, hm]
  · simp only [speed, h2, hm]
  · simp only [speedRate, badSpeed, h2, hm]

example : pressureRate .nan (fun i => 1000 - i) (fun _ => 6) (fun i => if i = 3 then 1 else 0) 3 = missing ∧
    pressureRate .nan (fun i => 1000 - 6 * i) (fun _ => 6) (fun i => if i = 3 then 1 else 0) 4 = .fin (-1) := by
  decide +kernel

theorem length_all : ∀ storms : List (List ℚ), (∀ s ∈ storms, s ≠ []) → storms ≠ [] →
    (successive storms.flatten).length + 1 = (storms.flatMap successive).length + storms.length
  | [], _, h => absurd rfl h
  | [s], _, _ => by simp
  | s :: t :: r, h, _ => by
    have ih := length_all (t :: r) (fun u hu => h u (List.mem_cons_of_mem _ hu)) (by simp)
    obtain ⟨b, t', rfl⟩ := List.exists_cons_of_ne_nil (h t (by simp))
    obtain ⟨a, _, he⟩ := successive_append s (t' ++ r.flatten) b (h s (by simp))
    have h1 : (s :: (b :: t') :: r).flatten = s ++ b :: (t' ++ r.flatten) := by simp
    have h2 : ((b :: t') :: r).flatten = b :: (t' ++ r.flatten) := by simp
    rw [h2] at ih
    rw [h1, he]
    simp only [List.length_append, List.length_cons, List.flatMap_cons] at ih ⊢
    omega

theorem successive_mem {α : Type} {p : α × α} : ∀ {l : List α}, p ∈ successive l → p.1 ∈ l ∧ p.2 ∈ l
  | [], h => by simp [successive] at h
  | [_], h => by simp [successive] at h
  | a :: b :: l, h => by
    simp only [successive, List.mem_cons] at h
    rcases h with rfl | h
    · simp
    · obtain ⟨h1, h2⟩ := successive_mem h
      exact ⟨List.mem_cons_of_mem _ h1, List.mem_cons_of_mem _ h2⟩

/-- Pressure is observed in the first row of a storm too: the plot of pressure then has one point for each storm but the
first that puts the first pressure of the storm against the last pressure of another one. -/
theorem C171_pressure_fails (storms : List (List ℚ)) (hne : ∀ s ∈ storms, s ≠ []) (h0 : storms ≠ [])
    (hobs : ∀ s ∈ storms, ∀ x ∈ s, x < M) :
    (lagPlot .pressure storms.flatten).pts.length + 1 = (withinStorms storms).length + storms.length := by
  have hall : ∀ l : List ℚ, (∀ x ∈ l, x < M) → ((successive l).filter fun p => decide (Observed p)) = successive l :=
    fun l hl => List.filter_eq_self.2 fun p hp => by
      obtain ⟨h1, h2⟩ := successive_mem hp
      exact decide_eq_true ⟨hl _ h1, hl _ h2⟩
  rw [pts_lag, hall _ (fun x hx => by obtain ⟨s, hs, hx⟩ := List.mem_flatten.1 hx; exact hobs s hs x hx)]
  rw [length_all storms hne h0]
  congr 2
  simp only [withinStorms]
  refine List.flatMap_congr fun s hs => ?_
  exact (hall s (hobs s hs)).symm

/-- Two storms with two observations each: three points, one of which mixes the storms. -/
example : (lagPlot .pressure [[1000, 990], [1005, 1000]].flatten).pts = [(990, 1000), (1005, 990), (1000, 1005)] ∧
    withinStorms [[1000, 990], [1005, 1000]] = [(990, 1000), (1000, 1005)] := by decide +kernel

/-! ### Minimum pressure -/

theorem fold_rest : ∀ (l : List ℚ) (m : ℚ) (acc : List ℚ),
    ∃ m', (l.map fun x => ((0 : ℤ), x)).foldlM minStep (m :: acc) = some (m' :: acc) ∧ Lowest (m :: l) m'
  | [], m, acc => ⟨m, rfl, by simp [Lowest]⟩
  | x :: l, m, acc => by
    obtain ⟨m', hf, hm⟩ := fold_rest l (if x < m then x else m) acc
    refine ⟨m', by simpa [List.foldlM_cons, minStep] using hf, ?_, ?_⟩
    · have := hm.1
      split at this <;> simp only [List.mem_cons] at this ⊢ <;> tauto
    · intro y hy
      have h1 := hm.2 (if x < m then x else m) (by simp)
      simp only [List.mem_cons] at hy
      rcases hy with rfl | rfl | hy
      · split at h1 <;> linarith
      · split at h1 <;> linarith
      · exact hm.2 y (by simp [hy])

theorem flag_zip (s : List ℚ) (x : ℚ) :
    (((x :: s).mapIdx fun i _ => if i = 0 then (1 : ℤ) else 0).zip (x :: s)) =
      (1, x) :: s.map fun y => ((0 : ℤ), y) := by
  rw [List.mapIdx_cons]
  simp only [if_true, List.zip_cons_cons, List.cons.injEq, true_and]
  apply List.ext_getElem
  · simp
  · intro i h1 h2
    simp

theorem flags_zip : ∀ storms : List (List ℚ), (flags storms).zip storms.flatten =
    storms.flatMap fun s => (s.mapIdx fun i _ => if i = 0 then (1 : ℤ) else 0).zip s
  | [] => rfl
  | s :: r => by
    have := flags_zip r
    simp only [flags, List.flatMap_cons, List.flatten_cons] at this ⊢
    rw [List.zip_append (by simp), this]

theorem fold_storms : ∀ (storms : List (List ℚ)) (acc : List ℚ), (∀ s ∈ storms, s ≠ []) →
    ∃ ms, ((flags storms).zip storms.flatten).foldlM minStep acc = some (ms.reverse ++ acc) ∧
      List.Forall₂ Lowest storms ms
  | [], acc, _ => ⟨[], rfl, .nil⟩
  | s :: r, acc, h => by
    obtain ⟨x, s', rfl⟩ := List.exists_cons_of_ne_nil (h s (by simp))
    obtain ⟨m, hf, hm⟩ := fold_rest s' x acc
    obtain ⟨ms, hfs, hms⟩ := fold_storms r (m :: acc) fun u hu => h u (List.mem_cons_of_mem _ hu)
    refine ⟨m :: ms, ?_, .cons hm hms⟩
    rw [flags_zip] at hfs ⊢
    rw [List.flatMap_cons, List.foldlM_append, flag_zip, List.foldlM_cons]
    simp only [minStep, if_true, Option.bind_eq_bind, Option.bind_some, hf, hfs]
    simp

theorem flags_length {α : Type} (storms : List (List α)) : (flags storms).length = storms.flatten.length := by
  induction storms with
  | nil => rfl
  | cons s r ih => simp only [flags, List.flatMap_cons, List.flatten_cons, List.length_append] at ih ⊢; simp [ih]

theorem flags_append {α : Type} (a b : List (List α)) : flags (a ++ b) = flags a ++ flags b := by
  simp [flags]

/-- Minimum pressures: those of all storms but the last, and the minimum of the last storm without its last
observation. -/
theorem C171_minimum (storms : List (List ℚ)) (init : List ℚ) (z : ℚ) (h : ∀ s ∈ storms, s ≠ []) :
    ∃ ms, List.Forall₂ Lowest (storms ++ if init = [] then [] else [init]) ms ∧
      minPressures (flags (storms ++ [init ++ [z]])) (storms ++ [init ++ [z]]).flatten =
        some (ms.filter fun m => decide (m < M)) := by
  obtain ⟨ms, hf, hms⟩ := fold_storms (storms ++ if init = [] then [] else [init]) [] (by
    intro s hs
    rcases List.mem_append.1 hs with hs | hs
    · exact h s hs
    · split at hs
      · simp at hs
      · simp at hs; subst hs; assumption)
  refine ⟨ms, hms, ?_⟩
  have hl : (flags (storms ++ [init ++ [z]])).length - 1 = (storms ++ if init = [] then [] else [init]).flatten.length := by
    rw [flags_length]
    split <;> simp_all
  have hz : ((flags (storms ++ [init ++ [z]])).zip (storms ++ [init ++ [z]]).flatten).take
      ((flags (storms ++ [init ++ [z]])).length - 1) =
        (flags (storms ++ if init = [] then [] else [init])).zip (storms ++ if init = [] then [] else [init]).flatten := by
    rw [hl, List.zip_eq_zipWith, List.zip_eq_zipWith, List.take_zipWith]
    congr 1
    · rw [flags_append, flags_append]
      split
      · next h0 => subst h0; rw [List.take_append_of_le_length (by simp [flags_length]), List.take_of_length_le (by simp [flags_length])]; simp [flags]
      · next h0 =>
        rw [List.take_append]
        congr 1
        · exact List.take_of_length_le (by simp [flags_length])
        · rw [flags_length]
          simp only [flags, List.flatMap_cons, List.flatMap_nil, List.append_nil, List.mapIdx_append]
          rw [List.take_append_of_le_length (by simp)]
          exact List.take_of_length_le (by simp)
    · split
      · next h0 => subst h0; simp
      · next h0 =>
        rw [List.flatten_append, List.flatten_append, List.take_append]
        congr 1
        · exact List.take_of_length_le (by simp)
        · simp
  rw [minPressures, if_neg (by rw [flags_length]; omega), hz, hf]
  simp

/-- Every storm with an observed pressure is shown with its lowest pressure, if that is not observed at the very end
of the data only. -/
theorem C171_minimum_partial (storms : List (List ℚ)) (init : List ℚ) (z : ℚ) (h : ∀ s ∈ storms, s ≠ [])
    (hz : ∃ x ∈ init, x ≤ z) :
    ∃ ms, List.Forall₂ Lowest (storms ++ [init ++ [z]]) ms ∧
      minPressures (flags (storms ++ [init ++ [z]])) (storms ++ [init ++ [z]]).flatten =
        some (ms.filter fun m => decide (m < M)) := by
  obtain ⟨ms, hms, he⟩ := C171_minimum storms init z h
  refine ⟨ms, ?_, he⟩
  obtain ⟨x, hx, hxz⟩ := hz
  rw [if_neg (List.ne_nil_of_mem hx)] at hms
  obtain ⟨as, bs, ha, hb, rfl⟩ : ∃ as bs, List.Forall₂ Lowest storms as ∧ List.Forall₂ Lowest [init] bs ∧ ms = as ++ bs := by
    refine ⟨ms.take storms.length, ms.drop storms.length, ?_, ?_, (List.take_append_drop _ _).symm⟩
    · have := List.forall₂_take storms.length hms
      simpa using this
    · have := List.forall₂_drop storms.length hms
      simpa using this
  refine List.rel_append ha ?_
  cases hb with
  | cons hb hn =>
    cases hn
    refine .cons ⟨List.mem_append_left _ hb.1, fun y hy => ?_⟩ .nil
    rcases List.mem_append.1 hy with hy | hy
    · exact hb.2 y hy
    · simp at hy; subst hy; exact le_trans (hb.2 x hx) hxz

example : (∃ x ∈ [980, 985], (x : ℚ) ≤ 990) ∧ flags [[1000, 950, 990], [M, M], [980, 985] ++ [(990 : ℚ)]] = [1, 0, 0, 1, 0, 1, 0, 0] ∧
    minPressures [1, 0, 0, 1, 0, 1, 0, 0] [1000, 950, 990, M, M, 980, 985, 990] = some [950, 980] := by decide +kernel

/-- The last observation of the data is not used: whatever it is, the distribution shown is the same. A storm that
consists of it is not shown, and a minimum pressure observed there is not. -/
theorem C171_last_fails (storms : List (List ℚ)) (init : List ℚ) (z z' : ℚ) (h : ∀ s ∈ storms, s ≠ []) :
    minPressures (flags (storms ++ [init ++ [z]])) (storms ++ [init ++ [z]]).flatten =
        minPressures (flags (storms ++ [init ++ [z']])) (storms ++ [init ++ [z']]).flatten ∧
      ∀ l, minPressures (flags (storms ++ [[z]])) (storms ++ [[z]]).flatten = some l → l.length ≤ storms.length := by
  constructor
  · obtain ⟨ms, hms, he⟩ := C171_minimum storms init z h
    obtain ⟨ms', hms', he'⟩ := C171_minimum storms init z' h
    rw [he, he']
    congr 2
    have hu : ∀ {a : List (List ℚ)} {b c : List ℚ}, List.Forall₂ Lowest a b → List.Forall₂ Lowest a c → b = c := by
      intro a b c hab
      induction hab generalizing c with
      | nil => intro h; cases h; rfl
      | cons h1 _ ih =>
        intro h
        cases h with
        | cons h2 h3 => rw [ih h3, le_antisymm (h1.2 _ h2.1) (h2.2 _ h1.1)]
    exact hu hms hms'
  · intro l hl
    obtain ⟨ms, hms, he⟩ := C171_minimum storms [] z h
    have he' : minPressures (flags (storms ++ [[z]])) (storms ++ [[z]]).flatten =
      some (ms.filter fun m => decide (m < M)) := he
    rw [he', Option.some.injEq] at hl
    have := hms.length_eq
    simp at this
    rw [← hl, this]
    exact List.length_filter_le _ _

/-- The lowest pressure at the end of the data is not shown; nor is a storm with one observation there. -/
example : minPressures [1, 0, 1, 0] [1000, 990, 985, 940] = some [990, 985] ∧
    minPressures [1, 0, 1] [1000, 990, 940] = some [990] ∧ minPressures [0, 1] [1000, 990] = none := by decide +kernel

/-! ### Steps -/

theorem steps_zip {α : Type} : ∀ storms : List (List α), (∀ s ∈ storms, s ≠ []) →
    ((successive storms.flatten).zip (flags storms).tail).filterMap (fun p => if p.2 = 0 then some p.1 else none) =
      storms.flatMap successive := by
  have key : ∀ (s : List α) (x : α) (rest : List ℤ) (more : List (α × α)),
      ((successive (x :: s) ++ more).zip ((s.map fun _ => (0 : ℤ)) ++ rest)).filterMap
        (fun p => if p.2 = 0 then some p.1 else none) =
      successive (x :: s) ++ (more.zip rest).filterMap (fun p => if p.2 = 0 then some p.1 else none) := by
    intro s
    induction s with
    | nil => intro x rest more; simp [successive]
    | cons y s ih =>
      intro x rest more
      simp only [successive, List.map_cons, List.cons_append, List.zip_cons_cons, List.filterMap_cons, if_true, ih]
  have hfl : ∀ (x : α) (s : List α), ((x :: s).mapIdx fun i _ => if i = 0 then (1 : ℤ) else 0) = 1 :: s.map fun _ => (0 : ℤ) := by
    intro x s
    rw [List.mapIdx_cons]
    simp only [if_true, List.cons.injEq, true_and]
    apply List.ext_getElem
    · simp
    · intro i h1 h2; simp
  intro storms
  induction storms with
  | nil => intro _; rfl
  | cons s r ih =>
    intro h
    obtain ⟨x, s', rfl⟩ := List.exists_cons_of_ne_nil (h s (by simp))
    have ih := ih fun u hu => h u (List.mem_cons_of_mem _ hu)
    have hf : (flags ((x :: s') :: r)).tail = (s'.map fun _ => (0 : ℤ)) ++ flags r := by
      simp only [flags, List.flatMap_cons, hfl, List.cons_append, List.tail_cons]
    rw [hf]
    cases r with
    | nil =>
      have := key s' x [] []
      simpa [flags] using this
    | cons t r =>
      obtain ⟨y, t', rfl⟩ := List.exists_cons_of_ne_nil (h t (by simp))
      obtain ⟨a, _, he⟩ := successive_append (x :: s') (t' ++ r.flatten) y (by simp)
      have h1 : ((x :: s') :: (y :: t') :: r).flatten = (x :: s') ++ y :: (t' ++ r.flatten) := by simp
      have h2 : ((y :: t') :: r).flatten = y :: (t' ++ r.flatten) := by simp
      rw [h2] at ih
      rw [h1, he, key, List.flatMap_cons]
      congr 1
      have hf2 : flags ((y :: t') :: r) = 1 :: (flags ((y :: t') :: r)).tail := by
        simp only [flags, List.flatMap_cons, hfl, List.cons_append, List.tail_cons]
      rw [hf2, List.zip_cons_cons, List.filterMap_cons]
      simpa using ih

/-- The steps are the changes between successive observations of the same storm. -/
theorem C171_steps (storms : List (List ℚ)) (h : ∀ s ∈ storms, s ≠ []) :
    steps storms.flatten (flags storms) = storms.flatMap fun s => (successive s).map fun p => p.1 - p.2 := by
  have := congrArg (List.map fun p : ℚ × ℚ => p.1 - p.2) (steps_zip storms h)
  rw [List.map_flatMap] at this
  rw [← this, steps, zip_successive, List.zip_map_left, List.filterMap_map, List.map_filterMap]
  congr 1
  funext p
  simp only [Function.comp, Prod.map]
  split <;> simp_all

example : steps [150, 151, 120, 119] (flags [[150, 151], [120, (119 : ℚ)]]) = [1, -1] := by decide +kernel

theorem lonSteps_eq (storms : List (List ℚ)) (h : ∀ s ∈ storms, s ≠ []) :
    lonSteps storms.flatten (flags storms) = (storms.flatMap successive).map fun p =>
      if p.1 - p.2 < -180 then p.1 - p.2 + 360 else p.1 - p.2 := by
  rw [lonSteps, C171_steps storms h, ← List.map_flatMap, List.map_map]
  rfl

/-- Steps of longitude go the short way round, if no storm crosses the meridian of Greenwich westwards. -/
theorem C171_lon_partial (storms : List (List ℚ)) (h : ∀ s ∈ storms, s ≠ [])
    (hlon : ∀ s ∈ storms, ∀ x ∈ s, 0 ≤ x ∧ x < 360)
    (hwest : ∀ p ∈ storms.flatMap successive, p.1 - p.2 ≤ 180) :
    List.Forall₂ (fun p d => ShortWay p.2 p.1 d) (storms.flatMap successive)
      (lonSteps storms.flatten (flags storms)) := by
  rw [lonSteps_eq storms h, List.forall₂_map_right_iff, List.forall₂_same]
  intro p hp
  have hw := hwest p hp
  obtain ⟨s, hs, hp⟩ := List.mem_flatMap.1 hp
  obtain ⟨h1, h2⟩ := successive_mem hp
  have b1 := hlon s hs _ h1
  have b2 := hlon s hs _ h2
  unfold ShortWay
  split
  · exact ⟨by linarith, by linarith, 1, by push_cast; ring⟩
  · next hd => exact ⟨by linarith, hw, 0, by push_cast; ring⟩

/-- A storm crossing Greenwich eastwards -/
example : lonSteps [359, 1, 2] (flags [[359, 1, (2 : ℚ)]]) = [2, 1] := by decide +kernel

/-- A step westwards across the meridian of Greenwich is shown the long way round. -/
theorem C171_west_fails (storms : List (List ℚ)) (h : ∀ s ∈ storms, s ≠ []) (a b : ℚ)
    (hp : (b, a) ∈ storms.flatMap successive) (hd : 180 < b - a) :
    b - a ∈ lonSteps storms.flatten (flags storms) ∧ ¬ ShortWay a b (b - a) := by
  refine ⟨?_, fun hs => by have := hs.2.1; linarith⟩
  rw [lonSteps_eq storms h]
  refine List.mem_map.2 ⟨(b, a), hp, ?_⟩
  rw [if_neg (by simp only; linarith)]

example : (359, 1) ∈ [[2, 1, (359 : ℚ)]].flatMap successive ∧ lonSteps [2, 1, 359] (flags [[2, 1, (359 : ℚ)]]) = [-1, 358] := by
  decide +kernel

theorem placed_swapped {xs : List (ℚ × ℚ)} {v : Var} :
    Placed ⟨⟨v, 1⟩, ⟨v, 0⟩, xs⟩ v xs ↔ ∀ p ∈ xs, p.1 = p.2 := by
  constructor
  · rintro ⟨_, _, _, _, he⟩ p hp
    simp only [one_ne_zero, if_false, if_true] at he
    have := (List.map_eq_map_iff (f := id) (g := fun p : ℚ × ℚ => (p.2, p.1)) (l := xs)).1 (by simpa using he) p hp
    exact congrArg Prod.fst this
  · intro h
    refine ⟨rfl, rfl, le_refl _, Nat.zero_le _, ?_⟩
    simp only [one_ne_zero, if_false, if_true]
    have := (List.map_eq_map_iff (f := id) (g := fun p : ℚ × ℚ => (p.2, p.1)) (l := xs)).2 fun p hp => by
      have := h p hp
      rcases p with ⟨a, b⟩
      simp_all
    simpa using this

/-- The axes of the plots of successive steps are named the wrong way round: the points are where the labels say only
if no step differs from the step before. -/
theorem C171_step_labels_fails (lon lat : List ℚ) (indicator : List ℤ) :
    (Placed (plotLonLat lon lat indicator).1 .lonStep
        ((successive (lonSteps lon indicator)).filter fun p => decide (Observed p)) ↔
      ∀ p ∈ successive (lonSteps lon indicator), Observed p → p.1 = p.2) ∧
    (Placed (plotLonLat lon lat indicator).2.1 .latStep
        ((successive (steps lat indicator)).filter fun p => decide (Observed p)) ↔
      ∀ p ∈ successive (steps lat indicator), Observed p → p.1 = p.2) := by
  have key : ∀ (v : Var) (xs : List ℚ), Placed (scatter xs.tail xs.dropLast ⟨v, 1⟩ ⟨v, 0⟩ id) v
      ((successive xs).filter fun p => decide (Observed p)) ↔ ∀ p ∈ successive xs, Observed p → p.1 = p.2 := by
    intro v xs
    have := pts_lag v xs
    simp only [lagPlot, scatter] at this
    rw [scatter, this, placed_swapped]
    simp only [List.mem_filter, decide_eq_true_eq, and_imp]
  exact ⟨key _ _, key _ _⟩

/-- Steps of 1 and then 2 degrees: the point is at 2 along the axis labelled `t - 1`. -/
example : (plotLonLat [150, 151, 153] [-20, -20, -20] [1, 0, 0]).1.pts = [(2, 1)] ∧
    (plotLonLat [150, 151, 153] [-20, -20, -20] [1, 0, 0]).1.x = ⟨.lonStep, 1⟩ := by decide +kernel

/-- The plot of steps of longitude and latitude has a point for each step of each storm, longitude along the first
axis. -/
theorem C171_step_pairs (storms : List (List (ℚ × ℚ))) (h : ∀ s ∈ storms, s ≠ [])
    (hb : ∀ s ∈ storms, ∀ p ∈ s, 0 ≤ p.1 ∧ p.1 < 360 ∧ -90 ≤ p.2 ∧ p.2 ≤ 90) :
    (plotLonLat (storms.flatten.map (·.1)) (storms.flatten.map (·.2)) (flags storms)).2.2 =
      ⟨⟨.lonStep, 0⟩, ⟨.latStep, 0⟩, (storms.flatMap successive).map fun p =>
        ((if p.1.1 - p.2.1 < -180 then p.1.1 - p.2.1 + 360 else p.1.1 - p.2.1), p.1.2 - p.2.2)⟩ := by
  have hmapS : ∀ (f : ℚ × ℚ → ℚ) (l : List (ℚ × ℚ)), successive (l.map f) = (successive l).map fun p => (f p.1, f p.2) := by
    intro f l
    induction l with
    | nil => rfl
    | cons a l ih =>
      cases l with
      | nil => rfl
      | cons b l => simpa [successive] using ih
  have hstep : ∀ f : ℚ × ℚ → ℚ, steps (storms.flatten.map f) (flags storms) =
      (storms.flatMap successive).map fun p => f p.1 - f p.2 := by
    intro f
    rw [← steps_zip storms h, steps, zip_successive, hmapS, List.map_map, List.zip_map_left, List.filterMap_map,
      List.map_filterMap]
    congr 1
    funext p
    simp only [Function.comp, Prod.map]
    split <;> simp_all
  simp only [plotLonLat, scatter, lonSteps, hstep, List.map_map, List.zip_map', Function.comp, id, Prod.mk.eta,
    List.map_id', Fig.mk.injEq, true_and]
  rw [List.filter_eq_self.2]
  intro q hq
  obtain ⟨p, hp, rfl⟩ := List.mem_map.1 hq
  obtain ⟨s, hs, hp⟩ := List.mem_flatMap.1 hp
  obtain ⟨h1, h2⟩ := successive_mem hp
  have b1 := hb s hs _ h1
  have b2 := hb s hs _ h2
  have hM : (1000 : ℚ) < M := by norm_num [M]
  simp only [Bool.and_eq_true, decide_eq_true_eq]
  constructor
  · split <;> linarith
  · linarith

example : (plotLonLat [150, 151, 120, 119] [-20, -21, -10, -12] [1, 0, 1, 0]).2.2.pts = [(1, -1), (-1, -2)] := by
  decide +kernel

/-! ### Bearings -/

theorem cos_half_ne {b : ℚ} (hb : b ≠ 0) : Real.cos ((b : ℝ) / 2) ≠ cosHalf b := by
  intro h
  rw [cosHalf, Real.cos_eq_cos_iff] at h
  obtain ⟨k, h⟩ := h
  have hbR : (b : ℝ) ≠ 0 := by exact_mod_cast hb
  have hirr := irrational_pi
  rcases h with h | h
  · -- `b π / 360 = 2 k π + b / 2`
    have h1 : ((b / 360 - 2 * k : ℚ) : ℝ) * Real.pi = ((b / 2 : ℚ) : ℝ) := by push_cast; linarith
    have hne : (b / 360 - 2 * k : ℚ) ≠ 0 := by
      intro h0; rw [h0] at h1; push_cast at h1; apply hbR; linarith
    exact hirr ⟨(b / 2) / (b / 360 - 2 * k), by
      have : ((b / 360 - 2 * k : ℚ) : ℝ) ≠ 0 := by exact_mod_cast hne
      rw [Rat.cast_div, div_eq_iff this]; linarith⟩
  · have h1 : ((2 * k - b / 360 : ℚ) : ℝ) * Real.pi = ((b / 2 : ℚ) : ℝ) := by push_cast; linarith
    have hne : (2 * k - b / 360 : ℚ) ≠ 0 := by
      intro h0; rw [h0] at h1; push_cast at h1; apply hbR; linarith
    exact hirr ⟨(b / 2) / (2 * k - b / 360), by
      have : ((2 * k - b / 360 : ℚ) : ℝ) ≠ 0 := by exact_mod_cast hne
      rw [Rat.cast_div, div_eq_iff this]; linarith⟩

/-- The plot of bearings takes the cosine of half the number of degrees as if it were radians: its points are right only
for storms moving due north. -/
theorem C171_bearing_fails (xs : List ℚ) :
    Placed (plotBearing xs) .bearing (((successive xs).filter fun p => decide (Observed p)).map fun p => (cosHalf p.1, cosHalf p.2)) ↔
      ∀ p ∈ successive xs, Observed p → p = (0, 0) := by
  have hp : (plotBearing xs).pts = ((successive xs).filter fun p => decide (Observed p)).map
      fun p => (Real.cos ((p.1 : ℝ) / 2), Real.cos ((p.2 : ℝ) / 2)) := by
    have := pts_lag .bearing xs
    simp only [lagPlot, scatter, id, Prod.mk.eta, List.map_id'] at this
    simp only [plotBearing, scatter, this]
  have hx : (plotBearing xs).x.lag = 0 := rfl
  have hy : (plotBearing xs).y.lag = 1 := rfl
  have hv : (plotBearing xs).x.var = .bearing ∧ (plotBearing xs).y.var = .bearing := ⟨rfl, rfl⟩
  unfold Placed
  rw [hx, hy, hp, hv.1, hv.2]
  simp only [Nat.zero_le, le_refl, true_and, one_ne_zero, if_true, if_false, Prod.mk.eta, List.map_map, Function.comp_def]
  rw [List.map_eq_map_iff]
  simp only [List.mem_filter, decide_eq_true_eq, and_imp]
  refine forall_congr' fun p => forall_congr' fun _ => forall_congr' fun _ => ?_
  rcases p with ⟨a, b⟩
  simp only [Prod.mk.injEq]
  constructor
  · rintro ⟨h1, h2⟩
    exact ⟨by_contra fun h => cos_half_ne h h1, by_contra fun h => cos_half_ne h h2⟩
  · rintro ⟨rfl, rfl⟩
    simp [cosHalf]

example : (90, 45) ∈ successive [M, 45, (90 : ℚ)] ∧ Observed (90, 45) := by decide +kernel

/-! ### Probability plots -/

theorem sum_map_sub_div (l : List ℝ) (a s : ℝ) :
    (l.map fun x => (x - a) / s).sum = (l.sum - l.length * a) / s := by
  induction l with
  | nil => simp
  | cons x l ih => simp only [List.map_cons, List.sum_cons, ih, List.length_cons]; push_cast; ring

theorem sum_map_div_sq (l : List ℝ) (a s : ℝ) :
    (l.map fun x => ((x - a) / s) ^ 2).sum = (l.map fun x => (x - a) ^ 2).sum / s ^ 2 := by
  induction l with
  | nil => simp
  | cons x l ih => simp only [List.map_cons, List.sum_cons, ih]; rw [div_pow, add_div]

theorem sum_sq_pos {l : List ℝ} {a : ℝ} (h : ∃ x ∈ l, x ≠ a) : 0 < (l.map fun x => (x - a) ^ 2).sum := by
  induction l with
  | nil => simp at h
  | cons y l ih =>
    have hn : 0 ≤ (l.map fun x => (x - a) ^ 2).sum := List.sum_nonneg fun z hz => by
      obtain ⟨x, _, rfl⟩ := List.mem_map.1 hz; positivity
    simp only [List.map_cons, List.sum_cons]
    by_cases hy : y = a
    · obtain ⟨x, hx, hxa⟩ := h
      rcases List.mem_cons.1 hx with rfl | hx
      · exact absurd hy hxa
      · have := ih ⟨x, hx, hxa⟩
        positivity
    · have : 0 < (y - a) ^ 2 := by
        have : y - a ≠ 0 := sub_ne_zero.2 hy
        positivity
      linarith

/-- The anomalies of a probability plot: one for each observed value, in the same order up to scale, with mean zero and
standard deviation one, if not all observed values are the same. -/
theorem C171_anomalies (data : List ℚ) (x y : ℚ) (hx : x ∈ data) (hy : y ∈ data) (hxM : x < M) (hyM : y < M)
    (hne : x ≠ y) :
    average (anomalies data) = 0 ∧ std (anomalies data) = 1 ∧
      ∃ a s : ℝ, 0 < s ∧ (anomalies data).map (fun z => a + s * z) =
        (data.filter fun x => decide (x < M)).map fun x : ℚ => (x : ℝ) := by
  set d : List ℝ := (data.filter fun x => decide (x < M)).map fun x : ℚ => (x : ℝ) with hd
  have hxd : (x : ℝ) ∈ d := List.mem_map.2 ⟨x, List.mem_filter.2 ⟨hx, by simpa using hxM⟩, rfl⟩
  have hyd : (y : ℝ) ∈ d := List.mem_map.2 ⟨y, List.mem_filter.2 ⟨hy, by simpa using hyM⟩, rfl⟩
  have hlen : (0 : ℝ) < d.length := by exact_mod_cast List.length_pos_of_mem hxd
  have hA : anomalies data = d.map fun x => (x - average d) / std d := rfl
  have hsum : 0 < (d.map fun x => (x - average d) ^ 2).sum := by
    apply sum_sq_pos
    by_contra hc
    push Not at hc
    exact hne (by exact_mod_cast (hc _ hxd).trans (hc _ hyd).symm)
  have hvar : std d ^ 2 = (d.map fun x => (x - average d) ^ 2).sum / d.length := by
    rw [std, Real.sq_sqrt]
    · simp [average]
    · simp only [average, List.length_map]
      positivity
  have hs : 0 < std d := by
    rw [std]
    apply Real.sqrt_pos.2
    simp only [average, List.length_map]
    exact div_pos hsum hlen
  have h0 : average (anomalies data) = 0 := by
    rw [hA, average, sum_map_sub_div]
    have : d.sum - d.length * average d = 0 := by
      rw [average]; field_simp; ring
    rw [this]; simp
  refine ⟨h0, ?_, average d, std d, hs, ?_⟩
  · rw [std, h0, hA, List.map_map]
    simp only [Function.comp_def, sub_zero]
    rw [average, sum_map_div_sq, List.length_map, hvar]
    have : (d.map fun x => (x - average d) ^ 2).sum ≠ 0 := hsum.ne'
    have hl : (d.length : ℝ) ≠ 0 := hlen.ne'
    rw [div_div_eq_mul_div, mul_div_assoc, mul_comm]
    rw [show ((d.length : ℝ) / (d.map fun x => (x - average d) ^ 2).sum) * (d.map fun x => (x - average d) ^ 2).sum = d.length by field_simp]
    rw [div_self hl, Real.sqrt_one]
  · rw [hA, List.map_map]
    conv_rhs => rw [← List.map_id d]
    refine List.map_congr_left fun z _ => ?_
    simp only [Function.comp_apply, id]
    field_simp
    ring

example : (5 : ℚ) ∈ [M, 5, 7] ∧ (7 : ℚ) ∈ [M, 5, 7] ∧ (5 : ℚ) < M ∧ (7 : ℚ) < M ∧ (5 : ℚ) ≠ 7 := by decide +kernel

end Tcrm.StatPlots
