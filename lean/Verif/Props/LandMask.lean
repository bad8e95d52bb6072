import Verif.Spec.LandMask
import Verif.Props.Grid
import Verif.Props.CellStats
import Verif.Props.TrackModel
/-!
C169: calibration and simulation agree with the land mask, and with each other, on what is land.
-/
namespace Tcrm.LandMask
open Tcrm.Grid Tcrm.Extract Tcrm.CellStats Tcrm.Cells

theorem nextUp_unique {a : List ℚ} {v : ℚ} {i k : ℕ} (h : NextUp a v i) (h' : NextUp a v k) : i = k := by
  obtain ⟨⟨x, hx, hvx⟩, hb⟩ := h
  obtain ⟨⟨y, hy, hvy⟩, hb'⟩ := h'
  rcases Nat.lt_trichotomy i k with hlt | heq | hlt
  · exact absurd (hb' i x hlt hx) (by linarith)
  · exact heq
  · exact absurd (hb k y hlt hy) (by linarith)

theorem nextUp_exists : ∀ {a : List ℚ} {v : ℚ}, (∃ x ∈ a, v ≤ x) → ∃ i, NextUp a v i
  | [], _, h => by simp at h
  | x :: l, v, h => by
    by_cases hx : v ≤ x
    · exact ⟨0, ⟨x, rfl, hx⟩, fun k z hk => absurd hk (by omega)⟩
    · obtain ⟨y, hy, hvy⟩ := h
      have hyl : y ∈ l := by
        rcases List.mem_cons.1 hy with rfl | h
        · exact absurd hvy hx
        · exact h
      obtain ⟨i, ⟨z, hz, hvz⟩, hb⟩ := nextUp_exists (a := l) (v := v) ⟨y, hyl, hvy⟩
      refine ⟨i + 1, ⟨z, by simpa using hz, hvz⟩, fun k w hk hw => ?_⟩
      cases k with
      | zero => simp at hw; subst hw; linarith
      | succ k => exact hb k w (by omega) (by simpa using hw)

/-- The value of the mask at a position that it reaches. -/
theorem sample {g : Grd} (hg : WellFormed g) {lon lat : ℚ} (hr : Reaches g lon lat) :
    ∃ i j row val, NextUp g.lon lon i ∧ NextUp g.lat lat j ∧ g.data.reverse[j]? = some row ∧ row[i]? = some val ∧
      sampleGrid g lon lat = .ok val := by
  obtain ⟨h0, h1, hx, hy⟩ := hr
  obtain ⟨i, hi⟩ := nextUp_exists hx
  obtain ⟨j, hj⟩ := nextUp_exists hy
  obtain ⟨⟨x, hx, hvx⟩, hbx⟩ := hi
  obtain ⟨⟨y, hy, hvy⟩, hby⟩ := hj
  have hjl : j < g.data.reverse.length := by
    rw [List.length_reverse, hg.rows]
    exact (List.getElem?_eq_some_iff.1 hy).1
  have hrow : g.data.reverse[j]? = some g.data.reverse[j] := List.getElem?_eq_getElem hjl
  have hm : g.data.reverse[j] ∈ g.data := List.mem_reverse.1 (List.getElem_mem hjl)
  have hil : i < g.data.reverse[j].length := by
    rw [hg.columns _ hm]
    exact (List.getElem?_eq_some_iff.1 hx).1
  have hval : g.data.reverse[j][i]? = some g.data.reverse[j][i] := List.getElem?_eq_getElem hil
  exact ⟨i, j, _, _, ⟨⟨x, hx, hvx⟩, hbx⟩, ⟨⟨y, hy, hvy⟩, hby⟩, hrow, hval,
    C68_first_not_below_partial hg.lon hg.lat h0 h1 hx hy hvx hvy hbx hby hrow hval⟩

open Classical in
/-- The test of the mask is right. -/
theorem positive_eq {g : Grd} (hg : WellFormed g) {lon lat : ℚ} (hr : Reaches g lon lat) :
    positive g lon lat = .ok (decide (Land g lon lat)) := by
  obtain ⟨i, j, row, val, hi, hj, hrow, hval, hs⟩ := sample hg hr
  unfold positive
  rw [hs]
  have hiff : Land g lon lat ↔ ∃ v, val = some v ∧ 0 < v := by
    constructor
    · rintro ⟨i', j', row', v, hi', hj', hrow', hval', hv⟩
      obtain rfl := nextUp_unique hi hi'
      obtain rfl := nextUp_unique hj hj'
      rw [hrow] at hrow'
      cases hrow'
      rw [hval] at hval'
      cases hval'
      exact ⟨v, rfl, hv⟩
    · rintro ⟨v, rfl, hv⟩
      exact ⟨i, j, row, v, hi, hj, hrow, hval, hv⟩
  cases val with
  | none =>
    have : ¬ Land g lon lat := by rw [hiff]; simp
    simp [this]
  | some v =>
    by_cases hv : 0 < v
    · have : Land g lon lat := hiff.2 ⟨v, rfl, hv⟩
      simp [this, hv]
    · have : ¬ Land g lon lat := by rw [hiff]; simpa using hv
      simp [this, hv]

/-- C169, simulation: at every position that the mask reaches, a storm is over land exactly if the mask shows land. -/
theorem C169_storm {s : Decay} (hg : WellFormed s.mask) {lon lat : ℚ} (hr : Reaches s.mask lon lat) :
    ∃ b s', onLand s lon lat = .ok (b, s') ∧ (b = true ↔ Land s.mask lon lat) ∧ s'.mask = s.mask ∧ s'.dt = s.dt := by
  classical
  unfold onLand
  rw [positive_eq hg hr]
  by_cases h : Land s.mask lon lat
  · exact ⟨true, { s with tol := s.tol + s.dt }, by simp [h], by simp [h], rfl, rfl⟩
  · exact ⟨false, { s with tol := 0 }, by simp [h], by simp [h], rfl, rfl⟩

open Classical in
theorem flags_eq {g : Grd} (hg : WellFormed g) : ∀ {pos : List (ℚ × ℚ)}, (∀ p ∈ pos, Reaches g p.1 p.2) →
    flags g pos = .ok (pos.map fun p => if Land g p.1 p.2 then 1 else 0)
  | [], _ => rfl
  | p :: l, h => by
    have ih := flags_eq hg (pos := l) (fun q hq => h q (by simp [hq]))
    unfold flags at ih ⊢
    rw [List.mapM_cons, ih, positive_eq hg (h p (by simp))]
    by_cases hp : Land g p.1 p.2 <;> simp [hp] <;> rfl

/-- C169, calibration: the flag of every observation is 1 where the mask shows land, and 0 elsewhere. -/
theorem C169_observation {g : Grd} (hg : WellFormed g) {pos : List (ℚ × ℚ)} (h : ∀ p ∈ pos, Reaches g p.1 p.2) :
    ∃ fs, flags g pos = .ok fs ∧ fs.length = pos.length ∧
      ∀ (i : ℕ) (p : ℚ × ℚ), pos[i]? = some p → (Land g p.1 p.2 → fs[i]? = some 1) ∧ (¬ Land g p.1 p.2 → fs[i]? = some 0) := by
  classical
  refine ⟨_, flags_eq hg h, by simp, fun i p hp => ?_⟩
  constructor <;> intro hl <;> simp [hp, hl]

theorem observations_eq {g : Grd} (hg : WellFormed g) {raw : List (ℚ × ℚ × ℚ)} (h : ∀ o ∈ raw, Reaches g o.1 o.2.1) :
    open Classical in
    observations g raw = .ok (raw.map fun o => ⟨o.1, o.2.1, if Land g o.1 o.2.1 then 1 else 0, o.2.2⟩) := by
  classical
  unfold observations
  rw [flags_eq hg (by rintro p hp; obtain ⟨o, ho, rfl⟩ := List.mem_map.1 hp; exact h o ho)]
  simp only [List.map_map]
  show Except.ok _ = _
  congr 1
  induction raw with
  | nil => rfl
  | cons o l ih => simp [ih fun q hq => h q (by simp [hq])]

open Classical in
theorem values_eq {g : Grd} (raw : List (ℚ × ℚ × ℚ)) (missing : ℚ) (sel : ℚ → Bool) (P : ℚ → ℚ → Prop) (w : Win)
    (hsel : ∀ x y, sel (if Land g x y then 1 else 0) = true ↔ P x y) :
    valuesIn (raw.map fun o => ⟨o.1, o.2.1, if Land g o.1 o.2.1 then 1 else 0, o.2.2⟩) missing sel w =
      valuesWhere raw missing P w := by
  unfold valuesIn valuesWhere
  rw [List.filter_map, List.map_map]
  congr 1
  apply List.filter_congr
  intro o _
  simp only [Function.comp, Counts]
  congr 1
  rw [hsel]

/-- C169, coefficients: whatever position a storm is at, it moves with the coefficients of the observations over land
around a cell if the mask shows land at the position of the storm, and with those over sea otherwise (those over sea
also over land, where the domain has too few observations over land): calibration and simulation agree. -/
theorem C169_coefficients {s : Decay} (hg : WellFormed s.mask) {raw : List (ℚ × ℚ × ℚ)}
    (hr : ∀ o ∈ raw, Reaches s.mask o.1 o.2.1) :
    ∃ obs, observations s.mask raw = .ok obs ∧ ∀ (J : Job) (nx ny : ℕ), J.obs = obs → Divides J.gl J.gs J.inc nx ny →
      2 ≤ nx * ny → 0 ≤ J.minSample →
      Good J.minSample (valuesWhere raw J.missing (fun x y => ¬ Land s.mask x y) (wholeDomain J.gl)) →
      ∃ N, ∀ fuel, N ≤ fuel → ∃ f, stage J fuel = some f ∧ ∀ c : ℕ, c < nx * ny → ∀ (lon lat : ℚ),
        Reaches s.mask lon lat → ∃ b s' k, onLand s lon lat = .ok (b, s') ∧ coef (loaded J.gl J.gs f) b c = some k ∧
          RightByMask s.mask raw J nx c (Land s.mask lon lat) k := by
  classical
  refine ⟨_, observations_eq hg hr, fun J nx ny hobs hd h2 hm hgood => ?_⟩
  have sea : ∀ w, valuesIn J.obs J.missing (fun f => f = 0) w =
      valuesWhere raw J.missing (fun x y => ¬ Land s.mask x y) w := by
    intro w
    rw [hobs]
    apply values_eq
    intro x y
    by_cases h : Land s.mask x y <;> simp [h]
  have land : ∀ w, valuesIn J.obs J.missing (fun f => decide (0 < f)) w = valuesWhere raw J.missing (Land s.mask) w := by
    intro w
    rw [hobs]
    apply values_eq
    intro x y
    by_cases h : Land s.mask x y <;> simp [h]
  obtain ⟨N, hN⟩ := C135_statistics J hd h2 hm (by rw [sea]; exact hgood)
  refine ⟨N, fun fuel hf => ?_⟩
  obtain ⟨f, hst, -, -, hc⟩ := hN fuel hf
  refine ⟨f, hst, fun c hcl lon lat hreach => ?_⟩
  obtain ⟨b, s', hon, hb, -, -⟩ := C169_storm hg hreach
  obtain ⟨k, hk, w, sel, hin, hcon, hgd, hsea, hland, hcor, hlin, hang⟩ := hc c hcl b
  refine ⟨b, s', k, hon, hk, ?_⟩
  have hselsea : (∀ f, sel f = true ↔ f = 0) → sel = fun f => decide (f = 0) := by
    intro h
    funext f
    rw [Bool.eq_iff_iff, h]
    simp
  have hselland : (∀ f, sel f = true ↔ 0 < f) → sel = fun f => decide (0 < f) := by
    intro h
    funext f
    rw [Bool.eq_iff_iff, h]
    simp
  by_cases hl : Land s.mask lon lat
  · rcases hland (hb.2 hl) with h | ⟨h, hng⟩
    · obtain rfl := hselland h
      rw [land] at hgd hcor hlin hang
      exact ⟨w, _, hin, hcon, hgd, fun h => absurd hl h, fun _ => .inl rfl, hcor, hlin, hang⟩
    · obtain rfl := hselsea h
      rw [sea] at hgd hcor hlin hang
      rw [land] at hng
      exact ⟨w, _, hin, hcon, hgd, fun h => absurd hl h, fun _ => .inr ⟨rfl, hng⟩, hcor, hlin, hang⟩
  · have hbf : b = false := by
      cases b
      · rfl
      · exact absurd (hb.1 rfl) hl
    obtain rfl := hselsea (hsea hbf)
    rw [sea] at hgd hcor hlin hang
    exact ⟨w, _, hin, hcon, hgd, fun _ => rfl, fun h => absurd h hl, hcor, hlin, hang⟩

/-- C169, tracks: with the mask in the place of the parameter of C146, the pressure of a synthetic storm decays at the
positions where the mask shows land, and changes at the rate of the track model at the others; the first position
counts as sea. -/
theorem C169_track {G N : Type} (R : TrackGen.Rng G) (env : TrackGen.Env N) (eps : Option ℚ) (gen : TrackGen.Genesis)
    (g g' : G) (rows : List TrackGen.Row) (mask : Grd) (hg : WellFormed mask)
    (hcover : ∀ lon lat, TrackGen.InDomain env.gl lon lat → Reaches mask lon lat)
    (henv : ∀ lon lat, Reaches mask lon lat → positive mask lon lat = .ok (env.onLand lon lat))
    (h : TrackGen.singleTrack R env eps gen g = .ok (rows, g')) :
    ∃ (x : TrackGen.Path) (d : TrackGen.Draws), TrackGen.Obeys env gen d x rows.length ∧
      (∀ i, i < rows.length → rows[i]? = some (x.row env.dt i)) ∧
      ∀ i, 0 < i → i < rows.length → (x.land i = true ↔ Land mask (x.lon i) (x.lat i)) ∧
        (Land mask (x.lon i) (x.lat i) → TrackGen.Fills env x d i) ∧
        (¬ Land mask (x.lon i) (x.lat i) → TrackGen.Drifts env x i) := by
  classical
  obtain ⟨x, d, hobeys, hrows, -⟩ := TrackGen.C146_single_track R env eps gen g g' rows h
  refine ⟨x, d, hobeys, hrows, fun i hi hn => ?_⟩
  obtain ⟨-, hdom, hlaw, -⟩ := hobeys.steps i hi hn
  have hreach := hcover _ _ hdom
  have he := henv _ _ hreach
  rw [positive_eq hg hreach] at he
  have hland : x.land i = true ↔ Land mask (x.lon i) (x.lat i) := by
    rw [hlaw.land, ← Except.ok.inj he]
    simp
  have hc := hlaw.centre
  refine ⟨hland, fun hl => ?_, fun hl => ?_⟩
  · rw [if_pos (hland.2 hl)] at hc
    exact hc
  · rw [if_neg (fun h => hl (hland.1 h))] at hc
    exact hc

/-- The positions at the end of a list that are over land, and the time over land of the object. -/
theorem ashore_step {g : Grd} {l : List (ℚ × ℚ)} {p : ℚ × ℚ} {n : ℕ} (h : Ashore g l n) :
    (Land g p.1 p.2 → Ashore g (l ++ [p]) (n + 1)) ∧ (¬ Land g p.1 p.2 → Ashore g (l ++ [p]) 0) := by
  obtain ⟨hn, hall, hbreak⟩ := h
  constructor
  · intro hp
    refine ⟨by simp; omega, ?_, ?_⟩
    · have e : (l ++ [p]).length - (n + 1) = l.length - n := by simp
      rw [e, List.drop_append_of_le_length (by omega)]
      intro q hq
      rcases List.mem_append.1 hq with hq | hq
      · exact hall q hq
      · simp at hq; subst hq; exact hp
    · intro hlt
      have hlt' : n < l.length := by simp at hlt; omega
      obtain ⟨q, hq, hql⟩ := hbreak hlt'
      refine ⟨q, ?_, hql⟩
      have e : (l ++ [p]).length - (n + 1) - 1 = l.length - n - 1 := by simp
      rw [e, List.getElem?_append_left (by omega)]
      exact hq
  · intro hp
    refine ⟨by omega, by simp, fun _ => ⟨p, ?_, hp⟩⟩
    simp

theorem asked_append {s : Decay} : ∀ {l : List (ℚ × ℚ)} {p : ℚ × ℚ} {bs : List Bool} {s' s'' : Decay} {b : Bool},
    asked s l = .ok (bs, s') → onLand s' p.1 p.2 = .ok (b, s'') → asked s (l ++ [p]) = .ok (bs ++ [b], s'')
  | [], p, bs, s', s'', b, h, h' => by
    simp only [asked, Except.ok.injEq, Prod.mk.injEq] at h
    obtain ⟨rfl, rfl⟩ := h
    simp [asked, h']
  | q :: l, p, bs, s', s'', b, h, h' => by
    simp only [asked] at h
    split at h
    · simp at h
    · rename_i b0 s0 h0
      split at h
      · simp at h
      · rename_i bs0 s1 h1
        simp only [Except.ok.injEq, Prod.mk.injEq] at h
        obtain ⟨rfl, rfl⟩ := h
        have := asked_append h1 h'
        simp [asked, h0, this]

/-- C169, time over land: after any number of positions, the answers are those of the mask, and the time over land of
the object (which is only reported) is the number of positions since the last one at sea times the time step.  As the
object is not renewed, this goes on from one storm to the next. -/
theorem C169_time_over_land (s : Decay) (hg : WellFormed s.mask) (h0 : s.tol = 0) (l : List (ℚ × ℚ))
    (hr : ∀ p ∈ l, Reaches s.mask p.1 p.2) :
    ∃ bs s' n, asked s l = .ok (bs, s') ∧ List.Forall₂ (fun b p => b = true ↔ Land s.mask p.1 p.2) bs l ∧
      Ashore s.mask l n ∧ s'.tol = n * s.dt ∧ s'.mask = s.mask ∧ s'.dt = s.dt := by
  classical
  induction l using List.reverseRecOn with
  | nil => exact ⟨[], s, 0, rfl, .nil, ⟨by simp, by simp, by simp⟩, by simp [h0], rfl, rfl⟩
  | append_singleton l p ih =>
    obtain ⟨bs, s', n, hask, hbs, hash, htol, hmask, hdt⟩ := ih fun q hq => hr q (by simp [hq])
    have hp : Reaches s'.mask p.1 p.2 := by rw [hmask]; exact hr p (by simp)
    have hpos := positive_eq (hmask ▸ hg) hp
    rw [hmask] at hpos
    by_cases hl : Land s.mask p.1 p.2
    · have hon : onLand s' p.1 p.2 = .ok (true, { s' with tol := s'.tol + s'.dt }) := by
        unfold onLand; rw [hmask, hpos]; simp [hl]
      refine ⟨_, _, n + 1, asked_append hask hon, List.rel_append hbs (.cons (by simp [hl]) .nil),
        (ashore_step hash).1 hl, ?_, hmask, hdt⟩
      simp only [htol, hdt]
      push_cast
      ring
    · have hon : onLand s' p.1 p.2 = .ok (false, { s' with tol := 0 }) := by
        unfold onLand; rw [hmask, hpos]; simp [hl]
      exact ⟨_, _, 0, asked_append hask hon, List.rel_append hbs (.cons (by simp [hl]) .nil),
        (ashore_step hash).2 hl, by simp, hmask, hdt⟩

/-- C169 fails beyond the mask: one observation east or north of its last grid point, be it far outside the domain,
and the calibration ends with an IndexError. -/
theorem C169_beyond_fails {g : Grd} (hg : WellFormed g) {pos : List (ℚ × ℚ)} {p : ℚ × ℚ} (hp : p ∈ pos)
    (h0 : 0 ≤ p.1) (h1 : p.1 < 360) (hout : (∀ x ∈ g.lon, x < p.1) ∨ ∀ y ∈ g.lat, y < p.2)
    (hothers : ∀ q ∈ pos, q ≠ p → Reaches g q.1 q.2) : flags g pos = .error .indexError := by
  have hfail : positive g p.1 p.2 = .error .indexError := by
    have hs : sampleGrid g p.1 p.2 = .error .indexError := by
      have top : ∀ {a : List ℚ} {v : ℚ}, (∀ x ∈ a, x < v) → searchsorted a v = a.length := by
        intro a v h
        apply searchsorted_ascending (le_refl _)
        · intro i y _ hy
          exact h y (List.mem_of_getElem? hy)
        · intro i y hi hy
          have := (List.getElem?_eq_some_iff.1 hy).1
          omega
      unfold sampleGrid
      simp only [mod360_id h0 h1]
      rcases hout with h | h
      · rw [top h]
        cases hr : g.data.reverse[searchsorted g.lat p.2]? with
        | none => rfl
        | some row =>
          have : row ∈ g.data := List.mem_reverse.1 (List.mem_of_getElem? hr)
          simp only [List.getElem?_eq_none (hg.columns row this).le]
      · rw [top h, List.getElem?_eq_none (by simp [hg.rows])]
    unfold positive
    rw [hs]
  induction pos with
  | nil => simp at hp
  | cons q l ih =>
    unfold flags
    rw [List.mapM_cons]
    by_cases hq : q = p
    · subst hq
      rw [hfail]
      rfl
    · have hq' := positive_eq hg (hothers q (by simp) hq)
      have hl : p ∈ l := by
        rcases List.mem_cons.1 hp with h | h
        · exact absurd h.symm hq
        · exact h
      have := ih hl fun r hr => hothers r (by simp [hr])
      unfold flags at this
      rw [hq', this]
      by_cases hland : Land g q.1 q.2 <;> simp [hland] <;> rfl

/-- C169 fails: what counts is the grid point to the north-east, not the nearest.  Here a storm a tenth of a degree
east of a grid point at sea is over land. -/
theorem C169_nearest_fails : ∃ g : Grd, WellFormed g ∧ Reaches g (1001 / 10) (-10) ∧
    sampleGrid g 100 (-10) = .ok (some 0) ∧ positive g (1001 / 10) (-10) = .ok true := by
  refine ⟨⟨[100, 101], [-10, -9], [[some 0, some 0], [some 0, some 1]]⟩, ⟨?_, ?_, rfl, ?_⟩, ?_, ?_, ?_⟩
  · decide +kernel
  · decide +kernel
  · simp
  · refine ⟨by norm_num, by norm_num, ⟨101, by simp, by norm_num⟩, ⟨-10, by simp, le_refl _⟩⟩
  · decide +kernel
  · decide +kernel

/-- C169 fails for a mask whose rows are in the order of its latitudes, as netCDF files usually have them: land and sea
are exchanged between north and south. -/
theorem C169_mirrored_fails : ∃ g : Grd, WellFormed g ∧ g.lat = [-10, -9] ∧ g.data = [[some 1], [some 0]] ∧
    positive g 100 (-10) = .ok false ∧ positive g 100 (-9) = .ok true := by
  refine ⟨⟨[100], [-10, -9], [[some 1], [some 0]]⟩, ⟨?_, ?_, rfl, ?_⟩, rfl, rfl, ?_, ?_⟩
  · decide +kernel
  · decide +kernel
  · simp
  · decide +kernel
  · decide +kernel

/-- A mask, and a storm that goes ashore for two steps. -/
example : (asked ⟨⟨[100, 101], [-10, -9], [[some 0, some 0], [some 0, some 1]]⟩, 0, 3⟩
    [(100, -10), (101, -10), (1005 / 10, -10)]).toOption.map (fun r => (r.1, r.2.tol)) = some ([false, true, true], 6) := by
  decide +kernel

example : WellFormed ⟨[100, 101], [-10, -9], [[some 0, some 0], [some 0, some 1]]⟩ ∧
    Land ⟨[100, 101], [-10, -9], [[some 0, some 0], [some 0, some 1]]⟩ (1005 / 10) (-10) := by
  refine ⟨⟨by decide +kernel, by decide +kernel, rfl, by simp⟩, 1, 0, [some 0, some 1], 1, ?_, ?_, rfl, rfl, by norm_num⟩
  · refine ⟨⟨101, rfl, by norm_num⟩, fun k z hk hz => ?_⟩
    have : k = 0 := by omega
    subst this
    simp at hz
    subst hz
    norm_num
  · exact ⟨⟨-10, rfl, le_refl _⟩, fun k z hk => absurd hk (by omega)⟩

end Tcrm.LandMask
