import Verif.Model.HazardRun
import Verif.Props.Dispatch
import Verif.Props.GustFiles
import Verif.Props.Evd
import Mathlib.Algebra.Order.Floor.Semifield
/-!
C116: the hazard file holds at each place the fit to the annual maxima there.
C117: return levels have the stated probabilities.
C118: return periods count all simulated years.
C119: levels come from enough observations.
-/
namespace Tcrm.HazardRun

open Tcrm.Evd Tcrm.Tiles Tcrm.Hazard Tcrm.Dispatch

/-! ### C116 -/

/-- The greatest wind of each year at the grid point in row `j` and column `i`: zero in a year without
events. -/
def AnnualMaxima (events : List ((ℕ × ℕ) × (ℕ → ℕ → ℝ))) (numSim : ℕ) (j i : ℕ) (record : List ℝ) : Prop :=
  record.length = numSim ∧ ∀ (year : ℕ) (v : ℝ), record[year]? = some v →
    let here := (events.filter fun e => e.1.2 = year).map fun e => e.2 j i
    (here = [] → v = 0) ∧ (here ≠ [] → GustFiles.IsMaxOf v here)

/-- A directory with the wind fields of the events and other files that are no gust files of a year. -/
structure IsDirectory (events : List ((ℕ × ℕ) × (ℕ → ℕ → ℝ)))
    (dir : List (GustFiles.Name × Option (ℕ → ℕ → ℝ))) : Prop where
  files : ∃ others : List (GustFiles.Name × Option (ℕ → ℕ → ℝ)),
    dir.Perm ((events.map fun e => (GustFiles.gustName e.1, some e.2)) ++ others) ∧
    ∀ f ∈ others, ∀ year, GustFiles.fnmatch (GustFiles.yearPattern year) f.1 = false

theorem aggregate_others (A others : List (GustFiles.Name × Option (ℕ → ℕ → ℝ)))
    (h : ∀ f ∈ others, ∀ year, GustFiles.fnmatch (GustFiles.yearPattern year) f.1 = false)
    (t : GustFiles.Tile) (year : ℕ) :
    GustFiles.aggregate (A ++ others) t year = GustFiles.aggregate A t year := by
  have e : others.filter (fun f => GustFiles.fnmatch (GustFiles.yearPattern year) f.1) = [] := by
    rw [List.filter_eq_nil_iff]
    intro f hf
    simp [h f hf year]
  unfold GustFiles.aggregate
  rw [List.filter_append, e, List.append_nil]

theorem annualRecord_spec (events : List ((ℕ × ℕ) × (ℕ → ℕ → ℝ)))
    (dir : List (GustFiles.Name × Option (ℕ → ℕ → ℝ))) (hd : IsDirectory events dir) (numSim : ℕ)
    (t : GustFiles.Tile) (y x : ℕ) :
    ∃ record, annualRecord dir numSim t y x = some record ∧
      AnnualMaxima events numSim (t.ymin + y) (t.xmin + x) record := by
  obtain ⟨others, hp, ho⟩ := hd.files
  have hag : ∀ year, ∃ v, GustFiles.aggregate dir t year = some v ∧
      (let here := (events.filter fun e => e.1.2 = year).map fun e => e.2 (t.ymin + y) (t.xmin + x);
        (here = [] → v y x = 0) ∧ (here ≠ [] → GustFiles.IsMaxOf (v y x) here)) := by
    intro year
    obtain ⟨v, hv, hm⟩ := GustFiles.C21_annual_maxima events t year
    refine ⟨v, ?_, hm y x⟩
    rw [GustFiles.C21_listing_order hp, aggregate_others _ _ ho, hv]
  choose v hv hm using hag
  refine ⟨(List.range numSim).map fun year => v year y x, ?_, ?_, ?_⟩
  · unfold annualRecord
    have : ∀ l : List ℕ, l.mapM (fun year => (GustFiles.aggregate dir t year).map fun v => v y x) =
        some (l.map fun year => v year y x) := by
      intro l
      induction l with
      | nil => rfl
      | cons a l ih => rw [List.mapM_cons, hv a, ih]; rfl
    exact this _
  · simp
  · intro year w hw
    rw [List.getElem?_map] at hw
    by_cases hlt : year < numSim
    · rw [List.getElem?_range hlt] at hw
      simp only [Option.map_some, Option.some.injEq] at hw
      subst hw
      exact hm year
    · rw [List.getElem?_eq_none (by simpa using hlt)] at hw
      simp at hw

/-- The bounds of a grid are the first and the last index requested. -/
theorem grid_bounds (lon lat : List Int) (xLo xHi yLo yHi : Int) (xstep ystep : Nat)
    (hlon : IsAxis lon) (hlat : IsAxis lat) (g : Grid)
    (hg : mkGrid lon lat xLo xHi yLo yHi xstep ystep = .ok g) :
    ∃ imin imax jmin jmax : ℕ, g.imin = imin ∧ g.imax = imax ∧ g.jmin = jmin ∧ g.jmax = jmax ∧
      imax < lon.length ∧ jmax < lat.length ∧
      ∀ i j, Requested lon lat xLo xHi yLo yHi i j ↔ (imin ≤ i ∧ i ≤ imax) ∧ jmin ≤ j ∧ j ≤ jmax := by
  unfold mkGrid at hg
  simp only at hg
  split at hg
  case h_2 => simp at hg
  case h_1 imin imax jmin jmax hi1 hi2 hj1 hj2 =>
    split at hg
    · simp at hg
    · simp only [Except.ok.injEq] at hg
      subst hg
      have hlast : ∀ (axis : List Int) (lo hi : Int) (b : ℕ), (within axis lo hi).getLast? = some b →
          b < axis.length := by
        intro axis lo hi b hb
        obtain ⟨h1, -⟩ := ge_of_getLast? (within_pairwise axis lo hi) hb
        obtain ⟨v, hv, -⟩ := mem_within.1 h1
        exact (List.getElem?_eq_some_iff.1 hv).1
      refine ⟨imin, imax, jmin, jmax, rfl, rfl, rfl, rfl, hlast _ _ _ _ hi2, hlast _ _ _ _ hj2, ?_⟩
      intro i j
      rw [← within_interval hlon hi1 hi2, ← within_interval hlat hj1 hj2, mem_within, mem_within]
      rfl

theorem extent_get {A : Type} (axis : List A) (lo hi : ℕ) (b : ℕ) (hb : lo + b ≤ hi) :
    (extent axis lo hi)[b]? = axis[lo + b]? := by
  unfold extent
  have : ((hi : Int) + 1).toNat = hi + 1 := by omega
  rw [this, Int.toNat_natCast, List.getElem?_drop, List.getElem?_take_of_lt (by omega)]

theorem extent_length {A : Type} (axis : List A) (lo hi : ℕ) (h : hi < axis.length) :
    (extent axis lo hi).length = hi + 1 - lo := by
  unfold extent
  have : ((hi : Int) + 1).toNat = hi + 1 := by omega
  rw [this, Int.toNat_natCast, List.length_drop, List.length_take]
  omega

/-- C116: whatever the number of processes and the order in which results arrive, when the tiles are
done the saved axes are exactly the requested longitudes and latitudes, and the value saved at a
longitude and latitude is the fit to the annual maxima of the wind at that grid point. -/
theorem C116_value {A : Type} (events : List ((ℕ × ℕ) × (ℕ → ℕ → ℝ)))
    (dir : List (GustFiles.Name × Option (ℕ → ℕ → ℝ))) (hd : IsDirectory events dir)
    (lib : Lib) (S : Settings) (hS : S.evd = "GEV")
    (lon lat : List A) (milli : A → Int) (xLo xHi yLo yHi : Int) (xstep ystep : Nat)
    (hlon : IsAxis (lon.map milli)) (hlat : IsAxis (lat.map milli)) (g : Grid)
    (hg : mkGrid (lon.map milli) (lat.map milli) xLo xHi yLo yHi xstep ystep = .ok g)
    (tiles : List Limits) (ht : getTiles g = some tiles) (zero : Except Evd.Err Fit)
    (n : Nat) (hn : 0 < n) (k : Nat) (s : State Limits (Int → Int → Except Evd.Err Fit) n)
    (h : ReachIn hazardTags tiles (tile lib S dir) k s) (hdone : s.phase = .done) :
    (∀ i j, Requested (lon.map milli) (lat.map milli) xLo xHi yLo yHi i j →
      ∃ a b : ℕ, a < (extent lat g.jmin g.jmax).length ∧ b < (extent lon g.imin g.imax).length ∧
        (extent lat g.jmin g.jmax)[a]? = lat[j]? ∧ (extent lon g.imin g.imax)[b]? = lon[i]?) ∧
    ∀ a b : ℕ, a < (extent lat g.jmin g.jmax).length → b < (extent lon g.imin g.imax).length →
      ∃ i j, Requested (lon.map milli) (lat.map milli) xLo xHi yLo yHi i j ∧
        (extent lat g.jmin g.jmax)[a]? = lat[j]? ∧ (extent lon g.imin g.imax)[b]? = lon[i]? ∧
        ∃ record, AnnualMaxima events S.numSim j i record ∧
          storeAll g.imin g.jmin zero s.written a b = gevCell record S.years S.minRecords S.yrsPerSim := by
  obtain ⟨imin, imax, jmin, jmax, e1, e2, e3, e4, hil, hjl, hreq⟩ :=
    grid_bounds _ _ xLo xHi yLo yHi xstep ystep hlon hlat g hg
  rw [List.length_map] at hil hjl
  rw [e1, e2, e3, e4, extent_length _ _ _ hil, extent_length _ _ _ hjl]
  constructor
  · intro i j hr
    obtain ⟨⟨h1, h2⟩, h3, h4⟩ := (hreq i j).1 hr
    refine ⟨j - jmin, i - imin, by omega, by omega, ?_, ?_⟩
    · rw [extent_get _ _ _ _ (by omega), show jmin + (j - jmin) = j by omega]
    · rw [extent_get _ _ _ _ (by omega), show imin + (i - imin) = i by omega]
  · intro a b ha hb
    have hr : Requested (lon.map milli) (lat.map milli) xLo xHi yLo yHi (imin + b) (jmin + a) :=
      (hreq _ _).2 (by omega)
    refine ⟨imin + b, jmin + a, hr, extent_get _ _ _ _ (by omega), extent_get _ _ _ _ (by omega), ?_⟩
    obtain ⟨t, htm, hc, hval⟩ := (C02_parallel_output_equals_serial _ _ xLo xHi yLo yHi xstep ystep hlon hlat
      g hg tiles ht (tile lib S dir) zero n hn k s h hdone).2 _ _ hr
    obtain ⟨tiles', ht', -, hpos, -, -, hback⟩ :=
      C01_tiles_partition _ _ xLo xHi yLo yHi xstep ystep hlon hlat g hg
    rw [ht] at ht'
    obtain rfl := Option.some.inj ht'
    obtain ⟨hp1, hp2⟩ := hpos t htm
    obtain ⟨i', j', hi', hj', -⟩ := hback t.x1 t.y1 t htm ⟨le_refl _, hp1, le_refl _, hp2⟩
    obtain ⟨hc1, -, hc2, -⟩ := hc
    obtain ⟨record, hrec, hann⟩ := annualRecord_spec events dir hd S.numSim (natTile t)
      (((jmin + a : ℕ) : Int) - t.y1).toNat (((imin + b : ℕ) : Int) - t.x1).toNat
    refine ⟨record, ?_, ?_⟩
    · have h1 : (natTile t).ymin + (((jmin + a : ℕ) : Int) - t.y1).toNat = jmin + a := by
        simp only [natTile]; omega
      have h2 : (natTile t).xmin + (((imin + b : ℕ) : Int) - t.x1).toNat = imin + b := by
        simp only [natTile]; omega
      rw [h1, h2] at hann
      exact hann
    · have e5 : (((jmin + a : ℕ) : Int) - g.jmin) = a := by rw [e3]; push_cast; ring
      have e6 : (((imin + b : ℕ) : Int) - g.imin) = b := by rw [e1]; push_cast; ring
      rw [e5, e6] at hval
      rw [← e1, ← e3, hval]
      simp only [tile, cell, hS]
      rw [if_neg (by decide), if_pos trivial, hrec]

/-- A directory with two wind fields, a file of time series and a file of something else. -/
example : IsDirectory [((0, 0), fun _ _ => 30), ((1, 2), fun y x => y + x)]
    [(GustFiles.evolutionName (0, 0), none), (GustFiles.gustName (1, 2), some fun y x => y + x),
      (GustFiles.gustName (0, 0), some fun _ _ => 30)] := by
  refine ⟨[(GustFiles.evolutionName (0, 0), none)], ?_, ?_⟩
  · exact List.reverse_perm ((List.map (fun e : (ℕ × ℕ) × (ℕ → ℕ → ℝ) => (GustFiles.gustName e.1, some e.2))
      [((0, 0), fun _ _ => 30), ((1, 2), fun y x => (y : ℝ) + x)]) ++ [(GustFiles.evolutionName (0, 0), none)])
  · intro f hf year
    simp only [List.mem_singleton] at hf
    subst hf
    exact GustFiles.C20_evolution_not_selected year (0, 0)

/-- Axes, a grid with a part of them requested, and a finished run with one worker. -/
example (f : Limits → Int → Int → Except Evd.Err Fit) : ∃ g tiles,
    mkGrid [100, 200, 300] [-100, -200, -300] 150 300 (-300) (-200) 2 2 = .ok g ∧
    getTiles g = some tiles ∧ ∃ (k : Nat) (s : State Limits (Int → Int → Except Evd.Err Fit) 1),
      ReachIn hazardTags tiles f k s ∧ s.phase = .done := by
  refine ⟨_, [⟨1, 3, 1, 3⟩], rfl, by decide +kernel, ?_⟩
  have h0 : ReachIn hazardTags [⟨1, 3, 1, 3⟩] f 0 (start : State Limits _ 1) := .start
  have h1 := ReachIn.step h0 (Step.initWork _ 0 (by omega) rfl ⟨1, 3, 1, 3⟩ rfl)
  have h3 := ReachIn.step h1 (Step.initDone _ 1 (by omega) rfl)
  have h4 := ReachIn.step h3 (Step.workerTake _ 0 rfl [] [] (by simp) ⟨1, 3, 1, 3⟩ rfl)
  have h5 := ReachIn.step h4 (Step.workerSend _ 0 0 ⟨1, 3, 1, 3⟩ rfl)
  have h6 := ReachIn.step h5 (Step.recvStop _ rfl (Nat.lt_succ_self 0) 0 0 ⟨1, 3, 1, 3⟩ _ [] rfl
    (Nat.lt_irrefl 1))
  have h7 := ReachIn.step h6 (Step.masterDone _ rfl (Nat.lt_irrefl 1))
  exact ⟨_, _, h7, rfl⟩

/-- C116: with three simulated years or more no cell raises, so that every run gets to the end. -/
theorem C116_no_error (record years : List ℝ) (m : ℕ) (yrs : ℝ) (h : 3 ≤ record.length) :
    ∃ f, gevCell record years m yrs = .ok f := by
  have hne : record ≠ [] := by rintro rfl; simp at h
  unfold gevCell
  rw [if_neg hne]
  split
  · unfold gevfit
    have hl : (record.mergeSort fun a b => decide (a ≤ b)).length = record.length := by simp
    rw [if_neg (by intro e; rw [e] at hl; simp at hl; omega)]
    split
    · simp only
      split
      · rw [samlmu3_eq (by omega)]
        simp only
        split <;> exact ⟨_, rfl⟩
      · exact ⟨_, rfl⟩
    · exact ⟨_, rfl⟩
  · exact ⟨_, rfl⟩

/-! ### C117 -/

/-- Distribution function of the generalised extreme value distribution (with the sign of the shape
used by Hosking), for values below its upper end if the shape is positive. -/
noncomputable def gevDistribution (loc scale shape w : ℝ) : ℝ :=
  Real.exp (-((1 - shape * (w - loc) / scale) ^ (1 / shape)))

/-- Probability that a value above the threshold exceeds `w` in the generalised Pareto distribution
(with the sign of the shape used by the library). -/
noncomputable def paretoExceedance (mu scale shape w : ℝ) : ℝ :=
  (1 + shape * (w - mu) / scale) ^ (-(1 / shape))

/-- C117: under the fitted distribution the level reported for a period of `t` years is exceeded, in a
simulation of `yrs` years, with probability `yrs / t`. -/
theorem C117_gev {data intervals : List ℝ} {m : ℕ} {yrs : ℝ} {f : Fit} (hy : 0 < yrs)
    (h : gevfit data intervals m yrs = .ok f) {i : ℕ} {t w : ℝ} (ht : 0 < t)
    (hi : intervals[i]? = some t) (hw : f.levels[i]? = some (some w)) :
    ∃ loc scale shape, f.loc = some loc ∧ f.scale = some scale ∧ f.shape = some shape ∧
      1 - gevDistribution loc scale shape w = yrs / t := by
  rcases gevfit_ok h with rfl | ⟨-, -, -, -, l1, l2, t3, -, hl, ht3, rfl⟩
  · simp only [Fit.missing, List.getElem?_replicate] at hw
    split at hw <;> simp at hw
  · refine ⟨_, _, _, rfl, rfl, rfl, ?_⟩
    simp only [List.getElem?_map, hi, Option.map_some, Option.some.injEq] at hw
    split at hw
    · cases hw
    · next hs =>
      have hs : 0 < (pelgev l1 l2 t3).2.2 := not_le.1 hs
      have hsc := pelgev_scale_pos hs
      obtain ⟨h1, h2⟩ := gevLevel_eq_some ht hw
      have hlog := log_term hy h1
      generalize (pelgev l1 l2 t3).1 = loc at *
      generalize (pelgev l1 l2 t3).2.1 = scale at *
      generalize (pelgev l1 l2 t3).2.2 = shape at *
      unfold gevDistribution
      have e : 1 - shape * (w - loc) / scale = (-Real.log (1 - yrs / t)) ^ shape := by
        rw [h2]; field_simp; ring
      rw [e, ← Real.rpow_mul hlog.le, mul_one_div_cancel hs.ne', Real.rpow_one, neg_neg, Real.exp_log]
      · ring
      · have := (div_lt_one ht).2 h1
        linarith

/-- C117: a level of the Pareto fit for `T` years is exceeded on a day with probability one in
`T` years of days: the share of days above the threshold times the probability to exceed the level
there. -/
theorem C117_gpd {T mu shape scale rate npyr : ℝ} (hT : 0 < T) (hk : shape ≠ 0) (hs : 0 < scale)
    (hr : 0 < rate) (hn : 0 < npyr) :
    rate * paretoExceedance mu scale shape (gpdReturnLevel T mu shape scale rate npyr) = 1 / (T * npyr) := by
  unfold paretoExceedance gpdReturnLevel
  have hb : 0 < T * npyr * rate := by positivity
  have e : 1 + shape * (mu + scale / shape * ((T * npyr * rate) ^ shape - 1) - mu) / scale =
      (T * npyr * rate) ^ shape := by field_simp; ring
  rw [e, ← Real.rpow_mul hb.le, mul_neg, mul_one_div_cancel hk, Real.rpow_neg hb.le, Real.rpow_one]
  field_simp

/-- C117 for the levels reported by the fit of a cell: `rate` is the share of simulated days with winds
above the threshold. -/
theorem C117_gpd_fit {fit : List ℝ → Option (ℝ × ℝ)} {mu : ℝ} {data intervals : List ℝ} {numsim m : ℕ}
    {f : Fit} (h : gpdfit fit mu data intervals numsim m = .ok f) {i : ℕ} {T w : ℝ} (hT : 0 < T)
    (hi : intervals[i]? = some T) (hw : f.levels[i]? = some (some w)) {shape scale : ℝ}
    (hshape : f.shape = some shape) (hscale : f.scale = some scale) (hk : shape ≠ 0) (hs : 0 < scale)
    (hmu : 0 ≤ mu) (hexc : ∃ x ∈ data, mu < x) :
    f.loc = some mu ∧
    ((data.filter (· > mu)).length / ⌊(numsim : ℝ) * 365.25⌋₊ : ℝ) * paretoExceedance mu scale shape w =
      1 / (T * 365.25) := by
  unfold gpdfit at h
  split at h
  · cases h; simp [Fit.missing] at hshape
  split at h
  · cases h
  rename_i filled hf
  simp only at h
  split at h
  · cases h; simp [Fit.missing] at hshape
  split at h
  · cases h; simp [Fit.missing] at hshape
  simp only [Except.ok.injEq] at h
  subst h
  simp only [Option.some.injEq] at hshape hscale
  subst hshape hscale
  simp only [List.getElem?_map, hi, Option.map_some, Option.some.injEq] at hw
  refine ⟨rfl, ?_⟩
  have hfill := hf
  unfold fillDays at hfill
  split at hfill
  · cases hfill
  split at hfill
  · cases hfill
  rename_i hle
  simp only [Except.ok.injEq] at hfill
  have hlen : filled.length = ⌊(numsim : ℝ) * 365.25⌋₊ := by
    rw [← hfill]; simp; omega
  have habove : filled.filter (· > mu) = data.filter (· > mu) := by
    rw [← hfill, List.filter_append, List.filter_eq_nil_iff.2 ?_, List.nil_append]
    intro x hx
    rw [List.mem_replicate] at hx
    simp [hx.2, hmu]
  rw [habove, hlen] at hw
  rw [← hw]
  obtain ⟨x, hx, hxm⟩ := hexc
  have hpos : 0 < (data.filter (· > mu)).length := by
    rw [List.length_pos_iff_exists_mem]
    exact ⟨x, by simp [hx, hxm]⟩
  have hdl : 0 < data.length := List.length_pos_of_mem hx
  have hday : 0 < ⌊(numsim : ℝ) * 365.25⌋₊ := by omega
  exact C117_gpd hT hk hs (by positivity) (by norm_num)

/-- A fit to one wind above the threshold in a year. -/
example : ∃ f w, gpdfit (fun _ => some (-1, 5)) 10 [30] [10] 1 1 = .ok f ∧ f.levels = [some w] ∧
    f.shape = some (-1) ∧ f.scale = some 5 ∧ ∃ x ∈ ([30] : List ℝ), 10 < x := by
  have hd : ¬ ⌊((1 : ℕ) : ℝ) * 365.25⌋₊ < ([30] : List ℝ).length := by
    rw [not_lt]; apply Nat.le_floor; norm_num
  unfold gpdfit fillDays
  rw [if_neg (by simp), if_neg (by simp), if_neg hd]
  simp only
  rw [if_neg (by norm_num)]
  exact ⟨_, _, rfl, rfl, rfl, rfl, 30, by simp, by norm_num⟩

/-! ### C118 -/

/-- C118 (the failure): for the Pareto, empirical and power-law methods the levels do not depend on the
number of years each simulation stands for. -/
theorem C118_other_methods_fail (lib : Lib) (S : Settings) (h : S.evd ≠ "GEV") (yrs : ℝ)
    (dir : List (GustFiles.Name × Option (ℕ → ℕ → ℝ))) (t : GustFiles.Tile) (y x : ℕ) :
    cell lib { S with yrsPerSim := yrs } dir t y x = cell lib S dir t y x := by
  unfold cell
  simp only [h, if_false]

/-- C118 (the consequence): the empirical interval of the greatest wind of a cell in `numSim` simulations
of `yrs` years is that of `numSim` years, below that of the years simulated. -/
theorem C118_empirical_fails {numsim : ℕ} (hn : 1 ≤ numsim) {yrs : ℕ} (hy : 1 < yrs) (k : ℕ) (hk : 1 ≤ k)
    (hk' : k ≤ ⌊(365.25 : ℝ) * numsim⌋₊) :
    emprp (365.25 * numsim) (⌊(365.25 : ℝ) * numsim⌋₊ + 1 - k) <
      emprp (365.25 * (numsim * yrs)) (⌊(365.25 : ℝ) * (numsim * yrs : ℝ)⌋₊ + 1 - k) := by
  have hn' : (1 : ℝ) ≤ numsim := by exact_mod_cast hn
  have hy' : (2 : ℝ) ≤ yrs := by exact_mod_cast hy
  have hk1 : (1 : ℝ) ≤ k := by exact_mod_cast hk
  set N : ℝ := 365.25 * numsim with hN
  set M : ℝ := 365.25 * (numsim * yrs) with hM
  have hN1 : 365 ≤ N := by rw [hN]; nlinarith
  have hNM : 2 * N ≤ M := by rw [hN, hM]; nlinarith
  have f1 : (⌊N⌋₊ : ℝ) ≤ N := Nat.floor_le (by linarith)
  have f2 : N < ⌊N⌋₊ + 1 := Nat.lt_floor_add_one N
  have g1 : (⌊M⌋₊ : ℝ) ≤ M := Nat.floor_le (by linarith)
  have g2 : M ≤ ⌊M⌋₊ + 3 / 4 := by
    have hq : M = ((1461 * (numsim * yrs) : ℕ) : ℝ) / ((4 : ℕ) : ℝ) := by
      rw [hM]; push_cast; ring
    rw [hq, Nat.floor_div_eq_div]
    have : 1461 * (numsim * yrs) ≤ 4 * (1461 * (numsim * yrs) / 4) + 3 := by omega
    have h' : ((1461 * (numsim * yrs) : ℕ) : ℝ) ≤ ((4 * (1461 * (numsim * yrs) / 4) + 3 : ℕ) : ℝ) := by
      exact_mod_cast this
    rw [Nat.cast_add, Nat.cast_mul] at h'
    push_cast at h' ⊢
    linarith
  have hkM : k ≤ ⌊M⌋₊ := hk'.trans (Nat.floor_le_floor (by linarith))
  have hkN : (k : ℝ) ≤ N := le_trans (by exact_mod_cast hk') f1
  have form : ∀ (P : ℝ) (F : ℕ), 0 < P → k ≤ F → (F : ℝ) ≤ P →
      emprp P (F + 1 - k) = (P + 1) / (P - F + k) / 365.25 := by
    intro P F hP hkF hF
    unfold emprp
    have : ((F + 1 - k : ℕ) : ℝ) = F + 1 - k := by
      rw [Nat.cast_sub (by omega)]; push_cast; ring
    rw [this]
    have h1 : P + 1 ≠ 0 := by linarith
    have h3 : 1 - ((F : ℝ) + 1 - k) / (P + 1) = (P - F + k) / (P + 1) := by field_simp; ring
    rw [h3, one_div_div]
  rw [form N _ (by linarith) hk' f1, form M _ (by linarith) hkM g1]
  rw [div_lt_div_iff_of_pos_right (by norm_num), div_lt_div_iff₀ (by linarith) (by linarith)]
  have a1 : (N + 1) * (M - ⌊M⌋₊ + k) ≤ (N + 1) * (k + 3 / 4) :=
    mul_le_mul_of_nonneg_left (by linarith) (by linarith)
  have a2 : (2 * N + 1) * k ≤ (M + 1) * (N - ⌊N⌋₊ + k) :=
    mul_le_mul (by linarith) (by linarith) (by linarith) (by linarith)
  nlinarith

/-- C118, for annual maxima: in as many simulations as make up `t` years the level for `t` years is
exceeded once, under the fitted distribution. -/
theorem C118_gev_partial {data intervals : List ℝ} {m : ℕ} {yrs : ℝ} {f : Fit} (hy : 0 < yrs)
    (h : gevfit data intervals m yrs = .ok f) {i : ℕ} {t w : ℝ} (ht : 0 < t)
    (hi : intervals[i]? = some t) (hw : f.levels[i]? = some (some w)) :
    ∃ loc scale shape, f.loc = some loc ∧ f.scale = some scale ∧ f.shape = some shape ∧
      t / yrs * (1 - gevDistribution loc scale shape w) = 1 := by
  obtain ⟨loc, scale, shape, h1, h2, h3, h4⟩ := C117_gev hy h ht hi hw
  refine ⟨loc, scale, shape, h1, h2, h3, ?_⟩
  rw [h4]
  field_simp

/-! ### C119 -/

/-- C119: a name other than the four is refused. -/
theorem C119_other_names (lib : Lib) (S : Settings)
    (h : S.evd ≠ "GPD" ∧ S.evd ≠ "GEV" ∧ S.evd ≠ "power" ∧ S.evd ≠ "emp")
    (dir : List (GustFiles.Name × Option (ℕ → ℕ → ℝ))) (t : GustFiles.Tile) (y x : ℕ) :
    cell lib S dir t y x = .error .valueError := by
  obtain ⟨h1, h2, h3, h4⟩ := h
  simp [cell, h1, h2, h3, h4]

example : "gpd" ≠ "GPD" ∧ "gpd" ≠ "GEV" ∧ "gpd" ≠ "power" ∧ "gpd" ≠ "emp" := by decide

/-- C119, for annual maxima: a level is reported at a place with winds only if at least as many years as
asked for have wind there. -/
theorem C119_gev_partial {record years : List ℝ} {m : ℕ} {yrs : ℝ} {f : Fit} (hp : ∃ x ∈ record, x > 0)
    (h : gevCell record years m yrs = .ok f) {w : ℝ} (hw : some w ∈ f.levels) :
    m ≤ (record.filter (· ≠ 0)).length := by
  unfold gevCell at h
  obtain ⟨x, hx, hx0⟩ := hp
  rw [if_neg (List.ne_nil_of_mem hx), if_pos ⟨x, hx, hx0⟩] at h
  have := (C23_reported_only_if_usable h hw).2.1
  refine this.trans (le_of_eq ?_)
  exact ((List.mergeSort_perm record _).filter _).length_eq

/-- C119 (the failure), Pareto method: events without wind at the place count as observations.  With one
event of any wind and as many others without wind as one likes, all levels are reported. -/
theorem C119_zero_winds_fail (lib : Lib) (S : Settings) (hS : S.minRecords ≤ S.numSim) (hn : 0 < S.numSim)
    (w : ℝ) (hw : 0 < w)
    (hmu : ∀ d, 0 ≤ lib.percentile d ∧ lib.percentile d < w)
    (hfit : lib.pareto [w] = some (-1, 5)) :
    ∃ f, eventCell (fun d => gpdfit lib.pareto (lib.percentile d) d S.years S.numSim S.minRecords)
        S.years.length (w :: List.replicate S.numSim 0) = .ok f ∧ ∀ i < S.years.length,
          ∃ v, f.levels[i]? = some (some v) := by
  set rec := w :: List.replicate S.numSim (0 : ℝ) with hrec
  set d := rec.mergeSort fun a b => decide (a ≤ b) with hd
  have hperm : d.Perm rec := List.mergeSort_perm _ _
  have hlen : d.length = S.numSim + 1 := by rw [hperm.length_eq, hrec]; simp
  have hday : S.numSim + 1 ≤ ⌊(S.numSim : ℝ) * 365.25⌋₊ := by
    apply Nat.le_floor
    push_cast
    have : (1 : ℝ) ≤ S.numSim := by exact_mod_cast hn
    linarith
  unfold eventCell
  rw [if_neg (by simp [hrec]), if_pos ⟨w, by simp [hrec], hw⟩, ← hd]
  simp only [gpdfit]
  rw [if_neg (by omega)]
  unfold fillDays
  rw [if_neg (by omega), if_neg (by omega)]
  simp only
  obtain ⟨hm0, hmw⟩ := hmu d
  have habove : (List.replicate (⌊(S.numSim : ℝ) * 365.25⌋₊ - d.length) 0 ++ d).filter
      (· > lib.percentile d) = [w] := by
    rw [List.filter_append, List.filter_eq_nil_iff.2 ?_, List.nil_append]
    · have h1 := hperm.filter (· > lib.percentile d)
      have h2 : rec.filter (· > lib.percentile d) = [w] := by
        rw [hrec, List.filter_cons_of_pos (by simpa using hmw), List.filter_eq_nil_iff.2 ?_]
        intro x hx
        rw [List.mem_replicate] at hx
        simp [hx.2, hm0]
      rw [h2] at h1
      exact List.perm_singleton.1 h1
    · intro x hx
      rw [List.mem_replicate] at hx
      simp [hx.2, hm0]
  rw [habove, hfit]
  simp only
  rw [if_neg (by norm_num)]
  refine ⟨_, rfl, ?_⟩
  intro i hi
  simp only [List.getElem?_map, List.getElem?_eq_getElem hi, Option.map_some, Option.some.injEq,
    exists_eq']

/-- C119 (the failure): for the empirical and power-law methods the least number of observations asked
for has no influence. -/
theorem C119_ignored_fails (lib : Lib) (S : Settings) (h : S.evd = "emp" ∨ S.evd = "power") (m : ℕ)
    (dir : List (GustFiles.Name × Option (ℕ → ℕ → ℝ))) (t : GustFiles.Tile) (y x : ℕ) :
    cell lib { S with minRecords := m } dir t y x = cell lib S dir t y x := by
  rcases h with h | h <;> simp [cell, h]

/-! ### C120 -/

/-- C120: the levels of the power law are reported for all periods or for none, and if the product of
the fitted factor and exponent is negative they increase with the period; with a negative exponent they
stay below the fitted limit. -/
theorem C120_power_partial {curve : List (ℝ × ℝ) → ℝ → Option (ℝ × ℝ × ℝ)} {data intervals : List ℝ}
    {numsim : ℕ} {f : Fit} (h : powerfit curve data intervals numsim = .ok f) {i j : ℕ} {t t' v v' : ℝ}
    (ht : 0 < t) (htt : t < t') (hi : intervals[i]? = some t) (hj : intervals[j]? = some t')
    (hv : f.levels[i]? = some (some v)) (hv' : f.levels[j]? = some (some v')) :
    ∃ a b c, f.loc = some a ∧ f.scale = some b ∧ f.shape = some c ∧
      (b * c < 0 → v < v') ∧ (0 < b → v < a) ∧ (0 < b * c → v' < v) := by
  unfold powerfit at h
  simp only at h
  split at h
  · cases h
  split at h
  · simp only [Except.ok.injEq] at h
    subst h
    simp only [Fit.missing, List.getElem?_replicate] at hv
    split at hv <;> simp at hv
  · rename_i a b c _
    simp only [Except.ok.injEq] at h
    subst h
    simp only [List.getElem?_map, hi, hj, Option.map_some, Option.some.injEq] at hv hv'
    subst hv hv'
    have hp : 0 < t ^ c := Real.rpow_pos_of_pos ht _
    refine ⟨a, b, c, rfl, rfl, rfl, ?_, ?_, ?_⟩
    · intro hbc
      rcases mul_neg_iff.1 hbc with ⟨hb, hc⟩ | ⟨hb, hc⟩
      · have := Real.rpow_lt_rpow_of_neg ht htt hc
        nlinarith
      · have := Real.rpow_lt_rpow ht.le htt hc
        nlinarith
    · intro hb
      nlinarith
    · intro hbc
      rcases mul_pos_iff.1 hbc with ⟨hb, hc⟩ | ⟨hb, hc⟩
      · have := Real.rpow_lt_rpow ht.le htt hc
        nlinarith
      · have := Real.rpow_lt_rpow_of_neg ht htt hc
        nlinarith

/-- C120 (the failure): the fitted parameters are not checked.  Whatever the library returns is used:
with a positive factor and exponent the levels for longer periods are lower. -/
theorem C120_unchecked_fails (numsim : ℕ) (data : List ℝ) (hd : data ≠ [])
    (hl : data.length ≤ ⌊(365.25 : ℝ) * numsim⌋₊) :
    powerfit (fun _ _ => some (50, 1, 1)) data [10, 100] numsim =
      .ok ⟨[some 40, some (-50)], some 50, some 1, some 1⟩ := by
  have hlen : (data.mergeSort fun a b => decide (a ≤ b)).length = data.length := by simp
  have hd' : data.length ≠ 0 := by simpa using hd
  unfold powerfit fillDays
  simp only
  rw [if_neg (by omega), if_neg (by omega)]
  norm_num

/-- C119: a place where no event has a wind above zero gets zero for all periods and parameters, whatever the
distribution; a place with no record at all is an error. -/
theorem C119_no_wind (fit : List ℝ → Except Evd.Err Fit) (k : ℕ) (record : List ℝ) (hr : record ≠ [])
    (h : ∀ x ∈ record, x ≤ 0) :
    (∃ f, eventCell fit k record = .ok f ∧ f.levels.length = k ∧ (∀ v ∈ f.levels, v = some 0) ∧
      f.loc = some 0 ∧ f.scale = some 0 ∧ f.shape = some 0) ∧ eventCell fit k [] = .error .valueError := by
  refine ⟨⟨zeroFit k, ?_, by simp [zeroFit], ?_, rfl, rfl, rfl⟩, by simp [eventCell]⟩
  · unfold eventCell
    rw [if_neg hr, if_neg]
    rintro ⟨x, hx, h0⟩
    exact absurd (h x hx) (not_le.2 h0)
  · intro v hv
    exact (List.mem_replicate.1 hv).2

/-- C120: what the power law is fitted to.  The days simulated are put in ascending order; day `k` of them is given the
interval `(N + 1) / (N + 1 - k)` days, in years of 365.25 days, where `N` is the number of days, not rounded.  The law is
fitted to the intervals and winds of the days with winds above the mean of the days with a wind. -/
theorem C120_fitted_days (curve : List (ℝ × ℝ) → ℝ → Option (ℝ × ℝ × ℝ)) (data intervals : List ℝ) (numsim : ℕ)
    (hd : data ≠ []) (hl : data.length ≤ ⌊(365.25 : ℝ) * numsim⌋₊) (days : List ℝ)
    (hs : days.Pairwise (· ≤ ·)) (hp : days.Perm (List.replicate (⌊(365.25 : ℝ) * numsim⌋₊ - data.length) 0 ++ data))
    (h0 : ∀ x ∈ data, 0 ≤ x) (mean : ℝ) (hm : mean * (data.filter (· > 0)).length = (data.filter (· > 0)).sum)
    (hpos : ∃ x ∈ data, 0 < x) :
    ∃ (pts : List (ℝ × ℝ)) (start : ℝ),
      (∀ (T w : ℝ), (T, w) ∈ pts ↔ ∃ k : ℕ, 1 ≤ k ∧ days[k - 1]? = some w ∧ mean < w ∧
        T = (365.25 * numsim + 1) / (365.25 * numsim + 1 - k) / 365.25) ∧
      start ∈ data ∧ (∀ x ∈ data, x ≤ start) ∧
      powerfit curve data intervals numsim = match curve pts start with
        | none => .ok (.missing intervals.length)
        | some (a, b, c) => .ok ⟨intervals.map fun t => some (a - b * t ^ c), some a, some b, some c⟩ := by
  have hsort : (data.mergeSort fun a b => decide (a ≤ b)).Pairwise (· ≤ ·) := by
    have := List.pairwise_mergeSort (le := fun a b : ℝ => decide (a ≤ b)) (by
      intro a b c h1 h2; simp at *; linarith) (by intro a b; simp; exact le_total a b) data
    simpa using this
  have hperm := List.mergeSort_perm data (fun a b => decide (a ≤ b))
  have hlen : (data.mergeSort fun a b => decide (a ≤ b)).length = data.length := hperm.length_eq
  have hne : data.length ≠ 0 := by simpa using hd
  have hdays : days = List.replicate (⌊(365.25 : ℝ) * numsim⌋₊ - data.length) 0 ++
      data.mergeSort fun a b => decide (a ≤ b) := by
    apply List.Perm.eq_of_pairwise (le := (· ≤ ·))
    · intro a b _ _ h1 h2; exact le_antisymm h1 h2
    · exact hs
    · rw [List.pairwise_append]
      refine ⟨List.pairwise_replicate.2 (.inr le_rfl), hsort, ?_⟩
      intro a ha b hb
      rw [(List.mem_replicate.1 ha).2]
      exact h0 b (hperm.subset hb)
    · exact hp.trans (List.Perm.append_left _ hperm.symm)
  have hfill : fillDays (data.mergeSort fun a b => decide (a ≤ b)) ⌊(365.25 : ℝ) * numsim⌋₊ = .ok days := by
    unfold fillDays
    rw [hlen, if_neg (by omega), if_neg (by omega), hdays]
  have hf : (days.filter (· > 0)).Perm (data.filter (· > 0)) := by
    have := hp.filter (fun x => decide (x > 0))
    rw [List.filter_append, List.filter_replicate] at this
    simpa using this
  have hcount : (0 : ℝ) < (data.filter (· > 0)).length := by
    obtain ⟨x, hx, hx0⟩ := hpos
    exact_mod_cast List.length_pos_of_mem (List.mem_filter.2 ⟨hx, by simpa using hx0⟩)
  have hmean : (days.filter (· > 0)).sum / (days.filter (· > 0)).length = mean := by
    rw [hf.sum_eq, hf.length_eq, div_eq_iff hcount.ne', hm]
  refine ⟨((days.zipIdx).filter fun p => p.1 > mean).map fun p => (emprp (365.25 * numsim) (p.2 + 1), p.1),
    GustFiles.maxList 0 data, ?_, ?_, ?_, ?_⟩
  · intro T w
    have em : ∀ k : ℕ, k < days.length → emprp (365.25 * numsim) (k + 1) =
        (365.25 * numsim + 1) / (365.25 * numsim + 1 - ((k + 1 : ℕ) : ℝ)) / 365.25 := by
      intro k hk
      have hk2 : k + 1 ≤ ⌊(365.25 : ℝ) * numsim⌋₊ := by
        have := hp.length_eq
        simp only [List.length_append, List.length_replicate] at this
        omega
      have hk3 : ((k + 1 : ℕ) : ℝ) ≤ 365.25 * numsim := (Nat.le_floor_iff (by positivity)).1 hk2
      have h1 : (365.25 : ℝ) * numsim + 1 ≠ 0 := by positivity
      have h2 : (365.25 : ℝ) * numsim + 1 - ((k + 1 : ℕ) : ℝ) ≠ 0 := by linarith
      unfold emprp
      congr 1
      rw [show (1 : ℝ) - ((k + 1 : ℕ) : ℝ) / (365.25 * numsim + 1) =
        (365.25 * numsim + 1 - ((k + 1 : ℕ) : ℝ)) / (365.25 * numsim + 1) by field_simp, one_div_div]
    simp only [List.mem_map, List.mem_filter, decide_eq_true_eq, Prod.mk.injEq, Prod.exists]
    constructor
    · rintro ⟨v, k, ⟨hk, hv⟩, rfl, rfl⟩
      have hk' := List.mem_zipIdx_iff_getElem?.1 hk
      refine ⟨k + 1, by omega, hk', hv, em k (List.getElem?_eq_some_iff.1 hk').1⟩
    · rintro ⟨k, hk, hk', hv, rfl⟩
      refine ⟨w, k - 1, ⟨List.mem_zipIdx_iff_getElem?.2 hk', hv⟩, ?_, rfl⟩
      have := em (k - 1) (List.getElem?_eq_some_iff.1 hk').1
      rw [Nat.sub_add_cancel hk] at this ⊢
      exact this
  · exact (GustFiles.isMaxOf_maxList 0 data hd).1
  · exact (GustFiles.isMaxOf_maxList 0 data hd).2
  · unfold powerfit
    simp only [hfill, hmean]
    rcases curve _ (GustFiles.maxList 0 data) with _ | ⟨a, b, c⟩ <;> rfl

end Tcrm.HazardRun
