import Mathlib.Probability.StrongLaw
import Mathlib.Probability.Distributions.Poisson.Basic
import Mathlib.Probability.Independence.InfinitePi
import Mathlib.MeasureTheory.Constructions.BorelSpace.Order
import Mathlib.MeasureTheory.Function.Floor
import Verif.Spec.Annual
import Verif.Props.GustFiles
import Verif.Props.Autoreg
/-!
C204: the distribution of annual maxima.
-/
namespace Tcrm.Annual
open Tcrm.GustFiles MeasureTheory ProbabilityTheory Filter

variable {Ω : Type} [MeasurableSpace Ω] {P : Measure Ω} {lam : ℝ} {N : ℕ → Ω → ℕ} {W : ℕ → ℕ → Ω → ℝ}

/-- No storm of the year brings more than `v`. -/
def Below (N : ℕ → Ω → ℕ) (W : ℕ → ℕ → Ω → ℝ) (v : ℝ) (i : ℕ) : Set Ω := {ω | ∀ k < N i ω, W i k ω ≤ v}

theorem below_eq (v : ℝ) (i : ℕ) : Below N W v i = ⋃ n, {ω | N i ω = n} ∩ {ω | ∀ k < n, W i k ω ≤ v} := by
  ext ω
  simp [Below]

theorem Spec.Storms.isProbability (h : Spec.Storms P lam N W) : IsProbabilityMeasure P := h.independent.isProbabilityMeasure

theorem exp_sum (lam q : ℝ) : HasSum (fun n : ℕ => Counts.Spec.chance lam n * q ^ n) (Real.exp (-(lam * (1 - q)))) := by
  have h := (NormedSpace.expSeries_div_hasSum_exp (𝔸 := ℝ) (lam * q)).mul_left (Real.exp (-lam))
  rw [← Real.exp_eq_exp_ℝ, ← Real.exp_add] at h
  have e1 : -lam + lam * q = -(lam * (1 - q)) := by ring
  have e2 : ∀ n : ℕ, Real.exp (-lam) * ((lam * q) ^ n / (n.factorial : ℝ)) = Counts.Spec.chance lam n * q ^ n := by
    intro n; unfold Counts.Spec.chance; rw [mul_pow]; ring
  rw [e1] at h
  simpa only [e2] using h

theorem part (h : Spec.Storms P lam N W) (v : ℝ) (i n : ℕ) :
    P ({ω | N i ω = n} ∩ {ω | ∀ k < n, W i k ω ≤ v}) = ENNReal.ofReal (Counts.Spec.chance lam n * P.real {ω | W 0 0 ω ≤ v} ^ n) := by
  have hp := h.isProbability
  have hw : ∀ k, P {ω | W i k ω ≤ v} = P {ω | W 0 0 ω ≤ v} := by
    intro k
    have e : ∀ i k, P {ω | W i k ω ≤ v} = P.map (W i k) (Set.Iic v) := fun i k => by
      rw [Measure.map_apply (h.measurableW i k) measurableSet_Iic]; rfl
    rw [e, e, h.same]
  let S : ℕ ⊕ ℕ × ℕ → Set ℝ := fun c => match c with
    | .inl _ => {(n : ℝ)}
    | .inr _ => Set.Iic v
  have key := h.independent.measure_inter_preimage_eq_mul (insert (.inl i) ((Finset.range n).image fun k => .inr (i, k)))
    (sets := S) (by
      intro c _
      rcases c with c | c
      · exact measurableSet_singleton _
      · exact measurableSet_Iic)
  rw [Finset.prod_insert (by simp), Finset.prod_image (by intro a _ b _ e; simpa using e)] at key
  have hset : (⋂ c ∈ insert (Sum.inl i) ((Finset.range n).image fun k => (Sum.inr (i, k) : ℕ ⊕ ℕ × ℕ)),
      Spec.quantities N W c ⁻¹' S c) = {ω | N i ω = n} ∩ {ω | ∀ k < n, W i k ω ≤ v} := by
    ext ω
    simp [Spec.quantities, S]
  rw [hset] at key
  rw [key]
  have e1 : Spec.quantities N W (.inl i) ⁻¹' S (.inl i) = {ω | N i ω = n} := by ext ω; simp [Spec.quantities, S]
  have e2 : ∀ k, Spec.quantities N W (.inr (i, k)) ⁻¹' S (.inr (i, k)) = {ω | W i k ω ≤ v} := fun k => rfl
  simp only [e1, e2, hw, Finset.prod_const, Finset.card_range, h.count]
  rw [ENNReal.ofReal_mul (by unfold Counts.Spec.chance; have := h.rate; positivity), ENNReal.ofReal_pow measureReal_nonneg,
    ofReal_measureReal]

theorem below_prob (h : Spec.Storms P lam N W) (v : ℝ) (i : ℕ) :
    P (Below N W v i) = ENNReal.ofReal (Real.exp (-(lam * P.real {ω | v < W 0 0 ω}))) := by
  have hp := h.isProbability
  have hq : P.real {ω | v < W 0 0 ω} = 1 - P.real {ω | W 0 0 ω ≤ v} := by
    rw [← probReal_compl_eq_one_sub (measurableSet_le (h.measurableW 0 0) measurable_const)]
    congr 1; ext ω; simp
  rw [below_eq, measure_iUnion]
  · simp only [part h]
    rw [hq, ← (exp_sum lam _).tsum_eq, ENNReal.ofReal_tsum_of_nonneg _ (exp_sum lam _).summable]
    intro n
    unfold Counts.Spec.chance
    have := h.rate
    have := measureReal_nonneg (μ := P) (s := {ω | W 0 0 ω ≤ v})
    positivity
  · intro a b hab
    refine Set.disjoint_left.2 fun ω ha hb => hab ?_
    exact ha.1.symm.trans hb.1
  · intro n
    refine MeasurableSet.inter (h.measurable i (measurableSet_singleton n)) ?_
    simp only [Set.setOf_forall]
    exact MeasurableSet.iInter fun k => MeasurableSet.iInter fun _ => measurableSet_le (h.measurableW i k) measurable_const

/-- The annual maximum at a place of the simulation -/
theorem annual_le {fields : ℕ → ℕ → Ω → ℕ → ℕ → ℝ} {t : Tile} {y x n i : ℕ} (hi : i < n) {ω : Ω}
    {dir : List (Name × Option (ℕ → ℕ → ℝ))} (hd : Spec.Holds dir (Spec.storms N fields n ω)) {v : ℝ} (hv : 0 ≤ v) :
    ∃ f, aggregate dir t i = some f ∧ (f y x ≤ v ↔ ω ∈ Below N (fun i k ω => fields i k ω (t.ymin + y) (t.xmin + x)) v i) := by
  obtain ⟨f, hf, hm⟩ := C21_annual_maxima (Spec.storms N fields n ω) t i
  rw [← C21_listing_order hd] at hf
  refine ⟨f, hf, ?_⟩
  have := hm y x
  simp only at this
  have hmem : ∀ w, w ∈ ((Spec.storms N fields n ω).filter fun e => e.1.2 = i).map (fun e => e.2 (t.ymin + y) (t.xmin + x)) ↔
      ∃ k < N i ω, fields i k ω (t.ymin + y) (t.xmin + x) = w := by
    intro w
    simp only [Spec.storms, List.mem_map, List.mem_filter, List.mem_flatMap, List.mem_range, decide_eq_true_eq]
    constructor
    · rintro ⟨e, ⟨⟨j, _, k, hk, rfl⟩, rfl⟩, rfl⟩
      exact ⟨k, hk, rfl⟩
    · rintro ⟨k, hk, rfl⟩
      exact ⟨_, ⟨⟨i, hi, k, hk, rfl⟩, rfl⟩, rfl⟩
  obtain ⟨h0, h1⟩ := this
  unfold Below
  simp only [Set.mem_setOf_eq]
  by_cases he : ((Spec.storms N fields n ω).filter fun e => e.1.2 = i).map (fun e => e.2 (t.ymin + y) (t.xmin + x)) = []
  · rw [h0 he]
    simp only [hv, true_iff]
    intro k hk
    have := (hmem _).2 ⟨k, hk, rfl⟩
    rw [he] at this
    cases this
  · obtain ⟨ha, hb⟩ := h1 he
    constructor
    · intro hle k hk
      exact (hb _ ((hmem _).2 ⟨k, hk, rfl⟩)).trans hle
    · intro hall
      obtain ⟨k, hk, e⟩ := (hmem _).1 ha
      rw [← e]; exact hall k hk

/-- C204: the annual maximum that the hazard calculation reads at a place exceeds a speed with the probability
`1 - exp (-r)`, where `r` is the expected number of exceedances per year: frequency of storms times the probability that a
storm exceeds the speed. -/
theorem C204_probability {fields : ℕ → ℕ → Ω → ℕ → ℕ → ℝ} {t : Tile} {y x : ℕ}
    (h : Spec.Storms P lam N fun i k ω => fields i k ω (t.ymin + y) (t.xmin + x)) {n i : ℕ} (hi : i < n)
    {dir : Ω → List (Name × Option (ℕ → ℕ → ℝ))} (hd : ∀ ω, Spec.Holds (dir ω) (Spec.storms N fields n ω)) {v : ℝ} (hv : 0 ≤ v) :
    P.real {ω | ∃ f, aggregate (dir ω) t i = some f ∧ v < f y x} =
      1 - Real.exp (-(lam * P.real {ω | v < fields 0 0 ω (t.ymin + y) (t.xmin + x)})) := by
  have hp := h.isProbability
  have e : {ω | ∃ f, aggregate (dir ω) t i = some f ∧ v < f y x} =
      (Below N (fun i k ω => fields i k ω (t.ymin + y) (t.xmin + x)) v i)ᶜ := by
    ext ω
    obtain ⟨f, hf, hiff⟩ := annual_le hi (hd ω) (y := y) (x := x) (t := t) hv
    simp only [Set.mem_setOf_eq, Set.mem_compl_iff, ← hiff, hf, Option.some.injEq, exists_eq_left', not_le]
  have hmeas : MeasurableSet (Below N (fun i k ω => fields i k ω (t.ymin + y) (t.xmin + x)) v i) := by
    rw [below_eq]
    refine MeasurableSet.iUnion fun n => MeasurableSet.inter (h.measurable i (measurableSet_singleton n)) ?_
    simp only [Set.setOf_forall]
    exact MeasurableSet.iInter fun k => MeasurableSet.iInter fun _ => measurableSet_le (h.measurableW i k) measurable_const
  rw [e, probReal_compl_eq_one_sub hmeas, measureReal_def, below_prob h, ENNReal.toReal_ofReal (Real.exp_pos _).le]

/-- The σ-algebra of a year -/
def year (N : ℕ → Ω → ℕ) (W : ℕ → ℕ → Ω → ℝ) (i : ℕ) : MeasurableSpace Ω :=
  ⨆ c ∈ {c : ℕ ⊕ ℕ × ℕ | c = .inl i ∨ ∃ k, c = .inr (i, k)}, MeasurableSpace.comap (Spec.quantities N W c) inferInstance

theorem below_year (v : ℝ) (i : ℕ) : MeasurableSet[year N W i] (Below N W v i) := by
  rw [below_eq]
  have le : ∀ c, (c = .inl i ∨ ∃ k, c = .inr (i, k)) → MeasurableSpace.comap (Spec.quantities N W c) inferInstance ≤ year N W i :=
    fun c hc => le_iSup₂_of_le (f := fun (c : ℕ ⊕ ℕ × ℕ) (_ : c ∈ {c : ℕ ⊕ ℕ × ℕ | c = .inl i ∨ ∃ k, c = .inr (i, k)}) =>
      MeasurableSpace.comap (Spec.quantities N W c) inferInstance) c hc le_rfl
  refine MeasurableSet.iUnion fun n => MeasurableSet.inter ?_ ?_
  · refine le _ (Or.inl rfl) _ ⟨{(n : ℝ)}, measurableSet_singleton _, ?_⟩
    ext ω; simp [Spec.quantities]
  · simp only [Set.setOf_forall]
    refine MeasurableSet.iInter fun k => MeasurableSet.iInter fun _ => ?_
    exact le _ (Or.inr ⟨k, rfl⟩) _ ⟨Set.Iic v, measurableSet_Iic, rfl⟩

theorem years_indep (h : Spec.Storms P lam N W) {i j : ℕ} (hij : i ≠ j) : Indep (year N W i) (year N W j) P := by
  refine indep_iSup_of_disjoint (fun c => ?_) h.independent ?_
  · rw [← measurable_iff_comap_le]
    rcases c with c | c
    · exact (measurable_from_nat (f := fun n : ℕ => (n : ℝ))).comp (h.measurable c)
    · exact h.measurableW c.1 c.2
  · refine Set.disjoint_left.2 ?_
    rintro c (rfl | ⟨k, rfl⟩) (e | ⟨k', e⟩) <;> simp at e <;> omega

/-- C204: and with ever more simulated years, the share of years whose maximum exceeds the speed approaches this probability, almost
surely. -/
theorem C204_frequency {fields : ℕ → ℕ → Ω → ℕ → ℕ → ℝ} {t : Tile} {y x : ℕ}
    (h : Spec.Storms P lam N fun i k ω => fields i k ω (t.ymin + y) (t.xmin + x))
    {dir : ℕ → Ω → List (Name × Option (ℕ → ℕ → ℝ))} (hd : ∀ n ω, Spec.Holds (dir n ω) (Spec.storms N fields n ω)) {v : ℝ} (hv : 0 ≤ v) :
    ∀ᵐ ω ∂P, Tendsto (fun n => Spec.share (fun i => ∃ f, aggregate (dir n ω) t i = some f ∧ v < f y x) n) atTop
      (nhds (1 - Real.exp (-(lam * P.real {ω | v < fields 0 0 ω (t.ymin + y) (t.xmin + x)})))) := by
  classical
  have hp := h.isProbability
  set V : ℕ → ℕ → Ω → ℝ := fun i k ω => fields i k ω (t.ymin + y) (t.xmin + x) with hV
  have hle : ∀ i, year N V i ≤ (inferInstance : MeasurableSpace Ω) := by
    intro i
    refine iSup₂_le fun c _ => ?_
    rw [← measurable_iff_comap_le]
    rcases c with c | c
    · exact (measurable_from_nat (f := fun n : ℕ => (n : ℝ))).comp (h.measurable c)
    · exact h.measurableW c.1 c.2
  have hmeas : ∀ i, MeasurableSet (Below N V v i) := fun i => hle i _ (below_year v i)
  let g : ℕ → Ω → ℝ := fun i => (Below N V v i)ᶜ.indicator fun _ => 1
  have hgm : ∀ i, Measurable[year N V i] (g i) := fun i =>
    (@measurable_const ℝ Ω _ (year N V i) 1).indicator (below_year v i).compl
  have hgm' : ∀ i, Measurable (g i) := fun i => measurable_const.indicator (hmeas i).compl
  have hint : ∀ i, Integrable (g i) P := fun i => (integrable_const (1 : ℝ)).indicator (hmeas i).compl
  have hE : ∫ ω, g 0 ω ∂P = 1 - Real.exp (-(lam * P.real {ω | v < V 0 0 ω})) := by
    have e : ∫ ω, g 0 ω ∂P = P.real (Below N V v 0)ᶜ := integral_indicator_one (hmeas 0).compl
    rw [e, probReal_compl_eq_one_sub (hmeas 0), measureReal_def, below_prob h,
      ENNReal.toReal_ofReal (Real.exp_pos _).le]
  have hident : ∀ i, IdentDistrib (g i) (g 0) P P := by
    intro i
    refine ⟨(hgm' i).aemeasurable, (hgm' 0).aemeasurable, ?_⟩
    ext s hs
    rw [Measure.map_apply (hgm' i) hs, Measure.map_apply (hgm' 0) hs]
    have e : P (Below N V v i) = P (Below N V v 0) := by rw [below_prob h, below_prob h]
    have e' : P (Below N V v i)ᶜ = P (Below N V v 0)ᶜ := by rw [prob_compl_eq_one_sub (hmeas i), prob_compl_eq_one_sub (hmeas 0), e]
    have hpre : ∀ i, g i ⁻¹' s = (if (1 : ℝ) ∈ s then (Below N V v i)ᶜ else ∅) ∪ (if (0 : ℝ) ∈ s then Below N V v i else ∅) := by
      intro i
      ext ω
      by_cases hω : ω ∈ Below N V v i <;> by_cases h1 : (1 : ℝ) ∈ s <;> by_cases h0 : (0 : ℝ) ∈ s <;>
        simp [g, Set.indicator, hω, h1, h0]
    rw [hpre, hpre]
    by_cases h1 : (1 : ℝ) ∈ s <;> by_cases h0 : (0 : ℝ) ∈ s <;> simp [h1, h0, e, e', Set.compl_union_self]
  have key := strong_law_ae_real (μ := P) g (hint 0)
    (fun i j hij => by
      refine (IndepFun_iff_Indep _ _ _).2 ?_
      exact indep_of_indep_of_le_left (indep_of_indep_of_le_right (years_indep h hij) (hgm j).comap_le) (hgm i).comap_le) hident
  rw [hE] at key
  filter_upwards [key] with ω hω
  refine hω.congr fun n => ?_
  unfold Spec.share
  congr 1
  rw [Finset.card_filter]
  push_cast
  refine Finset.sum_congr rfl fun i hi => ?_
  obtain ⟨f, hf, hiff⟩ := annual_le (Finset.mem_range.1 hi) (hd n ω) (y := y) (x := x) (t := t) hv
  simp only [hf, Option.some.injEq, exists_eq_left', g, Set.indicator, Set.mem_compl_iff, ← not_le, hiff, hV]

/-! ### Cases -/

/-- Laws of the numbers of storms and of the wind speeds -/
noncomputable def laws (lam : ℝ) : ℕ ⊕ ℕ × ℕ → Measure ℝ
  | .inl _ => (poissonMeasure lam.toNNReal).map fun n : ℕ => (n : ℝ)
  | .inr _ => Autoreg.unit

instance (lam : ℝ) (c : ℕ ⊕ ℕ × ℕ) : IsProbabilityMeasure (laws lam c) := by
  rcases c with c | c
  · exact Measure.isProbabilityMeasure_map (measurable_from_nat (f := fun n : ℕ => (n : ℝ))).aemeasurable
  · exact inferInstanceAs (IsProbabilityMeasure Autoreg.unit)

/-- There are such storms: wind speeds spread evenly between 0 and 60, four storms expected per year. -/
example : Spec.Storms (Measure.infinitePi (laws 4)) 4 (fun i ω => ⌊ω (.inl i)⌋₊) (fun i k ω => 60 * ω (.inr (i, k))) where
  rate := by norm_num
  measurable i := Nat.measurable_floor.comp (measurable_pi_apply (Sum.inl i))
  measurableW i k := (measurable_pi_apply _).const_mul 60
  count i k := by
    have e := Measure.infinitePi_map_eval (laws 4) (.inl i)
    have hm : Measurable fun x : ℝ => ⌊x⌋₊ := Nat.measurable_floor
    have := congrArg (fun μ => μ ((fun x : ℝ => ⌊x⌋₊) ⁻¹' {k})) e
    beta_reduce at this
    rw [Measure.map_apply (show Measurable fun x : ℕ ⊕ ℕ × ℕ → ℝ => x (.inl i) from measurable_pi_apply (Sum.inl i))
      (hm (measurableSet_singleton k))] at this
    refine this.trans ?_
    change ((poissonMeasure (4 : ℝ).toNNReal).map fun n : ℕ => (n : ℝ)) _ = _
    rw [Measure.map_apply (measurable_from_nat (f := fun n : ℕ => (n : ℝ))) (hm (measurableSet_singleton k))]
    have e2 : (fun n : ℕ => (n : ℝ)) ⁻¹' ((fun x : ℝ => ⌊x⌋₊) ⁻¹' {k}) = {k} := by ext n; simp
    rw [e2, poissonMeasure_singleton, Real.coe_toNNReal _ (by norm_num)]
    rfl
  same i k := by
    have e : ∀ c : ℕ × ℕ, (Measure.infinitePi (laws 4)).map (fun ω => 60 * ω (.inr c)) = Autoreg.unit.map fun x => 60 * x := by
      intro c
      have := Measure.infinitePi_map_eval (laws 4) (.inr c)
      rw [show Autoreg.unit = laws 4 (.inr c) from rfl, ← this, Measure.map_map (measurable_const_mul 60)
        (show Measurable fun x : ℕ ⊕ ℕ × ℕ → ℝ => x (.inr c) from measurable_pi_apply (Sum.inr c))]
      rfl
    rw [e (i, k), e (0, 0)]
  independent := by
    have := iIndepFun_infinitePi (P := laws 4) (X := fun c x => match c with
      | .inl _ => ((⌊x⌋₊ : ℕ) : ℝ)
      | .inr _ => 60 * x) (by
      intro c
      rcases c with c | c
      · exact (measurable_from_nat (f := fun n : ℕ => (n : ℝ))).comp Nat.measurable_floor
      · exact measurable_const_mul 60)
    convert this using 2 with c
    rcases c with c | c <;> rfl

/-- A directory that lists the storms in order -/
example (N : ℕ → Ω → ℕ) (fields : ℕ → ℕ → Ω → ℕ → ℕ → ℝ) (n : ℕ) (ω : Ω) :
    Spec.Holds ((Spec.storms N fields n ω).map fun e => (gustName e.1, some e.2)) (Spec.storms N fields n ω) := List.Perm.refl _

end Tcrm.Annual
