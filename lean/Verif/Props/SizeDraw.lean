import Mathlib.Probability.ConditionalProbability
import Mathlib.Probability.Independence.InfinitePi
import Verif.Model.SizeDraw
import Verif.Spec.SizeDraw
/-!
C199: distribution of the sizes of storms.
-/
namespace Tcrm.SizeDraw
open Tcrm.SizeFit MeasureTheory ProbabilityTheory Filter

variable {Ω : Type} [MeasurableSpace Ω] {P : Measure Ω} {E : ℕ → Ω → ℝ}

theorem drawSize_iff (dp lat : ℝ) (eps : ℕ → ℝ) (k : ℕ) (e r : ℝ) :
    (∃ fuel, drawSize dp lat eps fuel k = some (e, r)) ↔
      ∃ n, (∀ m < n, 100 < rmax dp lat (eps (k + m))) ∧ rmax dp lat (eps (k + n)) ≤ 100 ∧ e = eps (k + n) ∧ r = rmax dp lat e := by
  constructor
  · rintro ⟨fuel, h⟩
    induction fuel generalizing k with
    | zero => simp [drawSize] at h
    | succ f ih =>
      rw [drawSize] at h
      split_ifs at h with hc
      · obtain ⟨n, h1, h2, h3, h4⟩ := ih _ h
        refine ⟨n + 1, ?_, ?_, ?_, h4⟩
        · intro m hm
          cases m with
          | zero => exact hc
          | succ m => have := h1 m (by omega); rwa [show k + 1 + m = k + (m + 1) by omega] at this
        · rwa [show k + 1 + n = k + (n + 1) by omega] at h2
        · rwa [show k + 1 + n = k + (n + 1) by omega] at h3
      · simp only [Option.some.injEq, Prod.mk.injEq] at h
        obtain ⟨rfl, rfl⟩ := h
        exact ⟨0, by simp, not_lt.1 hc, rfl, rfl⟩
  · rintro ⟨n, h1, h2, rfl, rfl⟩
    refine ⟨n + 1, ?_⟩
    induction n generalizing k with
    | zero => simp only [drawSize, Nat.add_zero] at h2 ⊢; rw [if_neg (not_lt.2 h2)]
    | succ n ih =>
      have h0 := h1 0 (by omega)
      rw [drawSize, if_pos (by simpa using h0)]
      have := ih (k + 1) (fun m hm => by
        have := h1 (m + 1) (by omega)
        rwa [show k + 1 + m = k + (m + 1) by omega]) (by rwa [show k + 1 + n = k + (n + 1) by omega])
      rwa [show k + 1 + n = k + (n + 1) by omega] at this

theorem measurable_rmax (dp lat : ℝ) : Measurable fun e => rmax dp lat e := by
  unfold rmax
  fun_prop

/-! ### Drawing until a condition holds -/

/-- The first of several numbers of the same distribution that lies in `G` -/
theorem first_law [IsProbabilityMeasure P] (hE : ∀ n, Measurable (E n)) (hl : ∀ n, P.map (E n) = P.map (E 0)) (hi : iIndepFun E P)
    {G A : Set ℝ} (hG : MeasurableSet G) (hA : MeasurableSet A) (hpos : P (E 0 ⁻¹' G) ≠ 0) :
    P {ω | ∃ n, (∀ m < n, E m ω ∉ G) ∧ E n ω ∈ G ∧ E n ω ∈ A} = P[{ω | E 0 ω ∈ A} | {ω | E 0 ω ∈ G}] := by
  have hm : ∀ n (S : Set ℝ), MeasurableSet S → P (E n ⁻¹' S) = P (E 0 ⁻¹' S) := by
    intro n S hS
    rw [← Measure.map_apply (hE n) hS, hl n, Measure.map_apply (hE 0) hS]
  let B : ℕ → Set Ω := fun n => ⋂ m ∈ Finset.range (n + 1), E m ⁻¹' (if m = n then G ∩ A else Gᶜ)
  have hset : ∀ m n : ℕ, MeasurableSet (if m = n then G ∩ A else Gᶜ) := by
    intro m n; split_ifs
    · exact hG.inter hA
    · exact hG.compl
  have hB : ∀ n ω, ω ∈ B n ↔ (∀ m < n, E m ω ∉ G) ∧ E n ω ∈ G ∧ E n ω ∈ A := by
    intro n ω
    simp only [B, Set.mem_iInter, Finset.mem_range, Set.mem_preimage]
    constructor
    · intro h
      refine ⟨fun m hm => ?_, ?_⟩
      · have := h m (by omega)
        rwa [if_neg (by omega)] at this
      · have := h n (by omega)
        rwa [if_pos rfl] at this
    · rintro ⟨h1, h2⟩ m hm
      split_ifs with he
      · subst he; exact h2
      · exact h1 m (by omega)
  have hunion : {ω | ∃ n, (∀ m < n, E m ω ∉ G) ∧ E n ω ∈ G ∧ E n ω ∈ A} = ⋃ n, B n := by
    ext ω; simp only [Set.mem_iUnion, hB, Set.mem_setOf_eq]
  have hprob : ∀ n, P (B n) = (1 - P (E 0 ⁻¹' G)) ^ n * P (E 0 ⁻¹' (G ∩ A)) := by
    intro n
    rw [hi.measure_inter_preimage_eq_mul (Finset.range (n + 1)) (sets := fun m => if m = n then G ∩ A else Gᶜ)
      (fun m _ => hset m n), Finset.prod_range_succ, if_pos rfl, hm n _ (hG.inter hA)]
    congr 1
    rw [Finset.prod_congr rfl (g := fun _ => 1 - P (E 0 ⁻¹' G)), Finset.prod_const, Finset.card_range]
    intro m hmn
    rw [if_neg (by have := Finset.mem_range.1 hmn; omega), hm m _ hG.compl, Set.preimage_compl, prob_compl_eq_one_sub (hE 0 hG)]
  have hdisj : Pairwise (Function.onFun Disjoint B) := by
    intro a b hab
    rw [Function.onFun, Set.disjoint_left]
    intro ω h1 h2
    rw [hB] at h1 h2
    rcases lt_or_gt_of_ne hab with h | h
    · exact h2.1 a h h1.2.1
    · exact h1.1 b h h2.2.1
  have hBm : ∀ n, MeasurableSet (B n) := fun n => Finset.measurableSet_biInter _ fun m _ => hE m (hset m n)
  have hcond : P[{ω | E 0 ω ∈ A} | {ω | E 0 ω ∈ G}] = (P (E 0 ⁻¹' G))⁻¹ * P (E 0 ⁻¹' (G ∩ A)) := cond_apply (hE 0 hG) P _
  rw [hunion, measure_iUnion hdisj hBm, hcond]
  simp only [hprob]
  rw [ENNReal.tsum_mul_right, ENNReal.tsum_geometric, ENNReal.sub_sub_cancel ENNReal.one_ne_top prob_le_one]

variable {s : NNReal}

theorem Spec.Normal.isProbability (h : Spec.Normal P s E) : IsProbabilityMeasure P := by
  refine ⟨?_⟩
  have := Measure.map_apply (μ := P) (h.measurable 0) MeasurableSet.univ
  rw [h.law 0, Set.preimage_univ] at this
  rw [← this]
  simp

/-- The radius grows with the number drawn. -/
theorem rmax_le_iff (dp lat e : ℝ) : rmax dp lat e ≤ 100 ↔ e ≤ Real.log 100 - (4.22 - 0.0198 * dp + 0.0023 * |lat|) := by
  have : rmax dp lat e = Real.exp (4.22 - 0.0198 * dp + 0.0023 * |lat| + e) := by
    simp only [rmax]
    congr 1
    norm_num
    ring
  rw [this, ← Real.le_log_iff_exp_le (by norm_num)]
  constructor <;> intro h <;> linarith

theorem good_pos (h : Spec.Normal P s E) (hs : s ≠ 0) (dp lat : ℝ) : P (E 0 ⁻¹' {e | rmax dp lat e ≤ 100}) ≠ 0 := by
  rw [← Measure.map_apply (h.measurable 0) (measurableSet_le (measurable_rmax dp lat) measurable_const), h.law 0]
  intro h0
  have := gaussianReal_absolutelyContinuous' 0 (pow_ne_zero 2 hs) h0
  have he : {e | rmax dp lat e ≤ 100} = Set.Iic (Real.log 100 - (4.22 - 0.0198 * dp + 0.0023 * |lat|)) := by
    ext e; exact rmax_le_iff dp lat e
  rw [he, Real.volume_Iic] at this
  exact ENNReal.top_ne_zero this

/-- C199: the draw of the size ends (with probability one). -/
theorem C199_ends (h : Spec.Normal P s E) (hs : s ≠ 0) (dp lat : ℝ) :
    ∀ᵐ ω ∂P, ∃ fuel e r, drawSize dp lat (E · ω) fuel 0 = some (e, r) := by
  haveI := Spec.Normal.isProbability h
  have hG : MeasurableSet {e | rmax dp lat e ≤ 100} := measurableSet_le (measurable_rmax dp lat) measurable_const
  have key := first_law h.measurable (fun n => by rw [h.law, h.law]) h.independent hG MeasurableSet.univ (good_pos h hs dp lat)
  have hone : P[{ω | E 0 ω ∈ Set.univ} | {ω | E 0 ω ∈ {e | rmax dp lat e ≤ 100}}] = 1 := by
    haveI : IsProbabilityMeasure P[|{ω | rmax dp lat (E 0 ω) ≤ 100}] := cond_isProbabilityMeasure (good_pos h hs dp lat)
    simp
  rw [hone] at key
  have hmeas : MeasurableSet {ω | ∃ n, rmax dp lat (E n ω) ≤ 100} := by
    have : {ω | ∃ n, rmax dp lat (E n ω) ≤ 100} = ⋃ n, E n ⁻¹' {e | rmax dp lat e ≤ 100} := by ext ω; simp
    rw [this]
    exact MeasurableSet.iUnion fun n => h.measurable n hG
  have hp1 : P {ω | ∃ n, rmax dp lat (E n ω) ≤ 100} = 1 := by
    refine le_antisymm prob_le_one ?_
    rw [← key]
    exact measure_mono fun ω ⟨n, _, h2, _⟩ => ⟨n, h2⟩
  have hae : ∀ᵐ ω ∂P, ∃ n, rmax dp lat (E n ω) ≤ 100 := by
    rw [ae_iff]
    exact (prob_compl_eq_zero_iff hmeas).2 hp1
  classical
  filter_upwards [hae] with ω hω
  obtain ⟨fuel, hf⟩ := (drawSize_iff dp lat (E · ω) 0 (E (Nat.find hω) ω) (rmax dp lat (E (Nat.find hω) ω))).2
    ⟨Nat.find hω, fun m hm => by simpa using Nat.find_min hω hm, by simpa using Nat.find_spec hω, by simp, rfl⟩
  exact ⟨fuel, _, _, hf⟩

/-- C199 (part): the number kept for the storm has the distribution of one number drawn, given that its radius is not larger
than 100 km. -/
theorem C199_law_partial (h : Spec.Normal P s E) (hs : s ≠ 0) (dp lat : ℝ) {A : Set ℝ} (hA : MeasurableSet A) :
    P {ω | ∃ fuel e r, drawSize dp lat (E · ω) fuel 0 = some (e, r) ∧ e ∈ A} =
      P[{ω | E 0 ω ∈ A} | {ω | rmax dp lat (E 0 ω) ≤ 100}] := by
  haveI := Spec.Normal.isProbability h
  have hG : MeasurableSet {e | rmax dp lat e ≤ 100} := measurableSet_le (measurable_rmax dp lat) measurable_const
  have key := first_law h.measurable (fun n => by rw [h.law, h.law]) h.independent hG hA (good_pos h hs dp lat)
  refine Eq.trans ?_ key
  congr 1
  ext ω
  simp only [Set.mem_setOf_eq]
  constructor
  · rintro ⟨fuel, e, r, hf, ha⟩
    obtain ⟨n, h1, h2, rfl, rfl⟩ := (drawSize_iff dp lat (E · ω) 0 e r).1 ⟨fuel, hf⟩
    simp only [zero_add] at *
    exact ⟨n, fun m hm => not_le.2 (h1 m hm), h2, ha⟩
  · rintro ⟨n, h1, h2, ha⟩
    obtain ⟨fuel, hf⟩ := (drawSize_iff dp lat (E · ω) 0 (E n ω) (rmax dp lat (E n ω))).2
      ⟨n, fun m hm => by simpa using h1 m hm, by simpa using h2, by simp, rfl⟩
    exact ⟨fuel, _, _, hf, ha⟩

/-- C199: a storm begins with a radius of at most 100 km, which is that of the relation with the number kept. -/
theorem C199_radius {dp lat : ℝ} {eps : ℕ → ℝ} {fuel : ℕ} {e r : ℝ} (h : drawSize dp lat eps fuel 0 = some (e, r)) :
    r ≤ 100 ∧ r = Real.exp (4.22 - 0.0198 * dp + 0.0023 * |lat| + e) ∧ ∃ n, e = eps n := by
  obtain ⟨n, h1, h2, rfl, rfl⟩ := (drawSize_iff dp lat eps 0 e r).1 ⟨fuel, h⟩
  refine ⟨h2, ?_, _, rfl⟩
  simp only [rmax]
  congr 1
  norm_num
  ring

/-! ### The mean -/

theorem drawSize_unique {dp lat : ℝ} {eps : ℕ → ℝ} {f f' : ℕ} {a b : ℝ × ℝ} (h : drawSize dp lat eps f 0 = some a)
    (h' : drawSize dp lat eps f' 0 = some b) : a = b := by
  obtain ⟨e, r⟩ := a
  obtain ⟨e', r'⟩ := b
  obtain ⟨n, h1, h2, rfl, rfl⟩ := (drawSize_iff dp lat eps 0 e r).1 ⟨f, h⟩
  obtain ⟨n', h1', h2', rfl, rfl⟩ := (drawSize_iff dp lat eps 0 e' r').1 ⟨f', h'⟩
  rcases lt_trichotomy n n' with hn | hn | hn
  · exact absurd (h1' n hn) (not_lt.2 h2)
  · subst hn; rfl
  · exact absurd (h1 n' hn) (not_lt.2 h2')

theorem integral_pos_of {v : NNReal} (hv : v ≠ 0) {S : Set ℝ} (hS : MeasurableSet S) {f : ℝ → ℝ} (hf : ∀ x ∈ S, 0 < f x)
    (hint : Integrable f (gaussianReal 0 v)) (hvol : volume S ≠ 0) : 0 < ∫ x in S, f x ∂gaussianReal 0 v := by
  rw [setIntegral_pos_iff_support_of_nonneg_ae
    (ae_restrict_of_forall_mem hS fun x hx => (hf x hx).le) hint.integrableOn]
  have : Function.support f ∩ S = S := Set.inter_eq_right.2 fun x hx => (hf x hx).ne'
  rw [this]
  refine pos_iff_ne_zero.2 fun h0 => hvol (gaussianReal_absolutelyContinuous' 0 hv h0)

/-- A normally distributed number that is known not to be large is negative in the mean. -/
theorem truncated_mean {v : NNReal} (hv : v ≠ 0) (c : ℝ) : ∫ x in Set.Iic c, x ∂gaussianReal 0 v < 0 := by
  have hint : Integrable (fun x : ℝ => x) (gaussianReal 0 v) := by
    have := memLp_id_gaussianReal (μ := 0) (v := v) 1
    exact memLp_one_iff_integrable.1 (by rw [ENNReal.coe_one] at this; exact this)
  rcases le_or_gt 0 c with hc | hc
  · have htot : ∫ x, x ∂gaussianReal 0 v = 0 := integral_id_gaussianReal
    have hsplit := integral_add_compl (measurableSet_Iic : MeasurableSet (Set.Iic c)) hint
    rw [htot, Set.compl_Iic] at hsplit
    have := integral_pos_of hv (measurableSet_Ioi : MeasurableSet (Set.Ioi c)) (f := fun x => x)
      (fun x hx => lt_of_le_of_lt hc hx) hint (by simp)
    linarith
  · have := integral_pos_of hv (measurableSet_Iic : MeasurableSet (Set.Iic c)) (f := fun x => -x)
      (fun x hx => by have : x ≤ c := hx; linarith) hint.neg (by simp)
    rw [integral_neg] at this
    linarith

/-- There is a measurable function of the random numbers which is the number kept. -/
theorem C199_variate (h : Spec.Normal P s E) (hs : s ≠ 0) (dp lat : ℝ) :
    ∃ X : Ω → ℝ, Measurable X ∧ ∀ᵐ ω ∂P, ∃ fuel r, drawSize dp lat (E · ω) fuel 0 = some (X ω, r) := by
  classical
  have hG : MeasurableSet {e | rmax dp lat e ≤ 100} := measurableSet_le (measurable_rmax dp lat) measurable_const
  let N : Ω → ℕ := fun ω => if hω : ∃ n, rmax dp lat (E n ω) ≤ 100 then Nat.find hω else 0
  have hN : Measurable N := by
    refine measurable_to_countable' fun n => ?_
    have hcand : ∀ k, MeasurableSet {ω | (∀ m < k, ¬ rmax dp lat (E m ω) ≤ 100) ∧ rmax dp lat (E k ω) ≤ 100} := by
      intro k
      have : {ω | (∀ m < k, ¬ rmax dp lat (E m ω) ≤ 100) ∧ rmax dp lat (E k ω) ≤ 100} =
          (⋂ m ∈ Finset.range k, E m ⁻¹' {e | rmax dp lat e ≤ 100}ᶜ) ∩ E k ⁻¹' {e | rmax dp lat e ≤ 100} := by
        ext ω; simp
      rw [this]
      exact (Finset.measurableSet_biInter _ fun m _ => h.measurable m hG.compl).inter (h.measurable k hG)
    have hnone : MeasurableSet {ω | ¬ ∃ n, rmax dp lat (E n ω) ≤ 100} := by
      have : {ω | ¬ ∃ n, rmax dp lat (E n ω) ≤ 100} = (⋃ n, E n ⁻¹' {e | rmax dp lat e ≤ 100})ᶜ := by ext ω; simp
      rw [this]
      exact (MeasurableSet.iUnion fun n => h.measurable n hG).compl
    have : N ⁻¹' {n} = {ω | (∀ m < n, ¬ rmax dp lat (E m ω) ≤ 100) ∧ rmax dp lat (E n ω) ≤ 100} ∪
        ({ω | ¬ ∃ n, rmax dp lat (E n ω) ≤ 100} ∩ {_ω | n = 0}) := by
      ext ω
      simp only [N, Set.mem_preimage, Set.mem_singleton_iff, Set.mem_union, Set.mem_inter_iff, Set.mem_setOf_eq]
      split_ifs with hω
      · rw [Nat.find_eq_iff]
        constructor
        · rintro ⟨a, b⟩; exact .inl ⟨b, a⟩
        · rintro (⟨a, b⟩ | ⟨a, -⟩)
          · exact ⟨b, a⟩
          · exact absurd hω a
      · constructor
        · intro e; exact .inr ⟨hω, e.symm⟩
        · rintro (⟨-, b⟩ | ⟨-, e⟩)
          · exact absurd ⟨n, b⟩ hω
          · exact e.symm
    rw [this]
    exact (hcand n).union (hnone.inter (MeasurableSet.const _))
  refine ⟨fun ω => E (N ω) ω, ?_, ?_⟩
  · have hpair : Measurable fun p : ℕ × Ω => E p.1 p.2 := measurable_from_prod_countable_right fun n => h.measurable n
    exact hpair.comp (hN.prodMk measurable_id)
  · filter_upwards [C199_ends h hs dp lat] with ω hω
    obtain ⟨fuel, e, r, hf⟩ := hω
    obtain ⟨n, h1, h2, h3, h4⟩ := (drawSize_iff dp lat (E · ω) 0 e r).1 ⟨fuel, hf⟩
    simp only [zero_add] at h1 h2 h3
    have hex : ∃ n, rmax dp lat (E n ω) ≤ 100 := ⟨n, h2⟩
    have hNn : N ω = n := by
      simp only [N, dif_pos hex]
      rw [Nat.find_eq_iff]
      exact ⟨h2, fun m hm => not_le.2 (h1 m hm)⟩
    refine ⟨fuel, r, ?_⟩
    rw [hf, h3, hNn]

/-- C199 (violated): the numbers kept, of normal distribution with mean 0 when drawn, do not have the mean 0: for every pressure
deficit and latitude it is negative.  The radius of a storm is calculated from this number to its end. -/
theorem C199_mean_fails (h : Spec.Normal P s E) (hs : s ≠ 0) (dp lat : ℝ) {X : Ω → ℝ} (hX : Measurable X)
    (hd : ∀ᵐ ω ∂P, ∃ fuel r, drawSize dp lat (E · ω) fuel 0 = some (X ω, r)) :
    ∫ ω, E 0 ω ∂P = 0 ∧ ∫ ω, X ω ∂P < 0 := by
  haveI := Spec.Normal.isProbability h
  have hG : MeasurableSet {e | rmax dp lat e ≤ 100} := measurableSet_le (measurable_rmax dp lat) measurable_const
  constructor
  · have := integral_map (μ := P) (h.measurable 0).aemeasurable (f := fun x : ℝ => x) (by fun_prop)
    rw [← this, h.law 0]
    exact integral_id_gaussianReal
  have hlaw : P.map X = (gaussianReal 0 (s ^ 2))[|{e | rmax dp lat e ≤ 100}] := by
    refine Measure.ext fun A hA => ?_
    rw [Measure.map_apply hX hA, cond_apply hG, ← h.law 0, Measure.map_apply (h.measurable 0) hG,
      Measure.map_apply (h.measurable 0) (hG.inter hA)]
    have key := C199_law_partial h hs dp lat hA
    have hc : P[{ω | E 0 ω ∈ A} | {ω | rmax dp lat (E 0 ω) ≤ 100}] =
      (P (E 0 ⁻¹' {e | rmax dp lat e ≤ 100}))⁻¹ * P (E 0 ⁻¹' ({e | rmax dp lat e ≤ 100} ∩ A)) := cond_apply (h.measurable 0 hG) P _
    rw [← hc, ← key]
    apply measure_congr
    filter_upwards [hd] with ω hω
    obtain ⟨fuel, r, hf⟩ := hω
    apply propext
    constructor
    · intro ha; exact ⟨fuel, X ω, r, hf, ha⟩
    · rintro ⟨fuel', e, r', hf', ha⟩
      have := drawSize_unique hf hf'
      rw [Prod.mk.injEq] at this
      show X ω ∈ A
      rw [this.1]; exact ha
  have hint := integral_map (μ := P) hX.aemeasurable (f := fun x : ℝ => x) (by fun_prop)
  rw [← hint, hlaw]
  have he : {e | rmax dp lat e ≤ 100} = Set.Iic (Real.log 100 - (4.22 - 0.0198 * dp + 0.0023 * |lat|)) := by
    ext e; exact rmax_le_iff dp lat e
  have hpos := good_pos h hs dp lat
  rw [← Measure.map_apply (h.measurable 0) hG, h.law 0] at hpos
  rw [ProbabilityTheory.cond, integral_smul_measure, he]
  rw [he] at hpos
  refine mul_neg_of_pos_of_neg ?_ (truncated_mean (pow_ne_zero 2 hs) _)
  exact ENNReal.toReal_pos (ENNReal.inv_ne_zero.2 (measure_ne_top _ _)) (ENNReal.inv_ne_top.2 hpos)

/-- There are such random numbers, with the standard deviation of the program -/
example : Spec.Normal (Measure.infinitePi fun _ : ℕ => gaussianReal 0 (0.335 ^ 2)) 0.335 (fun n ω => ω n) where
  measurable n := measurable_pi_apply n
  law n := Measure.infinitePi_map_eval _ n
  independent := iIndepFun_infinitePi (X := fun _ x => x) fun _ => measurable_id

example : (0.335 : NNReal) ≠ 0 := by norm_num

end Tcrm.SizeDraw
