import Mathlib.Probability.Independence.Integration
import Mathlib.MeasureTheory.Integral.Prod
import Mathlib.MeasureTheory.Measure.Lebesgue.Basic
import Verif.Props.Draws
import Verif.Spec.Unbiased
import Verif.Props.LMomentsAll
import Verif.Props.LMomentsGev
/-!
C200: sample L-moments are unbiased.
-/
namespace Tcrm.Unbiased
open Tcrm.Evd Tcrm.Autoreg MeasureTheory ProbabilityTheory Finset

/-! ### Ranks -/

theorem countP_strict {V : List ℝ} (h : V.Pairwise (· < ·)) {i : ℕ} (hi : i < V.length) :
    V.countP (fun w => decide (w < V[i])) = i := by
  have hsplit : V.countP (fun w => decide (w < V[i])) =
      (V.take i).countP (fun w => decide (w < V[i])) + (V.drop i).countP (fun w => decide (w < V[i])) := by
    rw [← List.countP_append, List.take_append_drop]
  rw [hsplit]
  have hp := List.pairwise_iff_getElem.1 h
  have h1 : (V.take i).countP (fun w => decide (w < V[i])) = i := by
    have : (V.take i).countP (fun w => decide (w < V[i])) = (V.take i).length := by
      rw [List.countP_eq_length]
      intro w hw
      obtain ⟨k, hk, rfl⟩ := List.getElem_of_mem hw
      rw [List.length_take] at hk
      rw [List.getElem_take, decide_eq_true_eq]
      exact hp k i (by omega) hi (by omega)
    rw [this, List.length_take]; omega
  have h2 : (V.drop i).countP (fun w => decide (w < V[i])) = 0 := by
    rw [List.countP_eq_zero]
    intro w hw
    obtain ⟨k, hk, rfl⟩ := List.getElem_of_mem hw
    rw [List.length_drop] at hk
    rw [List.getElem_drop, decide_eq_true_eq, not_lt]
    rcases Nat.eq_zero_or_pos k with rfl | hk'
    · simp
    · exact (hp i (i + k) hi (by omega) (by omega)).le
  rw [h1, h2, Nat.add_zero]

theorem sort_eq (l : List ℝ) : (l.mergeSort fun a b => decide (a ≤ b)).Pairwise (· ≤ ·) := by
  have := List.pairwise_mergeSort (le := fun a b : ℝ => decide (a ≤ b)) (by intro a b c; simpa using le_trans)
    (by intro a b; simpa using le_total a b) l
  exact this.imp fun h => by simpa using h

theorem sort_map {Q : ℝ → ℝ} (hQ : MonotoneOn Q (Set.Ioo 0 1)) {l : List ℝ} (hl : ∀ v ∈ l, v ∈ Set.Ioo (0 : ℝ) 1) :
    ((l.map Q).mergeSort fun a b => decide (a ≤ b)) = (l.mergeSort fun a b => decide (a ≤ b)).map Q := by
  have p1 := List.mergeSort_perm (l.map Q) fun a b => decide (a ≤ b)
  have p2 := (List.mergeSort_perm l fun a b => decide (a ≤ b))
  refine List.Perm.eq_of_pairwise (le := (· ≤ ·)) (fun a b _ _ h1 h2 => le_antisymm h1 h2) (sort_eq _) ?_ (p1.trans (p2.map Q).symm)
  rw [List.pairwise_map]
  refine (sort_eq l).imp_of_mem fun ha hb h => ?_
  exact hQ (hl _ (p2.mem_iff.1 ha)) (hl _ (p2.mem_iff.1 hb)) h

/-- A sum over the sorted sample is one over the sample, with the rank of each value. -/
theorem rank_sum {Q : ℝ → ℝ} (hQ : MonotoneOn Q (Set.Ioo 0 1)) {n : ℕ} {u : ℕ → ℝ} (hu : ∀ i < n, u i ∈ Set.Ioo (0 : ℝ) 1)
    (hd : ∀ i < n, ∀ j < n, u i = u j → i = j) (c : ℕ → ℝ) :
    ∑ i ∈ range n, c i * ((((List.range n).map fun i => Q (u i)).mergeSort fun a b => decide (a ≤ b)).getD i 0) =
      ∑ j ∈ range n, c ((range n).filter fun i => u i < u j).card * Q (u j) := by
  set us := (List.range n).map u with hus
  have hmem : ∀ v ∈ us, v ∈ Set.Ioo (0 : ℝ) 1 := by
    intro v hv
    obtain ⟨i, hi, rfl⟩ := List.mem_map.1 hv
    exact hu i (List.mem_range.1 hi)
  have hnd : us.Nodup := by
    refine List.Nodup.map_on ?_ List.nodup_range
    intro i hi j hj e
    exact hd i (List.mem_range.1 hi) j (List.mem_range.1 hj) e
  have e0 : (List.range n).map (fun i => Q (u i)) = us.map Q := by rw [hus, List.map_map]; rfl
  rw [e0, sort_map hQ hmem]
  set V := us.mergeSort fun a b => decide (a ≤ b) with hV
  have hperm : V.Perm us := List.mergeSort_perm us _
  have hlen : V.length = n := by rw [hperm.length_eq, hus]; simp
  have hstrict : V.Pairwise (· < ·) := by
    have a := sort_eq us
    have b : V.Nodup := hperm.nodup_iff.2 hnd
    exact (a.and b).imp fun h => lt_of_le_of_ne h.1 h.2
  let f : ℝ → ℝ := fun v => c (us.countP fun w => decide (w < v)) * Q v
  have h1 : ∑ i ∈ range n, c i * (V.map Q).getD i 0 = (V.map f).sum := by
    have : V.map f = (List.range n).map fun i => c i * (V.map Q).getD i 0 := by
      apply List.ext_getElem
      · simp [hlen]
      · intro i h1 h2
        have hi : i < V.length := by simpa using h1
        rw [List.getElem_map, List.getElem_map, List.getElem_range, List.getD_eq_getElem?_getD, List.getElem?_eq_getElem (by simpa using hi), Option.getD_some, List.getElem_map]
        simp only [f]
        rw [← hperm.countP_eq, countP_strict hstrict hi]
    rw [this, sum_map_range]
  have h2 : (us.map f).sum = ∑ j ∈ range n, c ((range n).filter fun i => u i < u j).card * Q (u j) := by
    rw [hus, List.map_map, sum_map_range]
    refine sum_congr rfl fun j _ => ?_
    simp only [Function.comp, f]
    congr 2
    rw [hus, List.countP_map, List.countP_eq_length_filter, ← Multiset.coe_card]
    rfl
  rw [h1, (hperm.map f).sum_eq, h2]

/-- Sets of `k` smaller values -/
theorem choose_rank {n k j : ℕ} (u : ℕ → ℝ) : ((((range n).filter fun i => u i < u j).card.choose k : ℕ) : ℝ) =
    ∑ S ∈ ((range n).erase j).powersetCard k, if ∀ i ∈ S, u i < u j then (1 : ℝ) else 0 := by
  classical
  rw [sum_boole, ← card_powersetCard]
  congr 2
  ext S
  simp only [mem_powersetCard, mem_filter, subset_iff, mem_erase, mem_range]
  constructor
  · rintro ⟨h1, h2⟩
    exact ⟨⟨fun i hi => ⟨fun e => by have := (h1 hi).2; rw [e] at this; exact lt_irrefl _ this, (h1 hi).1⟩, h2⟩, fun i hi => (h1 hi).2⟩
  · rintro ⟨⟨h1, h2⟩, h3⟩
    exact ⟨fun i hi => ⟨(h1 hi).2, h3 i hi⟩, h2⟩

/-! ### Expectations -/
variable {Ω : Type} [MeasurableSpace Ω] {P : Measure Ω} {U : ℕ → Ω → ℝ} {Q : ℝ → ℝ}

theorem below (hU : Spec.Uniform P U) (S : Finset ℕ) {v : ℝ} (h0 : 0 < v) (h1 : v < 1) :
    P {ω | ∀ i ∈ S, U i ω < v} = ENNReal.ofReal (v ^ S.card) := by
  have e : {ω | ∀ i ∈ S, U i ω < v} = ⋂ i ∈ S, U i ⁻¹' Set.Iio v := by
    ext ω; simp
  rw [e, hU.independent.measure_inter_preimage_eq_mul S (sets := fun _ => Set.Iio v) fun i _ => measurableSet_Iio]
  have : ∀ i ∈ S, P (U i ⁻¹' Set.Iio v) = ENNReal.ofReal v := by
    intro i _
    rw [← Measure.map_apply (hU.measurable i) measurableSet_Iio, hU.law, Measure.restrict_apply measurableSet_Iio]
    have : Set.Iio v ∩ Set.Ioo 0 1 = Set.Ioo 0 v := by
      ext w; simp only [Set.mem_inter_iff, Set.mem_Iio, Set.mem_Ioo]
      constructor
      · rintro ⟨a, b, c⟩; exact ⟨b, a⟩
      · rintro ⟨a, b⟩; exact ⟨b, a, b.trans h1⟩
    rw [this, Real.volume_Ioo, sub_zero]
  rw [prod_congr rfl this, prod_const, ENNReal.ofReal_pow h0.le]

theorem joint (hU : Spec.Uniform P U) {S : Finset ℕ} {j : ℕ} (hj : j ∉ S) :
    P.map (fun ω => (U j ω, fun i : S => U i ω)) = (volume.restrict (Set.Ioo (0 : ℝ) 1)).prod (P.map fun ω (i : S) => U i ω) := by
  have := Draws.Spec.Uniform.isProbability hU
  have hd : Disjoint ({j} : Finset ℕ) S := by simpa using hj
  have h := hU.independent.indepFun_finset {j} S hd hU.measurable
  have h' : IndepFun (U j) (fun ω (i : S) => U i ω) P :=
    h.comp (φ := fun f : ({j} : Finset ℕ) → ℝ => f ⟨j, by simp⟩) (ψ := id) (measurable_pi_apply _) measurable_id
  rw [(indepFun_iff_map_prod_eq_prod_map_map (hU.measurable j).aemeasurable
    (measurable_pi_lambda (fun ω (i : S) => U i ω) fun i => hU.measurable i).aemeasurable).1 h', hU.law]

theorem expect (hU : Spec.Uniform P U) (hQ : IntegrableOn Q (Set.Ioo 0 1)) {S : Finset ℕ} {j : ℕ} (hj : j ∉ S) :
    Integrable (fun ω => (if ∀ i ∈ S, U i ω < U j ω then (1 : ℝ) else 0) * Q (U j ω)) P ∧
    ∫ ω, (if ∀ i ∈ S, U i ω < U j ω then (1 : ℝ) else 0) * Q (U j ω) ∂P = ∫ u in (0 : ℝ)..1, Q u * u ^ S.card := by
  have hprob := Draws.Spec.Uniform.isProbability hU
  have hW : Measurable fun ω (i : S) => U i ω := measurable_pi_lambda _ fun i => hU.measurable i
  have hprobW : IsProbabilityMeasure (P.map fun ω (i : S) => U i ω) := Measure.isProbabilityMeasure_map hW.aemeasurable
  have hpair : Measurable fun ω => (U j ω, fun i : S => U i ω) := (hU.measurable j).prodMk hW
  let T : Set (ℝ × (S → ℝ)) := {p | ∀ i, p.2 i < p.1}
  have hT : MeasurableSet T := by
    have : T = ⋂ i : S, {p : ℝ × (S → ℝ) | p.2 i < p.1} := by ext p; simp [T]
    rw [this]
    exact MeasurableSet.iInter fun i => measurableSet_lt ((measurable_pi_apply i).comp measurable_snd) measurable_fst
  let g : ℝ × (S → ℝ) → ℝ := T.indicator fun p => Q p.1
  have hg : Integrable g ((volume.restrict (Set.Ioo (0 : ℝ) 1)).prod (P.map fun ω (i : S) => U i ω)) :=
    (Integrable.comp_fst hQ _).indicator hT
  have hf : (fun ω => (if ∀ i ∈ S, U i ω < U j ω then (1 : ℝ) else 0) * Q (U j ω)) = fun ω => g (U j ω, fun i : S => U i ω) := by
    funext ω
    simp only [g, T, Set.indicator, Set.mem_setOf_eq, Subtype.forall]
    split <;> simp
  rw [hf]
  have hg' := hg
  rw [← joint hU hj] at hg'
  refine ⟨(integrable_map_measure hg'.aestronglyMeasurable hpair.aemeasurable).1 hg', ?_⟩
  rw [← integral_map hpair.aemeasurable hg'.aestronglyMeasurable, joint hU hj, integral_prod _ hg,
    intervalIntegral.integral_of_le zero_le_one, integral_Ioc_eq_integral_Ioo]
  refine setIntegral_congr_fun measurableSet_Ioo fun v hv => ?_
  have hTv : MeasurableSet {w : S → ℝ | ∀ i, w i < v} := measurable_prodMk_left hT
  have e : (fun w : S → ℝ => g (v, w)) = {w : S → ℝ | ∀ i, w i < v}.indicator fun _ => Q v := by
    funext w; simp only [g, T, Set.indicator, Set.mem_setOf_eq]
  simp only [e]
  rw [integral_indicator_const _ hTv, smul_eq_mul, mul_comm]
  congr 1
  rw [Measure.real, Measure.map_apply hW hTv]
  have : (fun ω (i : S) => U i ω) ⁻¹' {w : S → ℝ | ∀ i, w i < v} = {ω | ∀ i ∈ S, U i ω < v} := by
    ext ω; simp
  rw [this, below hU S hv.1 hv.2, ENNReal.toReal_ofReal (pow_nonneg hv.1.le _)]

theorem distinct (hU : Spec.Uniform P U) : ∀ᵐ ω ∂P, ∀ i j, U i ω = U j ω → i = j := by
  have hprob := Draws.Spec.Uniform.isProbability hU
  rw [ae_all_iff]; intro i
  rw [ae_all_iff]; intro j
  by_cases hij : i = j
  · exact Filter.Eventually.of_forall fun _ _ => hij
  have hind := hU.independent.indepFun hij
  have hm := (indepFun_iff_map_prod_eq_prod_map_map (hU.measurable i).aemeasurable (hU.measurable j).aemeasurable).1 hind
  rw [hU.law, hU.law] at hm
  have hdiag : MeasurableSet {p : ℝ × ℝ | p.1 = p.2} := measurableSet_eq_fun measurable_fst measurable_snd
  have h0 : (P.map fun ω => (U i ω, U j ω)) {p : ℝ × ℝ | p.1 = p.2} = 0 := by
    rw [hm, Measure.measure_prod_null hdiag]
    refine Filter.Eventually.of_forall fun v => ?_
    have : Prod.mk v ⁻¹' {p : ℝ × ℝ | p.1 = p.2} = {v} := by ext w; simp [eq_comm]
    show (volume.restrict (Set.Ioo (0 : ℝ) 1)) _ = 0
    rw [this]; simp
  rw [Measure.map_apply ((hU.measurable i).prodMk (hU.measurable j)) hdiag] at h0
  have : ∀ᵐ ω ∂P, ¬ U i ω = U j ω := by
    rw [ae_iff]; simpa using h0
  filter_upwards [this] with ω h e using absurd e h

/-- `n` values of the distribution with quantile function `Q`, in ascending order -/
noncomputable def sample (Q : ℝ → ℝ) (U : ℕ → Ω → ℝ) (n : ℕ) (ω : Ω) : List ℝ :=
  ((List.range n).map fun i => Q (U i ω)).mergeSort fun a b => decide (a ≤ b)

theorem sample_length (n : ℕ) (ω : Ω) : (sample Q U n ω).length = n := by simp [sample]

theorem weighted (hU : Spec.Uniform P U) (hQ : Spec.Quantile Q) {n k : ℕ} (hk : k < n) :
    Integrable (fun ω => weightedMoment n ((sample Q U n ω).getD · 0) k) P ∧
    ∫ ω, weightedMoment n ((sample Q U n ω).getD · 0) k ∂P = ∫ u in (0 : ℝ)..1, Q u * u ^ k := by
  have hC : (((n - 1).choose k : ℕ) : ℝ) ≠ 0 := by
    have := Nat.choose_pos (n := n - 1) (k := k) (by omega)
    exact_mod_cast this.ne'
  have hn : (n : ℝ) ≠ 0 := by
    have : n ≠ 0 := by omega
    exact_mod_cast this
  have hae : (fun ω => weightedMoment n ((sample Q U n ω).getD · 0) k) =ᵐ[P] fun ω =>
      (∑ j ∈ range n, ∑ S ∈ ((range n).erase j).powersetCard k,
        (if ∀ i ∈ S, U i ω < U j ω then (1 : ℝ) else 0) * Q (U j ω)) * (1 / ((n - 1).choose k * n)) := by
    have hin : ∀ᵐ ω ∂P, ∀ i, 0 < U i ω ∧ U i ω < 1 := ae_all_iff.2 fun i => Draws.Spec.Uniform.ae hU i
    filter_upwards [hin, distinct hU] with ω h1 h2
    have := rank_sum hQ.mono (n := n) (u := fun i => U i ω) (fun i _ => h1 i) (fun i _ j _ e => h2 i j e)
      fun i => (i.choose k : ℝ) / ((n - 1).choose k : ℝ)
    unfold weightedMoment
    rw [show (∑ i ∈ range n, (i.choose k : ℝ) / ((n - 1).choose k : ℝ) * (sample Q U n ω).getD i 0) = _ from this, sum_mul, sum_div]
    refine sum_congr rfl fun j _ => ?_
    rw [choose_rank (n := n) (k := k) (j := j) fun i => U i ω, ← sum_mul]
    field_simp
  have hone : ∀ j ∈ range n, ∀ S ∈ ((range n).erase j).powersetCard k, j ∉ S ∧ S.card = k := by
    intro j _ S hS
    rw [mem_powersetCard] at hS
    exact ⟨fun h => by simpa using hS.1 h, hS.2⟩
  have hint : Integrable (fun ω => ∑ j ∈ range n, ∑ S ∈ ((range n).erase j).powersetCard k,
      (if ∀ i ∈ S, U i ω < U j ω then (1 : ℝ) else 0) * Q (U j ω)) P :=
    integrable_finset_sum _ fun j hj => integrable_finset_sum _ fun S hS => (expect hU hQ.mean (hone j hj S hS).1).1
  refine ⟨(hint.mul_const _).congr hae.symm, ?_⟩
  rw [integral_congr_ae hae, integral_mul_const, integral_finset_sum _ fun j hj =>
    integrable_finset_sum _ fun S hS => (expect hU hQ.mean (hone j hj S hS).1).1]
  have : ∀ j ∈ range n, (∫ ω, ∑ S ∈ ((range n).erase j).powersetCard k,
      (if ∀ i ∈ S, U i ω < U j ω then (1 : ℝ) else 0) * Q (U j ω) ∂P) = ((n - 1).choose k : ℝ) * ∫ u in (0 : ℝ)..1, Q u * u ^ k := by
    intro j hj
    rw [integral_finset_sum _ fun S hS => (expect hU hQ.mean (hone j hj S hS).1).1]
    rw [sum_congr rfl fun S hS => by rw [(expect hU hQ.mean (hone j hj S hS).1).2, (hone j hj S hS).2]]
    rw [sum_const, card_powersetCard, card_erase_of_mem hj, card_range, nsmul_eq_mul]
  rw [sum_congr rfl this, sum_const, card_range, nsmul_eq_mul]
  field_simp

theorem pow_integrable (hQ : IntegrableOn Q (Set.Ioo 0 1)) (k : ℕ) : IntervalIntegrable (fun u => Q u * u ^ k) volume 0 1 := by
  have h : IntervalIntegrable Q volume 0 1 := by
    rw [intervalIntegrable_iff_integrableOn_Ioc_of_le zero_le_one, integrableOn_Ioc_iff_integrableOn_Ioo]; exact hQ
  exact h.mul_continuousOn (continuous_pow k).continuousOn

theorem sampleL_expected (hU : Spec.Uniform P U) (hQ : Spec.Quantile Q) {n m : ℕ} (hm : m < n) :
    Integrable (fun ω => sampleL n ((sample Q U n ω).getD · 0) m) P ∧
    ∫ ω, sampleL n ((sample Q U n ω).getD · 0) m ∂P = Spec.lmoment Q m := by
  unfold sampleL
  have hi : ∀ k ∈ range (m + 1), Integrable (fun ω => (-1 : ℝ) ^ (m + k) * (m.choose k * (m + k).choose k) *
      weightedMoment n ((sample Q U n ω).getD · 0) k) P := fun k hk =>
    (weighted hU hQ (by have := mem_range.1 hk; omega)).1.const_mul _
  refine ⟨integrable_finset_sum _ hi, ?_⟩
  rw [integral_finset_sum _ hi]
  unfold Spec.lmoment
  simp only [mul_sum]
  rw [intervalIntegral.integral_finset_sum]
  · refine sum_congr rfl fun k hk => ?_
    rw [integral_const_mul, (weighted hU hQ (by have := mem_range.1 hk; omega)).2, ← intervalIntegral.integral_const_mul]
    refine intervalIntegral.integral_congr fun u _ => ?_
    ring
  · intro k _
    have := (pow_integrable hQ.mean k).const_mul ((-1 : ℝ) ^ (m + k) * (m.choose k * (m + k).choose k))
    refine this.congr fun u _ => ?_
    ring

theorem ordered_eq {v data : List ℝ} (h : Spec.Ordered v data) : data = v.mergeSort fun a b => decide (a ≤ b) :=
  List.Perm.eq_of_pairwise (le := (· ≤ ·)) (fun a b _ _ h1 h2 => le_antisymm h1 h2) h.2 (sort_eq _)
    (h.1.trans (List.mergeSort_perm v _).symm)

theorem ordered_sample {n : ℕ} {ω : Ω} {data : List ℝ} (h : Spec.Ordered (Spec.values Q U n ω) data) : data = sample Q U n ω :=
  ordered_eq h

theorem lmoment_zero : Spec.lmoment Q 0 = L1 Q := by
  simp [Spec.lmoment, L1]

theorem lmoment_one : Spec.lmoment Q 1 = L2 Q := by
  unfold Spec.lmoment L2
  refine intervalIntegral.integral_congr fun u _ => ?_
  simp [sum_range_succ]; left; ring

theorem lmoment_two : Spec.lmoment Q 2 = L3 Q := by
  unfold Spec.lmoment L3
  refine intervalIntegral.integral_congr fun u _ => ?_
  simp [sum_range_succ]; left; norm_num [Nat.choose]; ring

/-- The three statistics -/
theorem three (hU : Spec.Uniform P U) (hQ : Spec.Quantile Q) {n : ℕ} (hn : 2 < n) :
    Spec.Expected P (fun ω => sampleL1 n ((sample Q U n ω).getD · 0)) (L1 Q) ∧
    Spec.Expected P (fun ω => sampleL2 n ((sample Q U n ω).getD · 0)) (L2 Q) ∧
    Spec.Expected P (fun ω => sampleL3 n ((sample Q U n ω).getD · 0)) (L3 Q) := by
  have e : ∀ ω, _ := fun ω => C149_definitions (sample Q U n ω) (by rw [sample_length]; exact hn)
  simp only [sample_length] at e
  have a := sampleL_expected hU hQ (n := n) (m := 0) (by omega)
  have b := sampleL_expected hU hQ (n := n) (m := 1) (by omega)
  have c := sampleL_expected hU hQ (n := n) (m := 2) (by omega)
  simp only [fun ω => (e ω).1] at a
  simp only [fun ω => (e ω).2.1] at b
  simp only [fun ω => (e ω).2.2] at c
  rw [lmoment_zero] at a; rw [lmoment_one] at b; rw [lmoment_two] at c
  exact ⟨a, b, c⟩

/-- C200: of three or more independent values from any distribution that has a mean, in ascending order, `samlmu(data, nmom)` returns,
with up to three moments, statistics whose expected values are the first L-moment and the second L-moment of the distribution, and a third number that is
a statistic with the third L-moment as expected value, divided by the second statistic. -/
theorem C200_three (hU : Spec.Uniform P U) (hQ : Spec.Quantile Q) {n : ℕ} (hn : 2 < n) {data : Ω → List ℝ}
    (hd : ∀ ω, Spec.Ordered (Spec.values Q U n ω) (data ω)) :
    ∃ l1 l2 l3 : Ω → ℝ, (∀ ω, samlmu (data ω) 1 = .ok (some [l1 ω]) ∧ samlmu (data ω) 2 = .ok (some [l1 ω, l2 ω]) ∧
        samlmu (data ω) 3 = .ok (some [l1 ω, l2 ω, l3 ω / l2 ω])) ∧
      Spec.Expected P l1 (L1 Q) ∧ Spec.Expected P l2 (L2 Q) ∧ Spec.Expected P l3 (L3 Q) := by
  refine ⟨_, _, _, fun ω => ?_, three hU hQ hn⟩
  have hl : 2 < (sample Q U n ω).length := by rw [sample_length]; exact hn
  have h3 := C45_sample_moments (sample Q U n ω) hl
  have h12 := C45_two_moments (sample Q U n ω) hl
  rw [sample_length] at h3 h12
  rw [ordered_sample (hd ω)]
  refine ⟨h12.1, h12.2, ?_⟩
  unfold samlmu
  rw [if_neg (by omega), if_pos rfl, h3]

/-- C200: so it is with more than three moments: each of the numbers `samlmu(data, nmom)` returns is a statistic that has the L-moment
of its order as expected value; from the third on divided by the second. -/
theorem C200_all (hU : Spec.Uniform P U) (hQ : Spec.Quantile Q) {n nmom : ℕ} (h3 : 3 < nmom) (hn : nmom ≤ n) {data : Ω → List ℝ}
    (hd : ∀ ω, Spec.Ordered (Spec.values Q U n ω) (data ω)) :
    ∃ l : ℕ → Ω → ℝ, (∀ r < nmom, Spec.Expected P (l r) (Spec.lmoment Q r)) ∧
      ∀ ω ms, samlmu (data ω) nmom = .ok (some ms) → ms.length = nmom ∧ ms[0]? = some (l 0 ω) ∧ ms[1]? = some (l 1 ω) ∧
        ∀ r, 2 ≤ r → r < nmom → ms[r]? = some (l r ω / l 1 ω) := by
  refine ⟨fun r ω => sampleL n ((sample Q U n ω).getD · 0) r, fun r hr => sampleL_expected hU hQ (by omega), fun ω ms h => ?_⟩
  have := C149_all_orders h3 h
  rw [ordered_sample (hd ω), sample_length] at this
  exact this

/-- C200: the GEV distribution that the hazard calculation fits at a cell to the annual values of at least three independent years,
in whatever order, has a mean and an L-scale that are statistics with those of the distribution of the annual values as expected
values (where a distribution is reported whose shape is above -1 and not 0). -/
theorem C200_fit (hU : Spec.Uniform P U) (hQ : Spec.Quantile Q) {n : ℕ} (hn : 2 < n) {record : Ω → List ℝ}
    (hr : ∀ ω, (record ω).Perm (Spec.values Q U n ω)) :
    ∃ l1 l2 : Ω → ℝ, Spec.Expected P l1 (L1 Q) ∧ Spec.Expected P l2 (L2 Q) ∧
      ∀ ω (intervals : List ℝ) (m : ℕ) (yrs : ℝ) (f : Fit) (loc scale shape : ℝ), (∃ x ∈ record ω, 0 < x) →
        gevCell (record ω) intervals m yrs = .ok f →
        f.loc = some loc → f.scale = some scale → f.shape = some shape → shape ≠ 0 → -1 < shape →
        L1 (gevQuantile loc scale shape) = l1 ω ∧ L2 (gevQuantile loc scale shape) = l2 ω := by
  refine ⟨_, _, (three hU hQ hn).1, (three hU hQ hn).2.1, ?_⟩
  intro ω intervals m yrs f loc scale shape hp h hl hs hk h0 h1
  rw [C23_record_order (hr ω)] at h
  unfold gevCell at h
  have hp' : ∃ x ∈ Spec.values Q U n ω, x > 0 := by
    obtain ⟨x, hx, hx'⟩ := hp
    exact ⟨x, (hr ω).mem_iff.1 hx, hx'⟩
  have hne : Spec.values Q U n ω ≠ [] := by
    obtain ⟨x, hx, _⟩ := hp'
    exact List.ne_nil_of_mem hx
  rw [if_neg hne, if_pos hp'] at h
  have := C58_record (data := sample Q U n ω) h hl hs hk h0 h1
  rw [sample_length] at this
  exact this

/-- Values spread evenly between 20 and 60, with random numbers that exist -/
example : Spec.Quantile (fun u => 20 + 40 * u) where
  mono := by intro a _ b _ h; simpa using h
  mean := (Continuous.integrableOn_Icc (by fun_prop) (a := 0) (b := 1)).mono_set Set.Ioo_subset_Icc_self

example : Spec.lmoment (fun u => 20 + 40 * u) 1 = 20 / 3 := by
  rw [lmoment_one]
  unfold L2
  have : ∀ u : ℝ, (20 + 40 * u) * (2 * u - 1) = 80 * u ^ 2 - 20 := by intro u; ring
  simp only [this]
  rw [intervalIntegral.integral_sub (Continuous.intervalIntegrable (by fun_prop) _ _) (Continuous.intervalIntegrable (by fun_prop) _ _)]
  simp; norm_num

example (U : ℕ → Ω → ℝ) (n : ℕ) (ω : Ω) :
    Spec.Ordered (Spec.values Q U n ω) ((Spec.values Q U n ω).mergeSort fun a b => decide (a ≤ b)) :=
  ⟨List.mergeSort_perm _ _, sort_eq _⟩

end Tcrm.Unbiased
