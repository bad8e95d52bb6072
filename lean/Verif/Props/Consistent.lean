import Verif.Lemmas.Consistent
import Verif.Props.GevNewton
import Mathlib.Probability.StrongLaw
/-!
C203: statistics of long simulations.
-/
namespace Tcrm.Unbiased
open Tcrm.Evd Tcrm.Autoreg MeasureTheory ProbabilityTheory Finset Filter

variable {Ω : Type} [MeasurableSpace Ω] {P : Measure Ω} {U : ℕ → Ω → ℝ} {Q : ℝ → ℝ}

/-- Law of large numbers for functions of the random numbers -/
theorem lln (hU : Spec.Uniform P U) {g : ℝ → ℝ} (hg : IntegrableOn g (Set.Ioo 0 1)) :
    ∀ᵐ ω ∂P, Tendsto (fun n : ℕ => (∑ j ∈ range n, g (U j ω)) / n) atTop (nhds (∫ u in (0 : ℝ)..1, g u)) := by
  have hprob := Draws.Spec.Uniform.isProbability hU
  have hm : ∀ i, AEMeasurable g (P.map (U i)) := fun i => by rw [hU.law]; exact hg.1.aemeasurable
  have hint : Integrable (fun ω => g (U 0 ω)) P := by
    have : Integrable g (P.map (U 0)) := by rw [hU.law]; exact hg
    exact this.comp_measurable (hU.measurable 0)
  have key := strong_law_ae_real (μ := P) (fun k ω => g (U k ω)) hint
    (fun i j hij => (hU.independent.indepFun hij).comp₀ (hU.measurable i).aemeasurable (hU.measurable j).aemeasurable (hm i) (hm j))
    (fun i => IdentDistrib.comp_of_aemeasurable
      ⟨(hU.measurable i).aemeasurable, (hU.measurable 0).aemeasurable, by rw [hU.law, hU.law]⟩ (hm i))
  have hE : ∫ ω, g (U 0 ω) ∂P = ∫ u in (0 : ℝ)..1, g u := by
    rw [← integral_map (hU.measurable 0).aemeasurable (by rw [hU.law]; exact hg.1), hU.law,
      intervalIntegral.integral_of_le zero_le_one, integral_Ioc_eq_integral_Ioo]
  rw [hE] at key
  exact key

/-- What holds with probability one of the random numbers -/
structure Good (Q : ℝ → ℝ) (u : ℕ → ℝ) : Prop where
  mem : ∀ i, u i ∈ Set.Ioo (0 : ℝ) 1
  distinct : ∀ i j, u i = u j → i = j
  spread : ∀ q : ℚ, 0 ≤ q → q ≤ 1 → Tendsto (fun n => F u n q) atTop (nhds q)
  moments : ∀ k, Tendsto (fun n : ℕ => (∑ j ∈ range n, Q (u j) * u j ^ k) / n) atTop (nhds (∫ v in (0 : ℝ)..1, Q v * v ^ k))
  size : Tendsto (fun n : ℕ => (∑ j ∈ range n, |Q (u j)|) / n) atTop (nhds (∫ v in (0 : ℝ)..1, |Q v|))

theorem good (hU : Spec.Uniform P U) (hQ : Spec.Quantile Q) : ∀ᵐ ω ∂P, Good Q fun i => U i ω := by
  have hspread : ∀ᵐ ω ∂P, ∀ q : ℚ, 0 ≤ q → q ≤ 1 → Tendsto (fun n => F (fun i => U i ω) n q) atTop (nhds q) := by
    rw [ae_all_iff]; intro q
    by_cases hq : 0 ≤ q ∧ q ≤ 1
    · have hg : IntegrableOn ((Set.Iio (q : ℝ)).indicator fun _ => (1 : ℝ)) (Set.Ioo 0 1) :=
        (integrable_const (1 : ℝ)).indicator measurableSet_Iio
      filter_upwards [lln hU hg] with ω h _ _
      have e : ∫ u in (0 : ℝ)..1, (Set.Iio (q : ℝ)).indicator (fun _ => (1 : ℝ)) u = q := by
        have h0 : (0 : ℝ) ≤ q := by exact_mod_cast hq.1
        have h1 : (q : ℝ) ≤ 1 := by exact_mod_cast hq.2
        rw [intervalIntegral.integral_of_le zero_le_one, integral_Ioc_eq_integral_Ioo, integral_indicator measurableSet_Iio,
          Measure.restrict_restrict measurableSet_Iio]
        have : Set.Iio (q : ℝ) ∩ Set.Ioo 0 1 = Set.Ioo 0 (q : ℝ) := by
          ext x
          simp only [Set.mem_inter_iff, Set.mem_Iio, Set.mem_Ioo]
          constructor
          · rintro ⟨a, b, c⟩; exact ⟨b, a⟩
          · rintro ⟨a, b⟩; exact ⟨b, a, by linarith⟩
        rw [this]
        simp [h0]
      rw [e] at h
      refine h.congr fun n => ?_
      unfold F
      congr 1
      simp [Set.indicator, Finset.sum_boole]
    · exact Eventually.of_forall fun ω a b => absurd ⟨a, b⟩ hq
  have hmom : ∀ᵐ ω ∂P, ∀ k, Tendsto (fun n : ℕ => (∑ j ∈ range n, Q (U j ω) * U j ω ^ k) / n) atTop
      (nhds (∫ v in (0 : ℝ)..1, Q v * v ^ k)) := by
    rw [ae_all_iff]; intro k
    have := pow_integrable hQ.mean k
    rw [intervalIntegrable_iff_integrableOn_Ioc_of_le zero_le_one, integrableOn_Ioc_iff_integrableOn_Ioo] at this
    exact lln hU this
  filter_upwards [ae_all_iff.2 (Draws.Spec.Uniform.ae hU), distinct hU, hspread, hmom, lln hU hQ.mean.abs] with ω a b c d e
  exact ⟨a, b, c, d, e⟩

theorem Good.weighted {u : ℕ → ℝ} (h : Good Q u) (hQ : Spec.Quantile Q) (k : ℕ) :
    Tendsto (fun n => weightedMoment n ((((List.range n).map fun i => Q (u i)).mergeSort fun a b => decide (a ≤ b)).getD · 0) k)
      atTop (nhds (∫ v in (0 : ℝ)..1, Q v * v ^ k)) :=
  weighted_limit hQ.mono h.mem h.distinct h.spread (h.moments k) h.size

theorem Good.sampleL {ω : Ω} (h : Good Q fun i => U i ω) (hQ : Spec.Quantile Q) (m : ℕ) :
    Tendsto (fun n => sampleL n ((sample Q U n ω).getD · 0) m) atTop (nhds (Spec.lmoment Q m)) := by
  unfold Evd.sampleL Spec.lmoment
  simp only [mul_sum]
  rw [intervalIntegral.integral_finset_sum]
  · refine tendsto_finset_sum _ fun k _ => ?_
    have := (h.weighted hQ k).const_mul ((-1 : ℝ) ^ (m + k) * (m.choose k * (m + k).choose k))
    have e : ∫ u in (0 : ℝ)..1, Q u * ((-1 : ℝ) ^ (m + k) * (m.choose k * (m + k).choose k) * u ^ k) =
        (-1 : ℝ) ^ (m + k) * (m.choose k * (m + k).choose k) * ∫ u in (0 : ℝ)..1, Q u * u ^ k := by
      rw [← intervalIntegral.integral_const_mul]
      exact intervalIntegral.integral_congr fun u _ => by ring
    rw [e]
    exact this
  · intro k _
    have := (pow_integrable hQ.mean k).const_mul ((-1 : ℝ) ^ (m + k) * (m.choose k * (m + k).choose k))
    refine this.congr fun u _ => ?_
    ring

theorem Good.three {ω : Ω} (h : Good Q fun i => U i ω) (hQ : Spec.Quantile Q) :
    Tendsto (fun n => sampleL1 n ((sample Q U n ω).getD · 0)) atTop (nhds (L1 Q)) ∧
    Tendsto (fun n => sampleL2 n ((sample Q U n ω).getD · 0)) atTop (nhds (L2 Q)) ∧
    Tendsto (fun n => sampleL3 n ((sample Q U n ω).getD · 0)) atTop (nhds (L3 Q)) := by
  have e : ∀ᶠ n in atTop, _ := (eventually_ge_atTop 3).mono fun n hn =>
    C149_definitions (sample Q U n ω) (by rw [sample_length]; exact hn)
  simp only [sample_length] at e
  rw [← lmoment_zero, ← lmoment_one, ← lmoment_two]
  exact ⟨(h.sampleL hQ 0).congr' (e.mono fun n hn => hn.1), (h.sampleL hQ 1).congr' (e.mono fun n hn => hn.2.1),
    (h.sampleL hQ 2).congr' (e.mono fun n hn => hn.2.2)⟩

theorem Good.above {u : ℕ → ℝ} (h : Good Q u) {a : ℝ} (ha : a ∈ Set.Ioo (0 : ℝ) 1) : ∀ᶠ n in atTop, ∃ j < n, a < u j := by
  obtain ⟨q, h1, h2⟩ := exists_rat_btwn ha.2
  have := h.spread q (by have := ha.1; exact_mod_cast (this.trans h1).le) (by exact_mod_cast h2.le)
  filter_upwards [this.eventually (gt_mem_nhds h2), eventually_gt_atTop 0] with n hn hn0
  by_contra hc
  push Not at hc
  have : (range n).filter (fun i => u i < q) = range n := filter_true_of_mem fun i hi => lt_of_le_of_lt (hc i (mem_range.1 hi)) h1
  unfold F at hn
  rw [this, card_range, div_self (by exact_mod_cast hn0.ne')] at hn
  exact lt_irrefl _ hn

theorem Good.below {u : ℕ → ℝ} (h : Good Q u) {a : ℝ} (ha : a ∈ Set.Ioo (0 : ℝ) 1) : ∀ᶠ n in atTop, ∃ j < n, u j < a := by
  obtain ⟨q, h1, h2⟩ := exists_rat_btwn ha.1
  have := h.spread q (by exact_mod_cast h1.le) (by have := ha.2; exact_mod_cast (h2.trans this).le)
  filter_upwards [this.eventually (lt_mem_nhds h1)] with n hn
  by_contra hc
  push Not at hc
  have : (range n).filter (fun i => u i < q) = ∅ := filter_false_of_mem fun i hi => by
    have := hc i (mem_range.1 hi); push Not; linarith
  unfold F at hn
  rw [this] at hn
  simp at hn

theorem rises (hQ : MonotoneOn Q (Set.Ioo 0 1)) (h : L2 Q ≠ 0) : ∃ a ∈ Set.Ioo (0 : ℝ) 1, ∃ b ∈ Set.Ioo (0 : ℝ) 1, Q a < Q b := by
  by_contra hc
  push Not at hc
  apply h
  unfold L2
  rw [intervalIntegral.integral_of_le zero_le_one, integral_Ioc_eq_integral_Ioo]
  have hh : (1 / 2 : ℝ) ∈ Set.Ioo (0 : ℝ) 1 := by norm_num
  rw [setIntegral_congr_fun (g := fun u => Q (1 / 2) * (2 * u - 1)) measurableSet_Ioo fun u hu => by
    simp only; rw [le_antisymm (hc _ hh _ hu) (hc _ hu _ hh)]]
  rw [← integral_Ioc_eq_integral_Ioo, ← intervalIntegral.integral_of_le zero_le_one, intervalIntegral.integral_const_mul,
    intervalIntegral.integral_sub (Continuous.intervalIntegrable (by fun_prop) _ _) (Continuous.intervalIntegrable (by fun_prop) _ _),
    intervalIntegral.integral_const_mul, integral_id]
  norm_num

/-- C203: of independent values from any distribution that has a mean, in ascending order, the first and the second number that
`samlmu(data, 3)` returns approach, with probability one, the first and the second L-moment of the distribution as the number of
values grows; the third approaches its L-skewness, if the distribution is not concentrated in one value. -/
theorem C203_three (hU : Spec.Uniform P U) (hQ : Spec.Quantile Q) {data : ℕ → Ω → List ℝ}
    (hd : ∀ n ω, Spec.Ordered (Spec.values Q U n ω) (data n ω)) :
    ∀ᵐ ω ∂P, ∃ l1 l2 t3 : ℕ → ℝ, (∀ n > 2, samlmu (data n ω) 3 = .ok (some [l1 n, l2 n, t3 n])) ∧
      Tendsto l1 atTop (nhds (L1 Q)) ∧ Tendsto l2 atTop (nhds (L2 Q)) ∧
      (L2 Q ≠ 0 → Tendsto t3 atTop (nhds (L3 Q / L2 Q))) := by
  filter_upwards [good hU hQ] with ω h
  obtain ⟨h1, h2, h3⟩ := h.three hQ
  refine ⟨_, _, _, fun n hn => ?_, h1, h2, fun h0 => h3.div h2 h0⟩
  have hl : 2 < (sample Q U n ω).length := by rw [sample_length]; exact hn
  have h3 := C45_sample_moments (sample Q U n ω) hl
  rw [sample_length] at h3
  rw [ordered_sample (hd n ω)]
  unfold samlmu
  rw [if_neg (by omega), if_pos rfl, h3]
  rfl

/-- C203: so it is with the L-moments and L-moment ratios of every order. -/
theorem C203_all (hU : Spec.Uniform P U) (hQ : Spec.Quantile Q) {nmom : ℕ} (h3 : 3 < nmom) {data : ℕ → Ω → List ℝ}
    (hd : ∀ n ω, Spec.Ordered (Spec.values Q U n ω) (data n ω)) :
    ∀ᵐ ω ∂P, ∃ t : ℕ → ℕ → ℝ,
      (∀ n ms, samlmu (data n ω) nmom = .ok (some ms) → ms.length = nmom ∧ ∀ r < nmom, ms[r]? = some (t r n)) ∧
      Tendsto (t 0) atTop (nhds (Spec.lmoment Q 0)) ∧ Tendsto (t 1) atTop (nhds (Spec.lmoment Q 1)) ∧
      ∀ r, 2 ≤ r → Spec.lmoment Q 1 ≠ 0 → Tendsto (t r) atTop (nhds (Spec.lmoment Q r / Spec.lmoment Q 1)) := by
  filter_upwards [good hU hQ] with ω h
  let L : ℕ → ℕ → ℝ := fun r n => Evd.sampleL n ((sample Q U n ω).getD · 0) r
  have hL : ∀ r, Tendsto (L r) atTop (nhds (Spec.lmoment Q r)) := fun r => h.sampleL hQ r
  refine ⟨fun r n => if r < 2 then L r n else L r n / L 1 n, fun n ms hms => ?_, by simpa using hL 0, by simpa using hL 1, fun r hr h0 => ?_⟩
  · have := C149_all_orders h3 hms
    rw [ordered_sample (hd n ω), sample_length] at this
    obtain ⟨a, b, c, d⟩ := this
    refine ⟨a, fun r hr => ?_⟩
    rcases r with _ | _ | r
    · exact b
    · exact c
    · simp only [if_neg (show ¬ r + 1 + 1 < 2 by omega)]; exact d (r + 2) (by omega) hr
  · simp only [if_neg (show ¬ r < 2 by omega)]
    exact (hL r).div (hL 1) h0

/-- The fit at a cell, for a record in any order -/
theorem cell {n : ℕ} {ω : Ω} {record : List ℝ} (hr : record.Perm (Spec.values Q U n ω)) (hp : ∃ j < n, 0 < Q (U j ω))
    (intervals : List ℝ) (m : ℕ) (yrs : ℝ) : gevCell record intervals m yrs = gevfit (sample Q U n ω) intervals m yrs := by
  rw [C23_record_order hr]
  have hp' : ∃ x ∈ Spec.values Q U n ω, x > 0 := by
    obtain ⟨j, hj, h⟩ := hp
    exact ⟨_, List.mem_map.2 ⟨j, List.mem_range.2 hj, rfl⟩, h⟩
  have hne : Spec.values Q U n ω ≠ [] := by
    obtain ⟨x, hx, _⟩ := hp'
    exact List.ne_nil_of_mem hx
  unfold gevCell
  rw [if_neg hne, if_pos hp']
  rfl

theorem Good.positive {ω : Ω} (h : Good Q fun i => U i ω) (hQ : Spec.Quantile Q) (hp : ∃ a ∈ Set.Ioo (0 : ℝ) 1, 0 < Q a) :
    ∀ᶠ n in atTop, ∃ j < n, 0 < Q (U j ω) := by
  obtain ⟨a, ha, hp⟩ := hp
  filter_upwards [h.above ha] with n ⟨j, hj, hja⟩
  exact ⟨j, hj, hp.trans_le (hQ.mono ha (h.mem j) hja.le)⟩

/-- C203: with ever more simulated years the GEV distribution that the hazard calculation fits at a cell gets, with probability one,
the mean, the L-scale and the L-skewness of the distribution of the annual values, to within a thousandth of the L-scale, a
hundred millionth of it, and 0.005; mean and L-scale exactly, if the shape is above -1 and not 0. -/
theorem C203_fit_partial (hU : Spec.Uniform P U) (hQ : Spec.Quantile Q) (hp : ∃ a ∈ Set.Ioo (0 : ℝ) 1, 0 < Q a) (h2 : 0 < L2 Q)
    (h3 : -1 + (1 / 2) ^ 1000 < L3 Q / L2 Q) {record : ℕ → Ω → List ℝ} (hr : ∀ n ω, (record n ω).Perm (Spec.values Q U n ω)) :
    ∀ᵐ ω ∂P, ∀ e > 0, ∀ᶠ n in atTop, ∀ (intervals : List ℝ) (m : ℕ) (yrs : ℝ), ∃ f, gevCell (record n ω) intervals m yrs = .ok f ∧
      ∀ loc scale shape, f.loc = some loc → f.scale = some scale → f.shape = some shape →
        |L1 (gevQuantile loc scale shape) - L1 Q| ≤ L2 Q / 1000 + e ∧
        |L2 (gevQuantile loc scale shape) - L2 Q| ≤ L2 Q / 10 ^ 8 + e ∧
        |L3 (gevQuantile loc scale shape) / L2 (gevQuantile loc scale shape) - L3 Q / L2 Q| ≤ 1 / 200 + e ∧
        (shape ≠ 0 → -1 < shape →
          |L1 (gevQuantile loc scale shape) - L1 Q| ≤ e ∧ |L2 (gevQuantile loc scale shape) - L2 Q| ≤ e) := by
  filter_upwards [good hU hQ] with ω h e he
  obtain ⟨t1, t2, t3⟩ := h.three hQ
  have t4 := t3.div t2 h2.ne'
  have near : ∀ {s : ℕ → ℝ} {x : ℝ}, Tendsto s atTop (nhds x) → ∀ᶠ n in atTop, |s n - x| ≤ e / 2 := by
    intro s x hs
    obtain ⟨n0, hn0⟩ := Metric.tendsto_atTop.1 hs (e / 2) (half_pos he)
    filter_upwards [eventually_ge_atTop n0] with n hn
    exact (hn0 n hn).le
  filter_upwards [near t1, near t2, near t4, t4.eventually (lt_mem_nhds h3), h.positive hQ hp, eventually_ge_atTop 3] with
    n n1 n2 n4 n3 np nn intervals m yrs
  obtain ⟨f, hf⟩ := Tcrm.HazardRun.C116_no_error (record n ω) intervals m yrs (by rw [(hr n ω).length_eq]; simpa [Spec.values] using nn)
  refine ⟨f, hf, fun loc scale shape hl hs hk => ?_⟩
  rw [cell (hr n ω) np] at hf
  have a := C148_record_all hf hl hs hk (by rw [sample_length]; simp only [Pi.div_apply] at n3; linarith)
  rw [sample_length] at a
  obtain ⟨a1, a2, a3⟩ := a
  simp only [Pi.div_apply] at n4
  set l1 := sampleL1 n ((sample Q U n ω).getD · 0)
  set l2 := sampleL2 n ((sample Q U n ω).getD · 0)
  set l3 := sampleL3 n ((sample Q U n ω).getD · 0)
  have hl2 : l2 ≤ L2 Q + e / 2 := by linarith [(abs_le.1 n2).2]
  refine ⟨?_, ?_, ?_, fun h0 h1 => ?_⟩
  · have := abs_sub_le (L1 (gevQuantile loc scale shape)) l1 (L1 Q)
    linarith
  · have := abs_sub_le (L2 (gevQuantile loc scale shape)) l2 (L2 Q)
    linarith
  · have := abs_sub_le (L3 (gevQuantile loc scale shape) / L2 (gevQuantile loc scale shape)) (l3 / l2) (L3 Q / L2 Q)
    linarith
  · have b := C58_record hf hl hs hk h0 h1
    rw [sample_length] at b
    rw [b.1, b.2]
    constructor <;> linarith

/-- C203: where the annual values have an L-skewness strictly between -0.8 and 0.1698 and are positive, a long enough simulation
yields all return levels of the periods longer than a year. -/
theorem C203_reported (hU : Spec.Uniform P U) (hQ : Spec.Quantile Q) (hp : ∀ a ∈ Set.Ioo (0 : ℝ) 1, 0 < Q a) (h2 : 0 < L2 Q)
    (h3 : -0.8 * L2 Q < L3 Q) (h3' : L3 Q < 0.1698 * L2 Q) {record : ℕ → Ω → List ℝ}
    (hr : ∀ n ω, (record n ω).Perm (Spec.values Q U n ω)) (m : ℕ) :
    ∀ᵐ ω ∂P, ∀ᶠ n in atTop, ∀ (intervals : List ℝ) (yrs : ℝ), ∃ f, gevCell (record n ω) intervals m yrs = .ok f ∧
      ∀ (i : ℕ) (t : ℝ), 0 < t → yrs < t → intervals[i]? = some t → ∃ w, f.levels[i]? = some (some w) := by
  filter_upwards [good hU hQ] with ω h
  obtain ⟨t1, t2, t3⟩ := h.three hQ
  obtain ⟨a, ha, b, hb, hab⟩ := rises hQ.mono h2.ne'
  have s1 := (t2.const_mul (-0.8)).sub t3
  have s2 := t3.sub (t2.const_mul 0.1698)
  filter_upwards [t2.eventually (lt_mem_nhds h2), s1.eventually (gt_mem_nhds (sub_neg.2 h3)), s2.eventually (gt_mem_nhds (sub_neg.2 h3')),
    h.above hb, h.below ha, eventually_ge_atTop 3, eventually_ge_atTop m] with n n2 n3 n3' nb na nn nm intervals yrs
  obtain ⟨f, hf⟩ := Tcrm.HazardRun.C116_no_error (record n ω) intervals m yrs (by rw [(hr n ω).length_eq]; simpa [Spec.values] using nn)
  refine ⟨f, hf, fun i t ht hty hi => ?_⟩
  obtain ⟨j, hj, hja⟩ := nb
  obtain ⟨k, hk, hka⟩ := na
  have mem : ∀ x, x ∈ sample Q U n ω ↔ ∃ j < n, Q (U j ω) = x := by
    intro x
    unfold sample
    rw [(List.mergeSort_perm _ _).mem_iff]
    simp
  have pos : ∀ j, 0 < Q (U j ω) := fun j => hp _ (h.mem j)
  rw [cell (hr n ω) ⟨j, hj, pos j⟩] at hf
  have hfil : (sample Q U n ω).filter (· ≠ 0) = sample Q U n ω := by
    rw [List.filter_eq_self]
    intro x hx
    obtain ⟨j, _, rfl⟩ := (mem x).1 hx
    simpa using (pos j).ne'
  refine C23_usable_reported hf ⟨_, (mem _).2 ⟨j, hj, rfl⟩, pos j⟩ (by rw [hfil, sample_length]; exact nm)
    ⟨_, (mem _).2 ⟨j, hj, rfl⟩, _, (mem _).2 ⟨k, hk, rfl⟩, (pos j).ne', (pos k).ne', ?_⟩ ?_ ?_ ?_ ht hty hi
  · have h1 := hQ.mono hb (h.mem j) hja.le
    have h2 := hQ.mono (h.mem k) ha hka.le
    exact (lt_of_le_of_lt h2 (lt_of_lt_of_le hab h1)).ne'
  · rw [sample_length]; exact n2
  · rw [sample_length]; linarith
  · rw [sample_length]; linarith

/-- C203, refuted: where the annual values have an L-skewness above 0.17, a long enough simulation yields, with probability one, no
return level at all, whatever the periods. -/
theorem C203_skewed_fails (hU : Spec.Uniform P U) (hQ : Spec.Quantile Q) (hp : ∃ a ∈ Set.Ioo (0 : ℝ) 1, 0 < Q a)
    (h3 : 0.17 * L2 Q < L3 Q) {record : ℕ → Ω → List ℝ} (hr : ∀ n ω, (record n ω).Perm (Spec.values Q U n ω)) :
    ∀ᵐ ω ∂P, ∀ᶠ n in atTop, ∀ (intervals : List ℝ) (m : ℕ) (yrs : ℝ), ∃ f, gevCell (record n ω) intervals m yrs = .ok f ∧
      ∀ v ∈ f.levels, v = none := by
  filter_upwards [good hU hQ] with ω h
  obtain ⟨t1, t2, t3⟩ := h.three hQ
  have s := (t2.const_mul 0.17).sub t3
  filter_upwards [s.eventually (gt_mem_nhds (sub_neg.2 h3)), h.positive hQ hp, eventually_ge_atTop 3] with n n3 np nn intervals m yrs
  obtain ⟨f, hf⟩ := Tcrm.HazardRun.C116_no_error (record n ω) intervals m yrs (by rw [(hr n ω).length_eq]; simpa [Spec.values] using nn)
  refine ⟨f, hf, ?_⟩
  rw [cell (hr n ω) np] at hf
  exact C23_skewed_missing hf (by rw [sample_length]; linarith)

/-! ### Cases -/

theorem poly_integrable {g : ℝ → ℝ} (hg : Continuous g) : IntegrableOn g (Set.Ioo 0 1) :=
  (hg.integrableOn_Icc (a := 0) (b := 1)).mono_set Set.Ioo_subset_Icc_self

/-- Annual winds between 20 and 60, evenly spread: no skewness -/
example : Spec.Quantile (fun u => 20 + 40 * u) ∧ (∀ a ∈ Set.Ioo (0 : ℝ) 1, 0 < 20 + 40 * a) ∧ 0 < L2 (fun u => 20 + 40 * u) ∧
    L3 (fun u => 20 + 40 * u) = 0 := by
  refine ⟨⟨by intro a _ b _ h; simpa using h, poly_integrable (by fun_prop)⟩, fun a ha => by have := ha.1; linarith, ?_, ?_⟩
  · unfold L2
    have : ∀ u : ℝ, (20 + 40 * u) * (2 * u - 1) = 80 * u ^ 2 - 20 := by intro u; ring
    simp only [this]
    rw [intervalIntegral.integral_sub (Continuous.intervalIntegrable (by fun_prop) _ _) (Continuous.intervalIntegrable (by fun_prop) _ _)]
    simp; norm_num
  · unfold L3
    have : ∀ u : ℝ, (20 + 40 * u) * (6 * u ^ 2 - 6 * u + 1) = 240 * u ^ 3 - 120 * u ^ 2 - 80 * u + 20 := by intro u; ring
    simp only [this]
    rw [intervalIntegral.integral_add (Continuous.intervalIntegrable (by fun_prop) _ _) (Continuous.intervalIntegrable (by fun_prop) _ _),
      intervalIntegral.integral_sub (Continuous.intervalIntegrable (by fun_prop) _ _) (Continuous.intervalIntegrable (by fun_prop) _ _),
      intervalIntegral.integral_sub (Continuous.intervalIntegrable (by fun_prop) _ _) (Continuous.intervalIntegrable (by fun_prop) _ _),
      intervalIntegral.integral_const_mul (80 : ℝ), integral_id]
    simp; norm_num

/-- The squares of numbers evenly spread, times 60: the L-skewness is 0.2. -/
example : Spec.Quantile (fun u => 60 * u ^ 2) ∧ (∃ a ∈ Set.Ioo (0 : ℝ) 1, 0 < 60 * a ^ 2) ∧
    0.17 * L2 (fun u => 60 * u ^ 2) < L3 (fun u => 60 * u ^ 2) := by
  refine ⟨⟨?_, poly_integrable (by fun_prop)⟩, ⟨1 / 2, by norm_num, by norm_num⟩, ?_⟩
  · intro a ha b hb h
    have := ha.1
    simp only
    gcongr
  · unfold L2 L3
    have e1 : ∀ u : ℝ, 60 * u ^ 2 * (2 * u - 1) = 120 * u ^ 3 - 60 * u ^ 2 := by intro u; ring
    have e2 : ∀ u : ℝ, 60 * u ^ 2 * (6 * u ^ 2 - 6 * u + 1) = 360 * u ^ 4 - 360 * u ^ 3 + 60 * u ^ 2 := by intro u; ring
    simp only [e1, e2]
    rw [intervalIntegral.integral_add (Continuous.intervalIntegrable (by fun_prop) _ _) (Continuous.intervalIntegrable (by fun_prop) _ _),
      intervalIntegral.integral_sub (Continuous.intervalIntegrable (by fun_prop) _ _) (Continuous.intervalIntegrable (by fun_prop) _ _),
      intervalIntegral.integral_sub (Continuous.intervalIntegrable (by fun_prop) _ _) (Continuous.intervalIntegrable (by fun_prop) _ _)]
    simp; norm_num

end Tcrm.Unbiased
