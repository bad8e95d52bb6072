import Verif.Props.Consistent
import Verif.Props.Annual
import Verif.Spec.AnnualFit
/-!
Annual maxima as a sequence of independent values.
-/
namespace Tcrm.Annual
open Tcrm.Evd Tcrm.GustFiles MeasureTheory ProbabilityTheory Filter Finset

/-! ### Order statistics are measurable -/

theorem sorted_le {l : List ℝ} (h : l.Pairwise (· ≤ ·)) (c : ℝ) : ∀ {i : ℕ}, i < l.length →
    (l.getD i 0 ≤ c ↔ i < l.countP fun w => decide (w ≤ c)) := by
  induction l with
  | nil => intro i hi; simp at hi
  | cons a l ih =>
    intro i hi
    rw [List.pairwise_cons] at h
    have zero : c < a → l.countP (fun w => decide (w ≤ c)) = 0 := by
      intro hc
      rw [List.countP_eq_zero]
      intro w hw
      have := h.1 w hw
      simp only [decide_eq_true_eq, not_le]; linarith
    rw [List.countP_cons]
    rcases i with _ | i
    · rw [List.getD_cons_zero]
      by_cases ha : a ≤ c
      · simp [ha]
      · simp [ha, zero (not_le.1 ha)]
    · rw [List.getD_cons_succ, ih h.2 (by simpa using hi)]
      by_cases ha : a ≤ c
      · simp [ha]
      · simp [ha, zero (not_le.1 ha)]

/-- The first `n` members of a sequence in ascending order -/
noncomputable def sorted (x : ℕ → ℝ) (n : ℕ) : List ℝ := ((List.range n).map x).mergeSort fun a b => decide (a ≤ b)

theorem sorted_length (x : ℕ → ℝ) (n : ℕ) : (sorted x n).length = n := by simp [sorted]

theorem measurable_sorted (n i : ℕ) : Measurable fun x : ℕ → ℝ => (sorted x n).getD i 0 := by
  by_cases hi : i < n
  · refine measurable_of_Iic fun c => ?_
    have e : (fun x : ℕ → ℝ => (sorted x n).getD i 0) ⁻¹' Set.Iic c =
        {x | i < ∑ j ∈ range n, if x j ≤ c then 1 else 0} := by
      ext x
      simp only [Set.mem_preimage, Set.mem_Iic, Set.mem_setOf_eq]
      rw [sorted_le (l := sorted x n) (Unbiased.sort_eq _) c (by rw [sorted_length]; exact hi), sorted, (List.mergeSort_perm _ _).countP_eq, List.countP_map,
        ← Finset.card_filter]
      rw [List.countP_eq_length_filter]
      rfl
    rw [e]
    refine measurableSet_lt measurable_const (Finset.measurable_sum _ fun j _ => ?_)
    exact Measurable.ite (measurableSet_le (measurable_pi_apply j) measurable_const) measurable_const measurable_const
  · have : (fun x : ℕ → ℝ => (sorted x n).getD i 0) = fun _ => 0 := by
      funext x
      rw [List.getD_eq_getElem?_getD, List.getElem?_eq_none (by rw [sorted_length]; omega)]; rfl
    rw [this]
    exact measurable_const

theorem measurable_sampleL (n m : ℕ) : Measurable fun x : ℕ → ℝ => sampleL n ((sorted x n).getD · 0) m := by
  unfold sampleL weightedMoment
  refine Finset.measurable_sum _ fun k _ => Measurable.const_mul (Measurable.div_const (Finset.measurable_sum _ fun i _ => ?_) _) _
  exact (measurable_sorted n i).const_mul _

/-- What is to hold almost surely of a sequence of annual values -/
structure Typical (Q : ℝ → ℝ) (x : ℕ → ℝ) : Prop where
  limits : ∀ m, Tendsto (fun n => sampleL n ((sorted x n).getD · 0) m) atTop (nhds (Unbiased.Spec.lmoment Q m))
  positive : (∃ a ∈ Set.Ioo (0 : ℝ) 1, 0 < Q a) → ∀ m : ℕ, ∃ n0, ∀ n ≥ n0, m ≤ ∑ j ∈ range n, if 0 < x j then 1 else 0
  differ : (∃ a ∈ Set.Ioo (0 : ℝ) 1, ∃ c ∈ Set.Ioo (0 : ℝ) 1, ∃ b ∈ Set.Ioo (0 : ℝ) 1, a < c ∧ 0 < Q a ∧ Q c < Q b) → ∃ j k, 0 < x j ∧ x j < x k

theorem measurable_typical (Q : ℝ → ℝ) : MeasurableSet {x | Typical Q x} := by
  have e : {x | Typical Q x} = {x | ∀ m, Tendsto (fun n => sampleL n ((sorted x n).getD · 0) m) atTop (nhds (Unbiased.Spec.lmoment Q m))} ∩
      ({x | (∃ a ∈ Set.Ioo (0 : ℝ) 1, 0 < Q a) → ∀ m : ℕ, ∃ n0, ∀ n ≥ n0, m ≤ ∑ j ∈ range n, if 0 < x j then 1 else 0} ∩
      {x | (∃ a ∈ Set.Ioo (0 : ℝ) 1, ∃ c ∈ Set.Ioo (0 : ℝ) 1, ∃ b ∈ Set.Ioo (0 : ℝ) 1, a < c ∧ 0 < Q a ∧ Q c < Q b) → ∃ j k, 0 < x j ∧ x j < x k}) := by
    ext x
    exact ⟨fun h => ⟨h.1, h.2, h.3⟩, fun h => ⟨h.1, h.2.1, h.2.2⟩⟩
  rw [e]
  refine MeasurableSet.inter ?_ (MeasurableSet.inter ?_ ?_)
  · rw [Set.setOf_forall]
    exact MeasurableSet.iInter fun m => measurableSet_tendsto _ fun n => measurable_sampleL n m
  · by_cases h : ∃ a ∈ Set.Ioo (0 : ℝ) 1, 0 < Q a
    · simp only [h, forall_true_left, Set.setOf_forall, Set.setOf_exists]
      refine MeasurableSet.iInter fun m => MeasurableSet.iUnion fun n0 => MeasurableSet.iInter fun n => MeasurableSet.iInter fun _ => ?_
      refine measurableSet_le measurable_const (Finset.measurable_sum _ fun j _ => ?_)
      exact Measurable.ite (measurableSet_lt measurable_const (measurable_pi_apply j)) measurable_const measurable_const
    · simp only [h, false_imp_iff, Set.setOf_true, MeasurableSet.univ]
  · by_cases h : ∃ a ∈ Set.Ioo (0 : ℝ) 1, ∃ c ∈ Set.Ioo (0 : ℝ) 1, ∃ b ∈ Set.Ioo (0 : ℝ) 1, a < c ∧ 0 < Q a ∧ Q c < Q b
    · simp only [h, forall_true_left, Set.setOf_exists]
      refine MeasurableSet.iUnion fun j => MeasurableSet.iUnion fun k => ?_
      exact (measurableSet_lt measurable_const (measurable_pi_apply j)).inter (measurableSet_lt (measurable_pi_apply j) (measurable_pi_apply k))
    · simp only [h, false_imp_iff, Set.setOf_true, MeasurableSet.univ]

theorem typical_of_good {Q : ℝ → ℝ} (hQ : Unbiased.Spec.Quantile Q) {u : ℕ → ℝ} (h : Unbiased.Good Q u) : Typical Q fun i => Q (u i) := by
  refine ⟨fun m => ?_, ?_, ?_⟩
  · exact Unbiased.Good.sampleL (Ω := Unit) (U := fun i _ => u i) (ω := ()) h hQ m
  · rintro ⟨a, ha, hpos⟩ m
    obtain ⟨q, h1, h2⟩ := exists_rat_btwn ha.2
    have hq := h.spread q (by have := ha.1; exact_mod_cast (this.trans h1).le) (by exact_mod_cast h2.le)
    obtain ⟨r, hr1, hr2⟩ := exists_between h2
    have hlim : Tendsto (fun n : ℕ => (n : ℝ) * (1 - r)) atTop atTop :=
      tendsto_natCast_atTop_atTop.atTop_mul_const (by linarith)
    obtain ⟨n0, hn0⟩ := eventually_atTop.1 ((hq.eventually (gt_mem_nhds hr1)).and ((hlim.eventually_ge_atTop (m : ℝ)).and (eventually_gt_atTop 0)))
    refine ⟨n0, fun n hn => ?_⟩
    obtain ⟨n1, n2, n3⟩ := hn0 n hn
    have hn3 : (0 : ℝ) < n := by exact_mod_cast n3
    unfold Unbiased.F at n1
    rw [div_lt_iff₀ hn3] at n1
    have hsplit := card_filter_add_card_filter_not (s := range n) (fun i => u i < (q : ℝ))
    rw [card_range] at hsplit
    have hsplit' : (((range n).filter fun i => u i < (q : ℝ)).card : ℝ) + ((range n).filter fun i => ¬ u i < (q : ℝ)).card = n := by
      exact_mod_cast hsplit
    have hm : (m : ℝ) ≤ ((range n).filter fun i => ¬ u i < (q : ℝ)).card := by nlinarith
    have hm' : m ≤ ((range n).filter fun i => ¬ u i < (q : ℝ)).card := by exact_mod_cast hm
    rw [← Finset.card_filter]
    refine hm'.trans (card_le_card ?_)
    intro i hi
    rw [mem_filter] at hi ⊢
    exact ⟨hi.1, hpos.trans_le (hQ.mono ha (h.mem i) (h1.le.trans (not_lt.1 hi.2)))⟩
  · rintro ⟨a, ha, c, hc, b, hb, hac, hpos, hab⟩
    obtain ⟨k, hk⟩ : ∃ k, b < u k := by
      obtain ⟨n, hn⟩ := (h.above hb).exists
      obtain ⟨k, _, hk⟩ := hn
      exact ⟨k, hk⟩
    obtain ⟨q, h1, h2⟩ := exists_rat_btwn hac
    obtain ⟨r, r1, r2⟩ := exists_rat_btwn h2
    have hq0 : (0 : ℚ) ≤ q := by have := ha.1; exact_mod_cast (this.trans h1).le
    have hr1 : r ≤ 1 := by have := hc.2; exact_mod_cast (r2.trans this).le
    have hqr : q < r := by exact_mod_cast r1
    have hlim := (h.spread r (hq0.trans hqr.le) hr1).sub (h.spread q hq0 (hqr.le.trans hr1))
    obtain ⟨n, hn⟩ := (hlim.eventually (lt_mem_nhds (sub_pos.2 r1))).exists
    obtain ⟨j, hj1, hj2⟩ : ∃ j, (q : ℝ) ≤ u j ∧ u j < r := by
      by_contra hcon
      push Not at hcon
      have e : (range n).filter (fun i => u i < (r : ℝ)) = (range n).filter fun i => u i < (q : ℝ) := by
        refine filter_congr fun i _ => ⟨fun hi => ?_, fun hi => hi.trans r1⟩
        by_contra hge
        exact absurd hi (not_lt.2 (hcon i (not_lt.1 hge)))
      unfold Unbiased.F at hn
      rw [e, sub_self] at hn
      exact lt_irrefl _ hn
    refine ⟨j, k, hpos.trans_le (hQ.mono ha (h.mem j) (h1.le.trans hj1)), ?_⟩
    exact ((hQ.mono (h.mem j) hc (hj2.trans r2).le).trans_lt hab).trans_le (hQ.mono hb (h.mem k) hk.le)

/-! ### The years are independent and alike -/

/-- Sequences of independent values with the same distribution -/
theorem transfer {Ω Ω' : Type} [MeasurableSpace Ω] [MeasurableSpace Ω'] {P : Measure Ω} {P' : Measure Ω'} {X : ℕ → Ω → ℝ} {Y : ℕ → Ω' → ℝ}
    (hX : ∀ i, Measurable (X i)) (hY : ∀ i, Measurable (Y i)) (iX : iIndepFun X P) (iY : iIndepFun Y P')
    (law : ∀ i, P.map (X i) = P'.map (Y i)) {S : Set (ℕ → ℝ)} (hS : MeasurableSet S) (h : ∀ᵐ ω ∂P', (fun i => Y i ω) ∈ S) :
    ∀ᵐ ω ∂P, (fun i => X i ω) ∈ S := by
  have hp := iX.isProbabilityMeasure
  have hp' := iY.isProbabilityMeasure
  have e1 := iX.map_fun_eq_infinitePi_map hX
  have e2 := iY.map_fun_eq_infinitePi_map hY
  have e : P.map (fun ω i => X i ω) = P'.map fun ω i => Y i ω := by rw [e1, e2]; simp only [law]
  have mX : Measurable fun ω i => X i ω := measurable_pi_lambda _ hX
  have mY : Measurable fun ω i => Y i ω := measurable_pi_lambda _ hY
  refine (ae_map_iff mX.aemeasurable (p := fun x => x ∈ S) hS).1 ?_
  rw [e]
  exact (ae_map_iff mY.aemeasurable (p := fun x => x ∈ S) hS).2 h

variable {Ω : Type} [MeasurableSpace Ω] {P : Measure Ω} {lam : ℝ} {N : ℕ → Ω → ℕ} {W : ℕ → ℕ → Ω → ℝ}

/-- The quantities of a year -/
def place : ℕ × Option ℕ → ℕ ⊕ ℕ × ℕ
  | (i, none) => .inl i
  | (i, some k) => .inr (i, k)

theorem place_injective : Function.Injective place := by
  rintro ⟨i, a⟩ ⟨j, b⟩ h
  cases a <;> cases b <;> simp [place] at h ⊢ <;> exact h

theorem Spec.Storms.measurableAll (h : Spec.Storms P lam N W) (c : ℕ ⊕ ℕ × ℕ) : Measurable (Spec.quantities N W c) := by
  rcases c with c | c
  · exact (measurable_from_nat (f := fun n : ℕ => (n : ℝ))).comp (h.measurable c)
  · exact h.measurableW c.1 c.2

theorem blocks (h : Spec.Storms P lam N W) :
    iIndepFun (fun i ω (c : Option ℕ) => Spec.quantities N W (place (i, c)) ω) P := by
  have hp := h.isProbability
  have h1 := h.independent.precomp place_injective
  have e1 := h1.map_fun_eq_infinitePi_map fun c => h.measurableAll _
  have hpr : ∀ c, IsProbabilityMeasure (P.map (Spec.quantities N W c)) := fun c =>
    Measure.isProbabilityMeasure_map (h.measurableAll c).aemeasurable
  rw [iIndepFun_iff_map_fun_eq_infinitePi_map fun i => measurable_pi_lambda _ fun c => h.measurableAll _]
  have e2 : ∀ i, P.map (fun ω (c : Option ℕ) => Spec.quantities N W (place (i, c)) ω) =
      Measure.infinitePi fun c => P.map (Spec.quantities N W (place (i, c))) := fun i =>
    (h.independent.precomp (g := fun c => place (i, c)) (fun a b e => by simpa using place_injective e)).map_fun_eq_infinitePi_map
      fun c => h.measurableAll _
  simp only [e2]
  have e3 := Measure.infinitePi_map_curry (fun (i : ℕ) (c : Option ℕ) => P.map (Spec.quantities N W (place (i, c))))
  rw [← e3]
  have e4 := congrArg (Measure.map (MeasurableEquiv.curry ℕ (Option ℕ) ℝ)) e1
  rw [Measure.map_map (MeasurableEquiv.measurable _) (measurable_pi_lambda _ fun c => h.measurableAll _)] at e4
  exact e4

/-- The annual maximum as a function of the quantities of the year: 0 in a year without storms -/
noncomputable def top (b : Option ℕ → ℝ) : ℝ :=
  if h : (range ⌊b none⌋₊).Nonempty then (range ⌊b none⌋₊).sup' h fun k => b (some k) else 0

theorem top_le (b : Option ℕ → ℝ) (c : ℝ) :
    top b ≤ c ↔ (⌊b none⌋₊ = 0 ∧ 0 ≤ c) ∨ (⌊b none⌋₊ ≠ 0 ∧ ∀ k < ⌊b none⌋₊, b (some k) ≤ c) := by
  unfold top
  by_cases h : ⌊b none⌋₊ = 0
  · rw [dif_neg (by rw [h]; simp)]
    simp [h]
  · rw [dif_pos (nonempty_range_iff.2 h), sup'_le_iff]
    simp [h]

theorem measurable_top : Measurable top := by
  refine measurable_of_Iic fun c => ?_
  have e : top ⁻¹' Set.Iic c = ⋃ n : ℕ, {b | ⌊b none⌋₊ = n} ∩ {b | (n = 0 ∧ 0 ≤ c) ∨ (n ≠ 0 ∧ ∀ k < n, b (some k) ≤ c)} := by
    ext b
    simp only [Set.mem_preimage, Set.mem_Iic, top_le, Set.mem_iUnion, Set.mem_inter_iff, Set.mem_setOf_eq, exists_eq_left']
  rw [e]
  refine MeasurableSet.iUnion fun n => MeasurableSet.inter ?_ ?_
  · exact (Nat.measurable_floor.comp (measurable_pi_apply (X := fun _ : Option ℕ => ℝ) none)) (measurableSet_singleton n)
  · rw [Set.setOf_or]
    refine MeasurableSet.union (MeasurableSet.const _) ?_
    rw [Set.setOf_and]
    refine MeasurableSet.inter (MeasurableSet.const _) ?_
    simp only [Set.setOf_forall]
    exact MeasurableSet.iInter fun k => MeasurableSet.iInter fun _ => measurableSet_le (measurable_pi_apply _) measurable_const

/-- The annual maxima -/
noncomputable def maxima (N : ℕ → Ω → ℕ) (W : ℕ → ℕ → Ω → ℝ) (i : ℕ) (ω : Ω) : ℝ :=
  top fun c => Spec.quantities N W (place (i, c)) ω

theorem maxima_le (i : ℕ) (ω : Ω) (c : ℝ) : maxima N W i ω ≤ c ↔
    (N i ω = 0 ∧ 0 ≤ c) ∨ (N i ω ≠ 0 ∧ ∀ k < N i ω, W i k ω ≤ c) := by
  unfold maxima
  rw [top_le]
  simp [place, Spec.quantities]

theorem maxima_indep (h : Spec.Storms P lam N W) : iIndepFun (maxima N W) P := (blocks h).comp (fun _ => top) fun _ => measurable_top

theorem maxima_measurable (h : Spec.Storms P lam N W) (i : ℕ) : Measurable (maxima N W i) :=
  measurable_top.comp (measurable_pi_lambda _ fun _ => h.measurableAll _)

theorem maxima_below (i : ℕ) {c : ℝ} (hc : 0 ≤ c) : {ω | maxima N W i ω ≤ c} = Below N W c i := by
  ext ω
  simp only [Set.mem_setOf_eq, maxima_le, Below, hc, and_true]
  by_cases h : N i ω = 0 <;> simp [h]

theorem maxima_nonneg (hW : ∀ i k ω, 0 ≤ W i k ω) (i : ℕ) (ω : Ω) : 0 ≤ maxima N W i ω := by
  by_contra hc
  rcases (maxima_le i ω _).1 (le_refl (maxima N W i ω)) with ⟨_, h⟩ | ⟨h0, h⟩
  · exact hc h
  · exact hc ((hW i 0 ω).trans (h 0 (Nat.pos_of_ne_zero h0)))

/-- The quantile function, and 0 outside the unit interval -/
noncomputable def inside (Q : ℝ → ℝ) : ℝ → ℝ := (Set.Ioo (0 : ℝ) 1).indicator Q

variable {exceed Q : ℝ → ℝ}

theorem inside_le (h : Spec.MaximumQuantile lam exceed Q) {c : ℝ} (hc : 0 ≤ c) :
    inside Q ⁻¹' Set.Iic c = (Set.Ioo (0 : ℝ) 1 ∩ Set.Iic (Real.exp (-(lam * exceed c)))) ∪ (Set.Ioo (0 : ℝ) 1)ᶜ := by
  ext u
  simp only [inside, Set.mem_preimage, Set.mem_Iic, Set.mem_union, Set.mem_inter_iff, Set.mem_compl_iff]
  by_cases hu : u ∈ Set.Ioo (0 : ℝ) 1
  · rw [Set.indicator_of_mem hu, h.least u hu c hc]; simp [hu]
  · rw [Set.indicator_of_notMem hu]; simp [hu, hc]

theorem inside_neg (h : Spec.MaximumQuantile lam exceed Q) {c : ℝ} (hc : c < 0) : inside Q ⁻¹' Set.Iic c = ∅ := by
  ext u
  simp only [inside, Set.mem_preimage, Set.mem_Iic, Set.mem_empty_iff_false, iff_false, not_le]
  by_cases hu : u ∈ Set.Ioo (0 : ℝ) 1
  · rw [Set.indicator_of_mem hu]; exact hc.trans_le (h.nonneg u hu)
  · rw [Set.indicator_of_notMem hu]; exact hc

theorem inside_measurable (h : Spec.MaximumQuantile lam exceed Q) : Measurable (inside Q) := by
  refine measurable_of_Iic fun c => ?_
  rcases le_or_gt 0 c with hc | hc
  · rw [inside_le h hc]
    exact (measurableSet_Ioo.inter measurableSet_Iic).union measurableSet_Ioo.compl
  · rw [inside_neg h hc]; exact MeasurableSet.empty

theorem Spec.MaximumQuantile.quantile (h : Spec.MaximumQuantile lam exceed Q) : Unbiased.Spec.Quantile Q where
  mono a ha b hb hab := (h.least a ha _ (h.nonneg b hb)).2 (hab.trans ((h.least b hb _ (h.nonneg b hb)).1 le_rfl))
  mean := h.mean

theorem unit_low {F : ℝ} (h0 : 0 < F) (h1 : F ≤ 1) :
    Autoreg.unit ((Set.Ioo (0 : ℝ) 1 ∩ Set.Iic F) ∪ (Set.Ioo (0 : ℝ) 1)ᶜ) = ENNReal.ofReal F := by
  rw [Autoreg.unit, Measure.restrict_apply ((measurableSet_Ioo.inter measurableSet_Iic).union measurableSet_Ioo.compl)]
  have e : ((Set.Ioo (0 : ℝ) 1 ∩ Set.Iic F) ∪ (Set.Ioo (0 : ℝ) 1)ᶜ) ∩ Set.Ioo 0 1 = Set.Ioo 0 1 ∩ Set.Iic F := by
    ext u; simp only [Set.mem_inter_iff, Set.mem_union, Set.mem_compl_iff]; tauto
  rw [e]
  rcases h1.eq_or_lt with rfl | h1
  · rw [Set.inter_eq_left.2 fun u hu => hu.2.le]; simp
  · have : Set.Ioo (0 : ℝ) 1 ∩ Set.Iic F = Set.Ioc 0 F := by
      ext u
      simp only [Set.mem_inter_iff, Set.mem_Ioo, Set.mem_Iic, Set.mem_Ioc]
      constructor
      · rintro ⟨⟨a, _⟩, b⟩; exact ⟨a, b⟩
      · rintro ⟨a, b⟩; exact ⟨⟨a, b.trans_lt h1⟩, b⟩
    rw [this]; simp

theorem uniform_exists : Autoreg.Spec.Uniform (Measure.infinitePi fun _ : ℕ => Autoreg.unit) (fun n ω => ω n) where
  measurable n := measurable_pi_apply n
  law n := Measure.infinitePi_map_eval _ n
  independent := iIndepFun_infinitePi (X := fun _ x => x) fun _ => measurable_id

theorem maxima_law (h : Spec.Storms P lam N W) (hW : ∀ i k ω, 0 ≤ W i k ω)
    (hQ : Spec.MaximumQuantile lam (fun v => P.real {ω | v < W 0 0 ω}) Q) (i : ℕ) :
    P.map (maxima N W i) = Autoreg.unit.map (inside Q) := by
  have hp := h.isProbability
  have : IsProbabilityMeasure (P.map (maxima N W i)) := Measure.isProbabilityMeasure_map (maxima_measurable h i).aemeasurable
  refine Measure.ext_of_Iic _ _ fun c => ?_
  rw [Measure.map_apply (maxima_measurable h i) measurableSet_Iic, Measure.map_apply (inside_measurable hQ) measurableSet_Iic]
  change P {ω | maxima N W i ω ≤ c} = _
  rcases le_or_gt 0 c with hc | hc
  · rw [maxima_below i hc, below_prob h, inside_le hQ hc, unit_low (Real.exp_pos _)]
    rw [Real.exp_le_one_iff, neg_nonpos]
    exact mul_nonneg h.rate measureReal_nonneg
  · rw [inside_neg hQ hc, measure_empty]
    convert measure_empty (μ := P)
    ext ω
    simp only [Set.mem_setOf_eq, Set.mem_empty_iff_false, iff_false, not_le]
    exact hc.trans_le (maxima_nonneg hW i ω)

/-- Almost every simulation is typical. -/
theorem typical (h : Spec.Storms P lam N W) (hW : ∀ i k ω, 0 ≤ W i k ω)
    (hQ : Spec.MaximumQuantile lam (fun v => P.real {ω | v < W 0 0 ω}) Q) :
    ∀ᵐ ω ∂P, Typical Q fun i => maxima N W i ω := by
  have hU := uniform_exists
  have iY : iIndepFun (fun (i : ℕ) (ω : ℕ → ℝ) => inside Q (ω i)) (Measure.infinitePi fun _ : ℕ => Autoreg.unit) :=
    iIndepFun_infinitePi (X := fun _ x => inside Q x) fun _ => inside_measurable hQ
  refine transfer (S := {x | Typical Q x}) (maxima_measurable h) (fun i => (inside_measurable hQ).comp (measurable_pi_apply i))
    (maxima_indep h) iY (fun i => ?_) (measurable_typical Q) ?_
  · rw [maxima_law h hW hQ]
    have := congrArg (Measure.map (inside Q)) (hU.law i)
    rw [Measure.map_map (inside_measurable hQ) (measurable_pi_apply i)] at this
    exact this.symm
  · filter_upwards [Unbiased.good hU hQ.quantile] with ω hω
    have := typical_of_good hQ.quantile hω
    have e : (fun i => inside Q (ω i)) = fun i => Q (ω i) := by
      funext i; exact Set.indicator_of_mem (hω.mem i) Q
    exact e ▸ this

/-- What is read at a place is the annual maximum. -/
theorem annual_eq {fields : ℕ → ℕ → Ω → ℕ → ℕ → ℝ} {t : Tile} {y x n i : ℕ} (hi : i < n) {ω : Ω}
    {dir : List (Name × Option (ℕ → ℕ → ℝ))} (hd : Spec.Holds dir (Spec.storms N fields n ω))
    (hW : ∀ i k ω, 0 ≤ fields i k ω (t.ymin + y) (t.xmin + x)) {f : ℕ → ℕ → ℝ} (hf : aggregate dir t i = some f) :
    f y x = maxima N (fun i k ω => fields i k ω (t.ymin + y) (t.xmin + x)) i ω := by
  have iff : ∀ v, 0 ≤ v → (f y x ≤ v ↔ maxima N (fun i k ω => fields i k ω (t.ymin + y) (t.xmin + x)) i ω ≤ v) := by
    intro v hv
    obtain ⟨g, hg, hgv⟩ := annual_le hi hd (y := y) (x := x) (t := t) hv
    rw [hf] at hg
    cases hg
    rw [hgv, ← maxima_below i hv]; rfl
  have h0 : 0 ≤ f y x := by
    obtain ⟨g, hg, hm⟩ := C21_annual_maxima (Spec.storms N fields n ω) t i
    rw [← C21_listing_order hd, hf] at hg
    cases hg
    obtain ⟨h1, h2⟩ := hm y x
    by_cases he : ((Spec.storms N fields n ω).filter fun e => e.1.2 = i).map (fun e => e.2 (t.ymin + y) (t.xmin + x)) = []
    · exact (h1 he).ge
    · obtain ⟨e, he', heq⟩ := List.mem_map.1 (h2 he).1
      simp only [Spec.storms, List.mem_filter, List.mem_flatMap, List.mem_map] at he'
      obtain ⟨⟨j, _, k, _, rfl⟩, _⟩ := he'
      rw [← heq]; exact hW j k ω
  exact le_antisymm ((iff _ (maxima_nonneg (W := fun i k ω => fields i k ω (t.ymin + y) (t.xmin + x)) hW i ω)).2 le_rfl) ((iff _ h0).1 le_rfl)

end Tcrm.Annual
