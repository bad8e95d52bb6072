import Verif.Lemmas.AnnualFit
/-!
C205: from the frequency and the intensity of storms to the fitted hazard.
-/
namespace Tcrm.Annual
open Tcrm.Evd Tcrm.GustFiles MeasureTheory ProbabilityTheory Filter Finset

variable {Ω : Type} [MeasurableSpace Ω] {P : Measure Ω} {lam : ℝ} {N : ℕ → Ω → ℕ} {Q : ℝ → ℝ}
  {fields : ℕ → ℕ → Ω → ℕ → ℕ → ℝ} {t : Tile} {y x : ℕ}

theorem record_eq {n : ℕ} {ω : Ω} {dir : List (Name × Option (ℕ → ℕ → ℝ))} (hd : Spec.Holds dir (Spec.storms N fields n ω))
    (hW : ∀ i k ω, 0 ≤ fields i k ω (t.ymin + y) (t.xmin + x)) {record : List ℝ} (hr : Spec.Record dir t y x n record) :
    record = (List.range n).map fun i => maxima N (fun i k ω => fields i k ω (t.ymin + y) (t.xmin + x)) i ω := by
  have hl := hr.length_eq
  rw [List.length_range] at hl
  refine List.ext_getElem (by simp [← hl]) fun i h1 h2 => ?_
  have hi : i < n := by omega
  obtain ⟨f, hf, hv⟩ := (List.forall₂_iff_get.1 hr).2 i (by simpa using hi) h1
  simp only [List.get_eq_getElem, List.getElem_range] at hf hv
  rw [List.getElem_map, List.getElem_range, ← hv]
  exact annual_eq hi hd hW hf

theorem Typical.three {u : ℕ → ℝ} (h : Typical Q u) :
    Tendsto (fun n => sampleL1 n ((sorted u n).getD · 0)) atTop (nhds (L1 Q)) ∧
    Tendsto (fun n => sampleL2 n ((sorted u n).getD · 0)) atTop (nhds (L2 Q)) ∧
    Tendsto (fun n => sampleL3 n ((sorted u n).getD · 0)) atTop (nhds (L3 Q)) := by
  have e : ∀ᶠ n in atTop, _ := (eventually_ge_atTop 3).mono fun n hn =>
    C149_definitions (sorted u n) (by rw [sorted_length]; exact hn)
  simp only [sorted_length] at e
  rw [← Unbiased.lmoment_zero, ← Unbiased.lmoment_one, ← Unbiased.lmoment_two]
  exact ⟨(h.limits 0).congr' (e.mono fun n hn => hn.1), (h.limits 1).congr' (e.mono fun n hn => hn.2.1),
    (h.limits 2).congr' (e.mono fun n hn => hn.2.2)⟩

theorem Typical.some {u : ℕ → ℝ} (h : Typical Q u) (hp : ∃ a ∈ Set.Ioo (0 : ℝ) 1, 0 < Q a) : ∀ᶠ n in atTop, ∃ j < n, 0 < u j := by
  obtain ⟨n0, h0⟩ := h.positive hp 1
  filter_upwards [eventually_ge_atTop n0] with n hn
  have := h0 n hn
  rw [← card_filter] at this
  obtain ⟨j, hj⟩ := card_pos.1 this
  rw [mem_filter, mem_range] at hj
  exact ⟨j, hj.1, hj.2⟩

theorem cell {u : ℕ → ℝ} {n : ℕ} (hp : ∃ j < n, 0 < u j) (intervals : List ℝ) (m : ℕ) (yrs : ℝ) :
    gevCell ((List.range n).map u) intervals m yrs = gevfit (sorted u n) intervals m yrs :=
  Unbiased.cell (Ω := Unit) (Q := id) (U := fun i _ => u i) (ω := ()) (List.Perm.refl _) hp intervals m yrs

/-- C205: the annual maxima that the hazard calculation reads at a place from the wind fields of ever more simulated years have,
in the limit, the L-moments of the distribution that the frequency of the storms and the distribution of their winds determine. -/
theorem C205_moments (h : Spec.Storms P lam N fun i k ω => fields i k ω (t.ymin + y) (t.xmin + x))
    (hW : ∀ i k ω, 0 ≤ fields i k ω (t.ymin + y) (t.xmin + x))
    (hQ : Spec.MaximumQuantile lam (fun v => P.real {ω | v < fields 0 0 ω (t.ymin + y) (t.xmin + x)}) Q)
    {dir : ℕ → Ω → List (Name × Option (ℕ → ℕ → ℝ))} (hd : ∀ n ω, Spec.Holds (dir n ω) (Spec.storms N fields n ω))
    {record : ℕ → Ω → List ℝ} (hr : ∀ n ω, Spec.Record (dir n ω) t y x n (record n ω))
    {data : ℕ → Ω → List ℝ} (ho : ∀ n ω, Unbiased.Spec.Ordered (record n ω) (data n ω)) :
    ∀ᵐ ω ∂P, ∃ l1 l2 t3 : ℕ → ℝ, (∀ n > 2, samlmu (data n ω) 3 = .ok (some [l1 n, l2 n, t3 n])) ∧
      Tendsto l1 atTop (nhds (L1 Q)) ∧ Tendsto l2 atTop (nhds (L2 Q)) ∧
      (L2 Q ≠ 0 → Tendsto t3 atTop (nhds (L3 Q / L2 Q))) := by
  filter_upwards [typical h hW hQ] with ω hω
  set u : ℕ → ℝ := fun i => maxima N (fun i k ω => fields i k ω (t.ymin + y) (t.xmin + x)) i ω with hu
  obtain ⟨h1, h2, h3⟩ := hω.three
  refine ⟨_, _, _, fun n hn => ?_, h1, h2, fun h0 => h3.div h2 h0⟩
  have e : data n ω = sorted u n := by
    have hs := ho n ω
    rw [record_eq (hd n ω) hW (hr n ω)] at hs
    exact (hs.1.trans (List.mergeSort_perm _ _).symm).eq_of_pairwise (fun a b _ _ h1 h2 => le_antisymm h1 h2) hs.2 (Unbiased.sort_eq _)
  have hl : 2 < (sorted u n).length := by rw [sorted_length]; exact hn
  have h3 := C45_sample_moments (sorted u n) hl
  rw [sorted_length] at h3
  rw [e]
  unfold samlmu
  rw [if_neg (by omega), if_pos rfl, h3]
  rfl

/-- C205: and the GEV distribution that the hazard calculation fits there gets the mean, the L-scale and the L-skewness of this
distribution to within a thousandth of the L-scale, a hundred millionth of it, and 0.005; mean and L-scale exactly, if the shape is above
-1 and not 0. -/
theorem C205_fit_partial (h : Spec.Storms P lam N fun i k ω => fields i k ω (t.ymin + y) (t.xmin + x))
    (hW : ∀ i k ω, 0 ≤ fields i k ω (t.ymin + y) (t.xmin + x))
    (hQ : Spec.MaximumQuantile lam (fun v => P.real {ω | v < fields 0 0 ω (t.ymin + y) (t.xmin + x)}) Q)
    {dir : ℕ → Ω → List (Name × Option (ℕ → ℕ → ℝ))} (hd : ∀ n ω, Spec.Holds (dir n ω) (Spec.storms N fields n ω))
    {record : ℕ → Ω → List ℝ} (hr : ∀ n ω, Spec.Record (dir n ω) t y x n (record n ω))
    (hp : ∃ a ∈ Set.Ioo (0 : ℝ) 1, 0 < Q a) (h2 : 0 < L2 Q) (h3 : -1 + (1 / 2) ^ 1000 < L3 Q / L2 Q) :
    ∀ᵐ ω ∂P, ∀ e > 0, ∀ᶠ n in atTop, ∀ (intervals : List ℝ) (m : ℕ) (yrs : ℝ), ∃ f, gevCell (record n ω) intervals m yrs = .ok f ∧
      ∀ loc scale shape, f.loc = some loc → f.scale = some scale → f.shape = some shape →
        |L1 (gevQuantile loc scale shape) - L1 Q| ≤ L2 Q / 1000 + e ∧
        |L2 (gevQuantile loc scale shape) - L2 Q| ≤ L2 Q / 10 ^ 8 + e ∧
        |L3 (gevQuantile loc scale shape) / L2 (gevQuantile loc scale shape) - L3 Q / L2 Q| ≤ 1 / 200 + e ∧
        (shape ≠ 0 → -1 < shape →
          |L1 (gevQuantile loc scale shape) - L1 Q| ≤ e ∧ |L2 (gevQuantile loc scale shape) - L2 Q| ≤ e) := by
  filter_upwards [typical h hW hQ] with ω hω e he
  have hrec := fun n => record_eq (hd n ω) hW (hr n ω)
  set u : ℕ → ℝ := fun i => maxima N (fun i k ω => fields i k ω (t.ymin + y) (t.xmin + x)) i ω with hu
  obtain ⟨t1, t2, t3⟩ := hω.three
  have t4 := t3.div t2 h2.ne'
  have near : ∀ {s : ℕ → ℝ} {x : ℝ}, Tendsto s atTop (nhds x) → ∀ᶠ n in atTop, |s n - x| ≤ e / 2 := by
    intro s x hs
    obtain ⟨n0, hn0⟩ := Metric.tendsto_atTop.1 hs (e / 2) (half_pos he)
    filter_upwards [eventually_ge_atTop n0] with n hn
    exact (hn0 n hn).le
  filter_upwards [near t1, near t2, near t4, t4.eventually (lt_mem_nhds h3), hω.some hp, eventually_ge_atTop 3] with
    n n1 n2 n4 n3 np nn intervals m yrs
  obtain ⟨f, hf⟩ := Tcrm.HazardRun.C116_no_error (record n ω) intervals m yrs (by rw [hrec]; simpa using nn)
  refine ⟨f, hf, fun loc scale shape hl hs hk => ?_⟩
  rw [hrec, cell np] at hf
  have a := C148_record_all hf hl hs hk (by rw [sorted_length]; simp only [Pi.div_apply] at n3; linarith)
  rw [sorted_length] at a
  obtain ⟨a1, a2, a3⟩ := a
  simp only [Pi.div_apply] at n4
  set l1 := sampleL1 n ((sorted u n).getD · 0)
  set l2 := sampleL2 n ((sorted u n).getD · 0)
  set l3 := sampleL3 n ((sorted u n).getD · 0)
  have hl2 : l2 ≤ L2 Q + e / 2 := by linarith [(abs_le.1 n2).2]
  refine ⟨?_, ?_, ?_, fun h0 h1 => ?_⟩
  · have := abs_sub_le (L1 (gevQuantile loc scale shape)) l1 (L1 Q)
    linarith
  · have := abs_sub_le (L2 (gevQuantile loc scale shape)) l2 (L2 Q)
    linarith
  · have := abs_sub_le (L3 (gevQuantile loc scale shape) / L2 (gevQuantile loc scale shape)) (l3 / l2) (L3 Q / L2 Q)
    linarith
  · have b := C58_record hf hl hs hk h0 h1
    rw [sorted_length] at b
    rw [b.1, b.2]
    constructor <;> linarith

/-- C205: where the annual maxima have an L-skewness strictly between -0.8 and 0.1698, and positive maxima take more than one value,
a long enough simulation yields all return levels of the periods longer than a year. -/
theorem C205_reported (h : Spec.Storms P lam N fun i k ω => fields i k ω (t.ymin + y) (t.xmin + x))
    (hW : ∀ i k ω, 0 ≤ fields i k ω (t.ymin + y) (t.xmin + x))
    (hQ : Spec.MaximumQuantile lam (fun v => P.real {ω | v < fields 0 0 ω (t.ymin + y) (t.xmin + x)}) Q)
    {dir : ℕ → Ω → List (Name × Option (ℕ → ℕ → ℝ))} (hd : ∀ n ω, Spec.Holds (dir n ω) (Spec.storms N fields n ω))
    {record : ℕ → Ω → List ℝ} (hr : ∀ n ω, Spec.Record (dir n ω) t y x n (record n ω))
    (hp : ∃ a ∈ Set.Ioo (0 : ℝ) 1, ∃ c ∈ Set.Ioo (0 : ℝ) 1, ∃ b ∈ Set.Ioo (0 : ℝ) 1, a < c ∧ 0 < Q a ∧ Q c < Q b)
    (h2 : 0 < L2 Q) (h3 : -0.8 * L2 Q < L3 Q) (h3' : L3 Q < 0.1698 * L2 Q) (m : ℕ) :
    ∀ᵐ ω ∂P, ∀ᶠ n in atTop, ∀ (intervals : List ℝ) (yrs : ℝ), ∃ f, gevCell (record n ω) intervals m yrs = .ok f ∧
      ∀ (i : ℕ) (t : ℝ), 0 < t → yrs < t → intervals[i]? = some t → ∃ w, f.levels[i]? = some (some w) := by
  filter_upwards [typical h hW hQ] with ω hω
  have hrec := fun n => record_eq (hd n ω) hW (hr n ω)
  set u : ℕ → ℝ := fun i => maxima N (fun i k ω => fields i k ω (t.ymin + y) (t.xmin + x)) i ω with hu
  obtain ⟨t1, t2, t3⟩ := hω.three
  obtain ⟨j, k, hj, hjk⟩ := hω.differ hp
  have hp' : ∃ a ∈ Set.Ioo (0 : ℝ) 1, 0 < Q a := by
    obtain ⟨a, ha, _, _, _, _, _, h0, _⟩ := hp
    exact ⟨a, ha, h0⟩
  obtain ⟨n0, hn0⟩ := hω.positive hp' m
  have s1 := (t2.const_mul (-0.8)).sub t3
  have s2 := t3.sub (t2.const_mul 0.1698)
  filter_upwards [t2.eventually (lt_mem_nhds h2), s1.eventually (gt_mem_nhds (sub_neg.2 h3)), s2.eventually (gt_mem_nhds (sub_neg.2 h3')),
    eventually_gt_atTop j, eventually_gt_atTop k, eventually_ge_atTop 3, eventually_ge_atTop n0] with n n2 n3 n3' nj nk nn nm intervals yrs
  obtain ⟨f, hf⟩ := Tcrm.HazardRun.C116_no_error (record n ω) intervals m yrs (by rw [hrec]; simpa using nn)
  refine ⟨f, hf, fun i t ht hty hi => ?_⟩
  have mem : ∀ i < n, u i ∈ sorted u n := by
    intro i hi
    unfold sorted
    rw [(List.mergeSort_perm _ _).mem_iff]
    exact List.mem_map.2 ⟨i, List.mem_range.2 hi, rfl⟩
  rw [hrec, cell ⟨j, nj, hj⟩] at hf
  refine C23_usable_reported hf ⟨_, mem j nj, hj⟩ ?_
    ⟨_, mem j nj, _, mem k nk, hj.ne', (hj.trans hjk).ne', hjk.ne⟩ ?_ ?_ ?_ ht hty hi
  · have hc := hn0 n nm
    rw [← card_filter] at hc
    refine hc.trans ?_
    unfold sorted
    rw [← List.countP_eq_length_filter, (List.mergeSort_perm _ _).countP_eq, List.countP_map]
    have e : #{j ∈ range n | 0 < u j} = (List.range n).countP fun i => decide (0 < u i) := by
      rw [List.countP_eq_length_filter]; rfl
    rw [e]
    refine List.countP_mono_left fun i _ hi => ?_
    simp only [decide_eq_true_eq] at hi
    simp [hi.ne']
  · rw [sorted_length]; exact n2
  · rw [sorted_length]; linarith
  · rw [sorted_length]; linarith

/-- C205, refuted: where the annual maxima have an L-skewness above 0.17, a long enough simulation yields no return level at all. -/
theorem C205_skewed_fails (h : Spec.Storms P lam N fun i k ω => fields i k ω (t.ymin + y) (t.xmin + x))
    (hW : ∀ i k ω, 0 ≤ fields i k ω (t.ymin + y) (t.xmin + x))
    (hQ : Spec.MaximumQuantile lam (fun v => P.real {ω | v < fields 0 0 ω (t.ymin + y) (t.xmin + x)}) Q)
    {dir : ℕ → Ω → List (Name × Option (ℕ → ℕ → ℝ))} (hd : ∀ n ω, Spec.Holds (dir n ω) (Spec.storms N fields n ω))
    {record : ℕ → Ω → List ℝ} (hr : ∀ n ω, Spec.Record (dir n ω) t y x n (record n ω))
    (hp : ∃ a ∈ Set.Ioo (0 : ℝ) 1, 0 < Q a) (h3 : 0.17 * L2 Q < L3 Q) :
    ∀ᵐ ω ∂P, ∀ᶠ n in atTop, ∀ (intervals : List ℝ) (m : ℕ) (yrs : ℝ), ∃ f, gevCell (record n ω) intervals m yrs = .ok f ∧
      ∀ v ∈ f.levels, v = none := by
  filter_upwards [typical h hW hQ] with ω hω
  have hrec := fun n => record_eq (hd n ω) hW (hr n ω)
  set u : ℕ → ℝ := fun i => maxima N (fun i k ω => fields i k ω (t.ymin + y) (t.xmin + x)) i ω with hu
  obtain ⟨t1, t2, t3⟩ := hω.three
  have s := (t2.const_mul 0.17).sub t3
  filter_upwards [s.eventually (gt_mem_nhds (sub_neg.2 h3)), hω.some hp, eventually_ge_atTop 3] with n n3 np nn intervals m yrs
  obtain ⟨f, hf⟩ := Tcrm.HazardRun.C116_no_error (record n ω) intervals m yrs (by rw [hrec]; simpa using nn)
  refine ⟨f, hf, ?_⟩
  rw [hrec, cell np] at hf
  exact C23_skewed_missing hf (by rw [sorted_length]; linarith)

/-! ### Cases -/

theorem storms_exist {lam : ℝ} (hl : 0 ≤ lam) {g : ℝ → ℝ} (hg : Measurable g) :
    Spec.Storms (Measure.infinitePi (laws lam)) lam (fun i ω => ⌊ω (.inl i)⌋₊) (fun i k ω => g (ω (.inr (i, k)))) where
  rate := hl
  measurable i := Nat.measurable_floor.comp (measurable_pi_apply (Sum.inl i))
  measurableW i k := hg.comp (measurable_pi_apply _)
  count i k := by
    have e := Measure.infinitePi_map_eval (laws lam) (.inl i)
    have hm : Measurable fun x : ℝ => ⌊x⌋₊ := Nat.measurable_floor
    have := congrArg (fun μ => μ ((fun x : ℝ => ⌊x⌋₊) ⁻¹' {k})) e
    beta_reduce at this
    rw [Measure.map_apply (show Measurable fun x : ℕ ⊕ ℕ × ℕ → ℝ => x (.inl i) from measurable_pi_apply (Sum.inl i))
      (hm (measurableSet_singleton k))] at this
    refine this.trans ?_
    change ((poissonMeasure lam.toNNReal).map fun n : ℕ => (n : ℝ)) _ = _
    rw [Measure.map_apply (measurable_from_nat (f := fun n : ℕ => (n : ℝ))) (hm (measurableSet_singleton k))]
    have e2 : (fun n : ℕ => (n : ℝ)) ⁻¹' ((fun x : ℝ => ⌊x⌋₊) ⁻¹' {k}) = {k} := by ext n; simp
    rw [e2, poissonMeasure_singleton, Real.coe_toNNReal _ hl]
    rfl
  same i k := by
    have e : ∀ c : ℕ × ℕ, (Measure.infinitePi (laws lam)).map (fun ω => g (ω (.inr c))) = Autoreg.unit.map g := by
      intro c
      have := Measure.infinitePi_map_eval (laws lam) (.inr c)
      rw [show Autoreg.unit = laws lam (.inr c) from rfl, ← this, Measure.map_map hg
        (show Measurable fun x : ℕ ⊕ ℕ × ℕ → ℝ => x (.inr c) from measurable_pi_apply (Sum.inr c))]
      rfl
    rw [e (i, k), e (0, 0)]
  independent := by
    have := iIndepFun_infinitePi (P := laws lam) (X := fun c x => match c with
      | .inl _ => ((⌊x⌋₊ : ℕ) : ℝ)
      | .inr _ => g x) (by
      intro c
      rcases c with c | c
      · exact (measurable_from_nat (f := fun n : ℕ => (n : ℝ))).comp Nat.measurable_floor
      · exact hg)
    convert this using 2 with c
    rcases c with c | c <;> rfl

/-- The wind of a storm: 30 or 60, equally likely -/
noncomputable def coin (x : ℝ) : ℝ := if x ≤ 1 / 2 then 30 else 60

theorem coin_measurable : Measurable coin := Measurable.ite measurableSet_Iic measurable_const measurable_const

theorem coin_exceed (lam : ℝ) (v : ℝ) :
    (Measure.infinitePi (laws lam)).real {ω | v < coin (ω (.inr (0, 0)))} = if v < 30 then 1 else if v < 60 then 1 / 2 else 0 := by
  have e := Measure.infinitePi_map_eval (laws lam) (.inr (0, 0))
  have := congrArg (fun μ => μ.real (coin ⁻¹' Set.Ioi v)) e
  beta_reduce at this
  rw [measureReal_def, Measure.map_apply (show Measurable fun x : ℕ ⊕ ℕ × ℕ → ℝ => x (.inr (0, 0)) from measurable_pi_apply (Sum.inr (0, 0)))
    (coin_measurable measurableSet_Ioi), ← measureReal_def] at this
  refine Eq.trans this ?_
  change Autoreg.unit.real _ = _
  rw [Autoreg.unit, measureReal_restrict_apply (coin_measurable measurableSet_Ioi)]
  have pre : coin ⁻¹' Set.Ioi v ∩ Set.Ioo 0 1 = if v < 30 then Set.Ioo 0 1 else if v < 60 then Set.Ioo (1 / 2) 1 else ∅ := by
    ext x
    simp only [coin, Set.mem_inter_iff, Set.mem_preimage, Set.mem_Ioi]
    split_ifs with h1 h2 h3 h3 <;> simp only [Set.mem_Ioo, Set.mem_empty_iff_false] <;> constructor <;> intro h <;>
      (try constructor) <;> (try constructor) <;> first | exact h.elim | linarith [h.1, h.2.1, h.2.2] | linarith [h.1, h.2] | linarith
  rw [pre]
  split_ifs <;> simp <;> norm_num

/-- The quantile function of the annual maxima, if no storm comes with the probability `q ^ 2` -/
noncomputable def twoSteps (q u : ℝ) : ℝ := 30 * (Set.Ioi (q ^ 2)).indicator (fun _ => 1) u + 30 * (Set.Ioi q).indicator (fun _ => 1) u

theorem twoSteps_quantile {q : ℝ} (h0 : 0 < q) (h1 : q < 1) :
    Spec.MaximumQuantile (-2 * Real.log q) (fun v => if v < 30 then 1 else if v < 60 then 1 / 2 else 0) (twoSteps q) where
  nonneg u _ := by
    unfold twoSteps Set.indicator
    split_ifs <;> norm_num
  least u hu v hv := by
    have hq : q ^ 2 < q := by nlinarith
    have e2 : Real.exp (-(-2 * Real.log q * 1)) = q ^ 2 := by
      rw [show -(-2 * Real.log q * 1) = Real.log q + Real.log q by ring, Real.exp_add, Real.exp_log h0]; ring
    have e1 : Real.exp (-(-2 * Real.log q * (1 / 2))) = q := by
      rw [show -(-2 * Real.log q * (1 / 2)) = Real.log q by ring, Real.exp_log h0]
    unfold twoSteps Set.indicator
    simp only [Set.mem_Ioi]
    have := hu.2
    by_cases a : v < 30
    · rw [if_pos a, e2]
      split_ifs with c d <;> constructor <;> intro h <;> linarith
    · rw [if_neg a]
      by_cases b : v < 60
      · rw [if_pos b, e1]
        split_ifs with c d <;> constructor <;> intro h <;> linarith
      · rw [if_neg b]
        simp only [mul_zero, neg_zero, Real.exp_zero]
        split_ifs with c d <;> constructor <;> intro h <;> linarith
  mean := by
    have : ∀ c : ℝ, IntegrableOn ((Set.Ioi c).indicator fun _ => (1 : ℝ)) (Set.Ioo 0 1) := fun c =>
      (integrable_const (1 : ℝ)).indicator measurableSet_Ioi
    exact ((this _).const_mul 30).add ((this _).const_mul 30)

theorem step_integral {q : ℝ} (h0 : 0 < q) (h1 : q < 1) {p : ℝ → ℝ} :
    ∫ u in (0 : ℝ)..1, (Set.Ioi q).indicator (fun _ => (1 : ℝ)) u * p u = ∫ u in q..1, p u := by
  rw [intervalIntegral.integral_of_le zero_le_one, intervalIntegral.integral_of_le h1.le]
  have e : ∀ u, (Set.Ioi q).indicator (fun _ => (1 : ℝ)) u * p u = (Set.Ioi q).indicator p u := by
    intro u; unfold Set.indicator; split_ifs <;> simp
  simp only [e]
  rw [setIntegral_indicator measurableSet_Ioi]
  congr 2
  ext u
  simp only [Set.mem_inter_iff, Set.mem_Ioc, Set.mem_Ioi]
  constructor
  · rintro ⟨⟨_, a⟩, b⟩; exact ⟨b, a⟩
  · rintro ⟨a, b⟩; exact ⟨⟨h0.trans a, b⟩, a⟩

theorem step_integrable (q : ℝ) {p : ℝ → ℝ} (hp : Continuous p) :
    IntervalIntegrable (fun u => (Set.Ioi q).indicator (fun _ => (1 : ℝ)) u * p u) volume 0 1 := by
  have e : (fun u => (Set.Ioi q).indicator (fun _ => (1 : ℝ)) u * p u) = (Set.Ioi q).indicator p := by
    funext u; unfold Set.indicator; split_ifs <;> simp
  rw [e, intervalIntegrable_iff]
  exact ((intervalIntegrable_iff.1 (hp.intervalIntegrable 0 1))).indicator measurableSet_Ioi

theorem twoSteps_integral {q : ℝ} (h0 : 0 < q) (h1 : q < 1) {p : ℝ → ℝ} (hp : Continuous p) :
    ∫ u in (0 : ℝ)..1, twoSteps q u * p u = 30 * (∫ u in q ^ 2..1, p u) + 30 * ∫ u in q..1, p u := by
  unfold twoSteps
  simp only [add_mul, mul_assoc]
  rw [intervalIntegral.integral_add ((step_integrable _ hp).const_mul 30) ((step_integrable _ hp).const_mul 30),
    intervalIntegral.integral_const_mul, intervalIntegral.integral_const_mul, step_integral (by positivity) (by nlinarith), step_integral h0 h1]

theorem twoSteps_moments {q : ℝ} (h0 : 0 < q) (h1 : q < 1) :
    L2 (twoSteps q) = 30 * (q ^ 2 * (1 - q ^ 2)) + 30 * (q * (1 - q)) ∧
    L3 (twoSteps q) = 30 * (q ^ 2 * (1 - q ^ 2) * (2 * q ^ 2 - 1)) + 30 * (q * (1 - q) * (2 * q - 1)) := by
  unfold L2 L3
  rw [twoSteps_integral h0 h1 (by fun_prop), twoSteps_integral h0 h1 (by fun_prop)]
  have i2 : ∀ a : ℝ, ∫ u in a..1, (2 * u - 1) = a * (1 - a) := by
    intro a
    rw [intervalIntegral.integral_sub (Continuous.intervalIntegrable (by fun_prop) _ _) (Continuous.intervalIntegrable (by fun_prop) _ _),
      intervalIntegral.integral_const_mul, integral_id]
    simp; ring
  have i3 : ∀ a : ℝ, ∫ u in a..1, (6 * u ^ 2 - 6 * u + 1) = a * (1 - a) * (2 * a - 1) := by
    intro a
    rw [intervalIntegral.integral_add (Continuous.intervalIntegrable (by fun_prop) _ _) (Continuous.intervalIntegrable (by fun_prop) _ _),
      intervalIntegral.integral_sub (Continuous.intervalIntegrable (by fun_prop) _ _) (Continuous.intervalIntegrable (by fun_prop) _ _),
      intervalIntegral.integral_const_mul, intervalIntegral.integral_const_mul, integral_id, integral_pow]
    simp; ring
  simp only [i2, i3, and_self]

theorem twoSteps_values {q : ℝ} (h0 : 0 < q) (h1 : q < 1) :
    ∃ a ∈ Set.Ioo (0 : ℝ) 1, ∃ c ∈ Set.Ioo (0 : ℝ) 1, ∃ b ∈ Set.Ioo (0 : ℝ) 1, a < c ∧ 0 < twoSteps q a ∧ twoSteps q c < twoSteps q b := by
  have hq : q ^ 2 < q := by nlinarith
  obtain ⟨a, a1, a2⟩ := exists_between hq
  obtain ⟨b, b1, b2⟩ := exists_between h1
  have : 0 < q ^ 2 := by positivity
  refine ⟨a, ⟨by linarith, by linarith⟩, q, ⟨h0, h1⟩, b, ⟨by linarith, b2⟩, a2, ?_, ?_⟩
  · unfold twoSteps Set.indicator
    simp only [Set.mem_Ioi, a1, if_true]
    split_ifs <;> norm_num
  · unfold twoSteps Set.indicator
    simp only [Set.mem_Ioi, hq, if_true, b1, hq.trans b1, lt_irrefl, if_false]
    norm_num

/-- Storms of which one in two brings 60 and the others 30: on average 1.39 of them per year, a year in four without any; then the maxima
have the L-skewness -3/14. -/
example : ∃ lam > 0,
    Spec.Storms (Measure.infinitePi (laws lam)) lam (fun i ω => ⌊ω (.inl i)⌋₊) (fun i k ω => coin (ω (.inr (i, k)))) ∧
    Spec.MaximumQuantile lam (fun v => (Measure.infinitePi (laws lam)).real {ω | v < coin (ω (.inr (0, 0)))}) (twoSteps (1 / 2)) ∧
    0 < L2 (twoSteps (1 / 2)) ∧ L3 (twoSteps (1 / 2)) / L2 (twoSteps (1 / 2)) = -3 / 14 := by
  refine ⟨-2 * Real.log (1 / 2), ?_, storms_exist ?_ coin_measurable, ?_, ?_, ?_⟩
  · have := Real.log_neg (x := 1 / 2) (by norm_num) (by norm_num); linarith
  · have := Real.log_neg (x := 1 / 2) (by norm_num) (by norm_num); linarith
  · simp only [coin_exceed]; exact twoSteps_quantile (by norm_num) (by norm_num)
  · rw [(twoSteps_moments (by norm_num) (by norm_num)).1]; norm_num
  · rw [(twoSteps_moments (by norm_num) (by norm_num)).1, (twoSteps_moments (by norm_num) (by norm_num)).2]; norm_num

/-- Where storms are rare, 0.21 per year, the L-skewness of the maxima is above 0.17. -/
example : ∃ lam > 0,
    Spec.Storms (Measure.infinitePi (laws lam)) lam (fun i ω => ⌊ω (.inl i)⌋₊) (fun i k ω => coin (ω (.inr (i, k)))) ∧
    Spec.MaximumQuantile lam (fun v => (Measure.infinitePi (laws lam)).real {ω | v < coin (ω (.inr (0, 0)))}) (twoSteps (9 / 10)) ∧
    0.17 * L2 (twoSteps (9 / 10)) < L3 (twoSteps (9 / 10)) := by
  refine ⟨-2 * Real.log (9 / 10), ?_, storms_exist ?_ coin_measurable, ?_, ?_⟩
  · have := Real.log_neg (x := 9 / 10) (by norm_num) (by norm_num); linarith
  · have := Real.log_neg (x := 9 / 10) (by norm_num) (by norm_num); linarith
  · simp only [coin_exceed]; exact twoSteps_quantile (by norm_num) (by norm_num)
  · rw [(twoSteps_moments (by norm_num) (by norm_num)).1, (twoSteps_moments (by norm_num) (by norm_num)).2]; norm_num

/-- The directory yields a record of every length. -/
example (N : ℕ → Ω → ℕ) (fields : ℕ → ℕ → Ω → ℕ → ℕ → ℝ) (t : Tile) (y x n : ℕ) (ω : Ω) :
    ∃ dir record, Spec.Holds dir (Spec.storms N fields n ω) ∧ Spec.Record dir t y x n record := by
  have h := fun i => C21_annual_maxima (Spec.storms N fields n ω) t i
  choose v hv _ using h
  refine ⟨_, (List.range n).map fun i => v i y x, List.Perm.refl _, ?_⟩
  unfold Spec.Record
  rw [List.forall₂_map_right_iff, List.forall₂_same]
  exact fun i _ => ⟨_, hv i, rfl⟩

end Tcrm.Annual
