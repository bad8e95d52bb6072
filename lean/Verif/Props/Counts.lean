import Mathlib.Probability.Distributions.Poisson.Basic
import Mathlib.Probability.StrongLaw
import Mathlib.Probability.Independence.InfinitePi
import Verif.Model.Counts
import Verif.Spec.Counts
import Verif.Props.TrackGen
/-!
C201: how many storms are simulated.
-/
namespace Tcrm.Counts
open Tcrm.TrackGen MeasureTheory ProbabilityTheory Filter

variable {Ω : Type} [MeasurableSpace Ω] {P : Measure Ω} {K : ℝ → ℕ → Ω → ℕ} {G N : Type}

/-- Storms in the files of ranks `0`, ..., `ranks - 1` -/
def Spec.storms (files : ℕ → List (ℕ × List Track)) (ranks : ℕ) : ℕ := (((List.range ranks).flatMap files).map fun f => f.2.length).sum

theorem nCyclones_ok {poisson : ℝ → ℕ → ℕ} {yrs : ℤ} {freq : ℝ} {n : ℤ} (h : 0 ≤ yrs * freq) (hn : 0 ≤ n) :
    nCyclones poisson yrs freq n = .ok ((List.range n.toNat).map fun i => poisson (yrs * freq) i) := by
  unfold nCyclones
  rw [if_neg]
  rintro (a | a)
  · exact absurd a (not_lt.2 h)
  · omega

theorem prod_getD (f : ℕ → ENNReal) (ks : List ℕ) : ∏ i ∈ Finset.range ks.length, f (ks.getD i 0) = (ks.map f).prod := by
  induction ks with
  | nil => simp
  | cons k ks ih => rw [List.length_cons, Finset.prod_range_succ', List.map_cons, List.prod_cons, ← ih, mul_comm]; simp

/-- C201: any combination of numbers of storms of the simulations has the product of the probabilities of independent Poisson counts
with the expected value years per simulation times annual frequency. -/
theorem C201_joint (hK : Spec.Poisson P K) {yrs : ℤ} {freq : ℝ} (h : 0 ≤ yrs * freq) {n : ℤ} {ks : List ℕ} (hn : n = ks.length) :
    P {ω | nCyclones (fun lam i => K lam i ω) yrs freq n = .ok ks} =
      (ks.map fun k => ENNReal.ofReal (Spec.chance (yrs * freq) k)).prod := by
  have hset : {ω | nCyclones (fun lam i => K lam i ω) yrs freq n = .ok ks} =
      ⋂ i ∈ Finset.range ks.length, K (yrs * freq) i ⁻¹' {ks.getD i 0} := by
    ext ω
    rw [Set.mem_setOf_eq, nCyclones_ok h (by omega)]
    simp only [Except.ok.injEq, Set.mem_iInter, Set.mem_preimage, Set.mem_singleton_iff, Finset.mem_range]
    have hn' : n.toNat = ks.length := by omega
    rw [hn']
    constructor
    · intro e i hi
      rw [List.getD_eq_getElem?_getD, ← e]
      simp [hi]
    · intro e
      apply List.ext_getElem
      · simp
      · intro i h1 h2
        rw [List.getElem_map, List.getElem_range, e i h2, List.getD_eq_getElem?_getD, List.getElem?_eq_getElem h2, Option.getD_some]
  rw [hset, (hK.independent _).measure_inter_preimage_eq_mul _ (sets := fun i => {ks.getD i 0}) fun i _ => measurableSet_singleton _]
  have : ∀ i, P (K (yrs * freq) i ⁻¹' {ks.getD i 0}) = ENNReal.ofReal (Spec.chance (yrs * freq) (ks.getD i 0)) := by
    intro i; exact hK.law _ h i _
  simp only [this]
  exact prod_getD (fun k => ENNReal.ofReal (Spec.chance (yrs * freq) k)) ks

/-! ### Sums -/

theorem Spec.Poisson.isProbability (hK : Spec.Poisson P K) : IsProbabilityMeasure P := by
  have h := hK.law 0 le_rfl 0
  have h0 : P {ω | K 0 0 ω = 0} = 1 := by rw [h 0]; simp [Spec.chance]
  constructor
  have hs : ∀ k, k ≠ 0 → P {ω | K 0 0 ω = k} = 0 := by
    intro k hk; rw [h k]; simp [Spec.chance, hk]
  have hc : P {ω | K 0 0 ω = 0}ᶜ = 0 := by
    have : {ω | K 0 0 ω = 0}ᶜ = ⋃ k : ℕ, {ω | K 0 0 ω = k + 1} := by
      ext ω
      simp only [Set.mem_compl_iff, Set.mem_setOf_eq, Set.mem_iUnion]
      constructor
      · intro h; exact ⟨K 0 0 ω - 1, by omega⟩
      · rintro ⟨k, hk⟩; omega
    rw [this]
    exact measure_iUnion_null fun k => hs (k + 1) (by omega)
  have hm : MeasurableSet {ω | K 0 0 ω = 0} := hK.measurable 0 0 (measurableSet_singleton 0)
  rw [← measure_add_measure_compl hm, h0, hc, add_zero]

theorem Spec.Poisson.hasLaw (hK : Spec.Poisson P K) {lam : ℝ} (h : 0 ≤ lam) (i : ℕ) :
    HasLaw (K lam i) (poissonMeasure lam.toNNReal) P := by
  refine ⟨(hK.measurable _ _).aemeasurable, ?_⟩
  refine Measure.ext_of_singleton fun k => ?_
  rw [Measure.map_apply (hK.measurable _ _) (measurableSet_singleton k), poissonMeasure_singleton, Real.coe_toNNReal _ h]
  exact hK.law lam h i k

theorem Spec.Poisson.sum (hK : Spec.Poisson P K) {lam : ℝ} (h : 0 ≤ lam) (n : ℕ) :
    HasLaw (∑ i ∈ Finset.range n, K lam i) (poissonMeasure (n * lam.toNNReal)) P := by
  have := Spec.Poisson.isProbability hK
  induction n with
  | zero =>
    refine ⟨by rw [Finset.range_zero, Finset.sum_empty]; exact measurable_const.aemeasurable, ?_⟩
    refine Measure.ext_of_singleton fun k => ?_
    rw [poissonMeasure_singleton]
    simp only [Finset.range_zero, Finset.sum_empty, Nat.cast_zero, zero_mul]
    rw [show (0 : Ω → ℕ) = fun _ => 0 from rfl, Measure.map_const, measure_univ, one_smul, Measure.dirac_apply' _ (measurableSet_singleton k)]
    rcases Nat.eq_zero_or_pos k with rfl | hk
    · simp
    · simp [hk.ne, hk.ne']
  | succ n ih =>
    have hind := (hK.independent lam).indepFun_sum_range_succ (hK.measurable lam) n
    have := hind.hasLaw_add_poissonMeasure ih (Spec.Poisson.hasLaw hK h n)
    rw [Finset.sum_range_succ]
    convert this using 2
    push_cast; ring

/-- C201: the number of storms of all simulations together has the Poisson distribution whose expected value is annual frequency times
number of years, whatever the number of years in one simulation. -/
theorem C201_total (hK : Spec.Poisson P K) {yrs : ℤ} {freq : ℝ} (h : 0 ≤ yrs * freq) {n : ℤ} (hn : 0 ≤ n) (k : ℕ) :
    P {ω | ∃ counts, nCyclones (fun lam i => K lam i ω) yrs freq n = .ok counts ∧ counts.sum = k} =
      ENNReal.ofReal (Spec.chance (n * yrs * freq) k) := by
  obtain ⟨m, rfl⟩ := Int.eq_ofNat_of_zero_le hn
  have hset : {ω | ∃ counts, nCyclones (fun lam i => K lam i ω) yrs freq (m : ℤ) = .ok counts ∧ counts.sum = k} =
      (∑ i ∈ Finset.range m, K (yrs * freq) i) ⁻¹' {k} := by
    ext ω
    simp only [Set.mem_setOf_eq, nCyclones_ok h hn, Except.ok.injEq, exists_eq_left', Int.toNat_natCast, Set.mem_preimage,
      Set.mem_singleton_iff, Finset.sum_apply]
    rfl
  have hl := Spec.Poisson.sum hK h m
  rw [hset, ← Measure.map_apply (by rw [show (∑ i ∈ Finset.range m, K (yrs * freq) i) = fun ω => ∑ i ∈ Finset.range m, K (yrs * freq) i ω from by ext; simp]; exact Finset.measurable_sum _ fun i _ => hK.measurable _ i) (measurableSet_singleton k), hl.map_eq,
    poissonMeasure_singleton]
  simp only [Spec.chance, NNReal.coe_mul, NNReal.coe_natCast, Real.coe_toNNReal _ h, Int.cast_natCast]
  rw [mul_assoc]

theorem mean_hasSum (lam : ℝ) : HasSum (fun k : ℕ => (k : ℝ) * (Real.exp (-lam) * lam ^ k / k.factorial)) lam := by
  have h := (NormedSpace.expSeries_div_hasSum_exp (𝔸 := ℝ) lam).mul_left (Real.exp (-lam) * lam)
  rw [← Real.exp_eq_exp_ℝ, mul_assoc, mul_comm lam, ← mul_assoc, ← Real.exp_add, neg_add_cancel, Real.exp_zero, one_mul] at h
  rw [← hasSum_nat_add_iff' 1]
  simp only [Finset.range_one, Finset.sum_singleton, Nat.cast_zero, zero_mul, sub_zero]
  have e : ∀ k : ℕ, ((k + 1 : ℕ) : ℝ) * (Real.exp (-lam) * lam ^ (k + 1) / (k + 1).factorial) =
      Real.exp (-lam) * lam * (lam ^ k / k.factorial) := by
    intro k
    rw [Nat.factorial_succ]
    push_cast
    have : (k.factorial : ℝ) ≠ 0 := by exact_mod_cast k.factorial_ne_zero
    have : (k : ℝ) + 1 ≠ 0 := by positivity
    field_simp
    ring
  simp only [e]
  exact h

theorem mean (hK : Spec.Poisson P K) {lam : ℝ} (h : 0 ≤ lam) (i : ℕ) :
    Integrable (fun ω => (K lam i ω : ℝ)) P ∧ ∫ ω, (K lam i ω : ℝ) ∂P = lam := by
  have hl := Spec.Poisson.hasLaw hK h i
  have hi : Integrable (fun k : ℕ => (k : ℝ)) (poissonMeasure lam.toNNReal) := by
    rw [integrable_poissonMeasure_iff]
    have := (mean_hasSum lam).summable
    refine this.congr fun k => ?_
    simp [mul_comm, Real.coe_toNNReal _ h]
  have hm : AEStronglyMeasurable (fun k : ℕ => (k : ℝ)) (P.map (K lam i)) := by fun_prop
  constructor
  · rw [← hl.map_eq] at hi
    exact (integrable_map_measure hm (hK.measurable _ _).aemeasurable).1 hi
  · have e := integral_map (hK.measurable lam i).aemeasurable hm
    rw [← e, hl.map_eq]
    have := hasSum_integral_poissonMeasure hi
    refine this.unique ?_
    have e : ∀ k : ℕ, (Real.exp (-lam) * lam ^ k / k.factorial) • (k : ℝ) = k * (Real.exp (-lam) * lam ^ k / k.factorial) := by
      intro k; rw [smul_eq_mul, mul_comm]
    simp only [Real.coe_toNNReal _ h, e]
    exact mean_hasSum lam

/-- C201: what a run that succeeds on all ranks has written: the storms that were drawn. -/
theorem C201_drawn {R : Rng G} {env : Env N} {fuel : ℕ} {ss ts : ℤ} {poisson : ℝ → ℕ → ℕ} {yrs : ℤ} {freq : ℝ} {n : ℤ} {g0 : ℕ → G}
    {n0 : N} {ranks : ℕ} (hr : 0 < ranks) {files : ℕ → List (ℕ × List Track)}
    (h : ∀ p < ranks, run R env fuel ss ts poisson yrs freq n (g0 p) n0 ranks p = .ok (files p)) :
    ∃ counts, nCyclones poisson yrs freq n = .ok counts ∧ Spec.storms files ranks = counts.sum ∧
      ∀ i ts, (i, ts) ∈ (List.range ranks).flatMap files → counts[i]? = some ts.length := by
  have hrun : ∀ p < ranks, ∃ counts, nCyclones poisson yrs freq n = .ok counts ∧
      runRank R env fuel ss ts counts (g0 p) n0 ranks p = .ok (files p) := by
    intro p hp
    have := h p hp
    unfold run at this
    split at this
    · cases this
    split at this
    · cases this
    rename_i counts hc
    split at this
    · cases this
    rename_i fs hf
    cases this
    exact ⟨counts, hc, hf⟩
  obtain ⟨counts, hc, -⟩ := hrun 0 hr
  have hall : ∀ p < ranks, runRank R env fuel ss ts counts (g0 p) n0 ranks p = .ok (files p) := by
    intro p hp
    obtain ⟨c, h1, h2⟩ := hrun p hp
    rw [hc] at h1; cases h1
    exact h2
  have hperm := C53_event_sets R env fuel ss ts counts g0 n0 ranks hr files hall
  refine ⟨counts, hc, ?_, ?_⟩
  · have := (hperm.map Prod.snd).sum_eq
    rw [List.map_map, List.map_map] at this
    have e : (counts.zipIdx.map (Prod.snd ∘ fun c : ℕ × ℕ => (c.2, c.1))) = counts := by
      rw [show (Prod.snd ∘ fun c : ℕ × ℕ => (c.2, c.1)) = Prod.fst from rfl, List.zipIdx_map_fst]
    rw [e] at this
    exact this
  · intro i tr hi
    have : (i, tr.length) ∈ counts.zipIdx.map fun c => (c.2, c.1) := by
      rw [← hperm.mem_iff]
      exact List.mem_map.2 ⟨(i, tr), hi, rfl⟩
    obtain ⟨⟨a, b⟩, hab, e⟩ := List.mem_map.1 this
    simp only [Prod.mk.injEq] at e
    obtain ⟨rfl, rfl⟩ := e
    exact List.mem_zipIdx_iff_getElem?.1 hab

/-- C201: with probability one, the number of storms per year in the files approaches the annual frequency as the number of simulations
grows, on any number of ranks, as long as the runs succeed. -/
theorem C201_frequency (hK : Spec.Poisson P K) {yrs : ℤ} (hy : 0 < yrs) {freq : ℝ} (hf : 0 ≤ freq) :
    ∀ᵐ ω ∂P, ∀ (R : Rng G) (env : Env N) (fuel : ℕ → ℕ) (ss ts : ℤ) (g0 : ℕ → ℕ → G) (n0 : ℕ → N) (ranks : ℕ → ℕ)
      (files : ℕ → ℕ → List (ℕ × List Track)),
      (∀ᶠ n : ℕ in atTop, 0 < ranks n ∧ ∀ p < ranks n,
        run R env (fuel n) ss ts (fun lam i => K lam i ω) yrs freq n (g0 n p) (n0 n) (ranks n) p = .ok (files n p)) →
      Tendsto (fun n : ℕ => (Spec.storms (files n) (ranks n) : ℝ) / (n * yrs)) atTop (nhds freq) := by
  have h : 0 ≤ yrs * freq := by positivity
  have := Spec.Poisson.isProbability hK
  have key := strong_law_ae_real (μ := P) (fun i ω => (K (yrs * freq) i ω : ℝ)) (mean hK h 0).1
    (by
      intro i j hij
      exact ((hK.independent _).indepFun hij).comp (φ := fun k : ℕ => (k : ℝ)) (ψ := fun k : ℕ => (k : ℝ)) (by fun_prop) (by fun_prop))
    (by
      intro i
      have : IdentDistrib (K (yrs * freq) i) (K (yrs * freq) 0) P P :=
        ⟨(hK.measurable _ _).aemeasurable, (hK.measurable _ _).aemeasurable, by
          rw [(Spec.Poisson.hasLaw hK h i).map_eq, (Spec.Poisson.hasLaw hK h 0).map_eq]⟩
      exact this.comp (u := fun k : ℕ => (k : ℝ)) (by fun_prop))
  rw [(mean hK h 0).2] at key
  filter_upwards [key] with ω hω R env fuel ss ts g0 n0 ranks files hrun
  have hlim := hω.div_const (yrs : ℝ)
  have hy' : (yrs : ℝ) ≠ 0 := by exact_mod_cast hy.ne'
  rw [mul_div_cancel_left₀ _ hy'] at hlim
  refine hlim.congr' ?_
  filter_upwards [hrun] with n hn
  obtain ⟨counts, hc, hs, -⟩ := C201_drawn hn.1 hn.2
  rw [nCyclones_ok h (by positivity)] at hc
  cases hc
  rw [hs, div_div, Int.toNat_natCast]
  congr 1
  rw [← Nat.cast_sum]
  rfl

/-- C201: a negative frequency is refused. -/
theorem C201_refused {poisson : ℝ → ℕ → ℕ} {yrs : ℤ} {freq : ℝ} {n : ℤ} :
    nCyclones poisson yrs freq n = .error .valueError ↔ yrs * freq < 0 ∨ n < 0 := by
  unfold nCyclones
  split <;> simp_all

/-- C201: on several ranks a run without both seeds ends before anything is drawn; with them, or on one rank, a negative
frequency or number of simulations is refused. -/
theorem C201_seeds (R : Rng G) (env : Env N) (fuel : ℕ) (ss ts : ℤ) (poisson : ℝ → ℕ → ℕ) (yrs : ℤ) (freq : ℝ) (n : ℤ) (g0 : G)
    (n0 : N) (ranks p : ℕ) :
    (1 < ranks → ss = 0 ∨ ts = 0 → run R env fuel ss ts poisson yrs freq n g0 n0 ranks p = .error (.run .systemExit)) ∧
    (ranks ≤ 1 ∨ ss ≠ 0 ∧ ts ≠ 0 → yrs * freq < 0 ∨ n < 0 →
      run R env fuel ss ts poisson yrs freq n g0 n0 ranks p = .error .valueError) := by
  constructor
  · intro h1 h2
    unfold run
    rw [if_pos ⟨h1, h2⟩]
  · intro h1 h2
    unfold run
    rw [if_neg (by omega), C201_refused.2 h2]

example : run tape calm 5 1 0 (fun _ _ => 1) 1 1 2 [] 0 2 0 = .error (.run .systemExit) ∧
    run tape calm 5 1 1 (fun _ _ => 1) 1 (-1) 2 [] 0 2 0 = .error .valueError :=
  ⟨(C201_seeds _ _ _ _ _ _ _ _ _ _ _ _ _).1 (by norm_num) (Or.inr rfl),
    (C201_seeds _ _ _ _ _ _ _ _ _ _ _ _ _).2 (by norm_num) (by norm_num)⟩

/-- Such random numbers exist. -/
example : Spec.Poisson (Measure.infinitePi fun c : ℝ × ℕ => poissonMeasure c.1.toNNReal) (fun lam i ω => ω (lam, i)) where
  measurable lam i := measurable_pi_apply _
  law lam h i k := by
    have e := Measure.infinitePi_map_eval (fun c : ℝ × ℕ => poissonMeasure c.1.toNNReal) (lam, i)
    have := congrArg (fun μ => μ {k}) e
    simp only at this
    rw [Measure.map_apply (show Measurable fun x : ℝ × ℕ → ℕ => x (lam, i) from measurable_pi_apply (lam, i)) (measurableSet_singleton k),
      poissonMeasure_singleton, Real.coe_toNNReal _ h] at this
    exact this
  independent lam :=
    (iIndepFun_infinitePi (P := fun c : ℝ × ℕ => poissonMeasure c.1.toNNReal) (X := fun _ x => x) fun _ => measurable_id).precomp
      (g := fun i : ℕ => (lam, i)) fun a b e => by simpa using e

/-- A run on one rank, in which one storm is drawn for each of two simulations, and both are written -/
example : ∃ f, run tape calm 5 1 1 (fun _ _ => 1) 1 1 2 [] 0 1 0 = .ok f ∧ f.map (fun o => o.2.length) = [1, 1] := by
  have e1 : Tcrm.Balanced.balanced (([1, 1] : List ℕ).zipIdx.map fun c => (c.2, c.1)) 1 0 =
      [(0, 1), (1, 1)] := by simp [Tcrm.Balanced.balanced, Tcrm.Balanced.everyNth]
  have h : (files (runRank tape calm 5 1 1 [1, 1] [] 0 1 0)).map (fun o => o.2.length) = [1, 1] := by
    rw [runRank, e1]; decide +kernel
  unfold run
  rw [if_neg (by omega), nCyclones_ok (by norm_num) (by norm_num)]
  have : (List.range (2 : ℤ).toNat).map (fun _ : ℕ => 1) = [1, 1] := by decide
  simp only [this]
  cases hr : runRank tape calm 5 1 1 [1, 1] [] 0 1 0 with
  | error e => rw [hr] at h; simp [files] at h
  | ok f => rw [hr] at h; exact ⟨f, rfl, h⟩

end Tcrm.Counts
