import Mathlib.Probability.StrongLaw
import Mathlib.MeasureTheory.Measure.Lebesgue.Basic
import Verif.Model.Draws
import Verif.Spec.Draws
import Verif.Spec.Autoreg
import Verif.Props.OriginCdf
/-!
C198: drawn values have the estimated probabilities.
-/
namespace Tcrm.Draws
open Tcrm.Cdf Tcrm.OriginCdf Tcrm.Autoreg MeasureTheory ProbabilityTheory Filter

variable {Ω : Type} [MeasurableSpace Ω] {P : Measure Ω} {U : ℕ → Ω → ℝ}

/-! ### Uniform numbers -/

theorem Spec.Uniform.interval (hU : Spec.Uniform P U) (n : ℕ) {a b : ℝ} (h0 : 0 ≤ a) (h1 : b ≤ 1) :
    P (U n ⁻¹' Set.Ioc a b) = ENNReal.ofReal (b - a) := by
  rw [← Measure.map_apply (hU.measurable n) measurableSet_Ioc, hU.law n, restrict_Ioo_eq_restrict_Ioc,
    Measure.restrict_apply measurableSet_Ioc, Set.inter_eq_left.2, Real.volume_Ioc]
  rintro q ⟨ha, hb⟩
  exact ⟨lt_of_le_of_lt h0 ha, hb.trans h1⟩

theorem Spec.Uniform.ae (hU : Spec.Uniform P U) (n : ℕ) : ∀ᵐ ω ∂P, 0 < U n ω ∧ U n ω < 1 := by
  have : ∀ᵐ u ∂(P.map (U n)), u ∈ Set.Ioo (0 : ℝ) 1 := by
    rw [hU.law n]; exact ae_restrict_mem measurableSet_Ioo
  exact ae_of_ae_map (hU.measurable n).aemeasurable this

/-! ### Positions in a table -/

/-- A table of a distribution: the sums of `Y` up to each position, in proportion to the total -/
structure Sums (Y C : List ℝ) : Prop where
  nonneg : ∀ v ∈ Y, 0 ≤ v
  pos : 0 < Y.sum
  length : C.length = Y.length
  value : ∀ i, i < Y.length → C[i]? = some ((Y.take (i + 1)).sum / Y.sum)
  sorted : C.Pairwise (· ≤ ·)

theorem Sums.index {Y C : List ℝ} (h : Sums Y C) {i : ℕ} (hi : i < Y.length) {q : ℝ} (hq : 0 < q) :
    searchsorted C q = i ↔ q ∈ Set.Ioc ((Y.take i).sum / Y.sum) ((Y.take (i + 1)).sum / Y.sum) := by
  have h1 := searchsorted_le_iff h.sorted q i _ (h.value i hi)
  cases i with
  | zero => simp only [List.take_zero, List.sum_nil, zero_div, Set.mem_Ioc, hq, true_and, ← h1]; omega
  | succ i =>
    have h2 := searchsorted_le_iff h.sorted q i _ (h.value i (by omega))
    rw [Set.mem_Ioc, ← h1, ← not_le, ← h2]
    omega

theorem take_sum_le {Y : List ℝ} (h : ∀ v ∈ Y, 0 ≤ v) {i j : ℕ} (hij : i ≤ j) : (Y.take i).sum ≤ (Y.take j).sum := by
  obtain ⟨k, rfl⟩ := Nat.exists_eq_add_of_le hij
  rw [List.take_add, List.sum_append]
  have : 0 ≤ ((Y.drop i).take k).sum := List.sum_nonneg fun v hv => h v (List.mem_of_mem_drop (List.mem_of_mem_take hv))
  linarith

theorem take_sum_le_sum {Y : List ℝ} (h : ∀ v ∈ Y, 0 ≤ v) (i : ℕ) : (Y.take i).sum ≤ Y.sum := by
  have := take_sum_le h (le_max_left i Y.length)
  rwa [List.take_of_length_le (le_max_right _ _)] at this

theorem take_sum_nonneg {Y : List ℝ} (h : ∀ v ∈ Y, 0 ≤ v) (i : ℕ) : 0 ≤ (Y.take i).sum :=
  List.sum_nonneg fun v hv => h v (List.mem_of_mem_take hv)

theorem take_sum_succ {Y : List ℝ} {i : ℕ} {d : ℝ} (h : Y[i]? = some d) : (Y.take (i + 1)).sum = (Y.take i).sum + d := by
  rw [List.take_add_one, h]; simp

/-- The interval of numbers that select position `i`, when the numbers are between 0 and `s` -/
theorem Sums.set {Y C : List ℝ} (h : Sums Y C) {i : ℕ} (hi : i < Y.length) {s : ℝ} (hs : 0 < s) {u : ℝ} (hu : 0 < u) :
    searchsorted C (s * u) = i ↔
      u ∈ Set.Ioc ((Y.take i).sum / Y.sum / s) ((Y.take (i + 1)).sum / Y.sum / s) := by
  rw [h.index hi (mul_pos hs hu), Set.mem_Ioc, Set.mem_Ioc, div_lt_iff₀ hs, le_div_iff₀ hs, mul_comm u s]

theorem Sums.prob {Y C : List ℝ} (h : Sums Y C) {i : ℕ} {d : ℝ} (hd : Y[i]? = some d) {s : ℝ} (hs : 0 < s)
    (his : (Y.take (i + 1)).sum / Y.sum ≤ s) (hU : Spec.Uniform P U) (n : ℕ) :
    P (U n ⁻¹' Set.Ioc ((Y.take i).sum / Y.sum / s) ((Y.take (i + 1)).sum / Y.sum / s)) = ENNReal.ofReal (d / Y.sum / s) := by
  rw [Spec.Uniform.interval hU n (div_nonneg (div_nonneg (take_sum_nonneg h.nonneg i) h.pos.le) hs.le)
    ((div_le_one hs).2 his), take_sum_succ hd]
  congr 1
  ring

theorem Sums.of_cdf {x Y c : List ℝ} (hx : x.Nodup) (hY : ∀ v ∈ Y, 0 ≤ v) (hpos : 0 < Y.sum) (hc : cdf x Y = .ok c) : Sums Y c := by
  match x, hx, hc with
  | [], _, hc => simp [cdf] at hc
  | [_], _, hc => simp [cdf] at hc
  | x0 :: x1 :: xs, hx, hc =>
    have hne : x0 ≠ x1 := by
      intro h; rw [h] at hx; simp at hx
    obtain ⟨c', h1, h2, h3, h4, _⟩ := C05_cdf_is_distribution_function x0 x1 xs Y hne hY hpos
    rw [hc] at h1
    cases h1
    exact ⟨hY, hpos, h2, h3, h4⟩

theorem nodup_inj {x : List ℝ} (hx : x.Nodup) {i j : ℕ} {a : ℝ} (hi : x[i]? = some a) (hj : x[j]? = some a) : i = j := by
  obtain ⟨h1, e1⟩ := List.getElem?_eq_some_iff.1 hi
  obtain ⟨h2, e2⟩ := List.getElem?_eq_some_iff.1 hj
  exact (List.Nodup.getElem_inj_iff hx).1 (e1.trans e2.symm)

theorem ppf_iff {x c : List ℝ} (hx : x.Nodup) (hl : x.length = c.length) {i : ℕ} {a : ℝ} (hi : x[i]? = some a) (q : ℝ) :
    ppf q (x.zip c) = .ok a ↔ searchsorted c q = i := by
  unfold ppf
  rw [List.map_fst_zip hl.le, List.map_snd_zip hl.ge]
  constructor
  · intro h
    split at h
    · rename_i v hv
      cases h
      exact nodup_inj hx hv hi
    · cases h
  · intro h
    rw [h, hi]

/-! ### C198 -/

/-- C198: a value drawn from an estimated distribution is each of the tabulated values with the probability that is
proportional to its density. -/
theorem C198_value (hU : Spec.Uniform P U) {x y c : List ℝ} (hx : x.Nodup) (hl : x.length = y.length) (hy : ∀ v ∈ y, 0 ≤ v)
    (hpos : 0 < y.sum) (hc : cdf x y = .ok c) (n i : ℕ) {a d : ℝ} (hi : x[i]? = some a) (hd : y[i]? = some d) :
    P {ω | ppf (U n ω) (x.zip c) = .ok a} = ENNReal.ofReal (d / y.sum) := by
  have hS := Sums.of_cdf hx hy hpos hc
  have hiy : i < y.length := (List.getElem?_eq_some_iff.1 hd).1
  have := hS.prob hd one_pos (by rw [div_le_one hpos]; exact take_sum_le_sum hy _) hU n
  rw [div_one (d / y.sum)] at this
  rw [← this]
  apply measure_congr
  filter_upwards [Spec.Uniform.ae hU n] with ω hω
  apply propext
  show ppf (U n ω) (x.zip c) = .ok a ↔ U n ω ∈ _
  rw [ppf_iff hx (hl.trans hS.length.symm) hi, ← hS.set hiy one_pos hω.1, one_mul]

/-! ### Origins -/

theorem col_sum (z : Grid ℝ) (i : ℕ) : ((List.range z.rows).map fun j => z.val j i).sum = ∑ j ∈ Finset.range z.rows, z.val j i := by
  rw [← List.sum_toFinset _ (List.nodup_range), List.toFinset_range]

theorem colSums_sum (z : Grid ℝ) : (colSums z).sum = Spec.total z := by
  unfold colSums Spec.total
  rw [← List.sum_toFinset _ (List.nodup_range), List.toFinset_range]
  exact Finset.sum_congr rfl fun i _ => col_sum z i

/-- The intervals of the two numbers that select a place with density in its column -/
theorem origin_sets {x y : List ℝ} {z : Grid ℝ} (h : Density x y z) {i j : ℕ} {a b : ℝ} (hi : x[i]? = some a) (hj : y[j]? = some b) :
    ∃ s t s' t' : ℝ, 0 ≤ s ∧ t ≤ 1 ∧ 0 ≤ s' ∧ t' ≤ 1 ∧ ENNReal.ofReal (t - s) * ENNReal.ofReal (t' - s') = ENNReal.ofReal (z.val j i / Spec.total z) ∧
      ∀ u v : ℝ, 0 < u → u < 1 → 0 < v → v < 1 →
        (sampleOrigin x y z u v = .ok (a, b) ↔ u ∈ Set.Ioc s t ∧ v ∈ Set.Ioc s' t') := by
  have hxn : x.Nodup := h.lon.imp fun h => h.ne
  have hyn : y.Nodup := h.lat.imp fun h => h.ne
  have hil := (List.getElem?_eq_some_iff.1 hi).1
  have hjl := (List.getElem?_eq_some_iff.1 hj).1
  obtain ⟨cx, cy, ht, hcxl, -, -, hcyl, hrows⟩ := tables h
  have ht' := ht
  unfold originCdf at ht'
  split at ht'
  · cases ht'
  rename_i cx' hcx
  split at ht'
  · cases ht'
  rename_i cy' hcy
  simp only [Except.ok.injEq, Prod.mk.injEq] at ht'
  obtain ⟨rfl, rfl⟩ := ht'
  have hcolpos : ∀ i, (∃ j, j < z.rows ∧ 0 < z.val j i) → 0 < ∑ j ∈ Finset.range z.rows, z.val j i := by
    rintro i ⟨j, hj, hp⟩
    exact Finset.sum_pos' (fun k _ => h.nonneg k i) ⟨j, Finset.mem_range.2 hj, hp⟩
  have htot : 0 < (colSums z).sum := by
    obtain ⟨j, i, hj, hi, hp⟩ := h.mass
    rw [colSums_sum]
    exact Finset.sum_pos' (fun i _ => Finset.sum_nonneg fun k _ => h.nonneg k i)
      ⟨i, Finset.mem_range.2 hi, hcolpos i ⟨j, hj, hp⟩⟩
  have hS := Sums.of_cdf hxn (colSums_nonneg z h.nonneg) htot hcx
  have hcoli : (colSums z)[i]? = some (∑ j ∈ Finset.range z.rows, z.val j i) := by
    unfold colSums
    rw [List.getElem?_map, List.getElem?_range (by rw [← h.cols]; exact hil), Option.map_some, col_sum]
  obtain ⟨row, hrow, hrowl, hrows, -⟩ := hrows i hil
  have hrowc : cdf y (condRow z i) = .ok row := by
    obtain ⟨bs, h1, h2, h3⟩ := mapM_ok_of_forall (fun i => cdf y (condRow z i)) (List.range z.cols) (by
      intro k hk
      by_contra hcon
      have : ∃ e, cdf y (condRow z k) = .error e := by
        cases hh : cdf y (condRow z k) with
        | error e => exact ⟨e, rfl⟩
        | ok b => exact absurd ⟨b, hh⟩ hcon
      rw [C05_error_iff] at this
      rcases this with h' | h'
      · have := h.lat2; omega
      · have := congrArg List.length h'
        simp [condRow] at this
        have := h.rows; omega)
    rw [hcy] at h1
    cases h1
    obtain ⟨b', e1, e2⟩ := h3 i i (by rw [List.getElem?_range (by rw [← h.cols]; exact hil)])
    rw [hrow] at e1
    cases e1
    exact e2
  have hsample : ∀ u v : ℝ, sampleOrigin x y z u v = .ok (a, b) ↔ searchsorted cx' u = i ∧ searchsorted row v = j := by
    intro u v
    constructor
    · intro hs
      obtain ⟨row', r1, r2, r3⟩ := sample_inv ht hs
      have e := nodup_inj hxn r1 hi
      rw [e, hrow] at r2
      cases r2
      exact ⟨e, nodup_inj hyn r3 hj⟩
    · rintro ⟨e1, e2⟩
      simp only [sampleOrigin, ht, originPpf, e1, hrow, e2, hi, hj]
  have hrest : ∀ s, s ≤ (colSums z).length → 0 ≤ ((colSums z).take s).sum / (colSums z).sum ∧ ((colSums z).take s).sum / (colSums z).sum ≤ 1 :=
    fun s _ => ⟨div_nonneg (take_sum_nonneg hS.nonneg s) htot.le, (div_le_one htot).2 (take_sum_le_sum hS.nonneg s)⟩
  have hic : i < (colSums z).length := (List.getElem?_eq_some_iff.1 hcoli).1
  rcases (Finset.sum_nonneg fun k (_ : k ∈ Finset.range z.rows) => h.nonneg k i).eq_or_lt with h0 | h0
  · -- no density in the column
    refine ⟨((colSums z).take i).sum / (colSums z).sum, ((colSums z).take (i + 1)).sum / (colSums z).sum, 0, 1,
      (hrest i hic.le).1, (hrest (i + 1) hic).2, le_rfl, le_rfl, ?_, ?_⟩
    · have hz : z.val j i = 0 := (Finset.sum_eq_zero_iff_of_nonneg fun k _ => h.nonneg k i).1 h0.symm j
        (Finset.mem_range.2 (h.rows ▸ hjl))
      rw [take_sum_succ hcoli, ← h0, hz]
      simp
    · intro u v u0 u1 v0 v1
      rw [hsample, hS.index hic u0, take_sum_succ hcoli, ← h0, add_zero]
      simp
  · have hrowv : condRow z i = (List.range z.rows).map fun j => z.val j i / ∑ j ∈ Finset.range z.rows, z.val j i := by
      simp only [condRow, col_sum, if_neg h0.ne']
    have hrsum : (condRow z i).sum = 1 := by
      rw [hrowv, ← List.sum_toFinset _ (List.nodup_range), List.toFinset_range, ← Finset.sum_div, div_self h0.ne']
    have hR := Sums.of_cdf hyn (condRow_nonneg z h.nonneg i) (by rw [hrsum]; exact one_pos) hrowc
    have hrj : (condRow z i)[j]? = some (z.val j i / ∑ j ∈ Finset.range z.rows, z.val j i) := by
      rw [hrowv, List.getElem?_map, List.getElem?_range (by rw [← h.rows]; exact hjl), Option.map_some]
    have hjc : j < (condRow z i).length := (List.getElem?_eq_some_iff.1 hrj).1
    refine ⟨((colSums z).take i).sum / (colSums z).sum, ((colSums z).take (i + 1)).sum / (colSums z).sum,
      ((condRow z i).take j).sum / (condRow z i).sum, ((condRow z i).take (j + 1)).sum / (condRow z i).sum,
      (hrest i hic.le).1, (hrest (i + 1) hic).2, div_nonneg (take_sum_nonneg hR.nonneg j) hR.pos.le,
      (div_le_one hR.pos).2 (take_sum_le_sum hR.nonneg _), ?_, ?_⟩
    · rw [take_sum_succ hcoli, take_sum_succ hrj, hrsum, colSums_sum, ← ENNReal.ofReal_mul]
      · congr 1
        rw [colSums_sum] at htot
        field_simp
        ring
      · rw [colSums_sum] at htot
        rw [← sub_div, add_sub_cancel_left]
        exact div_nonneg h0.le htot.le
    · intro u v u0 u1 v0 v1
      rw [hsample, hS.index hic u0, hR.index hjc v0]

/-- C198: a storm begins at each point of the grid with the probability that is proportional to the estimated density there. -/
theorem C198_origin (hU : Spec.Uniform P U) {x y : List ℝ} {z : Grid ℝ} (h : Density x y z) {n m : ℕ} (hnm : n ≠ m) {i j : ℕ}
    {a b : ℝ} (hi : x[i]? = some a) (hj : y[j]? = some b) :
    P {ω | sampleOrigin x y z (U n ω) (U m ω) = .ok (a, b)} = ENNReal.ofReal (z.val j i / Spec.total z) := by
  obtain ⟨s, t, s', t', hs, ht, hs', ht', hp, hset⟩ := origin_sets h hi hj
  rw [← hp, ← Spec.Uniform.interval hU n hs ht, ← Spec.Uniform.interval hU m hs' ht',
    ← (hU.independent.indepFun hnm).measure_inter_preimage_eq_mul _ _ measurableSet_Ioc measurableSet_Ioc]
  apply measure_congr
  filter_upwards [Spec.Uniform.ae hU n, Spec.Uniform.ae hU m] with ω h1 h2
  exact propext (hset _ _ h1.1 h1.2 h2.1 h2.2)

/-! ### Long run -/

theorem Spec.Uniform.isProbability (hU : Spec.Uniform P U) : IsProbabilityMeasure P := by
  refine ⟨?_⟩
  have := Measure.map_apply (μ := P) (hU.measurable 0) MeasurableSet.univ
  rw [hU.law 0, Set.preimage_univ] at this
  rw [← this]
  simp

theorem frequency [IsProbabilityMeasure P] {E : Type} [MeasurableSpace E] {Z : ℕ → Ω → E} (hZ : ∀ k, Measurable (Z k))
    (hlaw : ∀ k, P.map (Z k) = P.map (Z 0)) (hind : ∀ k l, k ≠ l → IndepFun (Z k) (Z l) P) {S : Set E} (hS : MeasurableSet S) :
    ∀ᵐ ω ∂P, Tendsto (Spec.share fun k => Z k ω ∈ S) atTop (nhds (P.real {ω | Z 0 ω ∈ S})) := by
  classical
  let g : E → ℝ := S.indicator fun _ => 1
  have hg : Measurable g := measurable_const.indicator hS
  have hmem : MemLp (fun ω => g (Z 0 ω)) 1 P := by
    refine MemLp.of_bound ((hg.comp (hZ 0)).aestronglyMeasurable) 1 (ae_of_all _ fun ω => ?_)
    simp only [g, Set.indicator]
    split_ifs <;> simp
  have key := strong_law_ae_real (μ := P) (fun k ω => g (Z k ω)) (memLp_one_iff_integrable.1 hmem)
    (by
      intro k l hkl
      exact (hind k l hkl).comp hg hg)
    (by
      intro k
      have : IdentDistrib (Z k) (Z 0) P P := ⟨(hZ k).aemeasurable, (hZ 0).aemeasurable, hlaw k⟩
      exact this.comp hg)
  have hE : ∫ ω, g (Z 0 ω) ∂P = P.real {ω | Z 0 ω ∈ S} := by
    have : (fun ω => g (Z 0 ω)) = (Z 0 ⁻¹' S).indicator fun _ => 1 := by
      funext ω; simp [g, Set.indicator]
    rw [this, integral_indicator_const _ (hZ 0 hS)]
    simp [Set.preimage]
  rw [hE] at key
  filter_upwards [key] with ω hω
  refine hω.congr fun N => ?_
  simp only [Spec.share, g, Set.indicator, Finset.sum_boole]

/-- C198: among many values drawn from an estimated distribution, the share of each tabulated value approaches the share of its
density. -/
theorem C198_value_share (hU : Spec.Uniform P U) {x y c : List ℝ} (hx : x.Nodup) (hl : x.length = y.length) (hy : ∀ v ∈ y, 0 ≤ v)
    (hpos : 0 < y.sum) (hc : cdf x y = .ok c) {s : ℕ → ℕ} (hs : Function.Injective s) {i : ℕ} {a d : ℝ} (hi : x[i]? = some a)
    (hd : y[i]? = some d) :
    ∀ᵐ ω ∂P, Tendsto (Spec.share fun k => ppf (U (s k) ω) (x.zip c) = .ok a) atTop (nhds (d / y.sum)) := by
  haveI := Spec.Uniform.isProbability hU
  have hp := C198_value hU hx hl hy hpos hc (s 0) i hi hd
  have hS := Sums.of_cdf hx hy hpos hc
  have hiy : i < y.length := (List.getElem?_eq_some_iff.1 hd).1
  have hae : ∀ k, ∀ᵐ ω ∂P, (ppf (U (s k) ω) (x.zip c) = .ok a) =
      (U (s k) ω ∈ Set.Ioc ((y.take i).sum / y.sum) ((y.take (i + 1)).sum / y.sum)) := by
    intro k
    filter_upwards [Spec.Uniform.ae hU (s k)] with ω h1
    rw [ppf_iff hx (hl.trans hS.length.symm) hi, hS.index hiy h1.1]
  have hf := frequency (Z := fun k => U (s k)) (fun k => hU.measurable _) (fun k => by rw [hU.law, hU.law])
    (fun k l hkl => hU.independent.indepFun fun e => hkl (hs e))
    (measurableSet_Ioc : MeasurableSet (Set.Ioc ((y.take i).sum / y.sum) ((y.take (i + 1)).sum / y.sum)))
  have hreal : P.real {ω | U (s 0) ω ∈ Set.Ioc ((y.take i).sum / y.sum) ((y.take (i + 1)).sum / y.sum)} = d / y.sum := by
    have e : P {ω | U (s 0) ω ∈ Set.Ioc ((y.take i).sum / y.sum) ((y.take (i + 1)).sum / y.sum)} =
        P {ω | ppf (U (s 0) ω) (x.zip c) = .ok a} := (measure_congr (hae 0)).symm
    rw [measureReal_def, e, hp, ENNReal.toReal_ofReal]
    exact div_nonneg (hy _ (List.mem_of_getElem? hd)) hpos.le
  rw [hreal] at hf
  filter_upwards [hf, ae_all_iff.2 hae] with ω h1 h2
  simp only [h2]
  exact h1

/-- C198: among many storms, the share of those beginning at a point of the grid approaches the share of the estimated density
there. -/
theorem C198_origin_share (hU : Spec.Uniform P U) {x y : List ℝ} {z : Grid ℝ} (h : Density x y z) {s t : ℕ → ℕ}
    (hd : Spec.Distinct s t) {i j : ℕ} {a b : ℝ} (hi : x[i]? = some a) (hj : y[j]? = some b) :
    ∀ᵐ ω ∂P, Tendsto (Spec.share fun k => sampleOrigin x y z (U (s k) ω) (U (t k) ω) = .ok (a, b)) atTop
      (nhds (z.val j i / Spec.total z)) := by
  haveI := Spec.Uniform.isProbability hU
  have hp := C198_origin hU h (hd.both 0 0) hi hj
  obtain ⟨s1, t1, s2, t2, hs, ht, hs', ht', -, hset⟩ := origin_sets h hi hj
  have hae : ∀ k, ∀ᵐ ω ∂P, (sampleOrigin x y z (U (s k) ω) (U (t k) ω) = .ok (a, b)) =
      ((U (s k) ω, U (t k) ω) ∈ Set.Ioc s1 t1 ×ˢ Set.Ioc s2 t2) := by
    intro k
    filter_upwards [Spec.Uniform.ae hU (s k), Spec.Uniform.ae hU (t k)] with ω h1 h2
    exact propext (hset _ _ h1.1 h1.2 h2.1 h2.2)
  have hreal : P.real {ω | (U (s 0) ω, U (t 0) ω) ∈ Set.Ioc s1 t1 ×ˢ Set.Ioc s2 t2} = z.val j i / Spec.total z := by
    have e : P {ω | (U (s 0) ω, U (t 0) ω) ∈ Set.Ioc s1 t1 ×ˢ Set.Ioc s2 t2} =
        P {ω | sampleOrigin x y z (U (s 0) ω) (U (t 0) ω) = .ok (a, b)} := (measure_congr (hae 0)).symm
    rw [measureReal_def, e, hp, ENNReal.toReal_ofReal]
    exact div_nonneg (h.nonneg _ _) (Finset.sum_nonneg fun _ _ => Finset.sum_nonneg fun _ _ => h.nonneg _ _)
  have hlaw : ∀ k, P.map (fun ω => (U (s k) ω, U (t k) ω)) =
      (volume.restrict (Set.Ioo (0 : ℝ) 1)).prod (volume.restrict (Set.Ioo (0 : ℝ) 1)) := by
    intro k
    have := (indepFun_iff_map_prod_eq_prod_map_map (hU.measurable _).aemeasurable (hU.measurable _).aemeasurable).1
      (hU.independent.indepFun (hd.both k k))
    rw [hU.law, hU.law] at this
    exact this
  have hf := frequency (Z := fun k ω => (U (s k) ω, U (t k) ω)) (fun k => (hU.measurable _).prodMk (hU.measurable _))
    (fun k => by rw [hlaw, hlaw])
    (fun k l hkl => hU.independent.indepFun_prodMk_prodMk hU.measurable (s k) (t k) (s l) (t l)
        (fun e => hkl (hd.once e)) (hd.both k l) (fun e => hd.both l k e.symm) (fun e => hkl (hd.once' e)))
    (measurableSet_Ioc.prod measurableSet_Ioc : MeasurableSet (Set.Ioc s1 t1 ×ˢ Set.Ioc s2 t2))
  rw [hreal] at hf
  filter_upwards [hf, ae_all_iff.2 hae] with ω h1 h2
  simp only [h2]
  exact h1

/-! ### Pressure, hour and year -/

/-- C198: where no tabulated pressure is below that of the surroundings, the pressure is drawn from the whole table instead
(index -1 is the last row): a storm begins with a pressure that is not below that of the surroundings. -/
theorem C198_pressure_fails_without_lower (hU : Spec.Uniform P U) {x y c : List ℝ} (hx : x.Pairwise (· < ·)) (hl : x.length = y.length)
    (hy : ∀ v ∈ y, 0 ≤ v) (hc : cdf x y = .ok c) {env : ℝ} (hpos : 0 < y.sum) (habove : ∀ v ∈ x, env ≤ v) (n i : ℕ) {a d : ℝ}
    (hi : x[i]? = some a) (hd : y[i]? = some d) :
    P {ω | pressure (x.zip c) env (U n ω) = .ok a} = ENNReal.ofReal (d / y.sum) ∧ env ≤ a := by
  have hxn : x.Nodup := hx.imp fun h => h.ne
  refine ⟨?_, habove a (List.mem_of_getElem? hi)⟩
  have hS := Sums.of_cdf hxn hy hpos hc
  have hix : i < x.length := (List.getElem?_eq_some_iff.1 hi).1
  have hlc : x.length = c.length := hl.trans hS.length.symm
  have h0 : searchsorted x env = 0 := by
    have h := (searchsorted_le_iff (hx.imp fun h => h.le) env 0 _ (List.getElem?_eq_getElem (by omega : 0 < x.length))).2
      (habove _ (List.getElem_mem _))
    omega
  have hlast : c[(x.zip c).length - 1]? = some 1 := by
    rw [List.length_zip, ← hlc, min_self, hS.value _ (by omega), Nat.sub_add_cancel (by omega), hl, List.take_length,
      div_self hpos.ne']
  have hpress : ∀ u, pressure (x.zip c) env u = ppf u (x.zip c) := by
    intro u
    unfold pressure
    rw [List.map_fst_zip hlc.le, List.map_snd_zip hlc.ge]
    simp only [h0, if_true, hlast, between, zero_add, sub_zero, one_mul]
  simp only [hpress]
  exact C198_value hU hxn hl hy hpos hc n i hi hd


/-- C198: the pressure at the beginning of a storm is each of the tabulated pressures below that of the surroundings with the
probability that is proportional to its density, and no other. Left out are surroundings below the whole table, see
`C198_pressure_fails_without_lower`. -/
theorem C198_pressure_partial (hU : Spec.Uniform P U) {x y c : List ℝ} (hx : x.Pairwise (· < ·)) (hl : x.length = y.length)
    (hy : ∀ v ∈ y, 0 ≤ v) (hc : cdf x y = .ok c) {env : ℝ} (hpos : 0 < Spec.totalBelow x y env) (n i : ℕ) {a d : ℝ}
    (hi : x[i]? = some a) (hd : y[i]? = some d) :
    P {ω | pressure (x.zip c) env (U n ω) = .ok a} =
      if a < env then ENNReal.ofReal (d / Spec.totalBelow x y env) else 0 := by
  have hxn : x.Nodup := hx.imp fun h => h.ne
  set ix := searchsorted x env with hix
  have hlt : ∀ k v, x[k]? = some v → (v < env ↔ k < ix) := by
    intro k v hk
    have := searchsorted_le_iff (hx.imp fun h => h.le) env k v hk
    rw [← not_le, ← this, not_le]
  have hbelow : Spec.totalBelow x y env = (y.take ix).sum := by
    have : ∀ (x y : List ℝ), x.Pairwise (· < ·) → x.length = y.length →
        Spec.totalBelow x y env = (y.take (searchsorted x env)).sum := by
      intro x
      induction x with
      | nil => intro y _ h; have : y = [] := List.length_eq_zero_iff.1 h.symm; subst this; simp [Spec.totalBelow]
      | cons v x ih =>
        intro y hx h
        cases y with
        | nil => simp at h
        | cons w y =>
          have ihx := ih y (List.pairwise_cons.1 hx).2 (by simpa using h)
          unfold Spec.totalBelow at ihx ⊢
          by_cases hv : v < env
          · simp only [List.zip_cons_cons, searchsorted, List.findIdx_cons, not_le.2 hv, decide_false, cond_false, List.filter_cons,
              hv, decide_true, if_true, List.map_cons, List.sum_cons, List.take_succ_cons]
            rw [ihx]; rfl
          · have hall : ∀ p ∈ x.zip y, ¬ p.1 < env := by
              rintro ⟨p, q⟩ hp
              have := (List.pairwise_cons.1 hx).1 p (List.of_mem_zip hp).1
              simp only [not_lt] at hv ⊢
              linarith
            have hnil : (x.zip y).filter (fun p => decide (p.1 < env)) = [] := by
              rw [List.filter_eq_nil_iff]
              intro p hp
              simpa using hall p hp
            simp [searchsorted, List.findIdx_cons, hv, not_lt.1 hv, hnil]
    exact this x y hx hl
  have hix0 : ix ≠ 0 := by
    intro h0; rw [hbelow, h0] at hpos; simp at hpos
  have hypos : 0 < y.sum := lt_of_lt_of_le (hbelow ▸ hpos) (take_sum_le_sum hy _)
  have hS := Sums.of_cdf hxn hy hypos hc
  have hixl : ix ≤ y.length := by rw [← hl]; exact List.findIdx_le_length
  have hiy : i < y.length := (List.getElem?_eq_some_iff.1 hd).1
  have hup : c[ix - 1]? = some ((y.take ix).sum / y.sum) := by
    rw [hS.value _ (by omega), Nat.sub_add_cancel (by omega)]
  have hpress : ∀ u, pressure (x.zip c) env u = ppf ((y.take ix).sum / y.sum * u) (x.zip c) := by
    intro u
    have hlc : x.length = c.length := hl.trans hS.length.symm
    unfold pressure
    rw [List.map_fst_zip hlc.le, List.map_snd_zip hlc.ge]
    simp only [← hix, if_neg hix0, hup, between, zero_add, sub_zero]
  have hs : 0 < (y.take ix).sum / y.sum := div_pos (hbelow ▸ hpos) hypos
  have hev : P {ω | pressure (x.zip c) env (U n ω) = .ok a} = P (U n ⁻¹' Set.Ioc ((y.take i).sum / y.sum / ((y.take ix).sum / y.sum))
      ((y.take (i + 1)).sum / y.sum / ((y.take ix).sum / y.sum))) := by
    apply measure_congr
    filter_upwards [Spec.Uniform.ae hU n] with ω hω
    apply propext
    show pressure (x.zip c) env (U n ω) = .ok a ↔ U n ω ∈ _
    rw [hpress, ppf_iff hxn (hl.trans hS.length.symm) hi, hS.set hiy hs hω.1]
  rw [hev]
  split_ifs with ha
  · have hii := (hlt i a hi).1 ha
    rw [hS.prob hd hs (div_le_div_of_nonneg_right (take_sum_le hy hii) hypos.le) hU n, hbelow]
    congr 1
    field_simp
  · have hii : ix ≤ i := by
      have := mt (hlt i a hi).2 ha; omega
    refine measure_mono_null (t := {ω | ¬ (0 < U n ω ∧ U n ω < 1)}) ?_ (ae_iff.1 (Spec.Uniform.ae hU n))
    rintro ω ⟨h1, -⟩ ⟨-, h2⟩
    rw [div_lt_iff₀ hs, div_lt_iff₀ hypos] at h1
    have e : U n ω * ((y.take ix).sum / y.sum) * y.sum = U n ω * (y.take ix).sum := by field_simp
    rw [e] at h1
    have h3 := take_sum_le hy hii
    have h4 := take_sum_nonneg hy ix
    nlinarith

theorem floor_law (hU : Spec.Uniform P U) (n : ℕ) {lo N : ℕ} {k : ℤ} (h0 : (lo : ℤ) ≤ k) (h1 : k < lo + N) :
    P {ω | ⌊between lo (lo + N : ℕ) (U n ω)⌋ = k} = ENNReal.ofReal (1 / N) := by
  have hN : (0 : ℝ) < N := by
    have : 0 < N := by omega
    exact_mod_cast this
  have h0' : (lo : ℝ) ≤ k := by exact_mod_cast h0
  have h1' : (k : ℝ) + 1 ≤ lo + N := by exact_mod_cast h1
  have hset : {ω | ⌊between lo (lo + N : ℕ) (U n ω)⌋ = k} = U n ⁻¹' Set.Ico ((k - lo) / N) ((k + 1 - lo) / N) := by
    ext ω
    simp only [Set.mem_setOf_eq, Set.mem_preimage, Set.mem_Ico, Int.floor_eq_iff, between, div_le_iff₀ hN, lt_div_iff₀ hN]
    push_cast
    constructor <;> rintro ⟨a, b⟩ <;> constructor <;> linarith
  rw [hset, ← Measure.map_apply (hU.measurable n) measurableSet_Ico, hU.law n, restrict_Ioo_eq_restrict_Ico,
    Measure.restrict_apply measurableSet_Ico, Set.inter_eq_left.2, Real.volume_Ico]
  · congr 1; field_simp; ring
  · rintro q ⟨ha, hb⟩
    refine ⟨le_trans (div_nonneg (by linarith) hN.le) ha, lt_of_lt_of_le hb ((div_le_one hN).2 (by linarith))⟩

/-- C198: every hour of the day is as likely as another. -/
theorem C198_hour (hU : Spec.Uniform P U) (n : ℕ) {k : ℤ} (h0 : 0 ≤ k) (h1 : k < 24) :
    P {ω | hour (U n ω) = k} = ENNReal.ofReal (1 / 24) := by
  have := floor_law hU n (lo := 0) (N := 24) (k := k) (by exact_mod_cast h0) (by push_cast; omega)
  simpa [hour] using this

/-- C198: every year from 1900 to 9997 is as likely as another. -/
theorem C198_year (hU : Spec.Uniform P U) (n : ℕ) {k : ℤ} (h0 : 1900 ≤ k) (h1 : k ≤ 9997) :
    P {ω | year (U n ω) = k} = ENNReal.ofReal (1 / 8098) := by
  have := floor_law hU n (lo := 1900) (N := 8098) (k := k) (by exact_mod_cast h0) (by push_cast; omega)
  simpa [year] using this

/-- The hypotheses hold for a density on four points, one of them without; storms begin at the last point in half of the cases. -/
example : Density [100, 101] [-20, -19] (⟨2, 2, fun j i => if j = 1 ∧ i = 0 then 0 else if j = 1 ∧ i = 1 then 2 else 1⟩ : Grid ℝ) where
  lon := by norm_num
  lat := by norm_num
  lon2 := by simp
  lat2 := by simp
  cols := rfl
  rows := rfl
  nonneg j i := by dsimp only; split_ifs <;> norm_num
  mass := ⟨1, 1, by norm_num⟩

example : Spec.total ⟨2, 2, fun j i => if j = 1 ∧ i = 0 then 0 else if j = 1 ∧ i = 1 then 2 else 1⟩ = 4 := by
  norm_num [Spec.total, Finset.sum_range_succ]

/-- Numbers used in turn for longitude and latitude -/
example : Spec.Distinct (fun k => 2 * k) fun k => 2 * k + 1 :=
  ⟨fun a b h => by simp at h; omega, fun a b h => by simp at h; omega, fun a b => by omega⟩

/-- Pressures 980, 990 and 1000 hPa, of which the last is not below that of the surroundings -/
example : [980, 990, (1000 : ℝ)].Pairwise (· < ·) ∧ cdf [980, 990, 1000] [1, 2, (1 : ℝ)] = .ok [1 / 4, 3 / 4, 1] ∧
    Spec.totalBelow [980, 990, 1000] [1, 2, 1] 995 = 3 := by
  refine ⟨by norm_num, ?_, ?_⟩
  · rw [cdf_ok _ _ _ (by norm_num) _ (by simp) (by norm_num)]
    norm_num [List.range_succ]
  · norm_num [Spec.totalBelow]

end Tcrm.Draws
