import Verif.Spec.Ekman
import Mathlib.Analysis.Calculus.ParametricIntervalIntegral
import Mathlib.Analysis.Calculus.Deriv.MeanValue
import Mathlib.Analysis.Calculus.Deriv.Pow
import Mathlib.MeasureTheory.Integral.IntervalIntegral.FundThmCalculus
import Mathlib.MeasureTheory.Integral.IntervalIntegral.Basic
import Mathlib.Tactic.LinearCombination
import Mathlib.Tactic.FieldSimp
/-!
C192: energy of solutions of the boundary layer.
-/
namespace Tcrm.Boundary
open Real MeasureTheory

theorem hasDerivAt_integral {F F' : ℝ → ℝ → ℝ} (hF : ∀ z s, HasDerivAt (fun x => F x s) (F' z s) z)
    (hc : Continuous (Function.uncurry F)) (hc' : Continuous (Function.uncurry F')) (x y z : ℝ) :
    HasDerivAt (fun z => ∫ s in x..y, F z s) (∫ s in x..y, F' z s) z := by
  have hcs : ∀ z, Continuous (F z) := fun z => hc.comp (by fun_prop : Continuous fun s : ℝ => (z, s))
  have hcs' : ∀ z, Continuous (F' z) := fun z => hc'.comp (by fun_prop : Continuous fun s : ℝ => (z, s))
  obtain ⟨C, hC⟩ := ((isCompact_Icc (a := z - 1) (b := z + 1)).prod (isCompact_uIcc (a := x) (b := y))).exists_bound_of_continuousOn
    hc'.continuousOn
  refine (intervalIntegral.hasDerivAt_integral_of_dominated_loc_of_deriv_le (μ := volume) (bound := fun _ => C)
    (Metric.ball_mem_nhds z one_pos) (Filter.Eventually.of_forall fun w => (hcs w).aestronglyMeasurable)
    ((hcs z).intervalIntegrable _ _) (hcs' z).aestronglyMeasurable ?_ intervalIntegrable_const ?_).2
  · refine Filter.Eventually.of_forall fun s hs w hw => hC (w, s) ⟨?_, Set.uIoc_subset_uIcc hs⟩
    rw [Metric.mem_ball, dist_eq, abs_lt] at hw
    constructor <;> simp only <;> linarith [hw.1, hw.2]
  · exact Filter.Eventually.of_forall fun s _ w _ => hF w s

theorem around_zero {u us : ℝ → ℝ → ℝ} (h : ∀ z s, HasDerivAt (u z) (us z s) s) (hc : Continuous (Function.uncurry u))
    (hc' : Continuous (Function.uncurry us)) (hp : ∀ z s, u z (s + 2 * π) = u z s) (x z : ℝ) :
    ∫ s in x..(x + 2 * π), u z s * us z s = 0 := by
  have hcs : Continuous (u z) := hc.comp (by fun_prop : Continuous fun s : ℝ => (z, s))
  have hcs' : Continuous (us z) := hc'.comp (by fun_prop : Continuous fun s : ℝ => (z, s))
  have : ∀ s ∈ Set.uIcc x (x + 2 * π), HasDerivAt (fun s => u z s ^ 2 / 2) (u z s * us z s) s := by
    intro s _
    refine (((h z s).pow 2).div_const 2).congr_deriv ?_
    simp
    ring
  rw [intervalIntegral.integral_eq_sub_of_hasDerivAt this ((hcs.mul hcs').intervalIntegrable _ _), hp, sub_self]

theorem sub_smooth {u uz uzz us u' uz' uzz' us' : ℝ → ℝ → ℝ} (h : Spec.Smooth u uz uzz us) (h' : Spec.Smooth u' uz' uzz' us') :
    Spec.Smooth (fun z s => u z s - u' z s) (fun z s => uz z s - uz' z s) (fun z s => uzz z s - uzz' z s)
      (fun z s => us z s - us' z s) where
  height z s := (h.height z s).sub (h'.height z s)
  height2 z s := (h.height2 z s).sub (h'.height2 z s)
  around z s := (h.around z s).sub (h'.around z s)
  cont := h.cont.sub h'.cont
  contz := h.contz.sub h'.contz
  contzz := h.contzz.sub h'.contzz
  conts := h.conts.sub h'.conts
  periodic z s := by simp only [h.periodic, h'.periodic]

/-- A motion without forcing is no motion. -/
theorem no_motion {k a b c : ℝ} {u uz uzz us v vz vzz vs : ℝ → ℝ → ℝ} (hab : 0 < a * b) (hk : 0 ≤ c)
    (hu : Spec.Smooth u uz uzz us) (hv : Spec.Smooth v vz vzz vs)
    (h1 : ∀ z s, 0 ≤ z → k * us z s - a * v z s = 50 * uzz z s)
    (h2 : ∀ z s, 0 ≤ z → k * vs z s + b * u z s = 50 * vzz z s)
    (h3 : ∀ s, 50 * uz 0 s = c * u 0 s) (h4 : ∀ s, 50 * vz 0 s = 2 * c * v 0 s)
    (h5 : ∀ ε > 0, ∃ h, ∀ z s, h ≤ z → |u z s| < ε ∧ |v z s| < ε) (z s : ℝ) (hz : 0 ≤ z) :
    u z s = 0 ∧ v z s = 0 := by
  have ha : 0 < a ^ 2 := by
    have : a ≠ 0 := by rintro rfl; simp at hab
    positivity
  have sec : ∀ {w : ℝ → ℝ → ℝ}, Continuous (Function.uncurry w) → ∀ z, Continuous (w z) := fun hw z =>
    hw.comp (by fun_prop : Continuous fun s : ℝ => (z, s))
  set y := s + 2 * π with hy
  have hsy : s < y := by rw [hy]; linarith [pi_pos]
  -- the energy, its derivative and its second derivative
  have cu := hu.cont
  have cuz := hu.contz
  have cuzz := hu.contzz
  have cv := hv.cont
  have cvz := hv.contz
  have cvzz := hv.contzz
  have dE : ∀ z, HasDerivAt (fun z => ∫ s in s..y, (a * b * u z s ^ 2 + a ^ 2 * v z s ^ 2))
      (∫ s in s..y, (a * b * (2 * (u z s * uz z s)) + a ^ 2 * (2 * (v z s * vz z s)))) z := by
    refine hasDerivAt_integral (fun z s => ?_) ?_ ?_ s y
    · refine ((((hu.height z s).pow 2).const_mul (a * b)).add (((hv.height z s).pow 2).const_mul (a ^ 2))).congr_deriv ?_
      simp
      ring
    · unfold Function.uncurry at *
      fun_prop
    · unfold Function.uncurry at *
      fun_prop
  have dF : ∀ z, HasDerivAt (fun z => ∫ s in s..y, (a * b * (2 * (u z s * uz z s)) + a ^ 2 * (2 * (v z s * vz z s))))
      (∫ s in s..y, (a * b * (2 * (uz z s * uz z s + u z s * uzz z s)) +
        a ^ 2 * (2 * (vz z s * vz z s + v z s * vzz z s)))) z := by
    refine hasDerivAt_integral (fun z s => ?_) ?_ ?_ s y
    · exact (((((hu.height z s).mul (hu.height2 z s)).const_mul 2).const_mul (a * b)).add
        ((((hv.height z s).mul (hv.height2 z s)).const_mul 2).const_mul (a ^ 2)))
    · unfold Function.uncurry at *
      fun_prop
    · unfold Function.uncurry at *
      fun_prop
  have ddE : ∀ z, 0 ≤ z → 0 ≤ ∫ s in s..y, (a * b * (2 * (uz z s * uz z s + u z s * uzz z s)) +
        a ^ 2 * (2 * (vz z s * vz z s + v z s * vzz z s))) := by
    intro z hz
    have e : ∀ s, (a * b * (2 * (uz z s * uz z s + u z s * uzz z s)) + a ^ 2 * (2 * (vz z s * vz z s + v z s * vzz z s))) =
        2 * (a * b * uz z s ^ 2 + a ^ 2 * vz z s ^ 2) + (a * b * k / 25 * (u z s * us z s) +
          a ^ 2 * k / 25 * (v z s * vs z s)) := by
      intro s
      linear_combination (-(a * b * u z s) / 25) * h1 z s hz - (a ^ 2 * v z s / 25) * h2 z s hz
    simp only [e]
    have c1 := sec cu z
    have c2 := sec cuz z
    have c3 := sec cv z
    have c4 := sec cvz z
    have c5 := sec hu.conts z
    have c6 := sec hv.conts z
    rw [intervalIntegral.integral_add (by apply Continuous.intervalIntegrable; fun_prop)
      (by apply Continuous.intervalIntegrable; fun_prop), intervalIntegral.integral_add (f := fun s => a * b * k / 25 * (u z s * us z s))
      (by apply Continuous.intervalIntegrable; fun_prop) (by apply Continuous.intervalIntegrable; fun_prop),
      intervalIntegral.integral_const_mul (a * b * k / 25), intervalIntegral.integral_const_mul (a ^ 2 * k / 25), hy,
      around_zero hu.around hu.cont hu.conts hu.periodic, around_zero hv.around hv.cont hv.conts hv.periodic]
    simp only [mul_zero, add_zero]
    exact intervalIntegral.integral_nonneg hsy.le fun s _ => by positivity
  have F0 : 0 ≤ ∫ s in s..y, (a * b * (2 * (u 0 s * uz 0 s)) + a ^ 2 * (2 * (v 0 s * vz 0 s))) := by
    refine intervalIntegral.integral_nonneg hsy.le fun s _ => ?_
    have e : a * b * (2 * (u 0 s * uz 0 s)) + a ^ 2 * (2 * (v 0 s * vz 0 s)) =
        c / 25 * (a * b * u 0 s ^ 2) + 2 * c / 25 * (a ^ 2 * v 0 s ^ 2) := by
      linear_combination (a * b * u 0 s / 25) * h3 s + (a ^ 2 * v 0 s / 25) * h4 s
    rw [e]
    positivity
  have mF : MonotoneOn (fun z => ∫ s in s..y, (a * b * (2 * (u z s * uz z s)) + a ^ 2 * (2 * (v z s * vz z s))))
      (Set.Ici 0) := by
    refine monotoneOn_of_deriv_nonneg (convex_Ici 0) (fun z _ => (dF z).continuousAt.continuousWithinAt)
      (fun z _ => (dF z).differentiableAt.differentiableWithinAt) fun z hz => ?_
    rw [(dF z).deriv]
    rw [interior_Ici] at hz
    exact ddE z (le_of_lt hz)
  have mE : MonotoneOn (fun z => ∫ s in s..y, (a * b * u z s ^ 2 + a ^ 2 * v z s ^ 2)) (Set.Ici 0) := by
    refine monotoneOn_of_deriv_nonneg (convex_Ici 0) (fun z _ => (dE z).continuousAt.continuousWithinAt)
      (fun z _ => (dE z).differentiableAt.differentiableWithinAt) fun z hz => ?_
    rw [(dE z).deriv]
    rw [interior_Ici] at hz
    exact le_trans F0 (mF (Set.mem_Ici.2 le_rfl) (Set.mem_Ici.2 (le_of_lt hz)) (le_of_lt hz))
  have hE : ¬ 0 < ∫ s in s..y, (a * b * u z s ^ 2 + a ^ 2 * v z s ^ 2) := by
    intro hpos
    set e := ∫ s in s..y, (a * b * u z s ^ 2 + a ^ 2 * v z s ^ 2) with he
    obtain ⟨δ, hδ, hδ'⟩ : ∃ δ > 0, (a * b * δ ^ 2 + a ^ 2 * δ ^ 2) * (2 * π) < e := by
      have : 0 < (a * b + a ^ 2) * (2 * π) := by positivity
      refine ⟨√(e / (2 * ((a * b + a ^ 2) * (2 * π)))), sqrt_pos.2 (by positivity), ?_⟩
      rw [sq_sqrt (by positivity)]
      have e3 : (a * b + a ^ 2) * (2 * π) * (e / (2 * ((a * b + a ^ 2) * (2 * π)))) = e / 2 := by
        generalize (a * b + a ^ 2) * (2 * π) = M at *
        field_simp
      rw [← add_mul, mul_right_comm, e3]
      linarith
    obtain ⟨h, hh⟩ := h5 δ hδ
    have hm : e ≤ ∫ s in s..y, (a * b * u (max z h) s ^ 2 + a ^ 2 * v (max z h) s ^ 2) :=
      mE (Set.mem_Ici.2 hz) (Set.mem_Ici.2 (le_trans hz (le_max_left _ _))) (le_max_left z h)
    have c1 := sec cu (max z h)
    have c3 := sec cv (max z h)
    have hb : ∫ s in s..y, (a * b * u (max z h) s ^ 2 + a ^ 2 * v (max z h) s ^ 2) ≤
        ∫ s in s..y, (a * b * δ ^ 2 + a ^ 2 * δ ^ 2) := by
      refine intervalIntegral.integral_mono_on hsy.le (by apply Continuous.intervalIntegrable; fun_prop)
        intervalIntegrable_const fun x _ => ?_
      have hx := hh (max z h) x (le_max_right _ _)
      have hx1 : u (max z h) x ^ 2 ≤ δ ^ 2 := sq_le_sq' (by linarith [(abs_lt.1 hx.1).1]) (abs_lt.1 hx.1).2.le
      have hx2 : v (max z h) x ^ 2 ≤ δ ^ 2 := sq_le_sq' (by linarith [(abs_lt.1 hx.2).1]) (abs_lt.1 hx.2).2.le
      exact add_le_add (mul_le_mul_of_nonneg_left hx1 hab.le) (mul_le_mul_of_nonneg_left hx2 ha.le)
    rw [intervalIntegral.integral_const, smul_eq_mul, show y - s = 2 * π by rw [hy]; ring] at hb
    linarith
  by_contra hne
  apply hE
  have c1 := sec cu z
  have c3 := sec cv z
  refine intervalIntegral.integral_pos hsy (by fun_prop) (fun x _ => by positivity)
    ⟨s, ⟨le_rfl, hsy.le⟩, ?_⟩
  rcases not_and_or.1 hne with h | h
  · have : 0 < a * b * u z s ^ 2 := by positivity
    have : 0 ≤ a ^ 2 * v z s ^ 2 := by positivity
    linarith
  · have : 0 < a ^ 2 * v z s ^ 2 := by positivity
    have : 0 ≤ a * b * u z s ^ 2 := by positivity
    linarith

end Tcrm.Boundary
