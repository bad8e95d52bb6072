import Verif.Model.SizeFit
import Mathlib.Algebra.BigOperators.Group.List.Lemmas
import Mathlib.Algebra.Order.BigOperators.Group.List
import Mathlib.Tactic.Linarith
import Mathlib.Tactic.FieldSimp
import Mathlib.Tactic.Ring
import Mathlib.Tactic.Positivity
/-!
C160: the size of cyclones fitted to observations.
-/
namespace Tcrm.SizeFit

open Real

/-- The observations given as three arrays of the same length -/
def arrays (data : List Obs) : List ℝ × List ℝ × List ℝ :=
  (data.map (·.rmw), data.map (·.dp), data.map (·.lat))

/-- The pressure deficits and latitudes do not determine one another linearly. -/
def Independent (data : List Obs) : Prop :=
  ∀ u v : ℝ, (∀ o ∈ data, u * o.dp + v * |o.lat| = 0) → u = 0 ∧ v = 0

theorem fit_iff (data : List Obs) (res : Option (List ℝ)) :
    FitRmax (data.map (·.rmw)) (data.map (·.dp)) (data.map (·.lat)) res ↔
      ∃ p q, Ols data p q ∧ res = some [p, q, spread (data.map (residual p q))] := by
  have h : ((data.map (·.rmw)).zip ((data.map (·.dp)).zip (data.map (·.lat)))).map
      (fun e => (⟨e.1, e.2.1, e.2.2⟩ : Obs)) = data := by
    induction data with
    | nil => rfl
    | cons o t ih => simp [ih]
  simp [FitRmax, h]

theorem squares_zero {p q : ℝ} {data : List Obs} (h : squares p q data ≤ 0) : ∀ o ∈ data, residual p q o = 0 := by
  intro o ho
  have h1 : residual p q o ^ 2 ≤ squares p q data := by
    apply List.single_le_sum
    · intro x hx
      obtain ⟨o', _, rfl⟩ := List.mem_map.1 hx
      positivity
    · exact List.mem_map.2 ⟨o, ho, rfl⟩
  have : residual p q o ^ 2 = 0 := le_antisymm (h1.trans h) (by positivity)
  exact pow_eq_zero_iff (by norm_num) |>.1 this

/-- The sum of squares along a line -/
theorem squares_line (p q u v : ℝ) (data : List Obs) (t : ℝ) :
    squares (p + t * u) (q + t * v) data = squares p q data -
      2 * t * (data.map fun o => residual p q o * (u * o.dp + v * |o.lat|)).sum +
      t ^ 2 * (data.map fun o => (u * o.dp + v * |o.lat|) ^ 2).sum := by
  induction data with
  | nil => simp [squares]
  | cons o l ih =>
    simp only [squares, List.map_cons, List.sum_cons] at ih ⊢
    rw [ih]
    simp only [residual]
    ring

theorem zero_of_min {A B : ℝ} (hA : 0 ≤ A) (h : ∀ t : ℝ, 0 ≤ -2 * t * B + t ^ 2 * A) : B = 0 := by
  by_contra hB
  have h1 := h (B / (A + 1))
  have hB2 : 0 < B ^ 2 := by positivity
  have e : -2 * (B / (A + 1)) * B + (B / (A + 1)) ^ 2 * A = -(B ^ 2 * (A + 2)) / (A + 1) ^ 2 := by
    field_simp
    ring
  rw [e] at h1
  have : -(B ^ 2 * (A + 2)) / (A + 1) ^ 2 < 0 := by
    apply div_neg_of_neg_of_pos
    · nlinarith
    · positivity
  linarith

/-- The normal equations -/
theorem ols_iff (data : List Obs) (p q : ℝ) : Ols data p q ↔
    (data.map fun o => residual p q o * o.dp).sum = 0 ∧ (data.map fun o => residual p q o * |o.lat|).sum = 0 := by
  have sq : ∀ u v : ℝ, 0 ≤ (data.map fun o => (u * o.dp + v * |o.lat|) ^ 2).sum := fun u v =>
    List.sum_nonneg fun x hx => by
      obtain ⟨o, _, rfl⟩ := List.mem_map.1 hx
      positivity
  constructor
  · intro h
    have key : ∀ u v : ℝ, (data.map fun o => residual p q o * (u * o.dp + v * |o.lat|)).sum = 0 := by
      intro u v
      apply zero_of_min (sq u v)
      intro t
      have := h (p + t * u) (q + t * v)
      rw [squares_line] at this
      linarith
    exact ⟨by simpa using key 1 0, by simpa using key 0 1⟩
  · rintro ⟨h1, h2⟩ p' q'
    have := squares_line p q (p' - p) (q' - q) data 1
    rw [show p + 1 * (p' - p) = p' by ring, show q + 1 * (q' - q) = q' by ring] at this
    have e : (data.map fun o => residual p q o * ((p' - p) * o.dp + (q' - q) * |o.lat|)).sum = 0 := by
      have : (data.map fun o => residual p q o * ((p' - p) * o.dp + (q' - q) * |o.lat|)).sum =
          (p' - p) * (data.map fun o => residual p q o * o.dp).sum +
            (q' - q) * (data.map fun o => residual p q o * |o.lat|).sum := by
        clear h1 h2 sq this
        induction data with
        | nil => simp
        | cons o l ih =>
          simp only [List.map_cons, List.sum_cons]
          rw [ih]
          ring
      rw [this, h1, h2]
      ring
    rw [this, e]
    have := sq (p' - p) (q' - q)
    linarith

/-- C160: arrays of different lengths are refused. -/
theorem C160_lengths (rmw dp lat : List ℝ) (h : ¬ (rmw.length = dp.length ∧ dp.length = lat.length)) (res : Option (List ℝ)) :
    FitRmax rmw dp lat res ↔ res = none := by
  unfold FitRmax
  rw [if_pos]
  by_contra hc
  push Not at hc
  exact h ⟨hc.2, hc.1⟩

/-- C160 (part): sizes that follow the form without a constant are fitted by its two coefficients, and no spread. -/
theorem C160_fit_partial (data : List Obs) (hi : Independent data) (b c : ℝ)
    (hd : ∀ o ∈ data, o.rmw = exp (b * o.dp + c * |o.lat|)) (res : Option (List ℝ)) :
    FitRmax (data.map (·.rmw)) (data.map (·.dp)) (data.map (·.lat)) res ↔ res = some [b, c, 0] := by
  have h0 : ∀ o ∈ data, residual b c o = 0 := by
    intro o ho
    simp [residual, hd o ho]
  have hz : squares b c data = 0 := by
    apply List.sum_eq_zero
    intro x hx
    obtain ⟨o, ho, rfl⟩ := List.mem_map.1 hx
    simp [h0 o ho]
  have hs : spread (data.map (residual b c)) = 0 := by
    have : data.map (residual b c) = List.replicate data.length 0 := by
      rw [List.eq_replicate_iff]
      refine ⟨by simp, fun x hx => ?_⟩
      obtain ⟨o, ho, rfl⟩ := List.mem_map.1 hx
      exact h0 o ho
    simp [spread, mean, this]
  rw [fit_iff]
  constructor
  · rintro ⟨p, q, ho, rfl⟩
    have hp := squares_zero (hz ▸ ho b c)
    have := hi (p - b) (q - c) fun o ho' => by
      have h1 := hp o ho'
      have h2 := h0 o ho'
      simp only [residual] at h1 h2
      linarith
    obtain rfl : p = b := by linarith [this.1]
    obtain rfl : q = c := by linarith [this.2]
    rw [hs]
  · rintro rfl
    refine ⟨b, c, fun p' q' => ?_, by rw [hs]⟩
    rw [hz]
    exact List.sum_nonneg fun x hx => by
      obtain ⟨o, _, rfl⟩ := List.mem_map.1 hx
      positivity

/-- C160 (the failure): there is no constant in the fit. For observations that follow the documented form exactly, with a
constant `a ≠ 0`, a spread is reported although there is none, whatever the coefficients. -/
theorem C160_constant_fails (data : List Obs) (a b c : ℝ) (ha : a ≠ 0) (hd : ∀ o ∈ data, o.rmw = rmax o.dp o.lat 0 [a, b, c])
    (hdp : ∀ o ∈ data, 0 < o.dp) (hne : data ≠ []) (hi : ¬ ∃ u v : ℝ, ∀ o ∈ data, u * o.dp + v * |o.lat| = 1)
    (res : Option (List ℝ)) (hf : FitRmax (data.map (·.rmw)) (data.map (·.dp)) (data.map (·.lat)) res) :
    ∃ p q s, res = some [p, q, s] ∧ 0 < s := by
  obtain ⟨p, q, ho, rfl⟩ := (fit_iff data res).1 hf
  refine ⟨p, q, _, rfl, lt_of_le_of_ne (sqrt_nonneg _) fun h0 => ?_⟩
  set r := data.map (residual p q) with hr
  have hl : (0 : ℝ) < data.length := by
    have := List.length_pos_iff.2 hne
    exact_mod_cast this
  have hsum : ((r.map fun x => (x - mean r) ^ 2).sum) = 0 := by
    have h1 : mean (r.map fun x => (x - mean r) ^ 2) ≤ 0 := by
      have := sqrt_eq_zero'.1 h0.symm
      exact this
    simp only [mean, List.length_map, hr] at h1
    have h2 : 0 ≤ (r.map fun x => (x - mean r) ^ 2).sum := List.sum_nonneg fun x hx => by
      obtain ⟨o, _, rfl⟩ := List.mem_map.1 hx
      positivity
    by_contra hne'
    have h3 : 0 < (r.map fun x => (x - mean r) ^ 2).sum := lt_of_le_of_ne h2 (Ne.symm hne')
    have := div_pos h3 hl
    simp only [mean, hr, List.length_map] at this
    linarith
  have hconst : ∀ o ∈ data, residual p q o = mean r := by
    intro o ho'
    have hmem : (residual p q o - mean r) ^ 2 ∈ r.map fun x => (x - mean r) ^ 2 :=
      List.mem_map.2 ⟨_, List.mem_map.2 ⟨o, ho', rfl⟩, rfl⟩
    have h1 := List.single_le_sum (l := r.map fun x => (x - mean r) ^ 2) (fun x hx => by
      obtain ⟨o, _, rfl⟩ := List.mem_map.1 hx
      positivity) _ hmem
    rw [hsum] at h1
    have : (residual p q o - mean r) ^ 2 = 0 := le_antisymm h1 (by positivity)
    have := pow_eq_zero_iff (two_ne_zero) |>.1 this
    linarith
  have h1 := ((ols_iff data p q).1 ho).1
  have h2 : (data.map fun o => residual p q o * o.dp) = data.map fun o => mean r * o.dp :=
    List.map_congr_left fun o ho' => by rw [hconst o ho']
  have hpos : 0 < (data.map (·.dp)).sum := by
    obtain ⟨o, l, rfl⟩ := List.exists_cons_of_ne_nil hne
    have := hdp o (by simp)
    have h3 : 0 ≤ (l.map (·.dp)).sum := List.sum_nonneg fun x hx => by
      obtain ⟨o', h', rfl⟩ := List.mem_map.1 hx
      exact (hdp o' (by simp [h'])).le
    simp only [List.map_cons, List.sum_cons]
    linarith
  rw [h2, List.sum_map_mul_left] at h1
  have hm : mean r = 0 := by
    rcases mul_eq_zero.1 h1 with h | h
    · exact h
    · exact absurd h hpos.ne'
  apply hi
  refine ⟨(p - b) / a, (q - c) / a, fun o ho' => ?_⟩
  have h3 := hconst o ho'
  rw [hm] at h3
  simp only [residual, hd o ho', rmax, log_exp] at h3
  field_simp
  linarith

/-- C160 (the failure): the result, used as the coefficients of `rmax`, gives other sizes: the coefficients of the
pressure deficit and of the latitude take the places of the constant and of the pressure deficit. Also for observations
that are fitted exactly. -/
theorem C160_coefficients_fails (data : List Obs) (hi : Independent data) (b c : ℝ)
    (hd : ∀ o ∈ data, o.rmw = exp (b * o.dp + c * |o.lat|)) (res : List ℝ)
    (hf : FitRmax (data.map (·.rmw)) (data.map (·.dp)) (data.map (·.lat)) (some res)) (dp lat eps : ℝ) :
    rmax dp lat eps res = exp (b + c * dp + eps) := by
  have := (C160_fit_partial data hi b c hd _).1 hf
  rw [Option.some.inj this]
  simp [rmax]

/-- Two observations, of 10 hPa at the equator and of 20 hPa at 10 degrees -/
def exObs (r : Obs → ℝ) : List Obs :=
  [⟨r ⟨0, 10, 0⟩, 10, 0⟩, ⟨r ⟨0, 20, -10⟩, 20, -10⟩]

theorem ex_independent (r : Obs → ℝ) : Independent (exObs r) := by
  intro u v h
  have h1 := h _ (List.mem_cons_self ..)
  have h2 := h _ (List.mem_cons_of_mem _ (List.mem_cons_self ..))
  norm_num at h1 h2
  subst h1
  norm_num at h2
  exact ⟨rfl, h2⟩

example : FitRmax ((exObs fun o => exp (-0.02 * o.dp + 0.5 * |o.lat|)).map (·.rmw)) [10, 20] [0, -10]
    (some [-0.02, 0.5, 0]) := by
  have := (C160_fit_partial _ (ex_independent fun o => exp (-0.02 * o.dp + 0.5 * |o.lat|)) (-0.02) 0.5
    (by intro o ho; simp [exObs] at ho; rcases ho with rfl | rfl <;> simp) (some [-0.02, 0.5, 0])).2 rfl
  exact this

/-- C160: with a number of coefficients other than three the default ones are used. -/
theorem C160_defaults (dp lat eps : ℝ) (coeffs : List ℝ) (h : coeffs.length ≠ 3) :
    rmax dp lat eps coeffs = rmax dp lat eps := by
  unfold rmax
  split
  · simp at h
  · rfl

/-- Three observations of the same size, by the documented form with the constant 1 alone -/
noncomputable def exConst : List Obs := [⟨exp 1, 10, 10⟩, ⟨exp 1, 20, 10⟩, ⟨exp 1, 10, -20⟩]

example : (∀ o ∈ exConst, o.rmw = rmax o.dp o.lat 0 [1, 0, 0] ∧ 0 < o.dp) ∧
    (¬ ∃ u v : ℝ, ∀ o ∈ exConst, u * o.dp + v * |o.lat| = 1) ∧
    ∃ s, FitRmax (exConst.map (·.rmw)) (exConst.map (·.dp)) (exConst.map (·.lat)) (some [2 / 55, 2 / 55, s]) := by
  refine ⟨?_, ?_, ?_⟩
  · intro o ho
    simp only [exConst, List.mem_cons, List.not_mem_nil, or_false] at ho
    rcases ho with rfl | rfl | rfl <;> simp [rmax]
  · rintro ⟨u, v, h⟩
    have h1 := h ⟨exp 1, 10, 10⟩ (by simp [exConst])
    have h2 := h ⟨exp 1, 20, 10⟩ (by simp [exConst])
    have h3 := h ⟨exp 1, 10, -20⟩ (by simp [exConst])
    norm_num at h1 h2 h3
    linarith
  · refine ⟨_, (fit_iff _ _).2 ⟨2 / 55, 2 / 55, (ols_iff _ _ _).2 ?_, rfl⟩⟩
    constructor <;> simp [exConst, residual] <;> norm_num

end Tcrm.SizeFit
