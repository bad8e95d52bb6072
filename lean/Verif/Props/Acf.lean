import Verif.Lemmas.Acf
/-!
C12: the autoregressive coefficients are well defined.
-/
namespace Tcrm.Acf

/-- The quantity `lag p k` used below is `Σ_{i < n-k} p[i+k]·p[i]`. -/
theorem C12_lag_is_sum (p : List ℝ) (k : ℕ) :
    lag p k = ((List.range (p.length - k)).map fun i => p.getD (i + k) 0 * p.getD i 0).sum := by
  rw [lag]
  congr 1
  apply List.ext_getElem
  · simp
  · intro i h1 h2
    simp only [List.length_zipWith, List.length_drop, lt_inf_iff] at h1
    have h4 : k + i < p.length := by omega
    simp [List.getElem?_eq_getElem h4, List.getElem?_eq_getElem h1.2, Nat.add_comm]

/-- **C12**: `acf p n` is the list of ratios `Σ p[i+k] p[i] / Σ p[i]²` for the lags
`0 … min(n, len p - 1)` — the largest element of the full correlation is always lag zero —
and each ratio lies in `[-1, 1]`. -/
theorem C12_acf_bounds (p : List ℝ) (hp : p ≠ []) (nlags : ℕ) :
    acf p nlags = some ((List.range (min p.length (nlags + 1))).map fun k => lag p k / lag p 0) ∧
    ∀ l, acf p nlags = some l → ∀ x ∈ l, -1 ≤ x ∧ x ≤ 1 := by
  refine ⟨acf_eq p hp nlags, fun l hl x hx => ?_⟩
  rw [acf_eq p hp nlags, Option.some.injEq] at hl
  rw [← hl, List.mem_map] at hx
  obtain ⟨k, -, rfl⟩ := hx
  rw [← abs_le, abs_div]
  have h0 : 0 ≤ lag p 0 := by rw [lag_zero]; exact sq_nonneg' p
  rw [abs_of_nonneg h0]
  exact div_le_one_of_le₀ (lag_abs_le p k) h0

/-- **C12**: for every sample of at least two observations that are not all equal, the lag-one
coefficient is `Σ p[i+1]p[i] / Σ p[i]²`, lies strictly between -1 and 1, and the noise
coefficient is the real number `sqrt(1 - alpha²)` in `(0, 1]` with `alpha² + phi² = 1`. -/
theorem C12_coefficients (p : List ℝ) (hne : ∃ x ∈ p, ∃ y ∈ p, x ≠ y) :
    ∃ alpha phi, coefficients p = some (alpha, phi) ∧ alpha = lag p 1 / lag p 0 ∧
      -1 < alpha ∧ alpha < 1 ∧ 0 < phi ∧ phi ≤ 1 ∧ alpha ^ 2 + phi ^ 2 = 1 := by
  obtain ⟨x, hx, y, hy, hxy⟩ := hne
  have hnz : ∃ x ∈ p, x ≠ 0 := by
    by_cases h : x = 0
    · exact ⟨y, hy, fun h' => hxy (h.trans h'.symm)⟩
    · exact ⟨x, hx, h⟩
  have hp : p ≠ [] := List.ne_nil_of_mem hx
  have hlen : 2 ≤ p.length := by
    rcases p with _ | ⟨a, _ | ⟨b, t⟩⟩
    · simp at hx
    · simp at hx hy; exact absurd (hx.trans hy.symm) hxy
    · simp
  have hlt := lag_one_lt p hnz
  have h0 : 0 < lag p 0 := lt_of_le_of_lt (abs_nonneg _) hlt
  have ha : |lag p 1 / lag p 0| < 1 := by
    rw [abs_div, abs_of_pos h0, div_lt_one h0]; exact hlt
  obtain ⟨ha1, ha2⟩ := abs_lt.1 ha
  have hpos : 0 < 1 - (lag p 1 / lag p 0) ^ 2 := by nlinarith
  refine ⟨lag p 1 / lag p 0, Real.sqrt (1 - (lag p 1 / lag p 0) ^ 2), ?_, rfl, ha1, ha2,
    Real.sqrt_pos.2 hpos, ?_, ?_⟩
  · simp only [coefficients, acf_eq p hp]
    rw [show min p.length (1 + 1) = 2 by omega]
    simp only [show List.range 2 = [0, 1] from rfl, List.map_cons, List.map_nil,
      List.getLast?_cons_cons, List.getLast?_singleton]
    rw [if_neg (not_lt.2 hpos.le)]
  · exact Real.sqrt_le_one.2 (by nlinarith [sq_nonneg (lag p 1 / lag p 0)])
  · rw [Real.sq_sqrt hpos.le]; ring

/-- The sample 3, 1, 2 meets the hypotheses: `alpha = 5/14`. -/
example : ∃ phi, coefficients [3, 1, 2] = some (5 / 14, phi) ∧ 0 < phi := by
  obtain ⟨a, phi, h, ha, -, -, hp, -⟩ := C12_coefficients [3, 1, 2] ⟨3, by simp, 1, by simp, by norm_num⟩
  have : a = 5 / 14 := by rw [ha]; norm_num [lag]
  exact ⟨phi, this ▸ h, hp⟩

end Tcrm.Acf
