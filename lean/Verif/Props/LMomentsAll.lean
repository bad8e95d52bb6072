import Verif.Props.LMoments
import Verif.Spec.LMomentsAll
import Mathlib.Data.Nat.Choose.Cast
import Mathlib.Data.Nat.Choose.Basic
/-!
C149: the general routine returns the sample L-moments of every order.
-/
namespace Tcrm.Evd

open Finset

/-- Coefficients of the shifted Legendre polynomials. -/
noncomputable def pc (m k : ℕ) : ℝ := (-1) ^ (m + k) * (m.choose k * (m + k).choose k)

theorem pc_zero {m k : ℕ} (h : m < k) : pc m k = 0 := by
  simp [pc, Nat.choose_eq_zero_of_lt h]

theorem choose_prod (a k : ℕ) : (((a + k).choose k : ℕ) : ℝ) * ((a + k + k).choose k : ℕ) =
    ((a + k + k).factorial : ℝ) / ((k.factorial : ℝ) ^ 2 * (a.factorial : ℝ)) := by
  have h1 : ((a + k).choose k : ℕ) * k.factorial * a.factorial = (a + k).factorial := by
    have := Nat.choose_mul_factorial_mul_factorial (Nat.le_add_left k a)
    rwa [Nat.add_sub_cancel] at this
  have h2 : ((a + k + k).choose k : ℕ) * k.factorial * (a + k).factorial = (a + k + k).factorial := by
    have := Nat.choose_mul_factorial_mul_factorial (Nat.le_add_left k (a + k))
    rwa [Nat.add_sub_cancel] at this
  have hk : (k.factorial : ℝ) ≠ 0 := by exact_mod_cast k.factorial_ne_zero
  have ha : (a.factorial : ℝ) ≠ 0 := by exact_mod_cast a.factorial_ne_zero
  have h1' : (((a + k).choose k : ℕ) : ℝ) * k.factorial * a.factorial = (a + k).factorial := by exact_mod_cast h1
  have h2' : (((a + k + k).choose k : ℕ) : ℝ) * k.factorial * (a + k).factorial = (a + k + k).factorial := by
    exact_mod_cast h2
  rw [eq_div_iff (by positivity), ← h2', ← h1']
  ring

/-- All the coefficients of the recurrence are multiples of one number. -/
theorem pc_common (j k : ℕ) (h : k ≤ j + 2) : ∃ W : ℝ,
    pc (j + 2) k = W * ((j + 2 + k) * (j + 1 + k)) ∧
    pc (j + 1) k = -(W * ((j + 1 + k) * (j + 2 - k))) ∧
    pc j k = W * ((j + 2 - k) * (j + 1 - k)) ∧
    (∀ k', k = k' + 1 → pc (j + 1) k' = W * (k : ℝ) ^ 2) := by
  have hkf : (k.factorial : ℝ) ≠ 0 := by exact_mod_cast k.factorial_ne_zero
  refine ⟨(-1) ^ (j + k) * (((j + k).factorial : ℝ) / ((k.factorial : ℝ) ^ 2 * ((j + 2 - k).factorial : ℝ))), ?_, ?_, ?_, ?_⟩
  · obtain ⟨a, ha⟩ : ∃ a, j + 2 = a + k := ⟨j + 2 - k, by omega⟩
    have e := choose_prod a k
    unfold pc
    rw [ha, e, show a + k - k = a by omega, show a + k + k = j + k + 1 + 1 by omega,
      Nat.factorial_succ, Nat.factorial_succ]
    push_cast
    rw [show (-1 : ℝ) ^ (j + k + 1 + 1) = (-1) ^ (j + k) by rw [pow_succ, pow_succ]; ring]
    ring
  · rcases h.eq_or_lt with rfl | h
    · rw [pc_zero (by omega)]; push_cast; ring
    · obtain ⟨a, ha⟩ : ∃ a, j + 1 = a + k := ⟨j + 1 - k, by omega⟩
      have e := choose_prod a k
      unfold pc
      rw [ha, e, show a + k + k = j + k + 1 by omega, show j + 2 - k = a + 1 by omega,
        Nat.factorial_succ, Nat.factorial_succ, pow_succ]
      have hj : (j : ℝ) = a + k - 1 := by
        have : (j : ℝ) + 1 = a + k := by exact_mod_cast ha
        linarith
      have haf : (a.factorial : ℝ) ≠ 0 := by exact_mod_cast a.factorial_ne_zero
      have ha1 : (a : ℝ) + 1 ≠ 0 := by positivity
      push_cast
      rw [hj]
      field_simp
      ring
  · rcases Nat.lt_or_ge j k with hjk | hjk
    · rw [pc_zero hjk]
      have : k = j + 1 ∨ k = j + 2 := by omega
      rcases this with rfl | rfl <;> push_cast <;> ring
    · obtain ⟨a, ha⟩ : ∃ a, j = a + k := ⟨j - k, by omega⟩
      subst ha
      have e := choose_prod a k
      unfold pc
      rw [e, show a + k + 2 - k = a + 1 + 1 by omega, Nat.factorial_succ, Nat.factorial_succ]
      have haf : (a.factorial : ℝ) ≠ 0 := by exact_mod_cast a.factorial_ne_zero
      have ha1 : (a : ℝ) + 1 ≠ 0 := by positivity
      have ha2 : (a : ℝ) + 1 + 1 ≠ 0 := by positivity
      push_cast
      field_simp
      ring
  · rintro k' rfl
    obtain ⟨a, ha⟩ : ∃ a, j + 1 = a + k' := ⟨j + 1 - k', by omega⟩
    have e := choose_prod a k'
    unfold pc
    rw [ha, e, show a + k' + k' = j + (k' + 1) by omega, show j + 2 - (k' + 1) = a by omega, Nat.factorial_succ]
    have hk' : (k'.factorial : ℝ) ≠ 0 := by exact_mod_cast k'.factorial_ne_zero
    have haf : (a.factorial : ℝ) ≠ 0 := by exact_mod_cast a.factorial_ne_zero
    have : (k' : ℝ) + 1 ≠ 0 := by positivity
    push_cast
    field_simp

/-- Weights of the values in the k-th probability weighted moment. -/
noncomputable def ek (N i k : ℕ) : ℝ := (i.choose k : ℝ) / (N.choose k : ℝ)

theorem ek_step {N i k : ℕ} (hk : k < N) : (i : ℝ) * ek N i k = k * ek N i k + (N - k) * ek N i (k + 1) := by
  unfold ek
  have h1 : ((i.choose (k + 1) : ℕ) : ℝ) * (k + 1) = (i.choose k : ℕ) * ((i : ℝ) - k) := by
    have := Nat.choose_succ_right_eq i k
    rcases Nat.lt_or_ge i k with h | h
    · rw [Nat.choose_eq_zero_of_lt h, Nat.choose_eq_zero_of_lt (by omega)]; simp
    · have h' : (((i - k : ℕ)) : ℝ) = i - k := by push_cast [h]; ring
      rw [← h']; exact_mod_cast this
  have h2 : ((N.choose (k + 1) : ℕ) : ℝ) * (k + 1) = (N.choose k : ℕ) * ((N : ℝ) - k) := by
    have := Nat.choose_succ_right_eq N k
    have h' : (((N - k : ℕ)) : ℝ) = N - k := by push_cast [hk.le]; ring
    rw [← h']; exact_mod_cast this
  have c1 : ((N.choose k : ℕ) : ℝ) ≠ 0 := by exact_mod_cast (Nat.choose_pos hk.le).ne'
  have c2 : ((N.choose (k + 1) : ℕ) : ℝ) ≠ 0 := by exact_mod_cast (Nat.choose_pos hk).ne'
  have hN : (N : ℝ) - k ≠ 0 := by
    have : (k : ℝ) < N := by exact_mod_cast hk
    intro h; linarith
  field_simp
  have hk1 : (k : ℝ) + 1 ≠ 0 := by positivity
  have e : ((i.choose k : ℕ) : ℝ) * ((i : ℝ) - k) * (N.choose (k + 1) : ℕ) * (k + 1) =
      ((N : ℝ) - k) * (i.choose (k + 1) : ℕ) * (N.choose k : ℕ) * (k + 1) := by
    calc _ = ((i.choose k : ℕ) : ℝ) * ((i : ℝ) - k) * (((N.choose (k + 1) : ℕ) : ℝ) * (k + 1)) := by ring
      _ = (((i.choose (k + 1) : ℕ) : ℝ) * (k + 1)) * ((N.choose k : ℕ) * ((N : ℝ) - k)) := by rw [h2, h1]
      _ = _ := by ring
  have e' := mul_right_cancel₀ hk1 e
  linarith

/-- Discrete Legendre polynomials. -/
noncomputable def PL (N m i : ℕ) : ℝ := ∑ k ∈ range (m + 1), pc m k * ek N i k

theorem PL_wide {N m i M : ℕ} (h : m + 1 ≤ M) : PL N m i = ∑ k ∈ range M, pc m k * ek N i k := by
  unfold PL
  refine sum_subset (range_subset_range.2 h) fun k _ hk => ?_
  rw [pc_zero (by simpa using hk), zero_mul]

theorem PL_rec {N i j : ℕ} (h : j + 2 ≤ N) :
    ((j : ℝ) + 2) * (N - (j + 2) + 1) * PL N (j + 2) i =
      (2 * (j + 2) - 1) * (2 * i - N) * PL N (j + 1) i - (j + 1) * (N + (j + 2)) * PL N j i := by
  have h1 : (2 * (i : ℝ) - N) * PL N (j + 1) i =
      ∑ k ∈ range (j + 3), ((2 * k - N) * pc (j + 1) k +
        (if k = 0 then 0 else 2 * (N - k + 1) * pc (j + 1) (k - 1))) * ek N i k := by
    have e1 : (2 * (i : ℝ) - N) * PL N (j + 1) i = ∑ k ∈ range (j + 2), (2 * k - N) * pc (j + 1) k * ek N i k +
        ∑ k ∈ range (j + 2), 2 * (N - k) * pc (j + 1) k * ek N i (k + 1) := by
      unfold PL
      rw [mul_sum, ← sum_add_distrib]
      refine sum_congr rfl fun k hk => ?_
      have hk := mem_range.1 hk
      have := ek_step (N := N) (i := i) (k := k) (by omega)
      linear_combination 2 * pc (j + 1) k * this
    have e2 : ∑ k ∈ range (j + 3), (2 * (k : ℝ) - N) * pc (j + 1) k * ek N i k =
        ∑ k ∈ range (j + 2), (2 * k - N) * pc (j + 1) k * ek N i k := by
      rw [sum_range_succ, pc_zero (by omega)]; simp
    have e3 : ∑ k ∈ range (j + 3), (if k = 0 then 0 else 2 * ((N : ℝ) - k + 1) * pc (j + 1) (k - 1)) * ek N i k =
        ∑ k ∈ range (j + 2), 2 * (N - k) * pc (j + 1) k * ek N i (k + 1) := by
      rw [sum_range_succ']
      simp only [if_pos, zero_mul, add_zero]
      refine sum_congr rfl fun k _ => ?_
      rw [if_neg (by omega), Nat.add_sub_cancel]
      push_cast
      ring
    rw [e1, ← e2, ← e3, ← sum_add_distrib]
    exact sum_congr rfl fun k _ => by ring
  rw [mul_assoc (2 * ((j : ℝ) + 2) - 1), h1, PL_wide (M := j + 3) (by omega : j + 2 + 1 ≤ j + 3),
    PL_wide (m := j) (M := j + 3) (by omega), mul_sum, mul_sum, mul_sum, ← sum_sub_distrib]
  refine sum_congr rfl fun k hk => ?_
  have hk := mem_range.1 hk
  obtain ⟨W, w1, w2, w3, w4⟩ := pc_common j k (by omega)
  rw [w1, w2, w3]
  by_cases h0 : k = 0
  · subst h0
    rw [if_pos rfl]
    push_cast
    ring
  · obtain ⟨k', rfl⟩ : ∃ k', k = k' + 1 := ⟨k - 1, by omega⟩
    rw [if_neg h0, Nat.add_sub_cancel, w4 k' rfl]
    push_cast
    ring

/-- The recurrence of the routine gives these polynomials. -/
theorem legendre_eq (N i : ℕ) : ∀ m, m ≤ N → legendre (N + 1) (2 * (i : ℝ) - N) (m + 1) = PL N m i
  | 0, _ => by simp [legendre, PL, pc, ek]
  | 1, h => by
    have hN : (N : ℝ) ≠ 0 := by exact_mod_cast (by omega : N ≠ 0)
    simp only [legendre, PL, sum_range_succ, range_zero, sum_empty, pc, ek]
    simp
    field_simp
    ring
  | m + 2, h => by
    have i1 := legendre_eq N i (m + 1) (by omega)
    have i0 := legendre_eq N i m (by omega)
    have hr := PL_rec (i := i) h
    have hm : (m : ℝ) + 2 ≠ 0 := by positivity
    have hN : (N : ℝ) - (m + 2) + 1 ≠ 0 := by
      have : (m : ℝ) + 2 ≤ N := by exact_mod_cast h
      intro hc; linarith
    rw [show m + 2 + 1 = m + 3 from rfl]
    simp only [legendre]
    rw [i1, i0]
    have hc : (((m : ℝ) + 3 - 1) * (((N + 1 : ℕ) : ℝ) - ((m : ℝ) + 3) + 1)) = (m + 2) * (N - (m + 2) + 1) := by
      push_cast; ring
    rw [hc]
    have hne := mul_ne_zero hm hN
    apply mul_left_cancel₀ hne
    rw [hr]
    push_cast
    field_simp
    ring

theorem legendre_parity (n : ℕ) (t : ℝ) : ∀ j, legendre n (-t) (j + 1) = (-1) ^ j * legendre n t (j + 1)
  | 0 => by simp [legendre]
  | 1 => by simp [legendre]
  | j + 2 => by
    have i1 := legendre_parity n t (j + 1)
    have i0 := legendre_parity n t j
    rw [show j + 2 + 1 = j + 3 from rfl]
    simp only [legendre]
    rw [i1, i0, pow_succ, pow_succ]
    ring

theorem legendreMid_eq (n : ℕ) : ∀ j, legendreMid n (j + 1) = legendre n 0 (j + 1)
  | 0 => by simp [legendre, legendreMid]
  | 1 => by simp [legendre, legendreMid]
  | j + 2 => by
    have i0 := legendreMid_eq n j
    rw [show j + 2 + 1 = j + 3 from rfl]
    simp only [legendre, legendreMid]
    rw [i0]
    ring

theorem momentSum_all (data : List ℝ) (m : ℕ) (h : m < data.length) :
    momentSum data (m + 1) = ∑ i ∈ range data.length, PL (data.length - 1) m i * data.getD i 0 := by
  obtain ⟨N, hN⟩ : ∃ N, data.length = N + 1 := ⟨data.length - 1, by omega⟩
  rw [momentSum_eq, sum_pairs (fun i => PL (data.length - 1) m i * data.getD i 0) data.length, hN,
    Nat.add_sub_cancel]
  have hN' : (((N + 1 : ℕ)) : ℝ) = N + 1 := by push_cast; ring
  congr 1
  · refine sum_congr rfl fun i hi => ?_
    have hi := mem_range.1 hi
    have t1 : (-(((N + 1 : ℕ)) : ℝ) - 1 + 2 * ((i : ℝ) + 1)) = 2 * i - N := by rw [hN']; ring
    have t2 : 2 * (((N - i : ℕ)) : ℝ) - N = -(2 * (i : ℝ) - N) := by
      have : (((N - i : ℕ)) : ℝ) = N - i := by push_cast [show i ≤ N by omega]; ring
      rw [this]; ring
    rw [t1, ← legendre_eq N i m (by omega), ← legendre_eq N (N - i) m (by omega), t2, legendre_parity]
    by_cases hm : (m + 1) % 2 = 1
    · have hev : Even m := by rw [Nat.even_iff]; omega
      rw [if_pos hm, hev.neg_one_pow]; ring
    · have hod : Odd m := by rw [Nat.odd_iff]; omega
      rw [if_neg hm, hod.neg_one_pow]; ring
  · by_cases ho : N + 1 ≠ (N + 1) / 2 + (N + 1) / 2
    · have t0 : 2 * ((((N + 1) / 2 : ℕ)) : ℝ) - N = 0 := by
        have : 2 * ((N + 1) / 2) = N := by omega
        have : 2 * ((((N + 1) / 2 : ℕ)) : ℝ) = N := by exact_mod_cast this
        linarith
      rw [if_pos ho, ← legendre_eq N ((N + 1) / 2) m (by omega), t0]
      by_cases hm : (m + 1) % 2 = 1
      · rw [if_pos ⟨ho, hm⟩, legendreMid_eq]
      · rw [if_neg (fun hc => hm hc.2)]
        have hod : Odd m := by rw [Nat.odd_iff]; omega
        have := legendre_parity (N + 1) 0 m
        rw [neg_zero, hod.neg_one_pow] at this
        have : legendre (N + 1) 0 (m + 1) = 0 := by linarith
        rw [this, zero_mul]
    · rw [if_neg ho, if_neg (fun hc => ho hc.1)]

theorem sampleL_eq (data : List ℝ) (m : ℕ) (h : m < data.length) :
    sampleL data.length (data.getD · 0) m = momentSum data (m + 1) / data.length := by
  rw [momentSum_all data m h]
  unfold sampleL weightedMoment PL pc ek
  rw [sum_congr rfl fun k _ => (mul_div_assoc _ _ _).symm, ← sum_div]
  congr 1
  rw [sum_congr rfl fun k _ => mul_sum _ _ _, sum_comm]
  refine sum_congr rfl fun i _ => ?_
  rw [sum_mul]
  refine sum_congr rfl fun k _ => ?_
  ring

/-- C149: for four or more moments the routine returns the sample L-moments: the first two, and the ratios
of the others to the second. -/
theorem C149_all_orders {data ms : List ℝ} {nmom : ℕ} (hk : 3 < nmom) (h : samlmu data nmom = .ok (some ms)) :
    ms.length = nmom ∧
    ms[0]? = some (sampleL data.length (data.getD · 0) 0) ∧
    ms[1]? = some (sampleL data.length (data.getD · 0) 1) ∧
    ∀ r, 2 ≤ r → r < nmom → ms[r]? =
      some (sampleL data.length (data.getD · 0) r / sampleL data.length (data.getD · 0) 1) := by
  unfold samlmu at h
  by_cases hl : data.length ≤ 2
  · rw [if_pos hl] at h; cases h
  rw [if_neg hl, if_neg (by omega)] at h
  split at h
  · cases h
  simp only at h
  rw [if_neg (by omega)] at h
  split at h
  · cases h
  rename_i hn
  split at h
  · cases h
  simp only [Except.ok.injEq, Option.some.injEq] at h
  have hne : (data.length : ℝ) ≠ 0 := by exact_mod_cast (by omega : data.length ≠ 0)
  rw [sampleL_eq data 0 (by omega), sampleL_eq data 1 (by omega)]
  subst h
  refine ⟨by simp; omega, by simp, by simp, ?_⟩
  intro r hr hr'
  rw [sampleL_eq data r (by omega), div_div_div_cancel_right₀ hne]
  rw [List.getElem?_append_right (by simpa using hr)]
  simp only [List.length_cons, List.length_nil, Nat.zero_add, List.getElem?_map]
  rw [List.getElem?_range (by omega)]
  simp only [Option.map_some]
  rw [show r - (1 + 1) + 3 = r + 1 by omega]

/-- C149: when a result is returned. -/
theorem C149_when {data : List ℝ} {nmom : ℕ} (hk : 3 < nmom) :
    ((∃ ms, samlmu data nmom = .ok (some ms)) ↔
      2 < data.length ∧ nmom ≤ 100 ∧ nmom ≤ data.length ∧ sampleL data.length (data.getD · 0) 1 ≠ 0) := by
  constructor
  · rintro ⟨ms, h⟩
    unfold samlmu at h
    by_cases hl : data.length ≤ 2
    · rw [if_pos hl] at h; cases h
    rw [if_neg hl, if_neg (by omega)] at h
    split at h
    · cases h
    simp only at h
    rw [if_neg (by omega)] at h
    split at h
    · cases h
    split at h
    · cases h
    rename_i h0
    have hne : (data.length : ℝ) ≠ 0 := by exact_mod_cast (by omega : data.length ≠ 0)
    refine ⟨by omega, by omega, by omega, ?_⟩
    rw [sampleL_eq data 1 (by omega)]
    exact div_ne_zero h0 hne
  · rintro ⟨h2, h3, h4, h5⟩
    rw [sampleL_eq data 1 (by omega)] at h5
    have h6 : momentSum data 2 ≠ 0 := fun e => h5 (by rw [e, zero_div])
    unfold samlmu
    rw [if_neg (by omega), if_neg (by omega), if_neg (by omega)]
    simp only
    rw [if_neg (by omega), if_neg (by omega), if_neg h6]
    exact ⟨_, rfl⟩

/-- C149: the definition by probability weighted moments agrees with the averages over pairs and triples. -/
theorem C149_definitions (data : List ℝ) (h : 2 < data.length) :
    sampleL data.length (data.getD · 0) 0 = sampleL1 data.length (data.getD · 0) ∧
    sampleL data.length (data.getD · 0) 1 = sampleL2 data.length (data.getD · 0) ∧
    sampleL data.length (data.getD · 0) 2 = sampleL3 data.length (data.getD · 0) := by
  rw [sampleL_eq data 0 (by omega), sampleL_eq data 1 (by omega), sampleL_eq data 2 (by omega),
    momentSum_one, momentSum_two, momentSum_three, sampleL2_eq h, sampleL3_eq h]
  exact ⟨rfl, rfl, rfl⟩

/-- The hypotheses hold for four moments of 1, 2, 3, 5. -/
example : ∃ ms, samlmu [1, 2, 3, 5] 4 = .ok (some ms) := by
  rw [C149_when (by norm_num)]
  refine ⟨by simp, by norm_num, by simp, ?_⟩
  rw [(C149_definitions _ (by simp)).2.1, sampleL2_eq (by simp)]
  simp [sum_range_succ, p1]
  norm_num

end Tcrm.Evd
