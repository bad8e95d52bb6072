import Verif.Spec.WindTable
import Verif.Props.Dispatch
import Verif.Props.Units
/-!
C180 — the table of maximum winds.
-/
namespace Tcrm.WindTable
open Tcrm.Dispatch

theorem fill_value (f : Idx → Option (ℝ × ℝ)) (ws : List (Idx × Option (ℝ × ℝ))) (hf : ∀ w ∈ ws, w.2 = f w.1)
    (t : Idx → Option (ℝ × ℝ)) (x : Idx) (hx : t x = f x ∨ x ∈ ws.map Prod.fst) :
    ws.foldl (fun t w => Function.update t w.1 w.2) t x = f x := by
  induction ws generalizing t with
  | nil => simpa using hx
  | cons w ws ih =>
    rw [List.foldl_cons]
    refine ih (fun v hv => hf v (by simp [hv])) _ ?_
    by_cases hw : x = w.1
    · left
      subst hw
      rw [Function.update_self]
      exact hf w (by simp)
    · rcases hx with h | h
      · left
        rw [Function.update_of_ne hw, h]
      · right
        simpa [hw] using h

theorem mem_idx (il ic ip ir iv : ℕ) : (il, ic, ip, ir, iv) ∈ idx ↔
    il < 13 ∧ ic < 19 ∧ ip < 21 ∧ ir < 17 ∧ iv < 11 := by
  have h1 : arangeLen (-30) (-4) 2 = 13 := by decide +kernel
  have h2 : arangeLen 900 991 5 = 19 := by decide +kernel
  have h3 : arangeLen 995 1016 1 = 21 := by decide +kernel
  have h4 : arangeLen 10 91 5 = 17 := by decide +kernel
  have h5 : arangeLen 0 51 5 = 11 := by decide +kernel
  simp only [idx, h1, h2, h3, h4, h5, List.mem_flatMap, List.mem_map, List.mem_range, Prod.mk.injEq]
  constructor
  · rintro ⟨a, ha, b, hb, c, hc, d, hd, e, he, rfl, rfl, rfl, rfl, rfl⟩
    exact ⟨ha, hb, hc, hd, he⟩
  · rintro ⟨ha, hb, hc, hd, he⟩
    exact ⟨il, ha, ic, hb, ip, hc, ir, hd, iv, he, rfl, rfl, rfl, rfl, rfl⟩

theorem idx_length : idx.length = 969969 := by
  have h1 : arangeLen (-30) (-4) 2 = 13 := by decide +kernel
  have h2 : arangeLen 900 991 5 = 19 := by decide +kernel
  have h3 : arangeLen 995 1016 1 = 21 := by decide +kernel
  have h4 : arangeLen 10 91 5 = 17 := by decide +kernel
  have h5 : arangeLen 0 51 5 = 11 := by decide +kernel
  simp [idx, h1, h2, h3, h4, h5, List.length_flatMap]

/-- Whatever the number of processes and the schedule, an entry of the written table is that of its own
combination. -/
theorem written_entry {wind : Wind} {n : ℕ} {t : Idx → Option (ℝ × ℝ)} (h : Written wind n t) (x : Idx)
    (hx : x ∈ idx) : t x = entry wind x := by
  rcases h with ⟨-, rfl⟩ | ⟨hn, k, s, hr, hd, rfl⟩
  · refine fill_value _ _ ?_ _ _ (Or.inr ?_)
    · simp only [List.mem_map]
      rintro w ⟨y, -, rfl⟩
      rfl
    · simpa [List.map_map, Function.comp_def] using hx
  · obtain ⟨-, -, hp⟩ := C02_database_runs hn idx (entry wind) k s hr
    have hp := hp hd
    refine fill_value _ _ ?_ _ _ (Or.inr ?_)
    · intro w hw
      rw [hp.mem_iff] at hw
      simp only [serial, List.mem_map] at hw
      obtain ⟨y, -, rfl⟩ := hw
      rfl
    · rw [(hp.map Prod.fst).mem_iff]
      simpa [serial, List.map_map, Function.comp_def] using hx

theorem npMax_some (l : List ℝ) (h : l ≠ []) : ∃ m, npMax l = some m ∧ m ∈ l ∧ ∀ x ∈ l, x ≤ m := by
  cases l with
  | nil => exact absurd rfl h
  | cons a l =>
    refine ⟨_, rfl, ?_⟩
    clear h
    induction l generalizing a with
    | nil => simp
    | cons b l ih =>
      obtain ⟨h1, h2⟩ := ih (max a b)
      simp only [List.foldl_cons]
      constructor
      · rcases List.mem_cons.1 h1 with h | h
        · rcases max_choice a b with e | e
          · rw [h, e]; simp
          · rw [h, e]; simp
        · simp [h]
      · intro x hx
        have h0 := h2 (max a b) (by simp)
        rcases List.mem_cons.1 hx with rfl | hx
        · exact le_trans (le_max_left _ _) h0
        · rcases List.mem_cons.1 hx with rfl | hx
          · exact le_trans (le_max_right _ _) h0
          · exact h2 x (by simp [hx])

theorem kmh (x : ℝ) : Units.convert x "kmh" "mps" = 0.2777778 * x := by
  have h : Units.lookup "kph" "mps" = some (0.2777778, 0) := by decide +kernel
  unfold Units.convert
  rw [if_neg (by decide), show Units.standardName "kmh" = "kph" by decide]
  rw [show Units.pre "kph" "mps" = 0 by decide +kernel, show Units.post "kph" "mps" = 0 by decide +kernel]
  simp only [Units.scale, h]
  push_cast
  rw [zpow_zero]
  ring

theorem theta70 : Angles.bearing2theta (Real.pi * 70 / 180) = 20 * Real.pi / 180 := by
  have hp := Real.pi_pos
  unfold Angles.bearing2theta Angles.mod2pi
  have h : ⌊(Real.pi / 2 - Real.pi * 70 / 180) / (2 * Real.pi)⌋ = 0 := by
    rw [Int.floor_eq_zero_iff]
    constructor
    · apply div_nonneg <;> nlinarith
    · rw [div_lt_one (by positivity)]
      nlinarith
  rw [h]
  push_cast
  ring

theorem calculate_eq (wind : Wind) (il ic ip ir iv : ℕ) :
    calculateWindField wind (arangeItem (-30) 2 il) (arangeItem 995 1 ip) (arangeItem 900 5 ic)
      (arangeItem 10 5 ir) (arangeItem 0 5 iv) 70 =
    ((cyclone wind il ic ip ir iv).1,
      (cyclone wind il ic ip ir iv).2.map fun u => 1.268 * Real.sqrt (u.1 ^ 2 + u.2 ^ 2)) := by
  have hP (x : ℝ) : Units.convert x "hPa" "Pa" = 100 * x := by
    rw [Units.convert_of (f := (100, 0)) (by decide) (by decide) (by decide +kernel)]
    rw [show Units.pre "hPa" "Pa" = 0 by decide +kernel, show Units.post "hPa" "Pa" = 0 by decide +kernel]
    push_cast
    rw [zpow_zero]
    ring
  have hK (x : ℝ) : Units.convert x "km" "m" = 1000 * x := by
    rw [Units.convert_of (f := (1000, 0)) (by decide) (by decide) (by decide +kernel)]
    rw [show Units.pre "km" "m" = 0 by decide +kernel, show Units.post "km" "m" = 0 by decide +kernel]
    push_cast
    rw [zpow_zero]
    ring
  have e1 : arangeItem (-30) 2 il = -30 + 2 * il := by unfold arangeItem; push_cast; ring
  have e2 : arangeItem 995 1 ip = 995 + ip := by unfold arangeItem; push_cast; ring
  have e3 : arangeItem 900 5 ic = 900 + 5 * ic := by unfold arangeItem; push_cast; ring
  have e4 : arangeItem 10 5 ir = 10 + 5 * ir := by unfold arangeItem; push_cast; ring
  have e5 : arangeItem 0 5 iv = 5 * iv := by unfold arangeItem; push_cast; ring
  unfold calculateWindField cyclone
  simp only [hP, hK, kmh, theta70, e1, e2, e3, e4, e5]
  congr 1
  apply List.map_congr_left
  intro u _
  rw [mul_comm, ← pow_two, ← pow_two]

/-- C180: whatever the number of processes and the order in which results arrive, every entry of the two
tables written is the largest gradient level speed and the largest gust of the cyclone at its own
coordinates. -/
theorem C180_entries {wind : Wind} {n : ℕ} {t : Idx → Option (ℝ × ℝ)} (h : Written wind n t)
    {il ic ip ir iv : ℕ} (h1 : il < 13) (h2 : ic < 19) (h3 : ip < 21) (h4 : ir < 17) (h5 : iv < 11)
    (hg : (cyclone wind il ic ip ir iv).1 ≠ []) (hs : (cyclone wind il ic ip ir iv).2 ≠ []) :
    ∃ g s : ℝ, t (il, ic, ip, ir, iv) = some (g, s) ∧ LargestAbs (cyclone wind il ic ip ir iv).1 g ∧
      LargestGust (cyclone wind il ic ip ir iv).2 s := by
  rw [written_entry h _ ((mem_idx il ic ip ir iv).2 ⟨h1, h2, h3, h4, h5⟩)]
  obtain ⟨g, hg1, hg2, hg3⟩ := npMax_some ((cyclone wind il ic ip ir iv).1.map fun v => |v|) (by simpa using hg)
  obtain ⟨s, hs1, hs2, hs3⟩ := npMax_some
    ((cyclone wind il ic ip ir iv).2.map fun u => 1.268 * Real.sqrt (u.1 ^ 2 + u.2 ^ 2)) (by simpa using hs)
  refine ⟨g, s, ?_, ⟨?_, ?_⟩, ⟨?_, ?_⟩⟩
  · simp only [entry, calculate_eq, hg1, hs1]
  · obtain ⟨v, hv, e⟩ := List.mem_map.1 hg2
    exact ⟨v, hv, e.symm⟩
  · rintro x ⟨v, hv, rfl⟩
    exact hg3 _ (List.mem_map.2 ⟨v, hv, rfl⟩)
  · obtain ⟨v, hv, e⟩ := List.mem_map.1 hs2
    exact ⟨v, hv, e.symm⟩
  · rintro x ⟨v, hv, rfl⟩
    exact hs3 _ (List.mem_map.2 ⟨v, hv, rfl⟩)

/-- Every run with workers ends: it has a bounded number of actions, it is never stuck before everybody
has finished, and when the master is done it has received the 969969 combinations, each once. -/
theorem C180_run {wind : Wind} {n : ℕ} (hn : 0 < n) {k : ℕ} {s : State Idx (Option (ℝ × ℝ)) n}
    (h : ReachIn tags idx (entry wind) k s) :
    k ≤ 4849847 + 2 * n ∧ (Finished s ∨ ∃ s', Step tags idx (entry wind) s s') ∧
    (s.phase = .done → s.written.length = 969969 ∧ (s.written.map Prod.fst).Perm idx) := by
  obtain ⟨a, b, c⟩ := C02_database_runs hn idx (entry wind) k s h
  rw [idx_length] at a
  refine ⟨by omega, b, fun hd => ?_⟩
  have := (c hd).map Prod.fst
  simp only [serial, List.map_map, Function.comp_def, List.map_id'] at this
  refine ⟨?_, this⟩
  rw [← idx_length, ← this.length_eq, List.length_map]

/-- Every number of processes writes the same tables. -/
theorem C180_same {wind : Wind} {m n : ℕ} {t u : Idx → Option (ℝ × ℝ)} (ht : Written wind m t)
    (hu : Written wind n u) {il ic ip ir iv : ℕ} (h1 : il < 13) (h2 : ic < 19) (h3 : ip < 21) (h4 : ir < 17)
    (h5 : iv < 11) : t (il, ic, ip, ir, iv) = u (il, ic, ip, ir, iv) := by
  have := (mem_idx il ic ip ir iv).2 ⟨h1, h2, h3, h4, h5⟩
  rw [written_entry ht _ this, written_entry hu _ this]

/-- No position beside these is ever filled, and all combinations have a pressure deficit of at least
5 hPa (the profiles refuse or give no wind otherwise). -/
theorem C180_axes (il ic ip ir iv : ℕ) : ((il, ic, ip, ir, iv) ∈ idx ↔
      il < 13 ∧ ic < 19 ∧ ip < 21 ∧ ir < 17 ∧ iv < 11) ∧
    ((il, ic, ip, ir, iv) ∈ idx → arangeItem 900 5 ic + 5 ≤ arangeItem 995 1 ip ∧
      -30 ≤ arangeItem (-30) 2 il ∧ arangeItem (-30) 2 il ≤ -6 ∧ 10 ≤ arangeItem 10 5 ir ∧
      arangeItem 10 5 ir ≤ 90 ∧ 0 ≤ arangeItem 0 5 iv ∧ arangeItem 0 5 iv ≤ 50) := by
  refine ⟨mem_idx .., fun h => ?_⟩
  obtain ⟨h1, h2, h3, h4, h5⟩ := (mem_idx ..).1 h
  unfold arangeItem
  have c1 : (il : ℝ) ≤ 12 := by exact_mod_cast (by omega : il ≤ 12)
  have c2 : (ic : ℝ) ≤ 18 := by exact_mod_cast (by omega : ic ≤ 18)
  have c4 : (ir : ℝ) ≤ 16 := by exact_mod_cast (by omega : ir ≤ 16)
  have c5 : (iv : ℝ) ≤ 10 := by exact_mod_cast (by omega : iv ≤ 10)
  have p1 : (0 : ℝ) ≤ il := by positivity
  have p3 : (0 : ℝ) ≤ ip := by positivity
  have p4 : (0 : ℝ) ≤ ir := by positivity
  have p5 : (0 : ℝ) ≤ iv := by positivity
  push_cast
  refine ⟨by linarith, by linarith, by linarith, by linarith, by linarith, by linarith, by linarith⟩

/-- A wind of two points, on one process: the entry in the middle of the table. -/
example : ∃ t, Written (fun _ pe pc _ v _ => ([(pc - pe) / 100, 3], [(v, 0), (3, 4)])) 0 t ∧
    t (6, 18, 0, 4, 0) = some (5, 1.268 * 5) := by
  refine ⟨_, Or.inl ⟨rfl, rfl⟩, ?_⟩
  rw [written_entry (Or.inl ⟨rfl, rfl⟩) _ ((mem_idx ..).2 (by omega))]
  have hs : Real.sqrt (3 ^ 2 + 4 ^ 2) = 5 := by
    rw [show (3 : ℝ) ^ 2 + 4 ^ 2 = 5 ^ 2 by norm_num]
    exact Real.sqrt_sq (by norm_num)
  simp only [entry, calculate_eq, cyclone]
  norm_num [npMax]
  rw [show (25 : ℝ) = 5 ^ 2 by norm_num, Real.sqrt_sq (by norm_num)]
  norm_num

end Tcrm.WindTable
