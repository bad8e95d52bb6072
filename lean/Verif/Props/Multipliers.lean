import Verif.Model.Multipliers
import Verif.Spec.Compass
import Verif.Props.Angles
import Mathlib.Tactic.IntervalCases
import Mathlib.Tactic.Linarith
import Mathlib.Tactic.Positivity
import Mathlib.Tactic.FieldSimp
import Mathlib.Algebra.BigOperators.Fin
import Mathlib.Data.List.Perm.Basic
/-!
C50: segments and worker threads. C51: choice of the directional multiplier. C79: placement of the regional wind.
-/
namespace Tcrm.Multipliers
open Real Spec

/-- C51: the bearing is the direction the wind comes from, at least 0 and below 360 degrees. -/
theorem C51_bearing (u v : ℝ) :
    0 ≤ calculateBearing u v ∧ calculateBearing u v < 360 ∧
      √(u ^ 2 + v ^ 2) * sin (calculateBearing u v * π / 180) = -u ∧
      √(u ^ 2 + v ^ 2) * cos (calculateBearing u v * π / 180) = -v := by
  obtain ⟨-, -, h1, h2⟩ := Angles.C44_range (Complex.arg ⟨-u, -v⟩)
  obtain ⟨-, -, h3, h4⟩ := Angles.C44_direction (Complex.arg ⟨-u, -v⟩)
  have e : calculateBearing u v = 180 / π * Angles.theta2bearing (Complex.arg ⟨-u, -v⟩) := rfl
  have hp := pi_pos
  have er : calculateBearing u v * π / 180 = Angles.theta2bearing (Complex.arg ⟨-u, -v⟩) := by
    rw [e]; field_simp
  have n : √(u ^ 2 + v ^ 2) = ‖(⟨-u, -v⟩ : ℂ)‖ := by
    rw [Complex.norm_def, Complex.normSq_mk]; congr 1; ring
  refine ⟨by rw [e]; positivity, ?_, ?_, ?_⟩
  · rw [e]
    calc _ < 180 / π * (2 * π) := by gcongr
      _ = 360 := by field_simp; norm_num
  · rw [er, n, h3, Complex.norm_mul_cos_arg]
  · rw [er, n, h4, Complex.norm_mul_sin_arg]

theorem localWind_eq (wind b : ℝ) (m4 : ℕ → ℝ) : localWind wind b m4 =
    if 337.5 ≤ b ∧ b < 360 then wind * m4 8 else if 292.5 ≤ b ∧ b < 337.5 then wind * m4 7
    else if 247.5 ≤ b ∧ b < 292.5 then wind * m4 6 else if 202.5 ≤ b ∧ b < 247.5 then wind * m4 5
    else if 157.5 ≤ b ∧ b < 202.5 then wind * m4 4 else if 112.5 ≤ b ∧ b < 157.5 then wind * m4 3
    else if 67.5 ≤ b ∧ b < 112.5 then wind * m4 2 else if 22.5 ≤ b ∧ b < 67.5 then wind * m4 1
    else if 0 ≤ b ∧ b < 22.5 then wind * m4 0 else 0 := by
  unfold localWind indices
  simp only [List.zipIdx_cons, List.zipIdx_nil, List.foldl_cons, List.foldl_nil]
  norm_num

theorem nearest_iff (c : ℚ) (b : ℝ) (h0 : 0 ≤ b) (h1 : b < 360) (c0 : 0 ≤ c) (c1 : c ≤ 315) :
    Nearest c b ↔ (c - 22.5 ≤ b ∧ b < c + 22.5) ∨ c + 337.5 ≤ b := by
  have c0' : (0 : ℝ) ≤ c := by exact_mod_cast c0
  have c1' : (c : ℝ) ≤ 315 := by exact_mod_cast c1
  constructor
  · rintro ⟨m, a1, a2⟩
    have m0 : -1 < m := by
      have : (-1 : ℝ) < m := by by_contra hn; push Not at hn; linarith
      exact_mod_cast this
    have m1 : m < 2 := by
      have : (m : ℝ) < 2 := by by_contra hn; push Not at hn; linarith
      exact_mod_cast this
    rcases (by lia : m = 0 ∨ m = 1) with rfl | rfl
    · left; push_cast at a1 a2; constructor <;> linarith
    · right; push_cast at a1 a2; linarith
  · rintro (⟨a1, a2⟩ | a1)
    · exact ⟨0, by push_cast; linarith, by push_cast; linarith⟩
    · exact ⟨1, by push_cast; linarith, by push_cast; linarith⟩

/-- C51: every bearing from 0 to below 360 is nearest to exactly one of the eight directions. -/
theorem C51_unique (b : ℝ) (h0 : 0 ≤ b) (h1 : b < 360) : ∃! e, e ∈ compass ∧ Nearest e.2 b := by
  have ex : ∃ e ∈ compass, Nearest e.2 b := by
    have key (e : String × ℚ) (he : e ∈ compass) (c0 : 0 ≤ e.2) (c1 : e.2 ≤ 315)
        (h : (e.2 - 22.5 ≤ b ∧ b < e.2 + 22.5) ∨ e.2 + 337.5 ≤ b) : ∃ e ∈ compass, Nearest e.2 b :=
      ⟨e, he, (nearest_iff _ b h0 h1 c0 c1).2 h⟩
    by_cases a : b < 22.5
    · exact key ("n", 0) (by decide) (by norm_num) (by norm_num) (Or.inl (by norm_num; constructor <;> linarith))
    by_cases a1 : b < 67.5
    · exact key ("ne", 45) (by decide) (by norm_num) (by norm_num) (Or.inl (by norm_num; constructor <;> linarith))
    by_cases a2 : b < 112.5
    · exact key ("e", 90) (by decide) (by norm_num) (by norm_num) (Or.inl (by norm_num; constructor <;> linarith))
    by_cases a3 : b < 157.5
    · exact key ("se", 135) (by decide) (by norm_num) (by norm_num) (Or.inl (by norm_num; constructor <;> linarith))
    by_cases a4 : b < 202.5
    · exact key ("s", 180) (by decide) (by norm_num) (by norm_num) (Or.inl (by norm_num; constructor <;> linarith))
    by_cases a5 : b < 247.5
    · exact key ("sw", 225) (by decide) (by norm_num) (by norm_num) (Or.inl (by norm_num; constructor <;> linarith))
    by_cases a6 : b < 292.5
    · exact key ("w", 270) (by decide) (by norm_num) (by norm_num) (Or.inl (by norm_num; constructor <;> linarith))
    by_cases a7 : b < 337.5
    · exact key ("nw", 315) (by decide) (by norm_num) (by norm_num) (Or.inl (by norm_num; constructor <;> linarith))
    · exact key ("n", 0) (by decide) (by norm_num) (by norm_num) (Or.inr (by norm_num; linarith))
  obtain ⟨e, he, hn⟩ := ex
  refine ⟨e, ⟨he, hn⟩, ?_⟩
  rintro e' ⟨he', hn'⟩
  have bd : ∀ e ∈ compass, 0 ≤ e.2 ∧ e.2 ≤ 315 := by decide
  rw [nearest_iff _ b h0 h1 (bd _ he).1 (bd _ he).2] at hn
  rw [nearest_iff _ b h0 h1 (bd _ he').1 (bd _ he').2] at hn'
  have sep : ∀ e ∈ compass, ∀ e' ∈ compass, e.2 - e'.2 < 45 → e'.2 - e.2 < 45 → e' = e := by decide +kernel
  have far : ∀ e ∈ compass, e.2 < 45 → e = ("n", 0) := by decide +kernel
  rcases hn with ⟨a1, a2⟩ | a1 <;> rcases hn' with ⟨b1, b2⟩ | b1
  · refine sep e he e' he' ?_ ?_
    · have : (e.2 : ℝ) - e'.2 < 45 := by linarith
      exact_mod_cast this
    · have : (e'.2 : ℝ) - e.2 < 45 := by linarith
      exact_mod_cast this
  · have : (315 : ℝ) < e.2 := by
      have : (0 : ℝ) ≤ e'.2 := by exact_mod_cast (bd _ he').1
      linarith
    have h315 : (e.2 : ℝ) ≤ 315 := by exact_mod_cast (bd _ he).2
    linarith
  · have : (315 : ℝ) < e'.2 := by
      have : (0 : ℝ) ≤ e.2 := by exact_mod_cast (bd _ he).1
      linarith
    have h315 : (e'.2 : ℝ) ≤ 315 := by exact_mod_cast (bd _ he').2
    linarith
  · refine sep e he e' he' ?_ ?_
    · have : (e.2 : ℝ) - e'.2 < 45 := by
        have : (0 : ℝ) ≤ e'.2 := by exact_mod_cast (bd _ he').1
        linarith
      exact_mod_cast this
    · have : (e'.2 : ℝ) - e.2 < 45 := by
        have : (0 : ℝ) ≤ e.2 := by exact_mod_cast (bd _ he).1
        linarith
      exact_mod_cast this

/-- C51: the multiplier of the direction nearest to the bearing is applied. -/
theorem C51_selects (wind b : ℝ) (files : String → ℝ) (h0 : 0 ≤ b) (h1 : b < 360) (e : String × ℚ) (he : e ∈ compass)
    (hn : Nearest e.2 b) : localWind wind b (fromFiles files) = wind * files e.1 := by
  have bd : ∀ e ∈ compass, 0 ≤ e.2 ∧ e.2 ≤ 315 := by decide
  rw [nearest_iff _ b h0 h1 (bd _ he).1 (bd _ he).2] at hn
  simp only [compass, List.mem_cons, List.not_mem_nil, or_false] at he
  rcases he with rfl | rfl | rfl | rfl | rfl | rfl | rfl | rfl <;> norm_num at hn ⊢ <;>
    rcases hn with ⟨a1, a2⟩ | a1 <;> first
      | (exfalso; linarith)
      | (rw [localWind_eq]
         repeat first | rw [if_pos ⟨by linarith, by linarith⟩] | rw [if_neg (fun h => by linarith [h.1, h.2])]
         rfl)

/-- C51: the four ways to give the multipliers agree: a file or a band for each direction, the bands being in the
documented order, processed as a whole or by segments. -/
theorem C51_bands (wind b : ℝ) (files : String → ℝ) (bands : ℕ → ℝ)
    (h : ∀ (k : ℕ) (d : String), dirns[k]? = some d → bands (k + 1) = files d) :
    localWind wind b (fromBands bands) = localWind wind b (fromFiles files) ∧
    localWind wind b (fromList (listedFiles files)) = localWind wind b (fromFiles files) ∧
    localWind wind b (fromList (listedBands bands)) = localWind wind b (fromFiles files) := by
  have k (i : ℕ) (hi : i < 9) : fromBands bands i = fromFiles files i ∧
      fromList (listedFiles files) i = fromFiles files i ∧ fromList (listedBands bands) i = fromFiles files i := by
    have := h 0 _ rfl
    have := h 1 _ rfl
    have := h 2 _ rfl
    have := h 3 _ rfl
    have := h 4 _ rfl
    have := h 5 _ rfl
    have := h 6 _ rfl
    have := h 7 _ rfl
    interval_cases i <;> refine ⟨?_, rfl, ?_⟩ <;> assumption
  refine ⟨?_, ?_, ?_⟩ <;> simp only [localWind_eq, k 0 (by decide), k 1 (by decide), k 2 (by decide), k 3 (by decide),
    k 4 (by decide), k 5 (by decide), k 6 (by decide), k 7 (by decide), k 8 (by decide)]

/-- C80: where the multipliers are missing the regional wind is passed on unchanged, and multipliers that are not
missing are used as they are. -/
theorem C80_filled (wind b x : ℝ) (hb : 0 ≤ b) (hb' : b < 360) (nodata : Option ℝ) (m4 : ℕ → ℝ) :
    localWind wind b (fun _ => fill (some x) x) = wind ∧
    ((∀ i, nodata ≠ some (m4 i)) → localWind wind b (fun i => fill nodata (m4 i)) = localWind wind b m4) := by
  constructor
  · simp only [localWind_eq, fill, if_true, mul_one]
    rcases lt_or_ge b 337.5 with h8 | h8
    · rcases lt_or_ge b 292.5 with h7 | h7
      · rcases lt_or_ge b 247.5 with h6 | h6
        · rcases lt_or_ge b 202.5 with h5 | h5
          · rcases lt_or_ge b 157.5 with h4 | h4
            · rcases lt_or_ge b 112.5 with h3 | h3
              · rcases lt_or_ge b 67.5 with h2 | h2
                · rcases lt_or_ge b 22.5 with h1 | h1
                  · simp [*, not_le.2]
                  · simp [*, not_le.2]
                · simp [*, not_le.2]
              · simp [*, not_le.2]
            · simp [*, not_le.2]
          · simp [*, not_le.2]
        · simp [*, not_le.2]
      · simp [*, not_le.2]
    · simp [*]
  · intro h
    congr 1
    funext i
    simp [fill, h i]

example : ∀ i, some (-9999 : ℝ) ≠ some ((fun _ : ℕ => (1 : ℝ)) i) := by intro i; simp; norm_num

/-- C51 fails for a bearing of 360, to which a bearing just below it is rounded in the single precision of the
raster: no multiplier is applied, and the local wind is 0. -/
theorem C51_rounded_fails (wind : ℝ) (m4 : ℕ → ℝ) : localWind wind 360 m4 = 0 := by
  rw [localWind_eq]; norm_num

example : (0 : ℝ) ≤ 350 ∧ (350 : ℝ) < 360 ∧ ("n", 0) ∈ compass ∧ Nearest 0 350 :=
  ⟨by norm_num, by norm_num, by decide, 1, by norm_num, by norm_num⟩

/-- The pixel in column `x` and row `y` lies in the segment. -/
def Inside (s : Seg) (x y : ℕ) : Prop := s.x ≤ x ∧ x < s.x + s.width ∧ s.y ≤ y ∧ y < s.y + s.height

instance (s : Seg) (x y : ℕ) : Decidable (Inside s x y) := by unfold Inside; infer_instance

theorem mem_steps {n k a : ℕ} (hk : 0 < k) : a ∈ steps n k ↔ ∃ i, a = i * k ∧ a < n := by
  unfold steps
  simp only [List.mem_map, List.mem_range]
  constructor
  · rintro ⟨i, hi, rfl⟩
    refine ⟨i, rfl, ?_⟩
    have h1 : i + 1 ≤ (n + k - 1) / k := hi
    have := (Nat.le_div_iff_mul_le hk).1 h1
    rw [Nat.add_mul] at this
    lia
  · rintro ⟨i, rfl, h⟩
    refine ⟨i, ?_, rfl⟩
    have : i + 1 ≤ (n + k - 1) / k := by
      rw [Nat.le_div_iff_mul_le hk, Nat.add_mul]
      lia
    lia

theorem mem_segments {cols rows size : ℕ} {s : Seg} (h : 0 < size) : s ∈ segments cols rows size ↔
    ∃ i j, s = ⟨i * size, j * size, if i * size + size > cols then cols - i * size else size,
      if j * size + size > rows then rows - j * size else size⟩ ∧ i * size < cols ∧ j * size < rows := by
  unfold segments
  simp only [List.mem_flatMap, List.mem_map, mem_steps h]
  constructor
  · rintro ⟨y, ⟨j, rfl, hj⟩, x, ⟨i, rfl, hi⟩, rfl⟩
    exact ⟨i, j, rfl, hi, hj⟩
  · rintro ⟨i, j, rfl, hi, hj⟩
    exact ⟨_, ⟨j, rfl, hj⟩, _, ⟨i, rfl, hi⟩, rfl⟩

/-- C50: segments lie in the raster and are not empty. -/
theorem C50_inside (cols rows size : ℕ) (h : 0 < size) (s : Seg) (hs : s ∈ segments cols rows size) :
    s.x + s.width ≤ cols ∧ s.y + s.height ≤ rows ∧ 0 < s.width ∧ 0 < s.height := by
  obtain ⟨i, j, rfl, hi, hj⟩ := (mem_segments h).1 hs
  simp only
  split_ifs <;> lia

/-- C50: every pixel of the raster lies in exactly one segment. -/
theorem C50_cover (cols rows size : ℕ) (h : 0 < size) (x y : ℕ) (hx : x < cols) (hy : y < rows) :
    ∃! s, s ∈ segments cols rows size ∧ Inside s x y := by
  have dx := Nat.div_mul_le_self x size
  have dy := Nat.div_mul_le_self y size
  have lx := Nat.lt_div_mul_add h (a := x)
  have ly := Nat.lt_div_mul_add h (a := y)
  refine ⟨⟨x / size * size, y / size * size, if x / size * size + size > cols then cols - x / size * size else size,
      if y / size * size + size > rows then rows - y / size * size else size⟩,
    ⟨(mem_segments h).2 ⟨x / size, y / size, rfl, by lia, by lia⟩, ?_⟩, ?_⟩
  · unfold Inside
    simp only
    split_ifs <;> lia
  · rintro s ⟨hs, a1, a2, a3, a4⟩
    obtain ⟨i, j, rfl, hi, hj⟩ := (mem_segments h).1 hs
    simp only at a1 a2 a3 a4
    have ei : i = x / size := by
      symm
      rw [Nat.div_eq_iff h]
      split_ifs at a2 <;> lia
    have ej : j = y / size := by
      symm
      rw [Nat.div_eq_iff h]
      split_ifs at a4 <;> lia
    rw [ei, ej]

theorem steps_length (n k : ℕ) : (steps n k).length = (n + k - 1) / k := by simp [steps]

theorem steps_nodup (n k : ℕ) (h : 0 < k) : (steps n k).Nodup := by
  unfold steps
  refine List.Nodup.map ?_ List.nodup_range
  intro a b e
  exact Nat.eq_of_mul_eq_mul_right h e

/-- C50: there are as many segments as announced, so that queueing them does not block, and none is queued twice. -/
theorem C50_count (cols rows size : ℕ) (h : 0 < size) :
    (segments cols rows size).length = totalSegments cols rows size ∧ (segments cols rows size).Nodup := by
  constructor
  · unfold segments totalSegments
    rw [List.length_flatMap]
    simp only [List.length_map, steps_length, List.map_const', List.sum_replicate, smul_eq_mul]
    exact Nat.mul_comm _ _
  · unfold segments
    rw [List.nodup_flatMap]
    refine ⟨fun y _ => List.Nodup.map (fun a b e => by simpa using congrArg Seg.x e) (steps_nodup _ _ h), ?_⟩
    refine List.Nodup.pairwise_of_forall_ne (steps_nodup _ _ h) ?_
    intro a _ b _ hab
    simp only [Function.onFun, List.disjoint_left, List.mem_map, not_exists, not_and]
    rintro s ⟨x, _, rfl⟩ x' _ e
    exact hab (congrArg Seg.y e).symm

/-- The threads working on a segment -/
def busy {n : ℕ} (p : Pool n) (s : Seg) : ℕ := ∑ i, if p.threads i = .work s then 1 else 0

theorem sum_update {n : ℕ} {α : Type} (f : Fin n → α) (i : Fin n) (a : α) (g : α → ℕ) :
    ∑ j, g (Function.update f i a j) + g (f i) = ∑ j, g (f j) + g a := by
  rw [← Finset.add_sum_erase _ _ (Finset.mem_univ i), ← Finset.add_sum_erase (a := i) _ (fun j => g (f j)) (Finset.mem_univ i)]
  rw [Function.update_self]
  have : ∑ x ∈ Finset.univ.erase i, g (Function.update f i a x) = ∑ x ∈ Finset.univ.erase i, g (f x) := by
    refine Finset.sum_congr rfl fun x hx => ?_
    rw [Function.update_of_ne (Finset.ne_of_mem_erase hx)]
  lia

/-- Every segment is in exactly one place. -/
theorem count_inv {n k : ℕ} {segs : List Seg} {p : Pool n} (h : Run k (startPool n segs) p) (s : Seg) :
    p.written.count s + busy p s + p.queue.count s = segs.count s := by
  generalize hp : startPool n segs = p0 at h
  induction h with
  | zero =>
    subst hp
    simp [startPool, busy]
  | @next _ _ p1 _ hr hs ih =>
    have ih := ih hp
    cases hs with
    | more i hi hq =>
      have := sum_update p1.threads i .get (fun t => if t = Status.work s then 1 else 0)
      simp only [hi, reduceCtorEq, if_false] at this
      unfold busy at ih ⊢
      simp only at ih ⊢
      lia
    | stop i hi hq =>
      have := sum_update p1.threads i .done (fun t => if t = Status.work s then 1 else 0)
      simp only [hi, reduceCtorEq, if_false] at this
      unfold busy at ih ⊢
      simp only at ih ⊢
      lia
    | take i s' q hi hq =>
      have := sum_update p1.threads i (.work s') (fun t => if t = Status.work s then 1 else 0)
      simp only [hi, reduceCtorEq, if_false, Status.work.injEq] at this
      unfold busy at ih ⊢
      simp only [hq, List.count_cons, beq_iff_eq] at ih ⊢
      lia
    | finish i s' hi =>
      have := sum_update p1.threads i .check (fun t => if t = Status.work s then 1 else 0)
      simp only [hi, reduceCtorEq, if_false, Status.work.injEq] at this
      unfold busy at ih ⊢
      simp only [List.count_append, List.count_singleton, beq_iff_eq] at ih ⊢
      lia

/-- A thread that has returned has seen an empty queue. -/
theorem done_empty {n k : ℕ} {segs : List Seg} {p : Pool n} (h : Run k (startPool n segs) p) (i : Fin n)
    (hi : p.threads i = .done) : p.queue = [] := by
  generalize hp : startPool n segs = p0 at h
  induction h with
  | zero => subst hp; cases hi
  | next hr hs ih =>
    cases hs with
    | more j hj hq =>
      by_cases e : i = j
      · subst e; simp at hi
      · simp only [Function.update_of_ne e] at hi; exact ih hi hp
    | stop j hj hq => exact hq
    | take j s' q hj hq =>
      by_cases e : i = j
      · subst e; simp at hi
      · simp only [Function.update_of_ne e] at hi; have := ih hi hp; simp [hq] at this
    | finish j s' hj =>
      by_cases e : i = j
      · subst e; simp at hi
      · simp only [Function.update_of_ne e] at hi; exact ih hi hp

/-- C50: when the pool has finished, every segment has been written exactly once. -/
theorem C50_once (n k : ℕ) (segs : List Seg) (p : Pool n) (hn : 0 < n) (h : Run k (startPool n segs) p)
    (hf : Finished p) : p.written.Perm segs := by
  rw [List.perm_iff_count]
  intro s
  have := count_inv h s
  rw [done_empty h ⟨0, hn⟩ (hf _)] at this
  have b : busy p s = 0 := by
    unfold busy
    refine Finset.sum_eq_zero fun i _ => ?_
    simp [hf i]
  simp only [b, List.count_nil] at this
  lia

theorem output_apply (wind bear : Raster) (m4 : ℕ → Raster) (init : Raster) (w : List Seg) (x y : ℕ) :
    output wind bear m4 init w x y = if ∃ s ∈ w, Inside s x y then wholeRaster wind bear m4 x y else init x y := by
  unfold output
  induction w generalizing init with
  | nil => simp
  | cons s w ih =>
    rw [List.foldl_cons, ih]
    by_cases h : ∃ s ∈ w, Inside s x y
    · rw [if_pos h, if_pos]
      obtain ⟨s', h1, h2⟩ := h
      exact ⟨s', List.mem_cons_of_mem _ h1, h2⟩
    · rw [if_neg h]
      unfold processSegment write
      by_cases hs : Inside s x y
      · rw [if_pos (c := ∃ s' ∈ s :: w, Inside s' x y) ⟨s, List.mem_cons_self, hs⟩]
        refine (if_pos hs).trans ?_
        obtain ⟨a1, a2, a3, a4⟩ := hs
        unfold read wholeRaster
        simp only [Nat.add_sub_cancel' a1, Nat.add_sub_cancel' a3]
      · have : ¬∃ s' ∈ s :: w, Inside s' x y := by
          rintro ⟨s', h1, h2⟩
          rcases List.mem_cons.1 h1 with rfl | h1
          · exact hs h2
          · exact h ⟨s', h1, h2⟩
        rw [if_neg this]
        exact if_neg hs

/-- C50: the result is that of the whole-raster calculation, whatever order the segments are written in. -/
theorem C50_result (cols rows size : ℕ) (hs : 0 < size) (n k : ℕ) (hn : 0 < n) (p : Pool n)
    (h : Run k (startPool n (segments cols rows size)) p) (hf : Finished p) (wind bear init : Raster)
    (m4 : ℕ → Raster) (x y : ℕ) (hx : x < cols) (hy : y < rows) :
    output wind bear m4 init p.written x y = wholeRaster wind bear m4 x y := by
  rw [output_apply, if_pos]
  obtain ⟨s, ⟨h1, h2⟩, -⟩ := C50_cover cols rows size hs x y hx hy
  exact ⟨s, (C50_once n k _ p hn h hf).mem_iff.2 h1, h2⟩

/-- How far a thread is from returning -/
def weight : Status → ℕ
  | .check => 2
  | .get => 1
  | .work _ => 4
  | .done => 0

def measure {n : ℕ} (p : Pool n) : ℕ := 4 * p.queue.length + ∑ i, weight (p.threads i)

theorem measure_step {n : ℕ} {p q : Pool n} (h : Step p q) : measure q < measure p := by
  cases h with
  | more i hi hq =>
    have := sum_update p.threads i .get weight
    rw [hi] at this
    simp only [weight.eq_1, weight.eq_2, weight.eq_3, weight.eq_4] at this
    unfold measure
    simp only
    lia
  | stop i hi hq =>
    have := sum_update p.threads i .done weight
    rw [hi] at this
    simp only [weight.eq_1, weight.eq_2, weight.eq_3, weight.eq_4] at this
    unfold measure
    simp only
    lia
  | take i s q hi hq =>
    have := sum_update p.threads i (.work s) weight
    rw [hi] at this
    simp only [weight.eq_1, weight.eq_2, weight.eq_3, weight.eq_4] at this
    unfold measure
    simp only [hq, List.length_cons]
    lia
  | finish i s hi =>
    have := sum_update p.threads i .check weight
    rw [hi] at this
    simp only [weight.eq_1, weight.eq_2, weight.eq_3, weight.eq_4] at this
    unfold measure
    simp only
    lia

theorem run_measure {n k : ℕ} {p q : Pool n} (h : Run k p q) : k + measure q ≤ measure p := by
  induction h with
  | zero => simp
  | next hr hs ih => have := measure_step hs; lia

/-- C50: no schedule goes on for ever: there is a bound on the number of actions. -/
theorem C50_bounded (n k : ℕ) (segs : List Seg) (p : Pool n) (h : Run k (startPool n segs) p) :
    k ≤ 4 * segs.length + 2 * n := by
  have m0 : measure (startPool n segs) = 4 * segs.length + 2 * n := by
    simp [measure, startPool, weight]; ring
  rw [← m0]
  have := run_measure h
  lia

/-- C50, partial: when nothing more happens, every segment has been written, and the threads that have not returned
wait for a segment that never comes. -/
theorem C50_stuck_partial (n k : ℕ) (segs : List Seg) (p : Pool n) (hn : 0 < n) (h : Run k (startPool n segs) p)
    (hstuck : ∀ q, ¬Step p q) :
    p.written.Perm segs ∧ p.queue = [] ∧ ∀ i, p.threads i = .done ∨ p.threads i = .get := by
  have t : ∀ i, p.threads i = .done ∨ p.threads i = .get := by
    intro i
    cases e : p.threads i with
    | check =>
      by_cases hq : p.queue = []
      · exact absurd (Step.stop p i e hq) (hstuck _)
      · exact absurd (Step.more p i e hq) (hstuck _)
    | get => exact Or.inr rfl
    | work s => exact absurd (Step.finish p i s e) (hstuck _)
    | done => exact Or.inl rfl
  have q : p.queue = [] := by
    rcases t ⟨0, hn⟩ with e | e
    · exact done_empty h _ e
    · cases hq : p.queue with
      | nil => rfl
      | cons s q => exact absurd (Step.take p _ s q e hq) (hstuck _)
  refine ⟨?_, q, t⟩
  rw [List.perm_iff_count]
  intro s
  have := count_inv h s
  have b : busy p s = 0 := by
    unfold busy
    refine Finset.sum_eq_zero fun i _ => ?_
    rcases t i with e | e <;> simp [e]
  simp only [b, q, List.count_nil] at this
  lia

/-- With one thread, a thread at `get` has a segment to take. -/
theorem one_get {k : ℕ} {segs : List Seg} {p : Pool 1} (h : Run k (startPool 1 segs) p) (e : p.threads 0 = .get) :
    p.queue ≠ [] := by
  cases h with
  | zero => cases e
  | next hr hs =>
    cases hs with
    | more j hj hq => exact hq
    | stop j hj hq => have := Subsingleton.elim j 0; subst this; simp at e
    | take j s' q hj hq => have := Subsingleton.elim j 0; subst this; simp at e
    | finish j s' hj => have := Subsingleton.elim j 0; subst this; simp at e

/-- C50, partial: one thread always finishes. -/
theorem C50_one_thread_partial (k : ℕ) (segs : List Seg) (p : Pool 1) (h : Run k (startPool 1 segs) p)
    (hstuck : ∀ q, ¬Step p q) : Finished p := by
  obtain ⟨-, hq, ht⟩ := C50_stuck_partial 1 k segs p (by decide) h hstuck
  intro i
  rcases ht i with e | e
  · exact e
  · have := Subsingleton.elim i 0; subst this
    exact absurd hq (one_get h e)

theorem Run.trans {n a b : ℕ} {p q r : Pool n} (h1 : Run a p q) (h2 : Run b q r) : ∃ c, Run c p r := by
  induction h2 with
  | zero => exact ⟨a, h1⟩
  | next _ hs ih => obtain ⟨c, hc⟩ := ih h1; exact ⟨c + 1, .next hc hs⟩

/-- Thread `i` can empty the queue on its own. -/
theorem drain {n : ℕ} (i : Fin n) (q : List Seg) : ∀ (p : Pool n), p.queue = q → p.threads i = .check →
    ∃ k p', Run k p p' ∧ p'.queue = [] ∧ ∀ j, j ≠ i → p'.threads j = p.threads j := by
  induction q with
  | nil => intro p hq _; exact ⟨0, p, .zero p, hq, fun _ _ => rfl⟩
  | cons s q ih =>
    intro p hq hi
    have s1 := Step.more p i hi (by simp [hq])
    have s2 := Step.take { p with threads := Function.update p.threads i .get } i s q (by simp) hq
    have s3 := Step.finish ⟨q, Function.update (Function.update p.threads i .get) i (.work s), p.written⟩ i s (by simp)
    obtain ⟨k, p', hr, h1, h2⟩ := ih ⟨q,
      Function.update (Function.update (Function.update p.threads i .get) i (.work s)) i .check, p.written ++ [s]⟩ rfl (by simp)
    obtain ⟨c, hc⟩ := Run.trans (.next (.next (.next (.zero p) s1) s2) s3) hr
    refine ⟨c, p', hc, h1, fun j hj => ?_⟩
    rw [h2 j hj]
    simp [Function.update_of_ne hj]

/-- A thread that waits at an empty queue waits for ever. -/
theorem waits {n k : ℕ} {p q : Pool n} (h : Run k p q) (i : Fin n) (hq : p.queue = []) (hi : p.threads i = .get) :
    q.queue = [] ∧ q.threads i = .get := by
  induction h with
  | zero => exact ⟨hq, hi⟩
  | next hr hs ih =>
    obtain ⟨h1, h2⟩ := ih hq hi
    cases hs with
    | more j hj hq => exact absurd h1 hq
    | stop j hj hq =>
      refine ⟨h1, ?_⟩
      have : i ≠ j := by rintro rfl; rw [h2] at hj; cases hj
      simpa [Function.update_of_ne this] using h2
    | take j s' q hj hq => rw [h1] at hq; cases hq
    | finish j s' hj =>
      refine ⟨h1, ?_⟩
      have : i ≠ j := by rintro rfl; rw [h2] at hj; cases hj
      simpa [Function.update_of_ne this] using h2

/-- C50 fails: with two or more threads there is a schedule after which the pool never finishes, as a thread finds the
queue not empty, and another takes the last segment before it does. -/
theorem C50_hangs_fails (n : ℕ) (hn : 2 ≤ n) (segs : List Seg) (hs : segs ≠ []) :
    ∃ k p, Run k (startPool n segs) p ∧ ∀ m q, Run m p q → ¬Finished q := by
  let a : Fin n := ⟨0, by lia⟩
  let b : Fin n := ⟨1, by lia⟩
  have hab : a ≠ b := by intro e; simpa [a, b] using congrArg Fin.val e
  have s1 := Step.more (startPool n segs) b rfl hs
  obtain ⟨k, p, hr, h1, h2⟩ := drain a segs { startPool n segs with threads := Function.update (startPool n segs).threads b .get }
    rfl (by simp [Function.update_of_ne hab, startPool])
  obtain ⟨c, hc⟩ := Run.trans (.next (.zero _) s1) hr
  refine ⟨c, p, hc, fun m q hq hf => ?_⟩
  have := waits hq b h1 (by rw [h2 b hab.symm]; simp)
  rw [hf b] at this
  cases this.2

example : segments 5 3 2 = [⟨0, 0, 2, 2⟩, ⟨2, 0, 2, 2⟩, ⟨4, 0, 1, 2⟩, ⟨0, 2, 2, 1⟩, ⟨2, 2, 2, 1⟩, ⟨4, 2, 1, 1⟩] := by
  decide +kernel

/-- Two threads can finish. -/
example : ∃ k p, Run k (startPool 2 [⟨0, 0, 1, 1⟩]) p ∧ Finished p := by
  refine ⟨_, _, .next (.next (.next (.next (.next (.zero _) (.more _ 0 rfl (by simp [startPool]))) (.take _ 0 _ _ rfl rfl))
    (.finish _ 0 _ rfl)) (.stop _ 0 rfl rfl)) (.stop _ 1 rfl rfl), ?_⟩
  intro i
  match i with
  | 0 => rfl
  | 1 => rfl

/-- C79: with the latitudes from north to south, as in the files of gusts, each row of the wind is shown at its
latitude. -/
theorem C79_files_partial (lat0 delta : ℚ) (rows r : ℕ) (hr : r < rows) :
    southEdge (fun k => lat0 - k * delta) rows delta r = lat0 - shownRow rows r * delta := by
  unfold southEdge shownRow
  have : ((rows - 1 - r : ℕ) : ℚ) = ((rows - 1 : ℕ) : ℚ) - r := by
    rw [Nat.cast_sub (by lia)]
  rw [this]; ring

/-- C79 fails for the wind fields handed over directly, whose latitudes run from south to north: no row but the
northernmost is at its latitude, and the whole field is moved north and turned over. -/
theorem C79_direct_fails (lat0 delta : ℚ) (hd : 0 < delta) (rows r : ℕ) (h0 : 0 < r) (hr : r < rows) :
    lat0 + shownRow rows r * delta + 2 * r * delta = southEdge (fun k => lat0 + k * delta) rows delta r ∧
      lat0 + shownRow rows r * delta < southEdge (fun k => lat0 + k * delta) rows delta r := by
  unfold southEdge shownRow
  have : ((rows - 1 - r : ℕ) : ℚ) = ((rows - 1 : ℕ) : ℚ) - r := by
    rw [Nat.cast_sub (by lia)]
  have p : (0 : ℚ) < r * delta := mul_pos (by exact_mod_cast h0) hd
  rw [this]
  constructor
  · ring
  · nlinarith

example : (0 : ℚ) < 0.02 ∧ 0 < 3 ∧ 3 < 10 := by norm_num

end Tcrm.Multipliers
