import Verif.Spec.DataProc
import Mathlib.Data.List.Induction
import Mathlib.Tactic.Linarith
import Mathlib.Tactic.FieldSimp
import Mathlib.Tactic.Ring
/-!
C35 (annual frequency), C36 (extraction of tracks), C37 (start markers), C38 (jumps).
-/
namespace Tcrm.DataProc

/-! ### C35 -/

theorem npRound_error (x : ℚ) : |(npRound x : ℚ) - x| ≤ 1 / 2 := by
  unfold npRound
  have h1 := Int.floor_le x
  have h2 := Int.lt_floor_add_one x
  split_ifs with h h' h'' <;> push_cast <;> rw [abs_le] <;> constructor <;> linarith

theorem filter_or (l : List Origin) (P : Origin → Bool) (lo k : ℕ) :
    (l.filter fun x => decide (lo ≤ x.year ∧ x.year < k + 1) && P x).length =
      (l.filter fun x => decide (lo ≤ x.year ∧ x.year < k) && P x).length +
        (l.filter fun x => decide (lo ≤ k ∧ x.year = k) && P x).length := by
  induction l with
  | nil => rfl
  | cons x l ih =>
    simp only [List.filter_cons]
    cases P x with
    | false => simpa using ih
    | true =>
      simp only [Bool.and_true, decide_eq_true_eq]
      split_ifs <;> (try simp only [List.length_cons]) <;> omega

theorem sum_counts (l : List Origin) (P : Origin → Bool) (lo : ℕ) : ∀ n : ℕ,
    ((List.range' lo n).map fun y => (l.filter fun x => decide (x.year = y) && P x).length).sum =
      (l.filter fun x => decide (lo ≤ x.year ∧ x.year < lo + n) && P x).length
  | 0 => by
    simp only [List.range'_zero, List.map_nil, List.sum_nil, Nat.add_zero]
    symm
    rw [List.length_eq_zero_iff, List.filter_eq_nil_iff]
    intro x _
    simp only [Bool.and_eq_true, decide_eq_true_eq, not_and]
    omega
  | n + 1 => by
    rw [List.range'_concat, List.map_append, List.sum_append, sum_counts l P lo n]
    simp only [Nat.one_mul, List.map_cons, List.map_nil, List.sum_cons, List.sum_nil, Nat.add_zero]
    rw [← Nat.add_assoc, filter_or]
    simp

theorem foldl_min_year : ∀ (l : List Origin) (a lo : ℕ), lo ≤ a → (∀ x ∈ l, lo ≤ x.year) →
    (a = lo ∨ ∃ x ∈ l, x.year = lo) → l.foldl (fun m x => min m x.year) a = lo
  | [], a, lo, _, _, h => by rcases h with h | ⟨x, hx, _⟩; exact h; simp at hx
  | y :: l, a, lo, h1, h2, h => by
    simp only [List.foldl_cons]
    have hy := h2 y (by simp)
    apply foldl_min_year l _ lo (le_min h1 hy) fun x hx => h2 x (List.mem_cons_of_mem _ hx)
    rcases h with h | ⟨x, hx, hxe⟩
    · left; rw [h, min_eq_left hy]
    · rcases List.mem_cons.1 hx with rfl | hx
      · left; rw [hxe, min_eq_right h1]
      · right; exact ⟨x, hx, hxe⟩

theorem foldl_max_year : ∀ (l : List Origin) (a hi : ℕ), a ≤ hi → (∀ x ∈ l, x.year ≤ hi) →
    (a = hi ∨ ∃ x ∈ l, x.year = hi) → l.foldl (fun m x => max m x.year) a = hi
  | [], a, hi, _, _, h => by rcases h with h | ⟨x, hx, _⟩; exact h; simp at hx
  | y :: l, a, hi, h1, h2, h => by
    simp only [List.foldl_cons]
    have hy := h2 y (by simp)
    apply foldl_max_year l _ hi (max_le h1 hy) fun x hx => h2 x (List.mem_cons_of_mem _ hx)
    rcases h with h | ⟨x, hx, hxe⟩
    · left; rw [h, max_eq_left hy]
    · rcases List.mem_cons.1 hx with rfl | hx
      · left; rw [hxe, max_eq_right h1]
      · right; exact ⟨x, hx, hxe⟩

theorem frequency_unfold {b : Box} {origins : List Origin} {lo hi : ℕ} (h : Years origins lo hi)
    (hlen : 1 < origins.length) :
    annualFrequency b origins = if lo < hi ∧ hi > 3000 then .error .indexError
      else if hi = lo then .ok none
      else .ok (some ((npRound (((insideBefore b origins hi).length : ℚ) / ((hi - lo : ℕ) : ℚ) * 100) : ℚ) / 100)) := by
  obtain ⟨h1, ⟨o1, ho1, h2⟩, o2, ho2, h3⟩ := h
  match origins with
  | [] => simp at ho1
  | [_] => simp at hlen
  | o :: o' :: rest =>
    obtain ⟨os, hos⟩ : ∃ os, os = o' :: rest := ⟨_, rfl⟩
    rw [← hos] at h1 ho1 ho2 ⊢
    have hlo : os.foldl (fun m x => min m x.year) o.year = lo := by
      apply foldl_min_year os _ _ (h1 o (by simp)).1 fun x hx => (h1 x (List.mem_cons_of_mem _ hx)).1
      rcases List.mem_cons.1 ho1 with rfl | h
      · exact Or.inl h2
      · exact Or.inr ⟨o1, h, h2⟩
    have hhi : os.foldl (fun m x => max m x.year) o.year = hi := by
      apply foldl_max_year os _ _ (h1 o (by simp)).2 fun x hx => (h1 x (List.mem_cons_of_mem _ hx)).2
      rcases List.mem_cons.1 ho2 with rfl | h
      · exact Or.inl h3
      · exact Or.inr ⟨o2, h, h3⟩
    have hle : lo ≤ hi := le_trans (h1 o (by simp)).1 (h1 o (by simp)).2
    have hun : annualFrequency b (o :: os) = let lo := os.foldl (fun m x => min m x.year) o.year
        let hi := os.foldl (fun m x => max m x.year) o.year
        if lo < hi ∧ hi > 3000 then .error .indexError
        else
          let counts := (List.range' lo (hi - lo)).map fun y =>
            ((o :: os).filter fun x => decide (x.year = y) && startsIn b x).length
          if counts = [] then .ok none
          else .ok (some ((npRound (((counts.sum : ℕ) : ℚ) / counts.length * 100) : ℚ) / 100)) := by
      rw [hos]; rfl
    rw [hun]
    simp only [hlo, hhi]
    have hiff : ((List.range' lo (hi - lo)).map fun y =>
        ((o :: os).filter fun x => decide (x.year = y) && startsIn b x).length) = [] ↔ hi = lo := by
      simp only [List.map_eq_nil_iff, List.range'_eq_nil_iff]
      omega
    have hcount : ((o :: os).filter fun x => decide (lo ≤ x.year ∧ x.year < lo + (hi - lo)) && startsIn b x) =
        insideBefore b (o :: os) hi := by
      unfold insideBefore
      apply List.filter_congr
      intro x hx
      have := h1 x hx
      rw [Bool.eq_iff_iff]
      simp only [startsIn, Bool.and_eq_true, decide_eq_true_eq, gt_iff_lt]
      rw [show lo + (hi - lo) = hi by omega]
      tauto
    congr 1
    by_cases he : hi = lo
    · rw [if_pos he, if_pos (hiff.2 he)]
    · rw [if_neg he, if_neg (mt hiff.1 he)]
      rw [sum_counts, hcount]
      simp

theorem two_origins {origins : List Origin} {lo hi : ℕ} (h : Years origins lo hi) (hlt : lo < hi) :
    1 < origins.length := by
  obtain ⟨h1, ⟨o1, ho1, h2⟩, o2, ho2, h3⟩ := h
  match origins with
  | [] => simp at ho1
  | [o] => simp only [List.mem_singleton] at ho1 ho2; subst ho1; subst ho2; omega
  | _ :: _ :: _ => simp

/-- C35 in part: for a record of more than one year, the mean number of origins strictly inside the
domain in the years before the last, to two decimals. -/
theorem C35_mean_without_last_year_partial {b : Box} {origins : List Origin} {lo hi : ℕ}
    (h : Years origins lo hi) (hlt : lo < hi) (hmax : hi ≤ 3000) :
    ∃ f : ℚ, annualFrequency b origins = .ok (some f) ∧
      |f - (insideBefore b origins hi).length / ((hi : ℚ) - lo)| ≤ 1 / 200 ∧ ∃ n : ℤ, f = n / 100 := by
  rw [frequency_unfold h (two_origins h hlt), if_neg (by omega), if_neg (by omega)]
  refine ⟨_, rfl, ?_, _, rfl⟩
  rw [Nat.cast_sub hlt.le]
  generalize ((insideBefore b origins hi).length : ℚ) / ((hi : ℚ) - lo) = m
  have := npRound_error (m * 100)
  rw [abs_le] at this ⊢
  constructor <;> linarith [this.1, this.2]

/-- C35 fails for the last year: the tracks starting in it have no influence. -/
theorem C35_last_year_ignored {b : Box} {origins : List Origin} {lo hi : ℕ} (h : Years origins lo hi)
    (hlen : 1 < origins.length) {x : Origin} (hx : x.year = hi) : annualFrequency b (x :: origins) = annualFrequency b origins := by
  have h' : Years (x :: origins) lo hi := by
    obtain ⟨h1, ⟨o1, ho1, h2⟩, o2, ho2, h3⟩ := h
    have hle : lo ≤ hi := le_trans (h1 o1 ho1).1 (h1 o1 ho1).2
    refine ⟨?_, ⟨o1, by simp [ho1], h2⟩, o2, by simp [ho2], h3⟩
    intro o ho
    rcases List.mem_cons.1 ho with rfl | ho
    · omega
    · exact h1 o ho
  rw [frequency_unfold h' (by simp; omega), frequency_unfold h hlen]
  have : insideBefore b (x :: origins) hi = insideBefore b origins hi := by
    unfold insideBefore
    rw [List.filter_cons_of_neg]
    simp [hx]
  rw [this]

/-- C35 fails for a record of one year: the result is not a number. -/
theorem C35_one_year_fails {b : Box} {origins : List Origin} {y : ℕ} (h : Years origins y y)
    (hlen : 1 < origins.length) : annualFrequency b origins = .ok none := by
  rw [frequency_unfold h hlen, if_neg (by omega), if_pos rfl]

/-- C35 fails for a record of one track (or none): an exception is raised. -/
theorem C35_one_track_fails (b : Box) {origins : List Origin} (h : origins.length ≤ 1) :
    annualFrequency b origins = .error .indexError := by
  match origins with
  | [] => rfl
  | [_] => rfl
  | _ :: _ :: _ => simp at h

/-- Three tracks in 1990, two of them inside, one in 1991, and the last year 1992. -/
example : annualFrequency ⟨100, 110, -20, -10⟩ [⟨1990, 105, -15⟩, ⟨1990, 106, -15⟩, ⟨1990, 110, -15⟩,
    ⟨1991, 105, -12⟩, ⟨1992, 105, -15⟩] = .ok (some (3 / 2)) := by decide +kernel

example : Years [⟨1990, 105, -15⟩, ⟨1992, 105, -15⟩] 1990 1992 := by
  refine ⟨by simp, ⟨⟨1990, 105, -15⟩, by simp, rfl⟩, ⟨1992, 105, -15⟩, by simp, rfl⟩

/-! ### C36 -/

theorem isIn_iff' (b : Box) (o : Obs) : isIn b o = true ↔ In b o := by
  unfold isIn In
  simp only [Bool.and_eq_true, decide_eq_true_eq]
  tauto

theorem kept_snoc_lt {b : Box} {obs : List Obs} {o : Obs} {i : ℕ} (hi : i < obs.length) :
    Kept b (obs ++ [o]) i ↔ Kept b obs i := by
  unfold Kept
  constructor
  · rintro ⟨k, x, h1, h2, h3, h4, h5⟩
    rw [List.getElem?_append_left (by omega)] at h2
    exact ⟨k, x, h1, h2, h3, h4, fun j p hj hji hp => h5 j p hj hji (by rw [List.getElem?_append_left (by omega)]; exact hp)⟩
  · rintro ⟨k, x, h1, h2, h3, h4, h5⟩
    refine ⟨k, x, h1, by rw [List.getElem?_append_left (by omega)]; exact h2, h3, h4, ?_⟩
    intro j p hj hji hp
    rw [List.getElem?_append_left (by omega)] at hp
    exact h5 j p hj hji hp

theorem kept_snoc_last {b : Box} {obs : List Obs} {o : Obs} :
    Kept b (obs ++ [o]) obs.length ↔ (o.index = 1 ∧ In b o) ∨ (o.index ≠ 1 ∧ 0 < obs.length ∧ Kept b obs (obs.length - 1)) := by
  constructor
  · rintro ⟨k, x, h1, h2, h3, h4, h5⟩
    by_cases hk : k = obs.length
    · left
      rw [hk] at h2
      simp only [List.getElem?_append_right (le_refl _), Nat.sub_self, List.getElem?_cons_zero, Option.some.injEq] at h2
      rw [h2]; exact ⟨h3, h4⟩
    · right
      refine ⟨h5 obs.length o (by omega) (le_refl _) (by simp), by omega, k, x, by omega, ?_, h3, h4, ?_⟩
      · rw [List.getElem?_append_left (by omega)] at h2; exact h2
      · intro j p hj hji hp
        exact h5 j p hj (by omega) (by rw [List.getElem?_append_left (by omega)]; exact hp)
  · rintro (⟨h1, h2⟩ | ⟨h1, h2, k, x, h3, h4, h5, h6, h7⟩)
    · refine ⟨obs.length, o, le_refl _, by simp, h1, h2, ?_⟩
      intro j p hj hji; omega
    · refine ⟨k, x, by omega, by rw [List.getElem?_append_left (by omega)]; exact h4, h5, h6, ?_⟩
      intro j p hj hji hp
      by_cases hjl : j = obs.length
      · rw [hjl] at hp
        simp only [List.getElem?_append_right (le_refl _), Nat.sub_self, List.getElem?_cons_zero, Option.some.injEq] at hp
        rw [← hp]; exact h1
      · rw [List.getElem?_append_left (by omega)] at hp
        exact h7 j p hj (by omega) hp

theorem extract_spec (b : Box) (obs : List Obs) :
    let s := obs.foldl (extractStep b) ([], false, 0)
    s.2.2 = obs.length ∧ (s.2.1 = true ↔ 0 < obs.length ∧ Kept b obs (obs.length - 1)) ∧
      (∀ i, i ∈ s.1 ↔ i < obs.length ∧ Kept b obs i) ∧ s.1.Pairwise (· < ·) := by
  induction obs using List.reverseRecOn with
  | nil => simp
  | append_singleton obs o ih =>
    simp only [List.foldl_append, List.foldl_cons, List.foldl_nil] at ih ⊢
    generalize obs.foldl (extractStep b) ([], false, 0) = s at ih
    obtain ⟨h1, h2, h3, h4⟩ := ih
    have hlen : (obs ++ [o]).length - 1 = obs.length := by simp
    have hadd : ∀ {P : Prop}, (P ↔ Kept b (obs ++ [o]) obs.length) → P →
        (∀ i, i ∈ s.1 ++ [s.2.2] ↔ i < (obs ++ [o]).length ∧ Kept b (obs ++ [o]) i) ∧
          (s.1 ++ [s.2.2]).Pairwise (· < ·) := by
      intro P hP hp
      constructor
      · intro i
        rw [List.mem_append, List.mem_singleton, h3, h1, List.length_append, List.length_singleton]
        constructor
        · rintro (⟨a, c⟩ | rfl)
          · exact ⟨by omega, (kept_snoc_lt a).2 c⟩
          · exact ⟨by omega, hP.1 hp⟩
        · rintro ⟨a, c⟩
          rcases Nat.lt_or_ge i obs.length with h | h
          · exact Or.inl ⟨h, (kept_snoc_lt h).1 c⟩
          · right; omega
      · rw [List.pairwise_append]
        refine ⟨h4, by simp, ?_⟩
        intro i hi j hj
        rw [List.mem_singleton] at hj
        rw [hj, h1]
        exact ((h3 i).1 hi).1
    have hskip : ¬ Kept b (obs ++ [o]) obs.length →
        (∀ i, i ∈ s.1 ↔ i < (obs ++ [o]).length ∧ Kept b (obs ++ [o]) i) := by
      intro hn i
      rw [h3, List.length_append, List.length_singleton]
      constructor
      · rintro ⟨a, c⟩; exact ⟨by omega, (kept_snoc_lt a).2 c⟩
      · rintro ⟨a, c⟩
        rcases Nat.lt_or_ge i obs.length with h | h
        · exact ⟨h, (kept_snoc_lt h).1 c⟩
        · have : i = obs.length := by omega
          rw [this] at c; exact absurd c hn
    unfold extractStep
    rw [hlen]
    by_cases hi : o.index = 1
    · rw [if_pos hi]
      by_cases hin : isIn b o = true
      · rw [if_pos hin]
        have hk : Kept b (obs ++ [o]) obs.length := kept_snoc_last.2 (Or.inl ⟨hi, (isIn_iff' b o).1 hin⟩)
        obtain ⟨q1, q2⟩ := hadd (P := True) (by simp [hk]) trivial
        exact ⟨by simp [h1], by simp [hk], q1, q2⟩
      · rw [if_neg hin]
        have hk : ¬ Kept b (obs ++ [o]) obs.length := by
          rw [kept_snoc_last]
          rintro (⟨_, h⟩ | ⟨h, _⟩)
          · exact hin ((isIn_iff' b o).2 h)
          · exact h hi
        exact ⟨by simp [h1], by simp [hk], hskip hk, h4⟩
    · rw [if_neg hi]
      by_cases hf : s.2.1 = true
      · rw [if_pos hf]
        have hk : Kept b (obs ++ [o]) obs.length := kept_snoc_last.2 (Or.inr ⟨hi, (h2.1 hf).1, (h2.1 hf).2⟩)
        obtain ⟨q1, q2⟩ := hadd (P := True) (by simp [hk]) trivial
        exact ⟨by simp [h1], by simp [hk], q1, q2⟩
      · rw [if_neg hf]
        have hk : ¬ Kept b (obs ++ [o]) obs.length := by
          rw [kept_snoc_last]
          rintro (⟨h, _⟩ | ⟨_, h, h'⟩)
          · exact hi h
          · exact hf (h2.2 ⟨h, h'⟩)
        exact ⟨by simp [h1], by simp [hk], hskip hk, h4⟩

/-- C36: the indices are in order without repetition, and an observation is kept if and only if the
first observation of its track is in the box. -/
theorem C36_extract (b : Box) (obs : List Obs) : (extractTracks b obs).Pairwise (· < ·) ∧
    ∀ i, i ∈ extractTracks b obs ↔ i < obs.length ∧ Kept b obs i := by
  obtain ⟨_, _, h3, h4⟩ := extract_spec b obs
  exact ⟨h4, h3⟩

example : extractTracks ⟨100, 110, -20, -10⟩ [⟨1, 90, -15⟩, ⟨0, 105, -15⟩, ⟨1, 105, -15⟩, ⟨0, 120, -15⟩,
    ⟨1, 100, -20⟩] = [2, 3, 4] := by decide +kernel

/-! ### C37 -/

/-- C37: markers made from a column of identifiers: 1 for the first record and for every record whose
identifier differs from the one before, 0 for the others. -/
theorem C37_markers {α : Type} [DecidableEq α] (ids : List α) : (markChanges ids).length = ids.length ∧
    (ids ≠ [] → (markChanges ids)[0]? = some 1) ∧
    ∀ (i : ℕ) (x y : α), ids[i]? = some x → ids[i + 1]? = some y →
      (markChanges ids)[i + 1]? = some (if x = y then 0 else 1) := by
  match ids with
  | [] => simp [markChanges]
  | a :: l =>
    refine ⟨?_, by simp [markChanges], ?_⟩
    · simp [markChanges]
    · intro i x y hx hy
      simp only [markChanges, List.getElem?_cons_succ, List.getElem?_map]
      have : ((a :: l).zip l)[i]? = some (x, y) := by
        rw [List.getElem?_zip_eq_some]
        exact ⟨hx, by simpa using hy⟩
      rw [this]; rfl

/-- C37: which column is used. A column `index` is taken as it is; then the serial number; then season
and number; then the number alone; with none of them a KeyError. -/
theorem C37_columns {S : Type} [DecidableEq S] (idx : List ℤ) (sn : List S) (num season : List ℤ)
    (c : Columns S) :
    initialPositions { c with index := some idx } = .ok idx ∧
    initialPositions { c with index := none, serial := some sn } = .ok (markChanges sn) ∧
    initialPositions (S := S) ⟨none, none, some num, some season⟩ = .ok (markChanges (season.zip num)) ∧
    initialPositions (S := S) ⟨none, none, some num, none⟩ = .ok (markChanges num) ∧
    initialPositions (S := S) ⟨none, none, none, c.season⟩ = .error .keyError :=
  ⟨rfl, rfl, rfl, rfl, rfl⟩

theorem cumsum_append : ∀ (a b : List ℤ) (s : ℤ), cumsum s (a ++ b) = cumsum s a ++ cumsum (s + a.sum) b
  | [], b, s => by simp [cumsum]
  | x :: a, b, s => by
    simp only [List.cons_append, cumsum, List.sum_cons]
    rw [cumsum_append a b, Int.add_assoc]

theorem cumsum_zeros : ∀ (l : List ℤ) (s : ℤ), (∀ x ∈ l, x = 0) → cumsum s l = List.replicate l.length s ∧ l.sum = 0
  | [], s, _ => by simp [cumsum]
  | x :: l, s, h => by
    obtain ⟨h1, h2⟩ := cumsum_zeros l s fun y hy => h y (List.mem_cons_of_mem _ hy)
    have hx := h x (by simp)
    simp [cumsum, hx, h1, h2, List.replicate_succ]

theorem pieces {α : Type} : ∀ (l : List (ℤ × α)), (∀ p ∈ l, p.1 = 0 ∨ p.1 = 1) →
    ∃ (zs : List (ℤ × α)) (ps : List (List (ℤ × α))), l = zs ++ ps.flatten ∧ (∀ p ∈ zs, p.1 = 0) ∧ ∀ p ∈ ps, IsPiece p
  | [], _ => ⟨[], [], rfl, by simp, by simp⟩
  | x :: l, h => by
    obtain ⟨zs, ps, h1, h2, h3⟩ := pieces l fun p hp => h p (List.mem_cons_of_mem _ hp)
    rcases h x (by simp) with hx | hx
    · refine ⟨x :: zs, ps, by rw [h1]; simp, ?_, h3⟩
      intro p hp
      rcases List.mem_cons.1 hp with rfl | hp
      · exact hx
      · exact h2 p hp
    · refine ⟨[], (x :: zs) :: ps, by rw [h1]; simp, by simp, ?_⟩
      intro p hp
      rcases List.mem_cons.1 hp with rfl | hp
      · exact ⟨x.2, zs, by rw [← hx], h2⟩
      · exact h3 p hp

theorem ids_of_pieces {α : Type} : ∀ (ps : List (List (ℤ × α))) (s : ℤ), (∀ p ∈ ps, IsPiece p) →
    (∀ t ∈ cumsum s (ps.flatten.map (·.1)), s < t ∧ t ≤ s + ps.length) ∧
    (ps ≠ [] → s + ps.length ∈ cumsum s (ps.flatten.map (·.1))) ∧
    ∀ i : ℕ, (((cumsum s (ps.flatten.map (·.1))).zip (ps.flatten.map (·.2))).filter fun q =>
      q.1 = s + (i : ℤ) + 1).map (·.2) = (ps.getD i []).map (·.2)
  | [], s, _ => by simp [cumsum]
  | p :: ps, s, h => by
    obtain ⟨h1, h2, h3⟩ := ids_of_pieces ps (s + 1) fun q hq => h q (List.mem_cons_of_mem _ hq)
    obtain ⟨x, l, hp, hl⟩ := h p (by simp)
    obtain ⟨z1, z2⟩ := cumsum_zeros (l.map (·.1)) (s + 1) (by
      intro y hy
      obtain ⟨q, hq, rfl⟩ := List.mem_map.1 hy
      exact hl q hq)
    have hc : cumsum s (((p :: ps).flatten).map (·.1)) =
        List.replicate p.length (s + 1) ++ cumsum (s + 1) (ps.flatten.map (·.1)) := by
      rw [List.flatten_cons, List.map_append, cumsum_append, hp]
      simp only [List.map_cons, cumsum, z1, z2, List.sum_cons, List.length_map, List.length_cons, Int.add_zero,
        List.replicate_succ]
    have hlen : 0 < p.length := by rw [hp]; simp
    rw [hc]
    refine ⟨?_, ?_, ?_⟩
    · intro t ht
      simp only [List.length_cons]
      push_cast
      rcases List.mem_append.1 ht with ht | ht
      · have := List.eq_of_mem_replicate ht; omega
      · have := h1 t ht; omega
    · intro _
      rw [List.mem_append]
      by_cases hps : ps = []
      · left
        rw [List.mem_replicate]
        refine ⟨by omega, by simp [hps]⟩
      · right
        have := h2 hps
        rw [show s + (((p :: ps).length : ℕ) : ℤ) = s + 1 + ps.length by simp only [List.length_cons]; push_cast; ring]
        exact this
    · intro i
      rw [List.flatten_cons, List.map_append, List.zip_append (by simp), List.filter_append, List.map_append]
      cases i with
      | zero =>
        have e1 : ((List.replicate p.length (s + 1)).zip (p.map (·.2))).filter (fun q => decide (q.1 = s + ((0 : ℕ) : ℤ) + 1)) =
            (List.replicate p.length (s + 1)).zip (p.map (·.2)) := by
          rw [List.filter_eq_self]
          intro q hq
          have := List.eq_of_mem_replicate (List.of_mem_zip hq).1
          simp [this]
        have e2 : ((cumsum (s + 1) (ps.flatten.map (·.1))).zip (ps.flatten.map (·.2))).filter
            (fun q => decide (q.1 = s + ((0 : ℕ) : ℤ) + 1)) = [] := by
          rw [List.filter_eq_nil_iff]
          intro q hq
          have := h1 q.1 (List.of_mem_zip hq).1
          simp only [decide_eq_true_eq]
          push_cast
          omega
        rw [e1, e2]
        simp only [List.map_nil, List.append_nil, List.getD_cons_zero]
        rw [List.map_snd_zip (by simp)]
      | succ i =>
        have e1 : ((List.replicate p.length (s + 1)).zip (p.map (·.2))).filter (fun q => decide (q.1 = s + ((i + 1 : ℕ) : ℤ) + 1)) =
            [] := by
          rw [List.filter_eq_nil_iff]
          intro q hq
          have := List.eq_of_mem_replicate (List.of_mem_zip hq).1
          simp only [decide_eq_true_eq]
          push_cast
          omega
        rw [e1]
        simp only [List.map_nil, List.nil_append, List.getD_cons_succ]
        rw [← h3 i]
        congr 1
        apply List.filter_congr
        intro q _
        rw [decide_eq_decide]
        push_cast
        omega

theorem foldl_max_eq : ∀ (l : List ℤ) (a m : ℤ), a ≤ m → (∀ x ∈ l, x ≤ m) → m ∈ a :: l → l.foldl max a = m
  | [], a, m, _, _, h => (List.mem_singleton.1 h).symm
  | y :: l, a, m, h1, h2, h => by
    simp only [List.foldl_cons]
    have hy := h2 y (by simp)
    apply foldl_max_eq l _ m (max_le h1 hy) fun x hx => h2 x (List.mem_cons_of_mem _ hx)
    rcases List.mem_cons.1 h with h | h
    · subst h; rw [max_eq_left hy]; simp
    · rcases List.mem_cons.1 h with h | h
      · subst h; rw [max_eq_right h1]; simp
      · exact List.mem_cons_of_mem _ h

/-- C37: splitting a record whose markers are 0 or 1, beginning with 1: the tracks, put together, are the
record, and every track begins at a marker and has no other. -/
theorem C37_split {α : Type} {markers : List ℤ} {rows : List α} (hlen : markers.length = rows.length)
    (h01 : ∀ m ∈ markers, m = 0 ∨ m = 1) (hfirst : markers[0]? = some 1) :
    ∃ ts : List (List α), splitTracks markers rows = .ok ts ∧ ts.flatten = rows ∧
      ∃ ps : List (List (ℤ × α)), ps.flatten = markers.zip rows ∧ (∀ p ∈ ps, IsPiece p) ∧
        ts = ps.map fun p => p.map (·.2) := by
  obtain ⟨zs, ps, h1, h2, h3⟩ := pieces (markers.zip rows) fun p hp => h01 _ (List.of_mem_zip hp).1
  have hm : (markers.zip rows).map (·.1) = markers := List.map_fst_zip (by omega)
  have hr : (markers.zip rows).map (·.2) = rows := List.map_snd_zip (by omega)
  have hzs : zs = [] := by
    cases zs with
    | nil => rfl
    | cons z zs =>
      rw [h1] at hm
      rw [← hm] at hfirst
      simp only [List.cons_append, List.map_cons, List.getElem?_cons_zero, Option.some.injEq] at hfirst
      have := h2 z (by simp)
      omega
  subst hzs
  rw [List.nil_append] at h1
  have hps : ps ≠ [] := by
    rintro rfl
    rw [h1] at hm
    rw [← hm] at hfirst
    simp at hfirst
  rw [h1] at hm hr
  obtain ⟨g1, g2, g3⟩ := ids_of_pieces ps 0 h3
  rw [hm] at g1 g2 g3
  rw [hr] at g3
  have hts : splitTracks markers rows = .ok (ps.map fun p => p.map (·.2)) := by
    unfold splitTracks
    cases hc : cumsum 0 markers with
    | nil => have := g2 hps; rw [hc] at this; simp at this
    | cons t ts =>
      rw [hc] at g1 g2 g3
      have hmax : ts.foldl max t = ps.length := by
        apply foldl_max_eq
        · have := (g1 t (by simp)).2; omega
        · intro x hx; have := (g1 x (List.mem_cons_of_mem _ hx)).2; omega
        · have := g2 hps; rwa [Int.zero_add] at this
      simp only [hmax, Int.toNat_natCast]
      congr 1
      apply List.ext_getElem
      · simp
      · intro i hi1 hi2
        simp only [List.getElem_map, List.getElem_range]
        have := g3 i
        simp only [List.length_map, List.length_range] at hi1
        rw [List.getD_eq_getElem?_getD, List.getElem?_eq_getElem hi1, Option.getD_some] at this
        rw [← this]
        congr 1
        apply List.filter_congr
        intro q _
        rw [decide_eq_decide]
        push_cast
        omega
  refine ⟨_, hts, ?_, ps, h1.symm, h3, rfl⟩
  rw [← hr, List.map_flatten]

/-- C37 for a file without a column `index`: the markers of the identifiers are as `C37_split` needs them. -/
theorem C37_split_identifiers {α β : Type} [DecidableEq α] {ids : List α} {rows : List β}
    (hlen : ids.length = rows.length) (hne : ids ≠ []) :
    ∃ ts : List (List β), splitTracks (markChanges ids) rows = .ok ts ∧ ts.flatten = rows := by
  have h := C37_markers ids
  obtain ⟨ts, h1, h2, _⟩ := C37_split (rows := rows) (by rw [h.1]; exact hlen) (by
    intro m hm
    match ids with
    | [] => simp [markChanges] at hm
    | a :: l =>
      simp only [markChanges, List.mem_cons, List.mem_map] at hm
      rcases hm with rfl | ⟨p, _, rfl⟩
      · right; rfl
      · split
        · left; rfl
        · right; rfl) (h.2.1 hne)
  exact ⟨ts, h1, h2⟩

/-- C37 fails for a column `index` that does not begin with a marker: the records before the first
marker are lost. -/
theorem C37_leading_records_lost {α : Type} (m : ℤ) (markers : List ℤ) (x : α) (rows : List α) :
    splitTracks (0 :: m :: markers) (x :: rows) = splitTracks (m :: markers) rows := by
  unfold splitTracks
  simp only [cumsum, Int.add_zero, Int.zero_add, List.foldl_cons]
  have hmax : ∀ (l : List ℤ) (a : ℤ), (l.foldl max (max 0 a)).toNat = (l.foldl max a).toNat := by
    intro l
    induction l with
    | nil => intro a; simp only [List.foldl_nil]; omega
    | cons b l ih => intro a; simp only [List.foldl_cons]; rw [max_assoc]; exact ih _
  rw [hmax]
  congr 1

example : splitTracks (markChanges ['a', 'a', 'b', 'a']) [10, 11, 12, 13] = .ok [[10, 11], [12], [13]] := by
  decide +kernel

/-! ### C38 -/

/-- C38 in part: the marker of a record is 1 exactly if it was, or if the record is more than `maxLon`
east or more than 5 degrees north of the one before; nothing else is changed. -/
theorem C38_jump_partial (maxLon : ℚ) (obs : List Obs) : (splitJumps maxLon obs).length = obs.length ∧
    (splitJumps maxLon obs)[0]? = obs[0]? ∧
    ∀ (i : ℕ) (p q : Obs), obs[i]? = some p → obs[i + 1]? = some q →
      ∃ m, (splitJumps maxLon obs)[i + 1]? = some ⟨m, q.lon, q.lat⟩ ∧
        (m = 1 ↔ q.index = 1 ∨ q.lon - p.lon > maxLon ∨ q.lat - p.lat > 5) ∧ (m = 1 ∨ m = q.index) := by
  match obs with
  | [] => simp [splitJumps]
  | a :: l =>
    refine ⟨by simp [splitJumps], by simp [splitJumps], ?_⟩
    intro i p q hp hq
    have : ((a :: l).zip l)[i]? = some (p, q) := by
      rw [List.getElem?_zip_eq_some]
      exact ⟨hp, by simpa using hq⟩
    simp only [splitJumps, List.getElem?_cons_succ, List.getElem?_map, this, Option.map_some]
    by_cases h : q.lon - p.lon > maxLon ∨ q.lat - p.lat > 5
    · rw [if_pos h]
      exact ⟨1, rfl, by simp [h], Or.inl rfl⟩
    · rw [if_neg h]
      exact ⟨q.index, rfl, by simp [h], Or.inr rfl⟩

/-- C38 fails: jumps to the west and to the south, however large, do not start a new track. -/
theorem C38_west_south_fails {maxLon dx dy : ℚ} (hm : 0 ≤ maxLon) (hx : 0 ≤ dx) (hy : 0 ≤ dy) (p : Obs) :
    splitJumps maxLon [p, ⟨0, p.lon - dx, p.lat - dy⟩] = [p, ⟨0, p.lon - dx, p.lat - dy⟩] := by
  simp only [splitJumps, List.zip_cons_cons, List.zip_nil_right, List.map_cons, List.map_nil]
  rw [if_neg]
  rintro (h | h) <;> linarith

theorem mod360_range (x : ℚ) (n : ℤ) (h0 : 360 * n ≤ x) (h1 : x < 360 * (n + 1)) : mod360 x = x - 360 * n := by
  unfold mod360
  have : ⌊x / 360⌋ = n := by
    rw [Int.floor_eq_iff]
    constructor
    · rw [le_div_iff₀ (by norm_num)]; linarith
    · rw [div_lt_iff₀ (by norm_num)]; linarith
  rw [this]

/-- C38 fails: a small step west over Greenwich is taken for a jump. -/
theorem C38_greenwich_fails {lon d lat lat' : ℚ} (h0 : 0 ≤ lon) (hd : lon < d) (hs : d < 345) :
    splitJumps 15 [⟨1, mod360 lon, lat⟩, ⟨0, mod360 (lon - d), lat'⟩] =
      [⟨1, mod360 lon, lat⟩, ⟨1, mod360 (lon - d), lat'⟩] := by
  have e1 := mod360_range lon 0 (by simpa using h0) (by push_cast; linarith)
  have e2 := mod360_range (lon - d) (-1) (by push_cast; linarith) (by push_cast; linarith)
  simp only [splitJumps, List.zip_cons_cons, List.zip_nil_right, List.map_cons, List.map_nil]
  rw [if_pos]
  left
  rw [e1, e2]
  push_cast
  linarith

example : (splitJumps 15 [⟨1, 100, -10⟩, ⟨0, 101, -11⟩, ⟨0, 120, -11⟩]).map (·.index) = [1, 0, 1] := by
  decide +kernel

end Tcrm.DataProc
