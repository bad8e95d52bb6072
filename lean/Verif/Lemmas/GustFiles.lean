import Verif.Spec.GustFiles
import Mathlib.Data.List.Basic
import Mathlib.Order.MinMax
import Mathlib.Data.List.Infix
import Mathlib.Data.List.Forall2
import Mathlib.Tactic.Common
/-! Lemmas on wind-field files. -/
namespace Tcrm.GustFiles

theorem ofDigitChars_pad (w n : ℕ) : Nat.ofDigitChars 10 (pad w n) 0 = n := by
  unfold pad
  rw [Nat.ofDigitChars_append, Nat.ofDigitChars_replicate_zero]
  simp [Nat.ofDigitChars_ten_toDigits]

theorem pad_injective (w : ℕ) {m n : ℕ} (h : pad w m = pad w n) : m = n := by
  rw [← ofDigitChars_pad w m, h, ofDigitChars_pad]

theorem isDigit_of_mem_pad {w n : ℕ} {c : Char} (h : c ∈ pad w n) : c.isDigit = true := by
  unfold pad at h
  rcases List.mem_append.1 h with h | h
  · rw [(List.mem_replicate.1 h).2]; decide
  · exact Nat.isDigit_of_mem_toDigits (by decide) (by decide) h

theorem dash_notMem_pad (w n : ℕ) : '-' ∉ pad w n := fun h => by
  have := isDigit_of_mem_pad h
  revert this; decide

/-- The first separator splits a name uniquely. -/
theorem split_first {α : Type} {c : α} : ∀ {a a' b b' : List α}, c ∉ a → c ∉ a' →
    a ++ c :: b = a' ++ c :: b' → a = a' ∧ b = b'
  | [], [], _, _, _, _, h => by simpa using h
  | [], x :: a', _, _, _, h', h => by
      simp only [List.nil_append, List.cons_append, List.cons.injEq] at h
      exact absurd (by simp [h.1]) h'
  | x :: a, [], _, _, h', _, h => by
      simp only [List.nil_append, List.cons_append, List.cons.injEq] at h
      exact absurd (by simp [h.1]) h'
  | x :: a, y :: a', b, b', h1, h2, h => by
      simp only [List.cons_append, List.cons.injEq] at h
      obtain ⟨r1, r2⟩ := split_first (fun m => h1 (List.mem_cons_of_mem _ m))
        (fun m => h2 (List.mem_cons_of_mem _ m)) h.2
      exact ⟨by rw [h.1, r1], r2⟩

/-- The last separator splits a name uniquely. -/
theorem split_last {α : Type} {c : α} {a a' b b' : List α} (h1 : c ∉ b) (h2 : c ∉ b')
    (h : a ++ c :: b = a' ++ c :: b') : a = a' ∧ b = b' := by
  have h' := congrArg List.reverse h
  simp only [List.reverse_append, List.reverse_cons, List.append_assoc, List.singleton_append] at h'
  obtain ⟨r1, r2⟩ := split_first (by simpa using h1) (by simpa using h2) h'
  exact ⟨List.reverse_injective r2, List.reverse_injective r1⟩

theorem fnmatch_lit : ∀ (p s : Name), fnmatch (p.map .lit) s = true ↔ s = p
  | [], s => by simp [fnmatch]
  | c :: p, [] => by simp [fnmatch]
  | c :: p, d :: s => by
      simp only [List.map_cons, fnmatch, Bool.and_eq_true, beq_iff_eq, fnmatch_lit p s,
        List.cons.injEq]
      constructor
      · rintro ⟨rfl, rfl⟩; exact ⟨rfl, rfl⟩
      · rintro ⟨rfl, rfl⟩; exact ⟨rfl, rfl⟩

theorem fnmatch_lit_append : ∀ (p : Name) (q : List Pat) (s : Name),
    fnmatch (p.map .lit ++ q) s = true ↔ ∃ r, s = p ++ r ∧ fnmatch q r = true
  | [], q, s => by simp
  | c :: p, q, [] => by simp [fnmatch]
  | c :: p, q, d :: s => by
      simp only [List.map_cons, List.cons_append, fnmatch, Bool.and_eq_true, beq_iff_eq,
        fnmatch_lit_append p q s, List.cons.injEq]
      constructor
      · rintro ⟨rfl, r, rfl, h⟩; exact ⟨r, ⟨rfl, rfl⟩, h⟩
      · rintro ⟨r, ⟨rfl, rfl⟩, h⟩; exact ⟨rfl, r, rfl, h⟩

theorem fnmatch_star (q : List Pat) (s : Name) :
    fnmatch (.star :: q) s = true ↔ ∃ m r, s = m ++ r ∧ fnmatch q r = true := by
  simp only [fnmatch, List.any_eq_true, List.mem_tails]
  constructor
  · rintro ⟨r, ⟨m, rfl⟩, h⟩; exact ⟨m, r, rfl, h⟩
  · rintro ⟨m, r, rfl, h⟩; exact ⟨r, ⟨m, rfl⟩, h⟩

theorem fnmatch_yearPattern (y : ℕ) (s : Name) : fnmatch (yearPattern y) s = true ↔
    ∃ m, s = "gust.".toList ++ m ++ "-".toList ++ pad 5 y ++ ".nc".toList := by
  unfold yearPattern
  rw [List.append_assoc, fnmatch_lit_append]
  simp only [List.singleton_append, fnmatch_star, fnmatch_lit]
  constructor
  · rintro ⟨r, rfl, m, _, rfl, rfl⟩; exact ⟨m, by simp⟩
  · rintro ⟨m, rfl⟩; exact ⟨m ++ ("-".toList ++ pad 5 y ++ ".nc".toList), by simp, m, _, rfl, rfl⟩

/-! ### Maxima -/

theorem isMaxOf_maxList {K : Type} [LinearOrder K] (d : K) : ∀ l : List K, l ≠ [] →
    IsMaxOf (maxList d l) l
  | [], h => absurd rfl h
  | [x], _ => by simp [maxList, IsMaxOf]
  | x :: y :: l, _ => by
      obtain ⟨h1, h2⟩ := isMaxOf_maxList d (y :: l) (by simp)
      constructor
      · rcases max_choice x (maxList d (y :: l)) with h | h
        · simp only [maxList]; rw [h]; simp
        · simp only [maxList]; rw [h]; exact List.mem_cons_of_mem _ h1
      · intro z hz
        rcases List.mem_cons.1 hz with rfl | hz
        · exact le_max_left _ _
        · exact le_trans (h2 z hz) (le_max_right _ _)

theorem IsMaxOf.unique {K : Type} [PartialOrder K] {v w : K} {l l' : List K} (h : IsMaxOf v l)
    (h' : IsMaxOf w l') (e : ∀ x, x ∈ l ↔ x ∈ l') : v = w :=
  le_antisymm (h'.2 _ ((e _).1 h.1)) (h.2 _ ((e _).2 h'.1))

theorem mapM_option_eq_some {α β : Type} (f : α → Option β) : ∀ (l : List α) (r : List β),
    l.mapM f = some r ↔ List.Forall₂ (fun a b => f a = some b) l r
  | [], r => by
      simp only [List.mapM_nil, Option.pure_def, Option.some.injEq]
      constructor
      · rintro rfl; exact .nil
      · intro h; cases h; rfl
  | a :: l, r => by
      simp only [List.mapM_cons, Option.pure_def, Option.bind_eq_bind, Option.bind_eq_some_iff,
        Option.some.injEq, mapM_option_eq_some f l]
      constructor
      · rintro ⟨b, hb, r', hr', rfl⟩; exact .cons hb hr'
      · intro h
        cases h with
        | cons hb hr' => exact ⟨_, hb, _, hr', rfl⟩

theorem exists_right {α β : Type} {R : α → β → Prop} {l : List α} {r : List β}
    (h : List.Forall₂ R l r) {a : α} (ha : a ∈ l) : ∃ b, b ∈ r ∧ R a b := by
  induction h with
  | nil => simp at ha
  | cons hab _ ih =>
    rcases List.mem_cons.1 ha with rfl | ha
    · exact ⟨_, by simp, hab⟩
    · obtain ⟨b, hb, h⟩ := ih ha
      exact ⟨b, List.mem_cons_of_mem _ hb, h⟩

/-! ### Restart -/

variable {T L D X : Type}

theorem saveStates_getLast (data : Var → D) :
    (saveStates data).getLast? = some (fullFile data) := rfl

theorem mem_saveStates {data : Var → D} {f : File D} (h : f ∈ saveStates data) :
    f = fullFile data ∨ f.closed = false := by
  simp only [saveStates, List.mem_cons, List.not_mem_nil, or_false] at h
  rcases h with h | h | h | h | h | h | h | h | h | h | h | h | h | h | h <;> subst h <;>
    first | exact Or.inr rfl | exact Or.inl rfl

theorem complete_full {S : Stage T L D X} (hS : Faithful S) (data : Var → D) :
    complete S (some (fullFile data)) = true := by
  have h := hS.full data
  unfold fullFile at h
  simp [complete, fullFile, h]

/-- The last state of a track's processing. -/
theorem processTrack_last (S : Stage T L D X) (t : T) (lim : Option L) (d : Disk D X) :
    (processTrack S t lim d).1.getLast?.getD d =
      if complete S (d.files (gustName (S.id t))) then d
      else
        { (d.put (gustName (S.id t)) (fullFile (S.result (lim.getD (S.limitOf t)) t))) with
          localWind := if S.multipliers then some (S.localField (lim.getD (S.limitOf t)) t)
            else d.localWind } := by
  unfold processTrack
  by_cases hc : complete S (d.files (gustName (S.id t)))
  · simp [hc]
  · by_cases hm : S.multipliers
    · simp only [hc, hm, Bool.false_eq_true, if_false, if_true]
      cases lim <;> simp [List.getLast?_append, List.getLast?_map, saveStates_getLast, Disk.put,
        List.getLast?_cons]
    · simp only [hc, hm, Bool.false_eq_true, if_false, List.append_nil]
      cases lim <;> simp [List.getLast?_map, saveStates_getLast, Disk.put, List.getLast?_cons]

/-- A file other than the track's, or a complete one, is never touched. -/
theorem processTrack_files {S : Stage T L D X} {t : T} {lim : Option L} {d d' : Disk D X}
    (h : d' ∈ (processTrack S t lim d).1) {n : Name}
    (hn : n ≠ gustName (S.id t) ∨ complete S (d.files n) = true) : d'.files n = d.files n := by
  unfold processTrack at h
  by_cases hc : complete S (d.files (gustName (S.id t)))
  · simp only [hc, if_true, List.mem_singleton] at h
    rw [h]
  · have hn' : n ≠ gustName (S.id t) := by
      rcases hn with hn | hn
      · exact hn
      · rintro rfl; exact hc hn
    have key : ∀ f, (d.put (gustName (S.id t)) f).files n = d.files n := fun f => by
      simp [Disk.put, hn']
    simp only [hc, Bool.false_eq_true, if_false, List.mem_append, List.mem_cons, List.mem_map] at h
    rcases h with (rfl | ⟨f, _, rfl⟩) | h
    · rfl
    · exact key f
    · have hl : ∀ data : Var → D,
          ((saveStates data).map fun f => d.put (gustName (S.id t)) f).getLast? =
            some (d.put (gustName (S.id t)) (fullFile data)) := fun data => by
        rw [List.getLast?_map, saveStates_getLast]; rfl
      simp only [hl] at h
      by_cases hm : S.multipliers
      · simp only [hm, if_true, List.mem_singleton] at h
        subst h
        exact key _
      · simp [hm] at h

/-- The track's own file: as before, or being written. -/
theorem processTrack_own {S : Stage T L D X} {t : T} {lim : Option L} {d d' : Disk D X}
    (h : d' ∈ (processTrack S t lim d).1) :
    d'.files (gustName (S.id t)) = d.files (gustName (S.id t)) ∨
      ∃ f, d'.files (gustName (S.id t)) = some f ∧
        (f = fullFile (S.result (lim.getD (S.limitOf t)) t) ∨ f.closed = false) := by
  unfold processTrack at h
  by_cases hc : complete S (d.files (gustName (S.id t)))
  · simp only [hc, if_true, List.mem_singleton] at h
    rw [h]; exact Or.inl rfl
  · have hl : ∀ data : Var → D,
        ((saveStates data).map fun f => d.put (gustName (S.id t)) f).getLast? =
          some (d.put (gustName (S.id t)) (fullFile data)) := fun data => by
      rw [List.getLast?_map, saveStates_getLast]; rfl
    simp only [hc, Bool.false_eq_true, if_false, List.mem_append, List.mem_cons, List.mem_map, hl] at h
    rcases h with (rfl | ⟨f, hf, rfl⟩) | h
    · exact Or.inl rfl
    · right
      refine ⟨f, by simp [Disk.put], ?_⟩
      exact mem_saveStates hf
    · by_cases hm : S.multipliers
      · simp only [hm, if_true, List.mem_singleton] at h
        subst h
        right
        exact ⟨_, by simp only [Disk.put, if_true, Option.getD_some], Or.inl rfl⟩
      · simp [hm] at h

theorem processTrack_ne_nil (S : Stage T L D X) (t : T) (lim : Option L) (d : Disk D X) :
    (processTrack S t lim d).1 ≠ [] := by
  unfold processTrack
  by_cases hc : complete S (d.files (gustName (S.id t))) <;> simp [hc]

theorem processTrack_last_mem (S : Stage T L D X) (t : T) (lim : Option L) (d : Disk D X) :
    (processTrack S t lim d).1.getLast?.getD d ∈ (processTrack S t lim d).1 := by
  rw [List.getLast?_eq_some_getLast (processTrack_ne_nil S t lim d)]
  exact List.getLast_mem _

theorem processTrack_lim (S : Stage T L D X) (t : T) (l : L) (d : Disk D X) :
    (processTrack S t (some l) d).2 = some l := by
  unfold processTrack
  by_cases hc : complete S (d.files (gustName (S.id t))) <;> simp [hc]

/-- A property of disks preserved by every step of every track holds in every state of a run. -/
theorem runStates_induction {S : Stage T L D X} {P : Disk D X → Prop} : ∀ {ts : List T}
    {lim : Option L} {d : Disk D X}, P d →
    (∀ t ∈ ts, ∀ lim d d', P d → d' ∈ (processTrack S t lim d).1 → P d') →
    ∀ d' ∈ runStates S ts lim d, P d'
  | [], _, d, h0, _, d', h => by
      simp only [runStates, List.mem_singleton] at h
      rw [h]; exact h0
  | t :: ts, lim, d, h0, hs, d', h => by
      simp only [runStates, List.mem_append] at h
      rcases h with h | h
      · exact hs t (by simp) lim d d' h0 h
      · exact runStates_induction (hs t (by simp) lim d _ h0 (processTrack_last_mem S t lim d))
          (fun t' ht' => hs t' (List.mem_cons_of_mem _ ht')) d' h

/-- The same for a run with a configured grid limit. -/
theorem runStates_induction_some {S : Stage T L D X} {P : Disk D X → Prop} {l : L} :
    ∀ {ts : List T} {d : Disk D X}, P d →
    (∀ t ∈ ts, ∀ d d', P d → d' ∈ (processTrack S t (some l) d).1 → P d') →
    ∀ d' ∈ runStates S ts (some l) d, P d'
  | [], d, h0, _, d', h => by
      simp only [runStates, List.mem_singleton] at h
      rw [h]; exact h0
  | t :: ts, d, h0, hs, d', h => by
      simp only [runStates, List.mem_append, processTrack_lim] at h
      rcases h with h | h
      · exact hs t (by simp) d d' h0 h
      · exact runStates_induction_some (hs t (by simp) d _ h0
          (processTrack_last_mem S t (some l) d))
          (fun t' ht' => hs t' (List.mem_cons_of_mem _ ht')) d' h

theorem runFinal_mem (S : Stage T L D X) : ∀ (ts : List T) (lim : Option L) (d : Disk D X),
    runFinal S ts lim d ∈ runStates S ts lim d
  | [], _, d => by simp [runFinal, runStates]
  | t :: ts, lim, d => by
      simp only [runFinal, runStates, List.mem_append]
      exact Or.inr (runFinal_mem S ts _ _)

end Tcrm.GustFiles
