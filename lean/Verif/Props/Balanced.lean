import Verif.Lemmas.Balanced
/-!
C03 — round-robin work sharing partitions the work.
-/
namespace Tcrm.Balanced
variable {α : Type}

/-- Position `i` of the shared list goes to exactly one rank and one position on it:
rank `i % P`, position `i / P`. -/
theorem C03_item_goes_to_one_rank (l : List α) (P : Nat) (hP : 0 < P) (i : Nat) (x : α)
    (hi : l[i]? = some x) :
    (balanced l P (i % P))[i / P]? = some x ∧
    ∀ p k, p < P → (p + k * P = i ↔ p = i % P ∧ k = i / P) := by
  constructor
  · rw [balanced_getElem? _ _ _ _ hP, ← hi, Nat.mul_comm, Nat.mod_add_div]
  · intro p k hp
    constructor
    · rintro rfl
      rw [Nat.add_mul_mod_self_right, Nat.mod_eq_of_lt hp, Nat.add_mul_div_right _ _ hP,
        Nat.div_eq_of_lt hp]
      omega
    · rintro ⟨rfl, rfl⟩
      rw [Nat.mul_comm, Nat.mod_add_div]

/-- Position `k` on rank `p` holds item `p + k * P` of the shared list, and nothing beyond. -/
theorem C03_rank_items (l : List α) (P p k : Nat) (hP : 0 < P) :
    (balanced l P p)[k]? = l[p + k * P]? := balanced_getElem? l P p k hP

/-- Nothing is lost or duplicated (with multiplicity), each rank keeps the original order,
and any two loads differ by at most one. -/
theorem C03_partition (l : List α) (P : Nat) (hP : 0 < P) :
    ((List.range P).flatMap (balanced l P)).Perm l ∧
    (∀ p, (balanced l P p).Sublist l) ∧
    ∀ p q, p < P → q < P → (balanced l P p).length ≤ (balanced l P q).length + 1 := by
  refine ⟨balanced_perm l P hP, fun p => ?_, fun p q hp hq => ?_⟩
  · exact (everyNth_sublist _ _).trans (List.drop_sublist _ _)
  · rcases Nat.le_total p q with h | h
    · exact (balanced_load l P p q hq h).2
    · exact (balanced_load l P q p hp h).1.trans (Nat.le_succ _)

/-- Wind-field stage: whatever the number of files, the ranks together process every track
of every file exactly once; it fails (on every rank) exactly when there is no file. Each rank
may see its own directory order `listing p` of the same files. -/
theorem C03_tracks_shared {F T : Type} [LinearOrder F] (load : F → List T) (P : Nat) (hP : 0 < P)
    (files : List F) (listing : Nat → List F) (hl : ∀ p, (listing p).Perm files) :
    (files = [] → ∀ p, tracksOfRank load (listing p) P p = none) ∧
    (files ≠ [] → ∃ work : Nat → List T, (∀ p, tracksOfRank load (listing p) P p = some (work p)) ∧
      ((List.range P).flatMap work).Perm (files.flatMap load)) := by
  have hs : ∀ p, (listing p).insertionSort (· ≤ ·) = files.insertionSort (· ≤ ·) := by
    intro p
    exact List.Perm.eq_of_pairwise' (List.pairwise_insertionSort _ _)
      (List.pairwise_insertionSort _ _)
      (((List.perm_insertionSort _ _).trans (hl p)).trans (List.perm_insertionSort _ _).symm)
  simp only [tracksOfRank, hs]
  have hp : (files.insertionSort (· ≤ ·)).Perm files := List.perm_insertionSort _ _
  generalize hsrt : files.insertionSort (· ≤ ·) = srt at hp
  constructor
  · rintro rfl p
    rw [hp.eq_nil]; rfl
  · intro hne
    match srt, hp with
    | [], hp => exact absurd hp.symm.eq_nil hne
    | [f], hp =>
      refine ⟨fun p => balanced (load f) P p, fun p => rfl, ?_⟩
      refine (balanced_perm (load f) P hP).trans ?_
      have := hp.flatMap_right load
      simpa using this
    | f :: g :: t, hp =>
      refine ⟨fun p => (balanced (f :: g :: t) P p).flatMap load, fun p => rfl, ?_⟩
      rw [← List.flatMap_assoc]
      exact ((balanced_perm _ P hP).flatMap_right load).trans (hp.flatMap_right load)

/-- Non-vacuity: five items on three ranks. -/
example : (balanced [10, 11, 12, 13, 14] 3 0, balanced [10, 11, 12, 13, 14] 3 1,
    balanced [10, 11, 12, 13, 14] 3 2) = ([10, 13], [11, 14], [12]) := by
  simp [balanced, everyNth]

/-- Non-vacuity: two ranks that list two files in different orders. -/
example : ∀ p, ((fun p => if p = 0 then [2, 1] else [1, 2]) p : List Nat).Perm [1, 2] := by
  intro p; dsimp only; split
  · exact List.Perm.swap _ _ _
  · exact List.Perm.refl _

end Tcrm.Balanced
