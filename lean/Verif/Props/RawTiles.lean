import Verif.Spec.RawTiles
import Mathlib.Algebra.BigOperators.Group.Finset.Basic
import Mathlib.Algebra.BigOperators.Fin
import Mathlib.Algebra.Order.BigOperators.Group.Finset
import Mathlib.Data.Fintype.BigOperators
/-!
C210: fetching the tiles of the raw multipliers.
-/
namespace Tcrm.RawTiles

variable {n : ℕ} {there : Fin n → Text → Prop}

/-- What holds of every thread at any time -/
def Inv (there : Text → Prop) (list : List Text) (t : Thread) (got : List Text) : Prop :=
  (∀ f ∈ got, there f) ∧
  match t with
  | .running todo => list = got ++ todo
  | .returned => got = list
  | .raised => ∃ f rest, list = got ++ f :: rest ∧ ¬ there f

theorem inv_run (lists : Fin n → List Text) {k : ℕ} {p : State n} (h : Run there k (start lists) p) (i : Fin n) :
    Inv (there i) (lists i) (p.threads i) (p.got i) := by
  generalize hs : start lists = s at h
  induction h with
  | zero => subst hs; simp [Inv, start]
  | next _ step ih =>
    have ih := ih hs
    cases step with
    | fetch j f rest hj hf =>
      by_cases e : i = j
      · subst e
        rw [hj] at ih
        obtain ⟨h1, h2⟩ := ih
        simp only [Function.update_self]
        refine ⟨?_, by simp only at h2 ⊢; simp [h2]⟩
        intro g hg
        rcases List.mem_append.1 hg with hg | hg
        · exact h1 g hg
        · rw [List.mem_singleton] at hg; rw [hg]; exact hf
      · simp only [Function.update_of_ne e]; exact ih
    | fail j f rest hj hf =>
      by_cases e : i = j
      · subst e
        rw [hj] at ih
        simp only [Function.update_self]
        exact ⟨ih.1, f, rest, ih.2, hf⟩
      · simp only [Function.update_of_ne e]; exact ih
    | finish j hj =>
      by_cases e : i = j
      · subst e
        rw [hj] at ih
        simp only [Function.update_self]
        exact ⟨ih.1, by have := ih.2; simp only [List.append_nil] at this; exact this.symm⟩
      · simp only [Function.update_of_ne e]; exact ih

theorem afterJoin_iff (temporary : Text) (p : State n) :
    (∃ d, afterJoin temporary p = some d) ↔ ∀ i, ended (p.threads i) = true := by
  unfold afterJoin
  split <;> simp_all

/-- In every schedule: when the program goes on, it does so with the temporary directory, and every directory in it holds exactly the
files of its type before the first one that could not be fetched; the result does not depend on the schedule. -/
theorem C210_files (lists : Fin n → List Text) {k : ℕ} {p : State n} (h : Run there k (start lists) p) (temporary d : Text)
    (hd : afterJoin temporary p = some d) :
    d = temporary ++ ['/'] ∧ ∀ i, Spec.UntilFirstFailure (there i) (lists i) (p.got i) := by
  refine ⟨?_, fun i => ?_⟩
  · unfold afterJoin at hd
    split at hd
    · exact (Option.some.inj hd).symm
    · cases hd
  · have he := (afterJoin_iff temporary p).1 ⟨d, hd⟩ i
    obtain ⟨h1, h2⟩ := inv_run lists h i
    cases ht : p.threads i with
    | running todo => rw [ht] at he; cases he
    | returned => rw [ht] at h2; exact ⟨h1, Or.inl h2⟩
    | raised => rw [ht] at h2; exact ⟨h1, Or.inr h2⟩

/-- If all files can be fetched, the directories then hold all of them. -/
theorem C210_complete_partial (lists : Fin n → List Text) (hall : ∀ i, ∀ f ∈ lists i, there i f) {k : ℕ} {p : State n}
    (h : Run there k (start lists) p) (temporary d : Text) (hd : afterJoin temporary p = some d) : p.got = lists := by
  funext i
  obtain ⟨-, h2⟩ := (C210_files lists h temporary d hd).2 i
  rcases h2 with h2 | ⟨f, rest, h2, h3⟩
  · exact h2
  · exact absurd (hall i f (by rw [h2]; simp)) h3

/-- If a file cannot be fetched, the program goes on all the same, in every schedule, without this file and those after it. -/
theorem C210_silent_fails (lists : Fin n → List Text) (i : Fin n) (before rest : List Text) (f : Text)
    (hl : lists i = before ++ f :: rest) (hb : ∀ g ∈ before, there i g) (hf : ¬ there i f) {k : ℕ} {p : State n}
    (h : Run there k (start lists) p) (hstuck : Spec.Stuck there p) (temporary : Text) :
    afterJoin temporary p = some (temporary ++ ['/']) ∧ p.got i = before := by
  have hend : ∀ j, ended (p.threads j) = true := by
    intro j
    cases ht : p.threads j with
    | running todo =>
      exfalso
      cases todo with
      | nil => exact hstuck _ (.finish p j ht)
      | cons g l =>
        by_cases hg : there j g
        · exact hstuck _ (.fetch p j g l ht hg)
        · exact hstuck _ (.fail p j g l ht hg)
    | returned => rfl
    | raised => rfl
  have hj : afterJoin temporary p = some (temporary ++ ['/']) := by unfold afterJoin; rw [if_pos hend]
  refine ⟨hj, ?_⟩
  obtain ⟨h1, h2⟩ := (C210_files lists h temporary _ hj).2 i
  have key : ∀ (a b c : List Text) (x y : Text), a ++ x :: b = c ++ y :: rest → (∀ g ∈ a, there i g) → (∀ g ∈ c, there i g) →
      ¬ there i x → ¬ there i y → a = c := by
    intro a
    induction a with
    | nil =>
      intro b c x y e _ hc hx _
      cases c with
      | nil => rfl
      | cons z c =>
        simp only [List.nil_append, List.cons_append, List.cons.injEq] at e
        exact absurd (e.1 ▸ hc z List.mem_cons_self) hx
    | cons w a ih =>
      intro b c x y e ha hc hx hy
      cases c with
      | nil =>
        simp only [List.nil_append, List.cons_append, List.cons.injEq] at e
        exact absurd (e.1 ▸ ha w List.mem_cons_self) hy
      | cons z c =>
        simp only [List.cons_append, List.cons.injEq] at e
        rw [e.1, ih b c x y e.2 (fun g hg => ha g (List.mem_cons_of_mem _ hg)) (fun g hg => hc g (List.mem_cons_of_mem _ hg)) hx hy]
  rcases h2 with h2 | ⟨g, rest', h2, h3⟩
  · exact absurd (h1 f (by rw [h2, hl]; simp)) hf
  · exact key _ rest' _ g f (by rw [← h2, hl]) h1 hb h3 hf

/-- What is left to do -/
def left : Thread → ℕ
  | .running todo => todo.length + 1
  | .returned => 0
  | .raised => 0

theorem left_step {p q : State n} (h : Step there p q) : (∑ i, left (q.threads i)) < ∑ i, left (p.threads i) := by
  have key : ∀ (j : Fin n) (t : Thread), left t < left (p.threads j) →
      (∑ i, left (Function.update p.threads j t i)) < ∑ i, left (p.threads i) := by
    intro j t ht
    refine Finset.sum_lt_sum (fun i _ => ?_) ⟨j, Finset.mem_univ j, by simpa using ht⟩
    by_cases e : i = j
    · subst e; simpa using ht.le
    · rw [Function.update_of_ne e]
  cases h with
  | fetch j f rest hj hf => exact key j _ (by rw [hj]; simp [left])
  | fail j f rest hj hf => exact key j _ (by rw [hj]; simp [left])
  | finish j hj => exact key j _ (by rw [hj]; simp [left])

/-- Every schedule ends: no more actions than files and threads together, and as long as the program waits some thread can act. -/
theorem C210_ends (lists : Fin n → List Text) {k : ℕ} {p : State n} (h : Run there k (start lists) p) :
    k ≤ ∑ i, ((lists i).length + 1) ∧ ∀ temporary, (afterJoin temporary p = none → ∃ q, Step there p q) ∧
      (afterJoin temporary p ≠ none → Spec.Stuck there p) := by
  refine ⟨?_, fun temporary => ⟨fun hnone => ?_, fun hsome q hq => ?_⟩⟩
  · have : k + ∑ i, left (p.threads i) ≤ ∑ i, ((lists i).length + 1) := by
      generalize hs : start lists = s at h
      induction h with
      | zero => subst hs; simp [start, left]
      | next _ step ih =>
        have := ih hs
        have := left_step step
        omega
    omega
  · by_contra hc
    push Not at hc
    have hend : ∀ j, ended (p.threads j) = true := by
      intro j
      cases ht : p.threads j with
      | running todo =>
        exfalso
        cases todo with
        | nil => exact hc _ (.finish p j ht)
        | cons g l =>
          by_cases hg : there j g
          · exact hc _ (.fetch p j g l ht hg)
          · exact hc _ (.fail p j g l ht hg)
      | returned => rfl
      | raised => rfl
    unfold afterJoin at hnone
    rw [if_pos hend] at hnone
    cases hnone
  · have hend := (afterJoin_iff temporary p).1 (Option.ne_none_iff_exists'.1 hsome)
    cases hq with
    | fetch j f rest hj hf => have := hend j; rw [hj] at this; cases this
    | fail j f rest hj hf => have := hend j; rw [hj] at this; cases this
    | finish j hj => have := hend j; rw [hj] at this; cases this

/-- The files fetched for a type: one for every tile and direction. -/
theorem C210_names (tiles dirns : List Text) (var f : Text) :
    f ∈ files tiles dirns var ↔ ∃ t ∈ tiles, ∃ d ∈ dirns, f = t ++ "_".toList ++ var ++ "_".toList ++ d ++ ".nc".toList := by
  unfold files
  simp [List.mem_flatMap, eq_comm]

/-! ### Examples -/

-- Two types with two files each, the second file of the first type missing: a schedule to the end
example : ∃ p : State 2, Run (fun i f => i = 1 ∨ f = ['a']) 5 (start fun _ => [['a'], ['b']]) p ∧
    afterJoin "tmp".toList p = some "tmp/".toList ∧ p.got 0 = [['a']] ∧ p.got 1 = [['a'], ['b']] := by
  refine ⟨_, .next (.next (.next (.next (.next (.zero _)
    (.fetch _ 1 ['a'] [['b']] rfl (by simp)))
    (.fetch _ 0 ['a'] [['b']] rfl (by simp)))
    (.fetch _ 1 ['b'] [] rfl (by simp)))
    (.fail _ 0 ['b'] [] rfl (by simp)))
    (.finish _ 1 rfl), ?_, ?_, ?_⟩ <;> decide +kernel

example : files ["t1".toList] ["e".toList, "ne".toList] "ms".toList = ["t1_ms_e.nc".toList, "t1_ms_ne.nc".toList] := by decide +kernel

end Tcrm.RawTiles
