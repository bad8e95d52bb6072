import Verif.Spec.Pipeline
import Mathlib.Data.List.Basic
import Mathlib.Data.List.Count
import Mathlib.Algebra.BigOperators.Group.List.Basic
import Mathlib.Algebra.Order.BigOperators.Group.List
import Mathlib.Algebra.Order.Ring.Nat
import Mathlib.Algebra.Order.Group.Nat
import Mathlib.Tactic.ByContra

/-!
Auxiliary results for the main program: barriers keep the processes in the same phase.
-/

namespace Tcrm.Pipeline

/-- Actions that are recorded in the log. -/
def isEvent : Act → Bool
  | .start _ => true
  | .finish _ => true
  | _ => false

/-- The recorded actions of a program. -/
def events (l : List Act) : List Act := l.filter isEvent

/-- What process `p` has recorded. -/
def logged (st : State) (p : ℕ) : List Act :=
  (st.log.filter fun e => e.1 = p).map Prod.snd

/-- Number of barriers in a program. -/
def barriers (l : List Act) : ℕ := l.count .barrier

variable {size : ℕ} {progs : ℕ → List Act} {st st' : State}

theorem logged_append (st : State) (p q : ℕ) (x : Act) (pr : ℕ → List Act) :
    logged { st with progs := pr, log := st.log ++ [(p, x)] } q =
      if p = q then logged st q ++ [x] else logged st q := by
  by_cases h : p = q <;> simp [logged, List.filter_append, h]

/-- Log and remaining program together are the program. -/
theorem step_events (h : Step size st st') (q : ℕ) :
    logged st' q ++ events (st'.progs q) = logged st q ++ events (st.progs q) := by
  cases h with
  | start p hp s r hh =>
    rw [logged_append]
    by_cases e : p = q
    · subst e
      simp only [hh, events, Function.update_self, if_true]
      rw [List.filter_cons_of_pos (by rfl)]
      simp
    · simp [e, Function.update_of_ne (Ne.symm e)]
  | finish p hp s r hh =>
    rw [logged_append]
    by_cases e : p = q
    · subst e
      simp only [hh, events, Function.update_self, if_true]
      rw [List.filter_cons_of_pos (by rfl)]
      simp
    · simp [e, Function.update_of_ne (Ne.symm e)]
  | barrier hh =>
    by_cases e : q < size
    · have := hh q e
      cases hq : st.progs q with
      | nil => simp [hq] at this
      | cons x r =>
        rw [hq] at this
        simp only [List.head?_cons, Option.some.injEq] at this
        subst this
        simp [logged, e, hq, events, isEvent]
    · simp [logged, e]
  | send p hp d r hh =>
    by_cases e : q = p
    · subst e; simp [hh, events, isEvent, logged]
    · simp [Function.update_of_ne e, logged]
  | recv p hp r hh hm =>
    by_cases e : q = p
    · subst e; simp [hh, events, isEvent, logged]
    · simp [Function.update_of_ne e, logged]

theorem step_suffix (h : Step size st st') (q : ℕ) : st'.progs q <:+ st.progs q := by
  cases h with
  | start p hp s r hh | finish p hp s r hh | send p hp d r hh | recv p hp r hh hm =>
    by_cases e : q = p
    · subst e; simp [hh, List.suffix_cons]
    · simp [Function.update_of_ne e]
  | barrier hh =>
    by_cases e : q < size
    · simp [e, List.tail_suffix]
    · simp [e]

theorem step_barriers (h : Step size st st') (hB : ∀ p < size, barriers (st.progs p) =
    barriers (st.progs 0)) (h0 : 0 < size) (p : ℕ) (hp : p < size) :
    barriers (st'.progs p) = barriers (st'.progs 0) := by
  have key : ∀ (x : Act) (p' : ℕ) (r : List Act), x ≠ .barrier → st.progs p' = x :: r →
      ∀ q, barriers (Function.update st.progs p' r q) = barriers (st.progs q) := by
    intro x p' r hx hh q
    by_cases e : q = p'
    · subst e; simp [barriers, hh, hx]
    · rw [Function.update_of_ne e]
  cases h with
  | start p' hp' s r hh =>
    simp only [key _ _ _ (by simp) hh]; exact hB p hp
  | finish p' hp' s r hh =>
    simp only [key _ _ _ (by simp) hh]; exact hB p hp
  | send p' hp' d r hh =>
    simp only [key _ _ _ (by simp) hh]; exact hB p hp
  | recv p' hp' r hh hm =>
    simp only [key _ _ _ (by simp) hh]; exact hB p hp
  | barrier hh =>
    have hc : ∀ q < size, barriers (st.progs q) = barriers (st.progs q).tail + 1 := by
      intro q hq
      have := hh q hq
      cases hq' : st.progs q with
      | nil => simp [hq'] at this
      | cons x r =>
        rw [hq'] at this
        simp only [List.head?_cons, Option.some.injEq] at this
        subst this
        simp [barriers]
    have h1 := hc p hp
    have h2 := hc 0 h0
    have h3 := hB p hp
    simp only [hp, h0, if_true]
    omega

/-- The invariants of a run without failures. -/
structure Inv (size : ℕ) (progs : ℕ → List Act) (st : State) : Prop where
  ev : ∀ q, logged st q ++ events (st.progs q) = events (progs q)
  suf : ∀ q, st.progs q <:+ progs q
  bar : ∀ p < size, barriers (st.progs p) = barriers (st.progs 0)

theorem reach_inv (h0 : 0 < size) (hB : ∀ p < size, barriers (progs p) = barriers (progs 0))
    (h : Reach size progs st) : Inv size progs st := by
  induction h with
  | refl => exact ⟨fun q => by simp [begin_, logged], fun q => by simp [begin_], hB⟩
  | tail _ hs ih =>
    exact ⟨fun q => (step_events hs q).trans (ih.ev q),
      fun q => (step_suffix hs q).trans (ih.suf q), step_barriers hs ih.bar h0⟩

theorem mem_log_of_logged {q : ℕ} {x : Act} (h : x ∈ logged st q) : (q, x) ∈ st.log := by
  simp only [logged, List.mem_map, List.mem_filter, decide_eq_true_eq] at h
  obtain ⟨⟨a, b⟩, ⟨h1, h2⟩, h3⟩ := h
  simp only at h2 h3
  subst h2; subst h3; exact h1

theorem count_logged (st : State) (q : ℕ) (x : Act) :
    st.log.count (q, x) = (logged st q).count x := by
  unfold logged
  induction st.log with
  | nil => simp
  | cons e l ih =>
    obtain ⟨a, b⟩ := e
    by_cases h1 : a = q
    · subst h1
      by_cases h2 : b = x
      · subst h2; simp [ih]
      · simp [ih, h2]
    · simp [ih, h1]

/-- A suffix with no more barriers than what follows a certain barrier lies after it. -/
theorem suffix_after {A C S : List Act} (hs : S <:+ A ++ .barrier :: C)
    (hc : barriers S ≤ barriers C) : S <:+ C := by
  have h2 : (Act.barrier :: C) <:+ A ++ .barrier :: C := List.suffix_append _ _
  have hbig : ∀ T : List Act, (Act.barrier :: C) <:+ T → barriers C + 1 ≤ barriers T := by
    rintro T ⟨X, rfl⟩
    simp [barriers]
  rcases List.suffix_or_suffix_of_suffix hs h2 with h | h
  · rcases List.suffix_cons_iff.mp h with h | h
    · subst h
      have := hbig _ List.suffix_rfl
      omega
    · exact h
  · have := hbig _ h
    omega

/-- A suffix whose first action does not occur before a certain barrier lies after it. -/
theorem suffix_after' {A C r : List Act} {x : Act} (hx : x ≠ .barrier) (hA : x ∉ A)
    (hs : (x :: r) <:+ A ++ .barrier :: C) : (x :: r) <:+ C := by
  obtain ⟨X, hX⟩ := hs
  rcases List.append_eq_append_iff.mp hX with ⟨Y, h1, h2⟩ | ⟨Y, h1, h2⟩
  · cases Y with
    | nil => simp at h2; exact absurd h2.1 hx
    | cons y Y =>
      simp only [List.cons_append, List.cons.injEq] at h2
      obtain ⟨rfl, -⟩ := h2
      exact absurd (by rw [h1]; simp) hA
  · cases Y with
    | nil => simp at h2; exact absurd h2.1.symm hx
    | cons y Y =>
      simp only [List.cons_append, List.cons.injEq] at h2
      exact ⟨Y, h2.2.symm⟩

theorem suffix_barriers {S T : List Act} (h : S <:+ T) : barriers S ≤ barriers T := by
  obtain ⟨X, rfl⟩ := h
  simp [barriers]

/-! The main program. -/

theorem block_barriers (a : Actions) (size rank : ℕ) (s : Stage) :
    barriers (block a size rank s) = if enabled a s then innerBarriers s else 0 := by
  unfold block barriers
  cases enabled a s
  · simp
  · cases s <;> cases skips size rank <;>
      simp [masterOnly, innerBarriers, List.count_cons]

theorem flat_barriers (a : Actions) (size p q : ℕ) (l : List Stage) :
    barriers (l.flatMap fun s => block a size p s ++ [.barrier]) =
      barriers (l.flatMap fun s => block a size q s ++ [.barrier]) := by
  induction l with
  | nil => rfl
  | cons s l ih =>
    have h1 := block_barriers a size p s
    have h2 := block_barriers a size q s
    simp only [List.flatMap_cons, barriers, List.count_append] at *
    omega

theorem main_barriers (a : Actions) (size p : ℕ) :
    barriers (mainProgram a size p) = barriers (mainProgram a size 0) :=
  flat_barriers a size p 0 calls

theorem mem_block {a : Actions} {size q : ℕ} {s : Stage} {x : Act}
    (h : x ∈ block a size q s) : x = .start s ∨ x = .barrier ∨ x = .finish s := by
  unfold block at h
  split at h
  · split at h
    · simp at h
    · simp only [List.mem_cons, List.mem_append, List.mem_replicate, List.mem_nil_iff] at h
      tauto
  · simp at h

/-- Stages before and after a given one. -/
theorem calls_split (t : Stage) : ∃ c1 c2, calls = c1 ++ t :: c2 ∧
    (∀ s ∈ c1, number s < number t) ∧ ∀ s ∈ c2, number t < number s := by
  cases t
  · exact ⟨[], _, rfl, by decide, by decide⟩
  · exact ⟨[_], _, rfl, by decide, by decide⟩
  · exact ⟨[_, _], _, rfl, by decide, by decide⟩
  · exact ⟨[_, _, _], _, rfl, by decide, by decide⟩
  · exact ⟨[_, _, _, _], _, rfl, by decide, by decide⟩
  · exact ⟨[_, _, _, _, _], _, rfl, by decide, by decide⟩
  · exact ⟨[_, _, _, _, _, _], _, rfl, by decide, by decide⟩
  · exact ⟨[_, _, _, _, _, _, _], _, rfl, by decide, by decide⟩
  · exact ⟨[_, _, _, _, _, _, _, _], _, rfl, by decide, by decide⟩
  · exact ⟨[_, _, _, _, _, _, _, _, _], _, rfl, by decide, by decide⟩
  · exact ⟨[_, _, _, _, _, _, _, _, _, _], _, rfl, by decide, by decide⟩

theorem mem_flat {a : Actions} {size q : ℕ} {l : List Stage} {x : Act}
    (h : x ∈ l.flatMap fun s => block a size q s ++ [.barrier]) :
    x = .barrier ∨ ∃ s ∈ l, x = .start s ∨ x = .finish s := by
  simp only [List.mem_flatMap, List.mem_append, List.mem_singleton] at h
  obtain ⟨s, hs, h | h⟩ := h
  · rcases mem_block h with h | h | h
    · exact .inr ⟨s, hs, .inl h⟩
    · exact .inl h
    · exact .inr ⟨s, hs, .inr h⟩
  · exact .inl h

theorem enabled_iff (a : Actions) (s : Stage) : enabled a s = true ↔ Wanted a s := by
  unfold Wanted
  cases s <;> simp [enabled]

theorem takesPart_iff {size p : ℕ} (hp : p < size) (s : Stage) :
    (masterOnly s && skips size p) = false ↔ TakesPart p s := by
  have : skips size p = true ↔ p ≠ 0 := by
    simp only [skips, Bool.and_eq_true, decide_eq_true_eq]; omega
  unfold TakesPart Shared
  by_cases h : p = 0
  · have h' : skips size p = false := by
      cases e : skips size p
      · rfl
      · exact absurd h (this.mp e)
    rw [h']
    simp [h]
  · have h' : skips size p = true := this.mpr h
    cases s <;> simp [h, h', masterOnly]

theorem block_eq {a : Actions} {size p : ℕ} (hp : p < size) {s : Stage} (he : enabled a s)
    (ht : TakesPart p s) :
    block a size p s = .start s :: (List.replicate (innerBarriers s) .barrier ++ [.finish s]) := by
  unfold block
  rw [if_pos he, (takesPart_iff hp s).mpr ht]
  simp

theorem block_nil {a : Actions} {size p : ℕ} (hp : p < size) {s : Stage}
    (h : ¬ (enabled a s = true ∧ TakesPart p s)) : block a size p s = [] := by
  unfold block
  by_cases he : enabled a s = true
  · have : ¬ TakesPart p s := fun ht => h ⟨he, ht⟩
    rw [← takesPart_iff hp s, Bool.not_eq_false] at this
    rw [if_pos he, if_pos this]
  · rw [if_neg he]

/-- Occurrences of a start (or end) in a part of the program. -/
theorem flat_count {a : Actions} {size p : ℕ} (hp : p < size) (s : Stage) (l : List Stage)
    (x : Act) (hx : x = .start s ∨ x = .finish s) [Decidable (enabled a s = true ∧ TakesPart p s)] :
    (l.flatMap fun s => block a size p s ++ [.barrier]).count x =
      if enabled a s = true ∧ TakesPart p s then l.count s else 0 := by
  induction l with
  | nil => simp
  | cons t l ih =>
    simp only [List.flatMap_cons, List.count_append, ih]
    by_cases h : enabled a t = true ∧ TakesPart p t
    · rw [block_eq hp h.1 h.2]
      by_cases e : t = s
      · subst e
        rw [if_pos h, if_pos h]
        rw [if_pos h] at ih
        rcases hx with rfl | rfl <;>
          simp [List.count_cons, List.count_append, List.count_replicate] <;> omega
      · have e' : (t == s) = false := by simp [e]
        have c : ∀ n, (Act.start t :: (List.replicate n Act.barrier ++ [Act.finish t])).count x = 0 := by
          intro n
          rcases hx with rfl | rfl <;> simp [List.count_eq_zero, Ne.symm e]
        have c' : List.count x [Act.barrier] = 0 := by
          rcases hx with rfl | rfl <;> simp
        rw [c, c', List.count_cons, e']
        simp
    · rw [block_nil hp h]
      have c' : List.count x [Act.barrier] = 0 := by
        rcases hx with rfl | rfl <;> simp
      rw [c']
      by_cases e : t = s
      · subst e; simp [h]
      · simp [e]

theorem calls_count (s : Stage) : calls.count s = 1 := by cases s <;> rfl

theorem events_count (l : List Act) (x : Act) (hx : isEvent x = true) :
    (events l).count x = l.count x := List.count_filter hx

/-! Progress. -/

theorem head_cases (size : ℕ) (st : State) (hm : ∀ p < size, Act.recv ∉ st.progs p)
    (h : ¬ ∃ st', Step size st st') (p : ℕ) (hp : p < size) :
    st.progs p = [] ∨ (st.progs p).head? = some .barrier := by
  cases hq : st.progs p with
  | nil => exact .inl rfl
  | cons x r =>
    right
    cases x with
    | start s => exact absurd ⟨_, Step.start st p hp s r hq⟩ h
    | finish s => exact absurd ⟨_, Step.finish st p hp s r hq⟩ h
    | barrier => rfl
    | send d => exact absurd ⟨_, Step.send st p hp d r hq⟩ h
    | recv => exact absurd (by rw [hq]; simp) (hm p hp)

theorem progress (h0 : 0 < size) (hm : ∀ p < size, Act.recv ∉ st.progs p)
    (hB : ∀ p < size, barriers (st.progs p) = barriers (st.progs 0)) :
    Done size st ∨ ∃ st', Step size st st' := by
  by_contra hcon
  rw [not_or] at hcon
  obtain ⟨hd, hs⟩ := hcon
  have hc := head_cases size st hm hs
  unfold Done at hd
  push Not at hd
  obtain ⟨p, hp, hpn⟩ := hd
  have hb : 0 < barriers (st.progs p) := by
    rcases hc p hp with h | h
    · exact absurd h hpn
    · cases hq : st.progs p with
      | nil => exact absurd hq hpn
      | cons x r =>
        rw [hq] at h
        simp only [List.head?_cons, Option.some.injEq] at h
        subst h
        simp [barriers]
  apply hs
  refine ⟨_, Step.barrier st fun q hq => ?_⟩
  rcases hc q hq with h | h
  · have h1 := hB q hq
    have h2 := hB p hp
    rw [h] at h1
    simp only [barriers, List.count_nil] at h1 hb h2
    omega
  · exact h

theorem left_lt_of (size : ℕ) (f g : ℕ → ℕ) (p : ℕ) (hp : p < size) (h : f p < g p)
    (hle : ∀ q < size, f q ≤ g q) :
    ((List.range size).map f).sum < ((List.range size).map g).sum :=
  List.sum_lt_sum _ _ (fun q hq => hle q (List.mem_range.mp hq)) ⟨p, List.mem_range.mpr hp, h⟩

theorem step_left (h0 : 0 < size) (h : Step size st st') : left size st' < left size st := by
  have hle : ∀ q < size, (st'.progs q).length ≤ (st.progs q).length := fun q _ =>
    (step_suffix h q).length_le
  unfold left
  cases h with
  | start p hp s r hh | finish p hp s r hh | send p hp d r hh | recv p hp r hh hm =>
    exact left_lt_of _ _ _ p hp (by simp [hh]) hle
  | barrier hh =>
    refine left_lt_of _ _ _ 0 h0 ?_ hle
    have := hh 0 h0
    cases hq : st.progs 0 with
    | nil => simp [hq] at this
    | cons x r => simp [hq, h0]

end Tcrm.Pipeline
