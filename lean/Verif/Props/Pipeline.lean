import Verif.Lemmas.Pipeline

/-!
C107: the stages run in the documented order on any number of processes.
C108: the evaluation on several processes.
-/

namespace Tcrm.Pipeline

/-- C107 (part): under every schedule, when a stage begins on some process, all stages wanted
that come before it have ended on all processes that take part in them.
Missing: for the evaluation on several processes only its barriers are in the program
(`C108_crossing_fails` shows that it does not get through). -/
theorem C107_order_partial (a : Actions) (size : ℕ) (h0 : 0 < size) (st : State)
    (h : Reach size (mainProgram a size) st)
    (before after : List (ℕ × Act)) (p : ℕ) (s : Stage)
    (hl : st.log = before ++ (p, .start s) :: after)
    (q : ℕ) (hq : q < size) (t : Stage) (hts : number t < number s)
    (hw : Wanted a t) (htp : TakesPart q t) :
    (q, Act.finish t) ∈ before := by
  have he := (enabled_iff a t).mpr hw
  have hB : ∀ p < size, barriers (mainProgram a size p) = barriers (mainProgram a size 0) :=
    fun p _ => main_barriers a size p
  have base : ∀ st, Reach size (mainProgram a size) st → ∀ (p : ℕ) (r : List Act), p < size →
      st.progs p = .start s :: r → (q, Act.finish t) ∈ st.log := by
    intro st hr p r hp hh
    have inv := reach_inv h0 hB hr
    obtain ⟨c1, c2, hc, h1, h2⟩ := calls_split t
    have hprog : ∀ x, mainProgram a size x =
        ((c1.flatMap fun s => block a size x s ++ [.barrier]) ++ block a size x t) ++
          .barrier :: (c2.flatMap fun s => block a size x s ++ [.barrier]) := by
      intro x
      rw [mainProgram, hc]
      simp
    have hsuf := inv.suf p
    rw [hh, hprog p] at hsuf
    have hne : s ≠ t := fun e => by subst e; omega
    have hafter := suffix_after' (by simp) (by
      rw [List.mem_append, not_or]
      constructor
      · intro hm
        rcases mem_flat hm with hm | ⟨s', hs', hm | hm⟩
        · simp at hm
        · have := h1 s' hs'
          simp only [Act.start.injEq] at hm
          subst hm; omega
        · simp at hm
      · intro hm
        rcases mem_block hm with hm | hm | hm
        · exact hne (by simpa using hm)
        · simp at hm
        · simp at hm) hsuf
    have hle := suffix_barriers hafter
    rw [← hh, inv.bar p hp, ← inv.bar q hq, flat_barriers a size p q c2] at hle
    have hsq := inv.suf q
    rw [hprog q] at hsq
    have hC := suffix_after hsq hle
    have hnot : Act.finish t ∉ st.progs q := by
      intro hm
      rcases mem_flat (hC.subset hm) with hm | ⟨s', hs', hm | hm⟩
      · simp at hm
      · simp at hm
      · have := h2 s' hs'
        simp only [Act.finish.injEq] at hm
        subst hm; omega
    have hin : Act.finish t ∈ events (mainProgram a size q) := by
      rw [events, List.mem_filter]
      refine ⟨?_, rfl⟩
      rw [hprog q, block_eq hq he htp]
      simp
    rw [← inv.ev q, List.mem_append] at hin
    rcases hin with hin | hin
    · exact mem_log_of_logged hin
    · exact absurd (List.mem_of_mem_filter hin) hnot
  have main : ∀ st, Reach size (mainProgram a size) st → ∀ before after p,
      st.log = before ++ (p, .start s) :: after → (q, Act.finish t) ∈ before := by
    intro st hr
    induction hr with
    | refl => intro b a' p hl; simp [begin_] at hl
    | @tail st st' hr hs ih =>
      have app : ∀ (x : ℕ × Act) b a' p', st.log ++ [x] = b ++ (p', .start s) :: a' →
          (x = (p', .start s) → (q, Act.finish t) ∈ st.log) → (q, Act.finish t) ∈ b := by
        intro x b a' p' hl hx
        rcases List.eq_nil_or_concat a' with rfl | ⟨a'', y, rfl⟩
        · have := List.append_inj' hl rfl
          rw [← this.1]
          exact hx (by simpa using this.2)
        · have e : b ++ (p', Act.start s) :: (a'' ++ [y]) = (b ++ (p', Act.start s) :: a'') ++ [y] := by
            simp
          rw [List.concat_eq_append, e] at hl
          exact ih b a'' p' (List.append_inj' hl rfl).1
      intro b a' p' hl
      cases hs with
      | start p1 hp1 s1 r hh =>
        refine app _ b a' p' hl fun e => ?_
        simp only [Prod.mk.injEq, Act.start.injEq] at e
        rw [e.2] at hh
        exact base st hr p1 r hp1 hh
      | finish p1 hp1 s1 r hh => exact app _ b a' p' hl fun e => by simp at e
      | barrier hh => exact ih b a' p' hl
      | send p1 hp1 d r hh => exact ih b a' p' hl
      | recv p1 hp1 r hh hm => exact ih b a' p' hl
  exact main st h before after p hl

/-- C107 (part): at the end of a run every process has begun and ended, once each, exactly the
wanted stages it takes part in; the serial stages run on the first process only. -/
theorem C107_once_partial (a : Actions) (size : ℕ) (st : State)
    (h : Reach size (mainProgram a size) st) (hd : Done size st) (p : ℕ) (hp : p < size)
    (s : Stage) [Decidable (Wanted a s ∧ TakesPart p s)] :
    begun st p s = (if Wanted a s ∧ TakesPart p s then 1 else 0) ∧
      ended st p s = (if Wanted a s ∧ TakesPart p s then 1 else 0) := by
  classical
  simp only [← enabled_iff]
  have inv := reach_inv (by omega) (fun p _ => main_barriers a size p) h
  have hl := inv.ev p
  rw [hd p hp, events, List.filter_nil, List.append_nil] at hl
  unfold begun ended
  rw [count_logged, count_logged, hl, events_count _ _ rfl, events_count _ _ rfl, mainProgram,
    flat_count hp s _ _ (.inl rfl), flat_count hp s _ _ (.inr rfl), calls_count]
  exact ⟨rfl, rfl⟩

/-- C107 (part): at any moment a stage has been begun at most once by each process, never by a
process that takes no part in it or when it is switched off, and not ended more often than
begun. -/
theorem C107_never_partial (a : Actions) (size : ℕ) (st : State)
    (h : Reach size (mainProgram a size) st) (p : ℕ) (hp : p < size) (s : Stage) :
    begun st p s ≤ 1 ∧ ended st p s ≤ begun st p s ∧
      (0 < begun st p s → Wanted a s ∧ TakesPart p s) := by
  rw [← enabled_iff]
  classical
  have inv := reach_inv (by omega) (fun p _ => main_barriers a size p) h
  have hl := inv.ev p
  have c : ∀ x, isEvent x = true → (logged st p).count x + (st.progs p).count x =
      (mainProgram a size p).count x := by
    intro x hx
    rw [← events_count (st.progs p) x hx, ← events_count (mainProgram a size p) x hx, ← hl,
      List.count_append]
  have c1 := c (.start s) rfl
  have c2 := c (.finish s) rfl
  rw [mainProgram, flat_count hp s _ _ (.inl rfl), calls_count] at c1
  rw [mainProgram, flat_count hp s _ _ (.inr rfl), calls_count] at c2
  unfold begun ended
  rw [count_logged, count_logged]
  by_cases hE : enabled a s = true ∧ TakesPart p s
  · rw [if_pos hE] at c1 c2
    refine ⟨by omega, ?_, fun _ => hE⟩
    -- the end is behind the start in the program
    by_contra hcon
    have hs0 : (logged st p).count (.start s) = 0 := by omega
    have hsp : Act.start s ∈ st.progs p := by
      apply List.count_pos_iff.mp; omega
    have hfp : (st.progs p).count (.finish s) = 0 := by omega
    obtain ⟨X, Y, hXY⟩ := List.append_of_mem hsp
    have hsuf := inv.suf p
    obtain ⟨Z, hZ⟩ := hsuf
    rw [hXY] at hZ
    obtain ⟨d1, d2, hc, -, -⟩ := calls_split s
    have hprog : mainProgram a size p =
        (d1.flatMap fun s => block a size p s ++ [.barrier]) ++ .start s ::
          ((List.replicate (innerBarriers s) .barrier ++ [.finish s]) ++
          .barrier :: (d2.flatMap fun s => block a size p s ++ [.barrier])) := by
      rw [mainProgram, hc]
      simp [block_eq hp hE.1 hE.2]
    rw [hprog, ← List.append_assoc] at hZ
    have hone : ((d1.flatMap fun s => block a size p s ++ [Act.barrier]) ++ Act.start s ::
          ((List.replicate (innerBarriers s) Act.barrier ++ [Act.finish s]) ++
          Act.barrier :: (d2.flatMap fun s => block a size p s ++ [Act.barrier]))).count (Act.start s) = 1 := by
      rw [← hprog, mainProgram, flat_count hp s _ _ (.inl rfl), calls_count, if_pos hE]
    have hY : Act.finish s ∈ Y := by
      rcases List.append_eq_append_iff.mp hZ with ⟨W, h1, h2⟩ | ⟨W, h1, h2⟩
      · cases W with
        | nil =>
          simp only [List.nil_append, List.cons.injEq, true_and] at h2
          rw [h2]; simp
        | cons w W =>
          simp only [List.cons_append, List.cons.injEq] at h2
          rw [h2.2]; simp
      · cases W with
        | nil =>
          simp only [List.nil_append, List.cons.injEq, true_and] at h2
          rw [← h2]; simp
        | cons w W =>
          exfalso
          simp only [List.cons_append, List.cons.injEq] at h2
          rw [h2.2] at hone
          simp [List.count_append] at hone
          omega
    have : 0 < (st.progs p).count (.finish s) := by
      rw [List.count_pos_iff, hXY]; simp [hY]
    omega
  · rw [if_neg hE] at c1 c2
    refine ⟨by omega, by omega, fun hb => ?_⟩
    omega

theorem main_no_recv (a : Actions) (size p : ℕ) : Act.recv ∉ mainProgram a size p := by
  intro h
  rcases mem_flat h with h | ⟨s, -, h | h⟩ <;> simp at h

/-- C107 (part): no schedule leads to a deadlock; from every state either all processes are at
the end or some process can go on. -/
theorem C107_progress_partial (a : Actions) (size : ℕ) (h0 : 0 < size) (st : State)
    (h : Reach size (mainProgram a size) st) : Done size st ∨ ∃ st', Step size st st' := by
  have inv := reach_inv h0 (fun p _ => main_barriers a size p) h
  exact progress h0 (fun p _ hm => main_no_recv a size p ((inv.suf p).subset hm)) inv.bar

/-- C107 (part): every run comes to its end: it has no more steps than there are actions. -/
theorem C107_terminates_partial (a : Actions) (size : ℕ) (h0 : 0 < size) (run : ℕ → State)
    (hr0 : run 0 = begin_ (mainProgram a size)) (n : ℕ)
    (hr : ∀ i < n, Step size (run i) (run (i + 1))) :
    n ≤ left size (begin_ (mainProgram a size)) := by
  have : ∀ i ≤ n, i + left size (run i) ≤ left size (run 0) := by
    intro i hi
    induction i with
    | zero => simp
    | succ i ih =>
      have h1 := ih (by omega)
      have h2 := step_left h0 (hr i (by omega))
      omega
  have := this n le_rfl
  rw [hr0] at this
  omega

/-- C107 (the failure): once one process has failed, a process that still has a barrier before
it never gets to its end, whatever the others do: nothing makes it stop. -/
theorem C107_failure_blocks (size : ℕ) (st st' : State) (p q : ℕ) (hp : p < size)
    (hpf : st.progs p = []) (hq : Act.barrier ∈ st.progs q)
    (h : Relation.ReflTransGen (Step size) st st') :
    st'.progs p = [] ∧ Act.barrier ∈ st'.progs q := by
  induction h with
  | refl => exact ⟨hpf, hq⟩
  | @tail s1 s2 _ hs ih =>
    have h1 : s2.progs p = [] := by
      have := step_suffix hs p
      rw [ih.1] at this
      exact List.suffix_nil.mp this
    refine ⟨h1, ?_⟩
    have keep : ∀ (x : Act) (p' : ℕ) (r : List Act), x ≠ .barrier → s1.progs p' = x :: r →
        Act.barrier ∈ Function.update s1.progs p' r q := by
      intro x p' r hx hh
      by_cases e : q = p'
      · subst e
        have := ih.2
        rw [hh] at this
        rcases List.mem_cons.mp this with h | h
        · exact absurd h.symm hx
        · simpa using h
      · rw [Function.update_of_ne e]; exact ih.2
    cases hs with
    | start p' hp' s r hh => exact keep _ _ _ (by simp) hh
    | finish p' hp' s r hh => exact keep _ _ _ (by simp) hh
    | send p' hp' d r hh => exact keep _ _ _ (by simp) hh
    | recv p' hp' r hh hm => exact keep _ _ _ (by simp) hh
    | barrier hh =>
      have := hh p hp
      rw [ih.1] at this
      simp at this

theorem main_has_barrier (a : Actions) (size p : ℕ) : Act.barrier ∈ mainProgram a size p := by
  simp [mainProgram, calls]

/-- C107 (the failure): "if a stage fails, the run ends on all processes" does not hold of more
than one process: for every configuration a failure on the first process leaves all the others
waiting, in every continuation. -/
theorem C107_failure_fails (a : Actions) (size : ℕ) (h2 : 2 ≤ size) :
    ∃ st, ReachF size (mainProgram a size) st ∧ st.progs 0 = [] ∧
      ∀ st', Relation.ReflTransGen (Step size) st st' → ∀ q, 0 < q → q < size →
        st'.progs q ≠ [] := by
  refine ⟨{ begin_ (mainProgram a size) with
      progs := Function.update (mainProgram a size) 0 [] }, ?_, by simp, ?_⟩
  · refine Relation.ReflTransGen.single (StepF.failure (begin_ (mainProgram a size)) 0 (by omega) ?_)
    exact List.ne_nil_of_mem (main_has_barrier a size 0)
  · intro st' h q hq0 hq
    have := (C107_failure_blocks size _ st' 0 q (by omega) (by simp) (by
      change Act.barrier ∈ Function.update (mainProgram a size) 0 [] q
      rw [Function.update_of_ne (by omega)]; exact main_has_barrier a size q) h).2
    exact List.ne_nil_of_mem this

/-- A failure of a single process does end the run. -/
theorem C107_failure_single_partial (a : Actions) (st : State)
    (h : ReachF 1 (mainProgram a 1) st) : Done 1 st ∨ ∃ st', Step 1 st st' := by
  have hs : ∀ p, st.progs p <:+ mainProgram a 1 p := by
    unfold ReachF at h
    induction h with
    | refl => intro p; exact List.suffix_rfl
    | tail _ hs ih =>
      intro p
      cases hs with
      | step _ hst => exact (step_suffix hst p).trans (ih p)
      | failure p' hp' h =>
        by_cases e : p = p'
        · subst e; simp
        · simpa [Function.update_of_ne e] using ih p
  refine progress (by omega) (fun p _ hm => main_no_recv a 1 p ((hs p).subset hm)) ?_
  intro p hp
  have : p = 0 := by omega
  rw [this]

/-! ### C108 -/

/-- The states the evaluation of the crossings can get into. -/
theorem crossing_states {size : ℕ} (h2 : 2 ≤ size) (rest : ℕ → List Act) (st : State)
    (h : Reach size (crossingProgram size rest) st) :
    (∀ p, st.mail p = 0) ∧
    (((st.progs 0 = crossingMaster size (rest 0) ∨
        st.progs 0 = (crossingMaster size (rest 0)).tail) ∧
      ∀ p, 0 < p → p < size → st.progs p = crossingWorker (rest p) ∨
        st.progs p = (crossingWorker (rest p)).tail) ∨
     (st.progs 0 = (crossingMaster size (rest 0)).tail.tail ∧
      ∀ p, 0 < p → p < size → st.progs p = .recv :: rest p)) := by
  induction h with
  | refl =>
    refine ⟨fun _ => rfl, .inl ⟨.inl rfl, fun p hp _ => .inl ?_⟩⟩
    simp [begin_, crossingProgram, Nat.ne_of_gt hp]
  | @tail s1 s2 _ hs ih =>
    obtain ⟨hm, ih⟩ := ih
    rcases ih with ⟨hma, hw⟩ | ⟨hma, hw⟩
    · -- before the first barrier
      have hd : ∀ p, p < size → ∃ x r, s1.progs p = x :: r ∧
          (x = .start .evaluate ∧ (r = if p = 0 then (crossingMaster size (rest 0)).tail
              else (crossingWorker (rest p)).tail) ∨
            x = .barrier ∧ r = if p = 0 then (crossingMaster size (rest 0)).tail.tail
              else .recv :: rest p) := by
        intro p hp
        by_cases e : p = 0
        · subst e
          rcases hma with h | h
          · exact ⟨_, _, h, .inl ⟨rfl, by simp [crossingMaster]⟩⟩
          · exact ⟨_, _, h, .inr ⟨rfl, by simp [crossingMaster]⟩⟩
        · rcases hw p (by omega) hp with h | h
          · exact ⟨_, _, h, .inl ⟨rfl, by simp [crossingWorker, e]⟩⟩
          · exact ⟨_, _, h, .inr ⟨rfl, by simp [e]⟩⟩
      cases hs with
      | start p hp s r hh =>
        refine ⟨hm, .inl ?_⟩
        obtain ⟨x, r', h1, h2'⟩ := hd p hp
        rw [hh] at h1
        obtain ⟨hx, hr⟩ := List.cons.inj h1
        rcases h2' with ⟨-, h2'⟩ | ⟨h2', -⟩
        · constructor
          · by_cases e : p = 0
            · right; simp [e, hr, h2']
            · have e' : Function.update s1.progs p r 0 = s1.progs 0 :=
                Function.update_of_ne (Ne.symm e) _ _
              simp only [e']; exact hma
          · intro q hq0 hq
            by_cases e : q = p
            · right; subst e; simp [hr, h2', Nat.ne_of_gt hq0]
            · have e' : Function.update s1.progs p r q = s1.progs q :=
                Function.update_of_ne e _ _
              simp only [e']; exact hw q hq0 hq
        · rw [h2'] at hx; simp at hx
      | finish p hp s r hh =>
        obtain ⟨x, r', h1, h2'⟩ := hd p hp
        rw [hh] at h1
        obtain ⟨hx, -⟩ := List.cons.inj h1
        rcases h2' with ⟨h2', -⟩ | ⟨h2', -⟩ <;> rw [h2'] at hx <;> simp at hx
      | send p hp d r hh =>
        obtain ⟨x, r', h1, h2'⟩ := hd p hp
        rw [hh] at h1
        obtain ⟨hx, -⟩ := List.cons.inj h1
        rcases h2' with ⟨h2', -⟩ | ⟨h2', -⟩ <;> rw [h2'] at hx <;> simp at hx
      | recv p hp r hh hm' => rw [hm p] at hm'; omega
      | barrier hh =>
        refine ⟨hm, .inr ?_⟩
        have : ∀ p, p < size → (s1.progs p).tail = if p = 0 then
            (crossingMaster size (rest 0)).tail.tail else .recv :: rest p := by
          intro p hp
          obtain ⟨x, r', h1, h2'⟩ := hd p hp
          have hb := hh p hp
          rw [h1] at hb ⊢
          simp only [List.head?_cons, Option.some.injEq] at hb
          rcases h2' with ⟨h2', -⟩ | ⟨-, h2'⟩
          · rw [hb] at h2'; simp at h2'
          · exact h2'
        constructor
        · simp only [show 0 < size by omega, if_true]
          rw [this 0 (by omega)]; simp
        · intro q hq0 hq
          simp only [hq, if_true]
          rw [this q hq]; simp [Nat.ne_of_gt hq0]
    · -- behind the first barrier nothing can happen
      exfalso
      have h0 : ∃ r, s1.progs 0 = .barrier :: r := ⟨_, hma⟩
      obtain ⟨r0, hr0⟩ := h0
      have hd : ∀ p, p < size → ∃ x r, s1.progs p = x :: r ∧ (p = 0 ∧ x = .barrier ∨ x = .recv) := by
        intro p hp
        by_cases e : p = 0
        · subst e; exact ⟨_, _, hr0, .inl ⟨rfl, rfl⟩⟩
        · exact ⟨_, _, hw p (by omega) hp, .inr rfl⟩
      cases hs with
      | start p hp s r hh | finish p hp s r hh | send p hp d r hh =>
        obtain ⟨x, r', h1, h2'⟩ := hd p hp
        rw [hh] at h1
        obtain ⟨hx, -⟩ := List.cons.inj h1
        rcases h2' with ⟨-, h2'⟩ | h2' <;> rw [h2'] at hx <;> simp at hx
      | recv p hp r hh hm' => rw [hm p] at hm'; omega
      | barrier hh =>
        have := hh 1 (by omega)
        rw [hw 1 (by omega) (by omega)] at this
        simp at this

/-- C108 (the failure): on two or more processes the evaluation of the crossings never ends:
whatever is done afterwards, in every reachable state the first process still has to pass a
barrier and every worker still waits for a message that has not been sent. -/
theorem C108_crossing_fails (size : ℕ) (h2 : 2 ≤ size) (rest : ℕ → List Act) (st : State)
    (h : Reach size (crossingProgram size rest) st) :
    ¬ Done size st ∧ Act.barrier ∈ st.progs 0 ∧
      ∀ p, 0 < p → p < size → Act.recv ∈ st.progs p ∧ st.mail p = 0 := by
  obtain ⟨hm, hs⟩ := crossing_states h2 rest st h
  have hb : Act.barrier ∈ st.progs 0 := by
    rcases hs with ⟨h | h, -⟩ | ⟨h, -⟩ <;> rw [h] <;> simp [crossingMaster]
  refine ⟨fun hd => ?_, hb, fun p hp0 hp => ⟨?_, hm p⟩⟩
  · rw [hd 0 (by omega)] at hb; simp at hb
  · rcases hs with ⟨-, h⟩ | ⟨-, h⟩
    · rcases h p hp0 hp with h | h <;> rw [h] <;> simp [crossingWorker]
    · rw [h p hp0 hp]; simp

/-- C108 (the failure): the end of every run is a deadlock: the first process before a barrier,
all others waiting for a message. -/
theorem C108_crossing_deadlock (size : ℕ) (h2 : 2 ≤ size) (rest : ℕ → List Act) (st : State)
    (h : Reach size (crossingProgram size rest) st) (hstuck : ¬ ∃ st', Step size st st') :
    (st.progs 0).head? = some .barrier ∧
      ∀ p, 0 < p → p < size → (st.progs p).head? = some .recv := by
  obtain ⟨-, hs⟩ := crossing_states h2 rest st h
  rcases hs with ⟨hma, hw⟩ | ⟨hma, hw⟩
  · exfalso
    apply hstuck
    by_cases hall : ∀ p < size, (st.progs p).head? = some .barrier
    · exact ⟨_, Step.barrier st hall⟩
    · push Not at hall
      obtain ⟨p, hp, hne⟩ := hall
      by_cases e : p = 0
      · subst e
        rcases hma with h | h
        · exact ⟨_, Step.start st 0 hp .evaluate _ h⟩
        · rw [h] at hne; simp [crossingMaster] at hne
      · rcases hw p (by omega) hp with h | h
        · exact ⟨_, Step.start st p hp .evaluate _ h⟩
        · rw [h] at hne; simp [crossingWorker] at hne
  · refine ⟨by rw [hma]; simp [crossingMaster], fun p hp0 hp => by rw [hw p hp0 hp]; simp⟩

/-- C108 (part): the other evaluations hand one file to each of the `n` workers at first; this
succeeds, with the first `n` files, exactly if there are at least as many files as workers. -/
theorem C108_files_partial {α : Type} (files : List α) (n : ℕ) (l : List α) :
    firstFiles files n = some l ↔ n ≤ files.length ∧ l = files.take n := by
  induction files generalizing n l with
  | nil =>
    cases n with
    | zero => simp [firstFiles, eq_comm]
    | succ n => simp [firstFiles]
  | cons f fs ih =>
    cases n with
    | zero => simp [firstFiles, eq_comm]
    | succ n =>
      simp only [firstFiles, Option.map_eq_some_iff, ih, List.length_cons, List.take_succ_cons]
      constructor
      · rintro ⟨x, ⟨h1, rfl⟩, rfl⟩
        exact ⟨by omega, rfl⟩
      · rintro ⟨h1, rfl⟩
        exact ⟨_, ⟨by omega, rfl⟩, rfl⟩

/-- C108 (the failure): with fewer files than workers the evaluation fails with an exception. -/
theorem C108_files_fails {α : Type} (files : List α) (n : ℕ) :
    firstFiles files n = none ↔ files.length < n := by
  rw [← not_iff_not, ← ne_eq, Option.ne_none_iff_exists']
  constructor
  · rintro ⟨l, h⟩
    have := ((C108_files_partial files n l).mp h).1
    omega
  · intro h
    exact ⟨_, (C108_files_partial files n _).mpr ⟨by omega, rfl⟩⟩

/-- C108 (part): on one process the main program with its evaluation gets to the end from every
reachable state, within the number of actions left. -/
theorem C108_single_partial (a : Actions) (st : State) (h : Reach 1 (mainProgram a 1) st) :
    ∃ st', Relation.ReflTransGen (Step 1) st st' ∧ Done 1 st' ∧
      (a.executeEvaluate = true → ended st' 0 .evaluate = 1) := by
  obtain ⟨n, hn⟩ : ∃ n, left 1 st = n := ⟨_, rfl⟩
  induction n using Nat.strong_induction_on generalizing st with
  | _ n ih =>
    rcases C107_progress_partial a 1 (by omega) st h with hd | ⟨st1, h1⟩
    · refine ⟨st, .refl, hd, fun he => ?_⟩
      classical
      have := (C107_once_partial a 1 st h hd 0 (by omega) .evaluate).2
      rw [if_pos ⟨(enabled_iff a .evaluate).mp he, .inl rfl⟩] at this
      exact this
    · have hl := step_left (by omega) h1
      obtain ⟨st', h2, h3⟩ := ih _ (by omega) st1 (h.tail h1) rfl
      exact ⟨st', .head h1 h2, h3⟩

/-! ### Examples -/

/-- Everything switched on. -/
def allOn : Actions := ⟨true, true, true, true, true, true, true, true, true, true⟩

/-- Only tracks and wind fields. -/
def tracksWind : Actions := ⟨false, false, false, true, true, false, false, false, false, false⟩

-- A worker does nothing but wait in a serial stage, and takes part in the shared ones.
example : mainProgram tracksWind 3 2 =
    [.barrier, .barrier, .barrier, .barrier,
     .start .tracks, .barrier, .barrier, .barrier, .finish .tracks, .barrier,
     .start .wind, .barrier, .barrier, .finish .wind, .barrier,
     .barrier, .barrier, .barrier, .barrier, .barrier] := by decide

-- The first process creates the directories; the run can begin (the hypotheses of `C107_order`
-- can be met).
example : Reach 2 (mainProgram tracksWind 2)
    { begin_ (mainProgram tracksWind 2) with
      progs := Function.update (mainProgram tracksWind 2) 0 (mainProgram tracksWind 2 0).tail
      log := [(0, .start .directories)] } :=
  .single (Step.start (begin_ (mainProgram tracksWind 2)) 0 (by decide) .directories _ rfl)

-- With everything on: 22 starts and ends, 11 barriers between the stages and 23 within them.
example : left 1 (begin_ (mainProgram allOn 1)) = 56 := by decide

example : firstFiles ["a", "b", "c"] 2 = some ["a", "b"] := by decide

example : firstFiles ["a"] 2 = none := by decide

-- The crossings on two processes: after both have begun, the barrier is passed, then nothing.
example : ∃ st, Reach 2 (crossingProgram 2 fun _ => []) st ∧ ¬ ∃ st', Step 2 st st' := by
  by_contra hcon
  have hgo : ∀ st, Reach 2 (crossingProgram 2 fun _ => []) st → ∃ st', Step 2 st st' := by
    intro st h
    by_contra hn
    exact hcon ⟨st, h, hn⟩
  have : ∀ n st, left 2 st = n → ¬ Reach 2 (crossingProgram 2 fun _ => []) st := by
    intro n
    induction n using Nat.strong_induction_on with
    | _ n ih =>
      intro st hl h
      obtain ⟨st', hs⟩ := hgo st h
      exact ih _ (hl ▸ step_left (by omega) hs) st' rfl (h.tail hs)
  exact this _ _ rfl .refl

end Tcrm.Pipeline
