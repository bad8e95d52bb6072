import Verif.Model.Dispatch
import Mathlib.Algebra.BigOperators.Fin
import Mathlib.Algebra.BigOperators.Group.Finset.Basic
import Mathlib.Algebra.Order.BigOperators.Group.Finset
import Mathlib.Algebra.BigOperators.Group.Multiset.Basic
import Mathlib.Tactic.Abel
import Mathlib.Tactic.Linarith

set_option linter.unusedSimpArgs false

namespace Tcrm.Dispatch

variable {J R : Type} {n : Nat}

/-- What is in transit for one worker. -/
inductive Tok (J : Type) where
  | idle | inJob (j : J) | comp (j : J) | out (j : J) | inNone | stopped

/-- The concrete worker for a token. -/
def conc (tg : Tags) (f : J → R) : Tok J → Worker J R
  | .idle => ⟨[], .waiting, []⟩
  | .inJob j => ⟨[(tg.workTag, some j)], .waiting, []⟩
  | .comp j => ⟨[], .computing tg.workTag j, []⟩
  | .out j => ⟨[], .waiting, [(tg.resTag tg.workTag, j, f j)]⟩
  | .inNone => ⟨[(tg.workTag, none)], .waiting, []⟩
  | .stopped => ⟨[], .stopped, []⟩

/-- Jobs in transit. -/
def Tok.jobs : Tok J → Multiset J
  | .inJob j => {j}
  | .comp j => {j}
  | .out j => {j}
  | _ => 0

/-- Potential for termination. -/
def Tok.pot : Tok J → Nat
  | .idle => 0
  | .inJob _ => 4
  | .comp _ => 3
  | .out _ => 2
  | .inNone => 1
  | .stopped => 0

@[simp] theorem jobs_idle : (Tok.idle : Tok J).jobs = 0 := rfl
@[simp] theorem pot_idle : (Tok.idle : Tok J).pot = 0 := rfl
@[simp] theorem jobs_inJob (j : J) : (Tok.inJob j : Tok J).jobs = {j} := rfl
@[simp] theorem pot_inJob (j : J) : (Tok.inJob j : Tok J).pot = 4 := rfl
@[simp] theorem jobs_comp (j : J) : (Tok.comp j : Tok J).jobs = {j} := rfl
@[simp] theorem pot_comp (j : J) : (Tok.comp j : Tok J).pot = 3 := rfl
@[simp] theorem jobs_out (j : J) : (Tok.out j : Tok J).jobs = {j} := rfl
@[simp] theorem pot_out (j : J) : (Tok.out j : Tok J).pot = 2 := rfl
@[simp] theorem jobs_inNone : (Tok.inNone : Tok J).jobs = 0 := rfl
@[simp] theorem pot_inNone : (Tok.inNone : Tok J).pot = 1 := rfl
@[simp] theorem jobs_stopped : (Tok.stopped : Tok J).jobs = 0 := rfl
@[simp] theorem pot_stopped : (Tok.stopped : Tok J).pot = 0 := rfl

theorem sum_update {A : Type} [AddCommMonoid A] (g : Tok J → A) (tok : Fin n → Tok J) (d : Fin n)
    (t : Tok J) :
    (∑ e, g (Function.update tok d t e)) + g (tok d) = (∑ e, g (tok e)) + g t := by
  rw [← Finset.add_sum_erase _ _ (Finset.mem_univ d), ← Finset.add_sum_erase Finset.univ
    (fun e => g (tok e)) (Finset.mem_univ d)]
  have : ∑ e ∈ Finset.univ.erase d, g (Function.update tok d t e) =
      ∑ e ∈ Finset.univ.erase d, g (tok e) := by
    refine Finset.sum_congr rfl fun e he => ?_
    rw [Function.update_of_ne (Finset.ne_of_mem_erase he)]
  rw [this, Function.update_self]
  abel

/-- The jobs in transit over all workers. -/
def flight (tok : Fin n → Tok J) : Multiset J := ∑ d, (tok d).jobs

/-- Invariant part that depends on the control state of the master. -/
def PhaseInv (tiles : List J) (s : State J R n) (tok : Fin n → Tok J) : Prop :=
  match s.phase with
  | .init k => k ≤ n ∧ (∀ d : Fin n, d.val < k → tok d ≠ .idle) ∧
      (∀ d : Fin n, k ≤ d.val → tok d = .idle) ∧ s.w ≤ k ∧ (s.w < k → s.w = tiles.length) ∧
      s.p = (if s.w < k then s.w else n) ∧ s.written = [] ∧ s.terminated = 0
  | .loop => (∀ d, tok d ≠ .idle) ∧ (flight tok).card + s.terminated = s.p ∧
      (0 < s.terminated → s.w = tiles.length) ∧ s.p = min n tiles.length ∧ s.p ≤ s.w
  | .done => (∀ d, tok d ≠ .idle) ∧ (flight tok).card = 0 ∧ s.terminated = s.p ∧
      (0 < s.terminated → s.w = tiles.length) ∧ s.p = min n tiles.length

/-- The invariant of the protocol. -/
structure Inv (tg : Tags) (tiles : List J) (f : J → R) (s : State J R n) (tok : Fin n → Tok J) :
    Prop where
  shape : ∀ d, s.workers d = conc tg f (tok d)
  wle : s.w ≤ tiles.length
  bag : (s.written.map Prod.fst : Multiset J) + flight tok = (tiles.take s.w : Multiset J)
  val : s.written = (s.written.map Prod.fst).map fun j => (j, f j)
  ph : PhaseInv tiles s tok

/-- Length of a run so far is bounded through this measure. -/
def phasePot (n : Nat) : Phase → Nat
  | .init k => 2 * (n - k) + 2
  | .loop => 1
  | .done => 0

def measure (tiles : List J) (s : State J R n) (tok : Fin n → Tok J) : Nat :=
  5 * (tiles.length - s.w) + (∑ d, (tok d).pot) + phasePot n s.phase

theorem inv_start (tg : Tags) (tiles : List J) (f : J → R) :
    Inv tg tiles f (start : State J R n) (fun _ => .idle) where
  shape := fun d => rfl
  wle := by simp [start]
  bag := by simp [start, flight, jobs_idle, jobs_inJob, jobs_comp, jobs_out, jobs_inNone, jobs_stopped]
  val := by simp [start]
  ph := by simp [PhaseInv, start]

theorem take_succ_of_getElem? {l : List J} {k : Nat} {j : J} (h : l[k]? = some j) :
    (l.take (k + 1) : Multiset J) = (l.take k : Multiset J) + {j} := by
  rw [List.take_add_one, h, Option.toList_some, ← Multiset.coe_add, Multiset.coe_singleton]

theorem conc_inbox_outbox {tg : Tags} {f : J → R} {t : Tok J} {m rest}
    (h : (conc tg f t).outbox = m :: rest) :
    ∃ j, t = .out j ∧ m = (tg.resTag tg.workTag, j, f j) ∧ rest = [] := by
  cases t <;> simp [conc] at h
  exact ⟨_, rfl, h.1.symm, h.2⟩

theorem conc_inbox {tg : Tags} {f : J → R} {t : Tok J} {pre post : List (Nat × Option J)} {m}
    (h : (conc tg f t).inbox = pre ++ m :: post) :
    pre = [] ∧ post = [] ∧ ((∃ j, t = .inJob j ∧ m = (tg.workTag, some j)) ∨
      (t = .inNone ∧ m = (tg.workTag, none))) := by
  cases t <;> simp [conc, List.append_eq_cons_iff, List.singleton_eq_append_iff] at h ⊢
  · rename_i j
    tauto
  · tauto

theorem conc_comp {tg : Tags} {f : J → R} {t : Tok J} {tag j}
    (h : (conc tg f t).status = .computing tag j) : t = .comp j ∧ tag = tg.workTag := by
  cases t <;> simp [conc] at h
  exact ⟨by rw [h.2], h.1.symm⟩

theorem update_shape {tg : Tags} {f : J → R} {ws : Fin n → Worker J R} {tok : Fin n → Tok J}
    (h : ∀ d, ws d = conc tg f (tok d)) (d : Fin n) (t : Tok J) (x : Worker J R)
    (hx : x = conc tg f t) : ∀ e, Function.update ws d x e = conc tg f (Function.update tok d t e) := by
  intro e
  by_cases he : e = d
  · subst he; simp [hx]
  · simp [Function.update_of_ne he, h e]

theorem flight_update (tok : Fin n → Tok J) (d : Fin n) (t : Tok J) :
    flight (Function.update tok d t) + (tok d).jobs = flight tok + t.jobs :=
  sum_update Tok.jobs tok d t

theorem pot_update (tok : Fin n → Tok J) (d : Fin n) (t : Tok J) :
    (∑ e, (Function.update tok d t e).pot) + (tok d).pot = (∑ e, (tok e).pot) + t.pot :=
  sum_update Tok.pot tok d t

theorem ne_idle_update {tok : Fin n → Tok J} (h : ∀ d, tok d ≠ .idle) (d : Fin n) {t : Tok J}
    (ht : t ≠ .idle) : ∀ e, Function.update tok d t e ≠ .idle := by
  intro e
  by_cases he : e = d
  · subst he; simpa
  · simpa [Function.update_of_ne he] using h e

/-- The conditions on the tags under which the protocol works. -/
def Tags.Ok (tg : Tags) : Prop := tg.replyTag (tg.resTag tg.workTag) = tg.workTag

theorem inv_step {tg : Tags} (htg : tg.Ok) {tiles : List J} {f : J → R} {s t : State J R n}
    {tok : Fin n → Tok J} (hi : Inv tg tiles f s tok) (hst : Step tg tiles f s t) :
    ∃ tok', Inv tg tiles f t tok' ∧ measure tiles t tok' < measure tiles s tok := by
  obtain ⟨shape, wle, bag, val, ph⟩ := hi
  cases hst with
  | initWork k hk hp j hw =>
    have hwl : s.w < tiles.length := (List.getElem?_eq_some_iff.1 hw).1
    simp only [PhaseInv, hp] at ph
    obtain ⟨hkn, hne, hidle, hwk, hwk2, hpp, hwr, hter⟩ := ph
    have hd := hidle ⟨k, hk⟩ le_rfl
    have hwk' : s.w = k := by
      by_contra h
      have := hwk2 (by omega)
      omega
    refine ⟨Function.update tok ⟨k, hk⟩ (.inJob j), ⟨?_, ?_, ?_, ?_, ?_⟩, ?_⟩
    · exact update_shape shape _ _ _ (by simp [shape, hd, conc])
    · exact hwl
    · have := flight_update tok ⟨k, hk⟩ (.inJob j)
      rw [hd] at this
      simp only [jobs_idle, jobs_inJob, jobs_comp, jobs_out, jobs_inNone, jobs_stopped, add_zero] at this
      simp only [this, take_succ_of_getElem? hw]
      rw [← bag]; abel
    · exact val
    · simp only [PhaseInv]
      refine ⟨hk, ?_, ?_, by omega, by omega, ?_, hwr, hter⟩
      · intro d hd'
        by_cases he : d = ⟨k, hk⟩
        · subst he; simp
        · have : d.val ≠ k := fun h => he (Fin.ext h)
          simpa [Function.update_of_ne he] using hne d (by omega)
      · intro d hd'
        have he : d ≠ ⟨k, hk⟩ := by rintro rfl; simp at hd'
        simpa [Function.update_of_ne he] using hidle d (by omega)
      · rw [hpp, if_neg (by omega), if_neg (by omega)]
    · have := pot_update tok ⟨k, hk⟩ (.inJob j)
      rw [hd] at this
      simp only [pot_idle, pot_inJob, pot_comp, pot_out, pot_inNone, pot_stopped] at this
      simp only [measure, phasePot, hp]
      omega
  | initStop k hk hp hw =>
    simp only [PhaseInv, hp] at ph
    obtain ⟨hkn, hne, hidle, hwk, hwk2, hpp, hwr, hter⟩ := ph
    have hd := hidle ⟨k, hk⟩ le_rfl
    refine ⟨Function.update tok ⟨k, hk⟩ .inNone, ⟨?_, wle, ?_, val, ?_⟩, ?_⟩
    · exact update_shape shape _ _ _ (by simp [shape, hd, conc])
    · have := flight_update tok ⟨k, hk⟩ .inNone
      rw [hd] at this
      simp only [jobs_idle, jobs_inJob, jobs_comp, jobs_out, jobs_inNone, jobs_stopped, add_zero] at this
      simp only [this, bag]
    · simp only [PhaseInv]
      refine ⟨hk, ?_, ?_, by omega, fun _ => by omega, ?_, hwr, hter⟩
      · intro d hd'
        by_cases he : d = ⟨k, hk⟩
        · subst he; simp
        · have : d.val ≠ k := fun h => he (Fin.ext h)
          simpa [Function.update_of_ne he] using hne d (by omega)
      · intro d hd'
        have he : d ≠ ⟨k, hk⟩ := by rintro rfl; simp at hd'
        simpa [Function.update_of_ne he] using hidle d (by omega)
      · rw [if_pos (by omega)]
    · have := pot_update tok ⟨k, hk⟩ .inNone
      rw [hd] at this
      simp only [pot_idle, pot_inJob, pot_comp, pot_out, pot_inNone, pot_stopped] at this
      simp only [measure, phasePot, hp]
      omega
  | initDone k hk hp =>
    simp only [PhaseInv, hp] at ph
    obtain ⟨hkn, hne, hidle, hwk, hwk2, hpp, hwr, hter⟩ := ph
    have hkn' : k = n := by omega
    subst hkn'
    have hpw : s.p = s.w := by
      rw [hpp]; split <;> omega
    refine ⟨tok, ⟨shape, wle, bag, val, ?_⟩, ?_⟩
    · simp only [PhaseInv]
      refine ⟨fun d => hne d d.isLt, ?_, by omega, ?_, by omega⟩
      · have := congrArg Multiset.card bag
        rw [hwr] at this
        simp at this
        omega
      · rw [hpw]
        rcases Nat.lt_or_ge s.w k with h | h
        · have := hwk2 h
          omega
        · have : s.w = k := by omega
          omega
    · simp only [measure, phasePot, hp]
      omega
  | recvWork hp ht d tag j r rest ho j' hw =>
    have hwl : s.w < tiles.length := (List.getElem?_eq_some_iff.1 hw).1
    simp only [PhaseInv, hp] at ph
    obtain ⟨hne, hcard, hterm, hpp, hpw⟩ := ph
    rw [shape d] at ho
    obtain ⟨j0, htok, hm, rfl⟩ := conc_inbox_outbox ho
    simp only [Prod.mk.injEq] at hm
    obtain ⟨rfl, rfl, rfl⟩ := hm
    have hfl := flight_update tok d (.inJob j')
    have hpot := pot_update tok d (.inJob j')
    rw [htok] at hfl hpot
    simp only [jobs_idle, jobs_inJob, jobs_comp, jobs_out, jobs_inNone, jobs_stopped, pot_idle, pot_inJob, pot_comp, pot_out, pot_inNone, pot_stopped] at hfl hpot
    refine ⟨Function.update tok d (.inJob j'), ⟨?_, hwl, ?_, ?_, ?_⟩, ?_⟩
    · simp only [send, Function.update_self, Function.update_idem]
      exact update_shape shape _ _ _ (by simp [shape, htok, conc, show tg.replyTag _ = _ from htg])
    · simp only [take_succ_of_getElem? hw, List.map_append, List.map_cons, List.map_nil,
        ← Multiset.coe_add, Multiset.coe_singleton]
      rw [← bag, add_assoc, add_assoc, ← hfl]
      congr 1
      exact add_comm _ _
    · conv_lhs => rw [val]
      simp
    · simp only [PhaseInv, hp]
      refine ⟨ne_idle_update hne _ (by simp), ?_, by omega, hpp, by omega⟩
      have := congrArg Multiset.card hfl
      simp at this
      omega
    · simp only [measure, phasePot, hp]
      omega
  | recvStop hp ht d tag j r rest ho hw =>
    simp only [PhaseInv, hp] at ph
    obtain ⟨hne, hcard, hterm, hpp, hpw⟩ := ph
    rw [shape d] at ho
    obtain ⟨j0, htok, hm, rfl⟩ := conc_inbox_outbox ho
    simp only [Prod.mk.injEq] at hm
    obtain ⟨rfl, rfl, rfl⟩ := hm
    have hfl := flight_update tok d .inNone
    have hpot := pot_update tok d .inNone
    rw [htok] at hfl hpot
    simp only [jobs_idle, jobs_inJob, jobs_comp, jobs_out, jobs_inNone, jobs_stopped, pot_idle, pot_inJob, pot_comp, pot_out, pot_inNone, pot_stopped, add_zero] at hfl hpot
    refine ⟨Function.update tok d .inNone, ⟨?_, wle, ?_, ?_, ?_⟩, ?_⟩
    · simp only [send, Function.update_self, Function.update_idem]
      exact update_shape shape _ _ _ (by simp [shape, htok, conc, show tg.replyTag _ = _ from htg])
    · simp only [List.map_append, List.map_cons, List.map_nil,
        ← Multiset.coe_add, Multiset.coe_singleton]
      rw [← bag, add_assoc, ← hfl]
      congr 1
      exact add_comm _ _
    · conv_lhs => rw [val]
      simp
    · simp only [PhaseInv, hp]
      refine ⟨ne_idle_update hne _ (by simp), ?_, by omega, hpp, hpw⟩
      have := congrArg Multiset.card hfl
      simp at this
      omega
    · simp only [measure, phasePot, hp]
      omega
  | masterDone hp ht =>
    simp only [PhaseInv, hp] at ph
    obtain ⟨hne, hcard, hterm, hpp, hpw⟩ := ph
    refine ⟨tok, ⟨shape, wle, bag, val, ?_⟩, ?_⟩
    · simp only [PhaseInv]
      exact ⟨hne, by omega, by omega, hterm, hpp⟩
    · simp only [measure, phasePot, hp]
      omega
  | workerStop d hs pre post hpre hinb =>
    rw [shape d] at hinb
    obtain ⟨rfl, rfl, h⟩ := conc_inbox hinb
    rcases h with ⟨j, h, h'⟩ | ⟨htok, -⟩
    · simp at h'
    have hfl := flight_update tok d .stopped
    have hpot := pot_update tok d .stopped
    rw [htok] at hfl hpot
    simp only [jobs_idle, jobs_inJob, jobs_comp, jobs_out, jobs_inNone, jobs_stopped, pot_idle, pot_inJob, pot_comp, pot_out, pot_inNone, pot_stopped, add_zero] at hfl hpot
    refine ⟨Function.update tok d .stopped, ⟨?_, wle, ?_, val, ?_⟩, ?_⟩
    · exact update_shape shape _ _ _ (by simp [shape, htok, conc])
    · rw [hfl]; exact bag
    · cases hph : s.phase with
      | init k =>
        simp only [PhaseInv, hph] at ph ⊢
        obtain ⟨hkn, hne, hidle, rest⟩ := ph
        refine ⟨hkn, ?_, ?_, rest⟩
        · intro e he
          by_cases hed : e = d
          · subst hed; simp
          · simpa [Function.update_of_ne hed] using hne e he
        · intro e he
          have hed : e ≠ d := by
            rintro rfl
            rw [hidle e he] at htok; simp at htok
          simpa [Function.update_of_ne hed] using hidle e he
      | loop =>
        simp only [PhaseInv, hph] at ph ⊢
        rw [hfl]
        exact ⟨ne_idle_update ph.1 _ (by simp), ph.2⟩
      | done =>
        simp only [PhaseInv, hph] at ph ⊢
        rw [hfl]
        exact ⟨ne_idle_update ph.1 _ (by simp), ph.2⟩
    · simp only [measure]
      omega
  | workerTake d hs pre post hpre j hinb =>
    rw [shape d] at hinb
    obtain ⟨rfl, rfl, h⟩ := conc_inbox hinb
    rcases h with ⟨j', htok, h'⟩ | ⟨-, h'⟩
    swap
    · simp at h'
    simp only [Prod.mk.injEq, Option.some.injEq, true_and] at h'
    subst h'
    have hfl := flight_update tok d (.comp j)
    have hpot := pot_update tok d (.comp j)
    rw [htok] at hfl hpot
    simp only [jobs_idle, jobs_inJob, jobs_comp, jobs_out, jobs_inNone, jobs_stopped, pot_idle, pot_inJob, pot_comp, pot_out, pot_inNone, pot_stopped, add_left_inj] at hfl hpot
    refine ⟨Function.update tok d (.comp j), ⟨?_, wle, ?_, val, ?_⟩, ?_⟩
    · exact update_shape shape _ _ _ (by simp [shape, htok, conc])
    · rw [hfl]; exact bag
    · cases hph : s.phase with
      | init k =>
        simp only [PhaseInv, hph] at ph ⊢
        obtain ⟨hkn, hne, hidle, rest⟩ := ph
        refine ⟨hkn, ?_, ?_, rest⟩
        · intro e he
          by_cases hed : e = d
          · subst hed; simp
          · simpa [Function.update_of_ne hed] using hne e he
        · intro e he
          have hed : e ≠ d := by
            rintro rfl
            rw [hidle e he] at htok; simp at htok
          simpa [Function.update_of_ne hed] using hidle e he
      | loop =>
        simp only [PhaseInv, hph] at ph ⊢
        rw [hfl]
        exact ⟨ne_idle_update ph.1 _ (by simp), ph.2⟩
      | done =>
        simp only [PhaseInv, hph] at ph ⊢
        rw [hfl]
        exact ⟨ne_idle_update ph.1 _ (by simp), ph.2⟩
    · simp only [measure]
      omega
  | workerSend d tag j hs =>
    rw [shape d] at hs
    obtain ⟨htok, rfl⟩ := conc_comp hs
    have hfl := flight_update tok d (.out j)
    have hpot := pot_update tok d (.out j)
    rw [htok] at hfl hpot
    simp only [jobs_idle, jobs_inJob, jobs_comp, jobs_out, jobs_inNone, jobs_stopped, pot_idle, pot_inJob, pot_comp, pot_out, pot_inNone, pot_stopped, add_left_inj] at hfl hpot
    refine ⟨Function.update tok d (.out j), ⟨?_, wle, ?_, val, ?_⟩, ?_⟩
    · exact update_shape shape _ _ _ (by simp [shape, htok, conc])
    · rw [hfl]; exact bag
    · cases hph : s.phase with
      | init k =>
        simp only [PhaseInv, hph] at ph ⊢
        obtain ⟨hkn, hne, hidle, rest⟩ := ph
        refine ⟨hkn, ?_, ?_, rest⟩
        · intro e he
          by_cases hed : e = d
          · subst hed; simp
          · simpa [Function.update_of_ne hed] using hne e he
        · intro e he
          have hed : e ≠ d := by
            rintro rfl
            rw [hidle e he] at htok; simp at htok
          simpa [Function.update_of_ne hed] using hidle e he
      | loop =>
        simp only [PhaseInv, hph] at ph ⊢
        rw [hfl]
        exact ⟨ne_idle_update ph.1 _ (by simp), ph.2⟩
      | done =>
        simp only [PhaseInv, hph] at ph ⊢
        rw [hfl]
        exact ⟨ne_idle_update ph.1 _ (by simp), ph.2⟩
    · simp only [measure]
      omega

theorem reach_inv {tg : Tags} (htg : tg.Ok) {tiles : List J} {f : J → R} {k : Nat}
    {s : State J R n} (h : ReachIn tg tiles f k s) :
    ∃ tok, Inv tg tiles f s tok ∧ measure tiles s tok + k ≤ 5 * tiles.length + 2 * n + 2 := by
  induction h with
  | start => exact ⟨_, inv_start tg tiles f, by simp [measure, start, phasePot, pot_idle, pot_inJob, pot_comp, pot_out, pot_inNone, pot_stopped]; omega⟩
  | step _ hst ih =>
    obtain ⟨tok, hi, hm⟩ := ih
    obtain ⟨tok', hi', hm'⟩ := inv_step htg hi hst
    exact ⟨tok', hi', by omega⟩

/-- A state satisfying the invariant is finished or can move. -/
theorem progress {tg : Tags} {tiles : List J} {f : J → R} {s : State J R n}
    {tok : Fin n → Tok J} (hi : Inv tg tiles f s tok) :
    Finished s ∨ ∃ t, Step tg tiles f s t := by
  obtain ⟨shape, wle, bag, val, ph⟩ := hi
  -- a worker with something in its inbox or computing can move
  by_cases hmove : ∃ d, (∃ j, tok d = .inJob j) ∨ (∃ j, tok d = .comp j) ∨ tok d = .inNone
  · obtain ⟨d, ⟨j, h⟩ | ⟨j, h⟩ | h⟩ := hmove
    · exact Or.inr ⟨_, Step.workerTake s d (by simp [shape, h, conc]) [] [] (by simp) j
        (by simp [shape, h, conc])⟩
    · exact Or.inr ⟨_, Step.workerSend s d tg.workTag j (by simp [shape, h, conc])⟩
    · exact Or.inr ⟨_, Step.workerStop s d (by simp [shape, h, conc]) [] [] (by simp)
        (by simp [shape, h, conc])⟩
  · push Not at hmove
    cases hph : s.phase with
    | init k =>
      right
      by_cases hk : k < n
      · by_cases hw : s.w < tiles.length
        · exact ⟨_, Step.initWork s k hk hph _ (List.getElem?_eq_getElem hw)⟩
        · exact ⟨_, Step.initStop s k hk hph hw⟩
      · exact ⟨_, Step.initDone s k hk hph⟩
    | loop =>
      right
      by_cases ht : s.terminated < s.p
      · simp only [PhaseInv, hph] at ph
        obtain ⟨hne, hcard, hterm, hpp, hpw⟩ := ph
        have hpos : 0 < (flight tok).card := by omega
        have : ∃ d, (tok d).jobs ≠ 0 := by
          by_contra h
          push Not at h
          simp [flight, h] at hpos
        obtain ⟨d, hd⟩ := this
        obtain ⟨h1, h2, h3⟩ := hmove d
        cases htok : tok d with
        | idle => exact absurd htok (hne d)
        | inJob j => exact absurd htok (h1 j)
        | comp j => exact absurd htok (h2 j)
        | inNone => exact absurd htok h3
        | stopped => simp [htok, jobs_idle, jobs_inJob, jobs_comp, jobs_out, jobs_inNone, jobs_stopped] at hd
        | out j =>
          by_cases hw : s.w < tiles.length
          · exact ⟨_, Step.recvWork s hph ht d _ j (f j) [] (by simp [shape, htok, conc]; rfl) _
              (List.getElem?_eq_getElem hw)⟩
          · exact ⟨_, Step.recvStop s hph ht d _ j (f j) [] (by simp [shape, htok, conc]; rfl) hw⟩
      · exact ⟨_, Step.masterDone s hph ht⟩
    | done =>
      left
      refine ⟨hph, fun d => ?_⟩
      simp only [PhaseInv, hph] at ph
      obtain ⟨hne, hcard, hterm, hpp⟩ := ph
      obtain ⟨h1, h2, h3⟩ := hmove d
      cases htok : tok d with
      | idle => exact absurd htok (hne d)
      | inJob j => exact absurd htok (h1 j)
      | comp j => exact absurd htok (h2 j)
      | inNone => exact absurd htok h3
      | stopped => exact ⟨_, _, by rw [shape, htok, conc]⟩
      | out j =>
        exfalso
        have : ({j} : Multiset J) ≤ flight tok := by
          have := Finset.single_le_sum (f := fun d => (tok d).jobs) (s := Finset.univ)
            (fun _ _ => Multiset.zero_le _) (Finset.mem_univ d)
          simp only [htok, jobs_out] at this
          exact this
        have := Multiset.card_le_card this
        simp at this
        omega

/-- When the master has left its loop (with at least one worker), everything was written. -/
theorem done_bag {tg : Tags} {tiles : List J} {f : J → R} {s : State J R n}
    {tok : Fin n → Tok J} (hn : 0 < n) (hi : Inv tg tiles f s tok) (hph : s.phase = .done) :
    (s.written.map Prod.fst).Perm tiles := by
  obtain ⟨shape, wle, bag, val, ph⟩ := hi
  simp only [PhaseInv, hph] at ph
  obtain ⟨hne, hcard, hterm, hpos, hpp⟩ := ph
  rw [Multiset.card_eq_zero] at hcard
  rw [hcard, add_zero, Multiset.coe_eq_coe] at bag
  have : s.w = tiles.length := by
    rcases Nat.eq_zero_or_pos tiles.length with h | h
    · omega
    · exact hpos (by omega)
  rwa [this, List.take_length] at bag

end Tcrm.Dispatch
