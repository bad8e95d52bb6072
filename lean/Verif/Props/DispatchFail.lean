import Verif.Model.DispatchFail
import Verif.Lemmas.Dispatch
import Mathlib.Tactic.FinCases
/-!
C184 — a tile whose calculation fails, in the distributed calculation.
-/
namespace Tcrm.DispatchFail

open Tcrm.Dispatch

variable {J R : Type} {n : Nat} {tg : Tags} {tiles : List J} {f : J → R} {raises : J → Bool}

/-- What is kept by all actions, beside the invariant of the protocol. -/
structure Extra (tiles : List J) (raises : J → Bool) (s : FState J R n) : Prop where
  out : ∀ d, ∀ m ∈ (s.run.workers d).outbox, raises m.2.1 = false
  written : ∀ p ∈ s.run.written, raises p.1 = false
  none : ∀ d, ((∃ tag, (tag, Option.none) ∈ (s.run.workers d).inbox) ∨ (s.run.workers d).status = .stopped) →
    tiles.length ≤ s.run.w
  failed : ∀ d, s.failed d = true → ∃ tag j, (s.run.workers d).status = .computing tag j ∧ raises j = true

theorem extra_start : Extra tiles raises (start : FState J R n) where
  out := by simp [start, Dispatch.start]
  written := by simp [start, Dispatch.start]
  none := by simp [start, Dispatch.start]
  failed := by simp [start]

theorem extra_step {s t : FState J R n} (he : Extra tiles raises s) (h : FStep tg tiles f raises s t) :
    Extra tiles raises t := by
  cases h with
  | fail s failed d tag j hs hr hf =>
    refine ⟨he.out, he.written, he.none, fun e h => ?_⟩
    by_cases hed : e = d
    · subst hed; exact ⟨tag, j, hs, hr⟩
    · rw [show (⟨s, Function.update failed d true⟩ : FState J R n).failed e = failed e from
        Function.update_of_ne hed _ _] at h
      exact he.failed e h
  | act s failed t hst hr =>
    have hfail : ∀ d, failed d = true → ∃ tag j, (t.workers d).status = .computing tag j ∧ raises j = true := by
      intro d hd
      obtain ⟨tag, j, h1, h2⟩ := he.failed d hd
      exact ⟨tag, j, hr d tag j h1 h2, h2⟩
    obtain ⟨ho, hw, hn, -⟩ := he
    simp only at ho hw hn
    cases hst with
    | initWork k hk hp j hj =>
      refine ⟨fun d => ?_, hw, fun d => ?_, hfail⟩
      · by_cases hed : d = ⟨k, hk⟩
        · subst hed; simpa [send] using ho ⟨k, hk⟩
        · simpa [send, Function.update_of_ne hed] using ho d
      · intro h
        have hlt : s.w < tiles.length := (List.getElem?_eq_some_iff.1 hj).1
        have := hn d (by
          by_cases hed : d = ⟨k, hk⟩
          · subst hed; simpa [send] using h
          · simpa [send, Function.update_of_ne hed] using h)
        omega
    | initStop k hk hp hj =>
      refine ⟨fun d => ?_, hw, fun d _ => by simpa using hj, hfail⟩
      by_cases hed : d = ⟨k, hk⟩
      · subst hed; simpa [send] using ho ⟨k, hk⟩
      · simpa [send, Function.update_of_ne hed] using ho d
    | initDone k hk hp => exact ⟨ho, hw, hn, hfail⟩
    | recvWork hp ht d tag j r rest hout j' hj =>
      have hlt : s.w < tiles.length := (List.getElem?_eq_some_iff.1 hj).1
      refine ⟨fun e => ?_, ?_, fun e h => ?_, hfail⟩
      · by_cases hed : e = d
        · subst hed
          intro m hm
          simp only [send, Function.update_self] at hm
          exact ho e m (by rw [hout]; exact List.mem_cons_of_mem _ hm)
        · simpa [send, Function.update_of_ne hed] using ho e
      · intro p hp'
        simp only [List.mem_append, List.mem_singleton] at hp'
        rcases hp' with h | rfl
        · exact hw p h
        · exact ho d (tag, j, r) (by rw [hout]; simp)
      · have := hn e (by
          by_cases hed : e = d
          · subst hed; simpa [send] using h
          · simpa [send, Function.update_of_ne hed] using h)
        omega
    | recvStop hp ht d tag j r rest hout hj =>
      refine ⟨fun e => ?_, ?_, fun e h => by simpa using hj, hfail⟩
      · by_cases hed : e = d
        · subst hed
          intro m hm
          simp only [send, Function.update_self] at hm
          exact ho e m (by rw [hout]; exact List.mem_cons_of_mem _ hm)
        · simpa [send, Function.update_of_ne hed] using ho e
      · intro p hp'
        simp only [List.mem_append, List.mem_singleton] at hp'
        rcases hp' with h | rfl
        · exact hw p h
        · exact ho d (tag, j, r) (by rw [hout]; simp)
    | masterDone hp ht => exact ⟨ho, hw, hn, hfail⟩
    | workerStop d hs pre post hpre hi =>
      refine ⟨fun e => ?_, hw, fun e h => ?_, hfail⟩
      · by_cases hed : e = d
        · subst hed; simpa using ho e
        · simpa [Function.update_of_ne hed] using ho e
      · by_cases hed : e = d
        · subst hed
          exact hn e (.inl ⟨tg.workTag, by rw [hi]; simp⟩)
        · exact hn e (by simpa [Function.update_of_ne hed] using h)
    | workerTake d hs pre post hpre j hi =>
      refine ⟨fun e => ?_, hw, fun e h => ?_, hfail⟩
      · by_cases hed : e = d
        · subst hed; simpa using ho e
        · simpa [Function.update_of_ne hed] using ho e
      · by_cases hed : e = d
        · subst hed
          simp only [Function.update_self, reduceCtorEq, or_false] at h
          obtain ⟨tag, h⟩ := h
          refine hn e (.inl ⟨tag, ?_⟩)
          rw [hi]
          rcases List.mem_append.1 h with h | h
          · exact List.mem_append_left _ h
          · exact List.mem_append_right _ (List.mem_cons_of_mem _ h)
        · exact hn e (by simpa [Function.update_of_ne hed] using h)
    | workerSend d tag j hs =>
      refine ⟨fun e => ?_, hw, fun e h => ?_, hfail⟩
      · by_cases hed : e = d
        · subst hed
          intro m hm
          simp only [Function.update_self, List.mem_append, List.mem_singleton] at hm
          rcases hm with hm | rfl
          · exact ho e m hm
          · by_contra hne
            have := hr e tag j hs (by simpa using hne)
            simp at this
        · simpa [Function.update_of_ne hed] using ho e
      · by_cases hed : e = d
        · subst hed
          refine hn e (.inl ?_)
          simpa using h
        · exact hn e (by simpa [Function.update_of_ne hed] using h)

/-- Number of workers failed. -/
def down (s : FState J R n) : Nat := (Finset.univ.filter fun d => s.failed d = true).card

theorem down_le (s : FState J R n) : down s ≤ n := by
  have := Finset.card_filter_le (Finset.univ : Finset (Fin n)) fun d => s.failed d = true
  simpa [down] using this

theorem freach_inv (htg : tg.Ok) {k : Nat} {s : FState J R n} (h : FReachIn tg tiles f raises k s) :
    (∃ tok, Inv tg tiles f s.run tok ∧ Dispatch.measure tiles s.run tok + k ≤ 5 * tiles.length + 2 * n + 2 + down s) ∧
      Extra tiles raises s := by
  induction h with
  | start =>
    refine ⟨⟨_, inv_start tg tiles f, ?_⟩, extra_start⟩
    simp [Dispatch.measure, start, Dispatch.start, phasePot]
    omega
  | step _ hst ih =>
    obtain ⟨⟨tok, hi, hm⟩, he⟩ := ih
    refine ⟨?_, extra_step he hst⟩
    cases hst with
    | act s failed t h hr =>
      obtain ⟨tok', hi', hm'⟩ := inv_step htg hi h
      refine ⟨tok', hi', ?_⟩
      simp only [down] at hm hm' ⊢
      omega
    | fail s failed d tag j hs hr hf =>
      refine ⟨tok, hi, ?_⟩
      have : (Finset.univ.filter fun e => Function.update failed d true e = true) =
          insert d (Finset.univ.filter fun e => failed e = true) := by
        ext e
        by_cases hed : e = d
        · subst hed; simp
        · simp [Function.update_of_ne hed, hed]
      simp only [down] at hm ⊢
      rw [this, Finset.card_insert_of_notMem (by simp [hf])]
      omega

/-- C184: also when calculations raise, no run goes on for ever. -/
theorem C184_finite_partial (htg : tg = hazardTags ∨ tg = databaseTags) {k : Nat} {s : FState J R n}
    (h : FReachIn tg tiles f raises k s) : k ≤ 5 * tiles.length + 3 * n + 2 := by
  obtain ⟨⟨tok, -, hm⟩, -⟩ := freach_inv (by rcases htg with rfl | rfl <;> rfl) h
  have := down_le s
  omega

/-- C184: whatever has been stored is right: each result stored is that of its job, which did not raise, and no job has
been stored more often than it is in the list. -/
theorem C184_stored_partial (htg : tg = hazardTags ∨ tg = databaseTags) {k : Nat} {s : FState J R n}
    (h : FReachIn tg tiles f raises k s) : (∀ p ∈ s.run.written, p.2 = f p.1 ∧ raises p.1 = false) ∧
      (s.run.written.map Prod.fst).Subperm tiles := by
  obtain ⟨⟨tok, hi, -⟩, he⟩ := freach_inv (by rcases htg with rfl | rfl <;> rfl) h
  constructor
  · intro p hp
    refine ⟨?_, he.written p hp⟩
    rw [hi.val] at hp
    simp only [List.map_map, List.mem_map, Function.comp] at hp
    obtain ⟨q, -, rfl⟩ := hp
    rfl
  · rw [← Multiset.coe_le]
    calc (s.run.written.map Prod.fst : Multiset J) ≤ _ + flight tok := Multiset.le_add_right _ _
      _ = (tiles.take s.run.w : Multiset J) := hi.bag
      _ ≤ tiles := Multiset.coe_le.2 (List.take_sublist _ _).subperm

/-- C184 (the failure): if the calculation of any job raises, the master never leaves its loop, on any schedule: the
run does not end, so nothing is saved. -/
theorem C184_never_ends_fails (htg : tg = hazardTags ∨ tg = databaseTags) (hn : 0 < n) {j : J} (hj : j ∈ tiles)
    (hr : raises j = true) {k : Nat} {s : FState J R n} (h : FReachIn tg tiles f raises k s) : s.run.phase ≠ .done := by
  intro hd
  obtain ⟨⟨tok, hi, -⟩, he⟩ := freach_inv (by rcases htg with rfl | rfl <;> rfl) h
  have hp := done_bag hn hi hd
  obtain ⟨p, hp1, rfl⟩ := List.mem_map.1 (hp.mem_iff.2 hj)
  rw [he.written p hp1] at hr
  cases hr

theorem mem_flight {tok : Fin n → Tok J} {j : J} : j ∈ flight tok ↔ ∃ d, j ∈ (tok d).jobs := by
  unfold flight
  rw [Multiset.mem_sum]
  simp

/-- C184 (the failure): where the run comes to rest, the master waits for a result and none is on its way; every worker
has ended, regularly or by an exception. If one has ended regularly, the results of all jobs that do not raise have been
received (and are lost). -/
theorem C184_stuck_fails (htg : tg = hazardTags ∨ tg = databaseTags) (hn : 0 < n) {j : J} (hj : j ∈ tiles)
    (hr : raises j = true) {k : Nat} {s : FState J R n} (h : FReachIn tg tiles f raises k s)
    (hstuck : ¬ ∃ t, FStep tg tiles f raises s t) :
    s.run.phase = .loop ∧ s.run.terminated < s.run.p ∧ (∀ d, (s.run.workers d).outbox = []) ∧
    (∀ d, (s.run.workers d).status = .stopped ∨ s.failed d = true) ∧ (∃ d, s.failed d = true) ∧
    ((∃ d, s.failed d = false) → s.run.written.Perm (serial (tiles.filter fun j => !raises j) f)) := by
  have hne := C184_never_ends_fails htg hn hj hr h
  obtain ⟨⟨tok, hi, -⟩, he⟩ := freach_inv (by rcases htg with rfl | rfl <;> rfl) h
  obtain ⟨s, failed⟩ := s
  simp only at hne hi hstuck ⊢
  have hi' := hi
  obtain ⟨shape, wle, bag, val, ph⟩ := hi
  have stay : ∀ t, Step tg tiles f s t → (∀ d tag j, (s.workers d).status = .computing tag j → raises j = true →
      (t.workers d).status = .computing tag j) → False := fun t h1 h2 => hstuck ⟨_, .act s failed t h1 h2⟩
  have keep : ∀ (d : Fin n) (w : Worker J R), (∀ tag j, (s.workers d).status ≠ .computing tag j) →
      ∀ e tag j, (s.workers e).status = .computing tag j → raises j = true →
      (Function.update s.workers d w e).status = .computing tag j := by
    intro d w hd e tag j h1 _
    have hed : e ≠ d := by rintro rfl; exact hd _ _ h1
    rw [Function.update_of_ne hed]; exact h1
  have hsend : ∀ (ws : Fin n → Worker J R) d m e, (send ws d m e).status = (ws e).status := by
    intro ws d m e
    by_cases hed : e = d
    · subst hed; simp [send]
    · simp [send, Function.update_of_ne hed]
  have hout : ∀ (d : Fin n) rest e, (Function.update s.workers d { s.workers d with outbox := rest } e).status =
      (s.workers e).status := by
    intro d rest e
    by_cases hed : e = d
    · subst hed; simp
    · simp [Function.update_of_ne hed]
  have hloop : s.phase = .loop := by
    cases hph : s.phase with
    | loop => rfl
    | done => exact absurd hph hne
    | init k =>
      exfalso
      by_cases hk : k < n
      · by_cases hw : s.w < tiles.length
        · exact stay _ (Step.initWork s k hk hph _ (List.getElem?_eq_getElem hw))
            (fun d tag j h1 _ => by simp only [hsend]; exact h1)
        · exact stay _ (Step.initStop s k hk hph hw) (fun d tag j h1 _ => by simp only [hsend]; exact h1)
      · exact stay _ (Step.initDone s k hk hph) (fun d tag j h1 _ => h1)
  have hterm : s.terminated < s.p := by
    by_contra ht
    exact stay _ (Step.masterDone s hloop ht) (fun d tag j h1 _ => h1)
  have htok : ∀ d, tok d = .stopped ∨ ∃ j, tok d = .comp j ∧ raises j = true ∧ failed d = true := by
    intro d
    simp only [PhaseInv, hloop] at ph
    cases hd : tok d with
    | idle => exact absurd hd (ph.1 d)
    | stopped => exact .inl rfl
    | inJob j =>
      exfalso
      refine stay _ (Step.workerTake s d (by simp [shape, hd, conc]) [] [] (by simp) j (by simp [shape, hd, conc]))
        (keep d _ (by simp [shape, hd, conc]))
    | inNone =>
      exfalso
      exact stay _ (Step.workerStop s d (by simp [shape, hd, conc]) [] [] (by simp) (by simp [shape, hd, conc]))
        (keep d _ (by simp [shape, hd, conc]))
    | out j =>
      exfalso
      by_cases hw : s.w < tiles.length
      · exact stay _ (Step.recvWork s hloop hterm d _ j (f j) [] (by simp [shape, hd, conc]; rfl) _
          (List.getElem?_eq_getElem hw)) (fun e tag j h1 _ => by simp only [hsend, hout]; exact h1)
      · exact stay _ (Step.recvStop s hloop hterm d _ j (f j) [] (by simp [shape, hd, conc]; rfl) hw)
          (fun e tag j h1 _ => by simp only [hsend, hout]; exact h1)
    | comp j =>
      right
      have hs : (s.workers d).status = .computing tg.workTag j := by simp [shape, hd, conc]
      by_cases hrj : raises j = true
      · refine ⟨j, rfl, hrj, ?_⟩
        by_contra hf
        exact hstuck ⟨_, .fail s failed d _ j hs hrj (by simpa using hf)⟩
      · exfalso
        refine stay _ (Step.workerSend s d _ j hs) ?_
        intro e tag j' h1 h2
        have hed : e ≠ d := by
          rintro rfl
          rw [hs] at h1
          injection h1 with _ h3
          rw [h3] at hrj
          exact hrj h2
        simp only [Function.update_of_ne hed]; exact h1
  refine ⟨hloop, hterm, ?_, ?_, ?_, ?_⟩
  · intro d
    rcases htok d with h | ⟨j, h, -⟩ <;> simp [shape, h, conc]
  · intro d
    rcases htok d with h | ⟨j, h, -, h3⟩
    · left; simp [shape, h, conc]
    · exact .inr h3
  · by_contra hno
    push Not at hno
    have hall : ∀ d, (tok d).jobs = 0 := by
      intro d
      rcases htok d with h | ⟨j, h, -, h3⟩
      · simp [h]
      · exact absurd h3 (hno d)
    simp only [PhaseInv, hloop] at ph
    have h2 := ph.2.1
    have : flight tok = 0 := by unfold flight; simp [hall]
    rw [this] at h2
    simp at h2
    omega
  · rintro ⟨d, hd⟩
    have hst : (s.workers d).status = .stopped := by
      rcases htok d with h | ⟨j, h, -, h3⟩
      · simp [shape, h, conc]
      · rw [hd] at h3; cases h3
    have hw : s.w = tiles.length := le_antisymm wle (he.none d (.inr hst))
    rw [hw, List.take_length] at bag
    have h1 : (flight tok).filter (fun j => raises j = false) = 0 := by
      rw [Multiset.filter_eq_nil]
      intro j hj
      obtain ⟨e, he'⟩ := mem_flight.1 hj
      rcases htok e with h | ⟨j', h, h2, -⟩
      · simp [h] at he'
      · rw [h, jobs_comp, Multiset.mem_singleton] at he'
        subst he'
        simp [h2]
    have h2 : (s.written.map Prod.fst : Multiset J).filter (fun j => raises j = false) = s.written.map Prod.fst := by
      rw [Multiset.filter_eq_self]
      intro j hj
      obtain ⟨p, hp, rfl⟩ := List.mem_map.1 (Multiset.mem_coe.1 hj)
      exact he.written p hp
    have h3 := congrArg (Multiset.filter fun j => raises j = false) bag
    rw [Multiset.filter_add, h1, h2, add_zero, Multiset.filter_coe, Multiset.coe_eq_coe] at h3
    rw [val, show (fun j => !raises j) = fun j => decide (raises j = false) by funext j; cases raises j <;> rfl]
    exact h3.map _

/-- C184: if no calculation raises, no worker fails and the run is one of C02. -/
theorem C184_regular_partial (hr : ∀ j, raises j = false) {k : Nat} {s : FState J R n}
    (h : FReachIn tg tiles f raises k s) : ReachIn tg tiles f k s.run ∧ ∀ d, s.failed d = false := by
  induction h with
  | start => exact ⟨.start, fun _ => rfl⟩
  | step _ hst ih =>
    cases hst with
    | act s failed t h1 h2 => exact ⟨.step ih.1 h1, ih.2⟩
    | fail s failed d tag j h1 h2 => rw [hr] at h2; cases h2

/-- C184: on one process an exception does end the loop; the results before it have been stored. -/
theorem C184_single_partial (f : J → R) (raises : J → Bool) (tiles : List J) :
    ((serialFail f raises tiles).2 = true ↔ ∃ j ∈ tiles, raises j = true) ∧
    (serialFail f raises tiles).1 = serial (tiles.takeWhile fun j => !raises j) f := by
  induction tiles with
  | nil => simp [serialFail, serial]
  | cons j tiles ih =>
    simp only [serialFail]
    by_cases h : raises j = true
    · simp [h, serial]
    · have h' : raises j = false := by simpa using h
      simp only [h', Bool.false_eq_true, if_false, List.mem_cons, exists_eq_or_imp, false_or, ih.1, true_and]
      rw [List.takeWhile_cons_of_pos (by simp [h']), ih.2]
      rfl

/-- Two workers, three tiles, the second of which raises: the other two are stored, and the run is stuck. -/
example : ∃ (k : Nat) (s : FState Nat Nat 2), FReachIn hazardTags [10, 11, 12] (· + 100) (fun j => j == 11) k s ∧
    s.run.phase = .loop ∧ s.run.written = [(10, 110), (12, 112)] ∧ s.failed = ![false, true] := by
  have h0 : FReachIn hazardTags [10, 11, 12] (· + 100) (fun j => j == 11) 0 (start : FState Nat Nat 2) := .start
  have h1 := FReachIn.step h0 (.act _ _ _ (Step.initWork _ 0 (by omega) rfl 10 rfl) (by simp [start, Dispatch.start]))
  have h2 := FReachIn.step h1 (.act _ _ _ (Step.initWork _ 1 (by omega) rfl 11 rfl)
    (by simp [Fin.forall_fin_two, start, Dispatch.start, send, Function.update]))
  have h3 := FReachIn.step h2 (.act _ _ _ (Step.initDone _ 2 (by omega) rfl)
    (by simp [Fin.forall_fin_two, start, Dispatch.start, send, Function.update]))
  have h4 := FReachIn.step h3 (.act _ _ _ (Step.workerTake _ 0 rfl [] [] (by simp) 10 rfl)
    (by simp [Fin.forall_fin_two, start, Dispatch.start, send, Function.update]))
  have h5 := FReachIn.step h4 (.act _ _ _ (Step.workerTake _ 1 rfl [] [] (by simp) 11 rfl)
    (by simp [Fin.forall_fin_two, start, Dispatch.start, send, Function.update]))
  have h6 := FReachIn.step h5 (.fail _ _ 1 0 11 rfl rfl rfl)
  have h7 := FReachIn.step h6 (.act _ _ _ (Step.workerSend _ 0 0 10 rfl)
    (by simp [Fin.forall_fin_two, start, Dispatch.start, send, Function.update]))
  have h8 := FReachIn.step h7 (.act _ _ _ (Step.recvWork _ rfl (by decide) 0 0 10 110 [] rfl 12 rfl)
    (by simp [Fin.forall_fin_two, start, Dispatch.start, send, Function.update]))
  have h9 := FReachIn.step h8 (.act _ _ _ (Step.workerTake _ 0 rfl [] [] (by simp) 12 rfl)
    (by simp [Fin.forall_fin_two, start, Dispatch.start, send, Function.update]))
  have h10 := FReachIn.step h9 (.act _ _ _ (Step.workerSend _ 0 0 12 rfl)
    (by simp [Fin.forall_fin_two, start, Dispatch.start, send, Function.update]))
  have h11 := FReachIn.step h10 (.act _ _ _ (Step.recvStop _ rfl (by decide) 0 0 12 112 [] rfl (by decide))
    (by simp [Fin.forall_fin_two, start, Dispatch.start, send, Function.update]))
  have h12 := FReachIn.step h11 (.act _ _ _ (Step.workerStop _ 0 rfl [] [] (by simp) rfl)
    (by simp [Fin.forall_fin_two, start, Dispatch.start, send, Function.update]))
  refine ⟨_, _, h12, rfl, rfl, ?_⟩
  funext d
  fin_cases d <;> rfl

end Tcrm.DispatchFail
