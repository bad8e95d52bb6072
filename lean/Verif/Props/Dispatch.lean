import Verif.Model.HazardOutput
import Verif.Lemmas.Dispatch
import Verif.Props.Tiles
/-!
C02 — the distributed calculation equals the serial one on every schedule.
-/
namespace Tcrm.Dispatch

variable {J R : Type} {n : Nat}

/-- Every execution is finite: no run has more than `5·tiles + 2·workers + 2` actions. -/
theorem C02_every_run_is_finite (tiles : List J) (f : J → R) (k : Nat) (s : State J R n)
    (h : ReachIn hazardTags tiles f k s) : k ≤ 5 * tiles.length + 2 * n + 2 := by
  obtain ⟨tok, -, hm⟩ := reach_inv (tg := hazardTags) rfl h
  omega

/-- No deadlock: in every reachable state either everybody has finished or some rank can act. -/
theorem C02_no_deadlock (tiles : List J) (f : J → R) (k : Nat) (s : State J R n)
    (h : ReachIn hazardTags tiles f k s) : Finished s ∨ ∃ t, Step hazardTags tiles f s t := by
  obtain ⟨tok, hi, -⟩ := reach_inv (tg := hazardTags) rfl h
  exact progress hi

/-- As soon as the master has left its loop, every tile has been stored exactly once, with
its own result, whatever the arrival order. -/
theorem C02_every_tile_once (hn : 0 < n) (tiles : List J) (f : J → R) (k : Nat) (s : State J R n)
    (h : ReachIn hazardTags tiles f k s) (hd : s.phase = .done) :
    s.written.Perm (serial tiles f) := by
  obtain ⟨tok, hi, -⟩ := reach_inv (tg := hazardTags) rfl h
  have := done_bag hn hi hd
  rw [hi.val]
  exact this.map _

/-- The same three facts for the event and track tables of the database stage. -/
theorem C02_database_runs (hn : 0 < n) (files : List J) (f : J → R) (k : Nat) (s : State J R n)
    (h : ReachIn databaseTags files f k s) :
    k ≤ 5 * files.length + 2 * n + 2 ∧ (Finished s ∨ ∃ t, Step databaseTags files f s t) ∧
      (s.phase = .done → s.written.Perm (serial files f)) := by
  obtain ⟨tok, hi, hm⟩ := reach_inv (tg := databaseTags) rfl h
  refine ⟨by omega, progress hi, fun hd => ?_⟩
  have := done_bag hn hi hd
  rw [hi.val]
  exact this.map _

/-- A protocol whose tags do not match blocks: with results answered under a tag the
worker does not listen to, the run with one tile and one worker gets stuck unfinished.
(Shows that the tag condition is not an artefact of the model.) -/
theorem C02_wrong_tag_deadlocks :
    ∃ (k : Nat) (s : State Unit Unit 1),
      ReachIn { workTag := 0, resTag := fun _ => 1, replyTag := id } [()] (fun _ => ()) k s ∧
      ¬ Finished s ∧ ¬ ∃ t, Step { workTag := 0, resTag := fun _ => 1, replyTag := id } [()]
        (fun _ => ()) s t := by
  let tg : Tags := { workTag := 0, resTag := fun _ => 1, replyTag := id }
  have h0 : ReachIn tg [()] (fun _ => ()) 0 (start : State Unit Unit 1) := .start
  have h1 := ReachIn.step h0 (Step.initWork _ 0 (by omega) rfl () rfl)
  have h2 := ReachIn.step h1 (Step.initDone _ 1 (by omega) rfl)
  have h3 := ReachIn.step h2 (Step.workerTake _ 0 rfl [] [] (by simp) () rfl)
  have h4 := ReachIn.step h3 (Step.workerSend _ 0 0 () rfl)
  have h5 := ReachIn.step h4 (Step.recvStop _ rfl (by decide) 0 1 () () [] rfl (by decide))
  have h6 := ReachIn.step h5 (Step.masterDone _ rfl (by decide))
  refine ⟨_, _, h6, ?_, ?_⟩
  · rintro ⟨-, h⟩
    obtain ⟨i, o, h⟩ := h 0
    have := congrArg Worker.status h
    simp [send] at this
  · rintro ⟨t, ht⟩
    cases ht with
    | initWork k hk hp => simp at hp
    | initStop k hk hp => simp at hp
    | initDone k hk hp => simp at hp
    | recvWork hp => simp at hp
    | recvStop hp => simp at hp
    | masterDone hp => simp at hp
    | workerStop d hs pre post hpre hi =>
      have hd : d = 0 := Subsingleton.elim _ _
      subst hd
      simp [send, start, List.singleton_eq_append_iff, tg] at hi
    | workerTake d hs pre post hpre j hi =>
      have hd : d = 0 := Subsingleton.elim _ _
      subst hd
      simp [send, start, List.singleton_eq_append_iff, tg] at hi
    | workerSend d tag j hs =>
      have hd : d = 0 := Subsingleton.elim _ _
      subst hd
      simp [send] at hs

end Tcrm.Dispatch

namespace Tcrm.Hazard
open Tcrm.Tiles Tcrm.Dispatch

variable {V : Type}

theorem store_fold_value (imin jmin : Int) (y x : Int) (v : V)
    (ws : List (Limits × (Int → Int → V))) (out : Int → Int → V)
    (hall : ∀ p ∈ ws, p.1.Covers (x + imin) (y + jmin) →
      p.2 (y + jmin - p.1.y1) (x + imin - p.1.x1) = v)
    (hout : out y x = v ∨ ∃ p ∈ ws, p.1.Covers (x + imin) (y + jmin)) :
    ws.foldl (fun out p => store imin jmin out p.1 p.2) out y x = v := by
  induction ws generalizing out with
  | nil => simpa using hout
  | cons p t ih =>
    rw [List.foldl_cons]
    refine ih _ (fun q hq => hall q (by simp [hq])) ?_
    by_cases hc : p.1.Covers (x + imin) (y + jmin)
    · left
      have := hall p (by simp) hc
      simp only [Limits.Covers] at hc
      simp only [store]
      rw [if_pos (by omega), ← this]
      rw [show y - (p.1.y1 - jmin) = y + jmin - p.1.y1 by omega,
        show x - (p.1.x1 - imin) = x + imin - p.1.x1 by omega]
    · rcases hout with h | ⟨q, hq, hqc⟩
      · left
        simp only [Limits.Covers] at hc
        simp only [store]
        rw [if_neg (by omega), h]
      · right
        rcases List.mem_cons.1 hq with rfl | hq
        · exact absurd hqc hc
        · exact ⟨q, hq, hqc⟩

/-- End to end: for every tile grid, every calculation, every number of workers and every
schedule, when the master has left its loop the output arrays are those of the one-process
run, and at each requested grid point they hold the value calculated for the tile that
contains that point. -/
theorem C02_parallel_output_equals_serial (lon lat : List Int) (xLo xHi yLo yHi : Int)
    (xstep ystep : Nat) (hlon : IsAxis lon) (hlat : IsAxis lat) (g : Grid)
    (hg : mkGrid lon lat xLo xHi yLo yHi xstep ystep = .ok g) (tiles : List Limits)
    (ht : getTiles g = some tiles) (calcTile : Limits → Int → Int → V) (zero : V)
    (n : Nat) (hn : 0 < n) (k : Nat) (s : State Limits (Int → Int → V) n)
    (h : ReachIn hazardTags tiles calcTile k s) (hd : s.phase = .done) :
    storeAll g.imin g.jmin zero s.written = storeAll g.imin g.jmin zero (serial tiles calcTile) ∧
    ∀ i j : Nat, Requested lon lat xLo xHi yLo yHi i j →
      ∃ t ∈ tiles, t.Covers i j ∧
        storeAll g.imin g.jmin zero s.written (j - g.jmin) (i - g.imin) =
          calcTile t (j - t.y1) (i - t.x1) := by
  obtain ⟨tiles', ht', hlen, hpos, -, huniq, hback⟩ :=
    C01_tiles_partition lon lat xLo xHi yLo yHi xstep ystep hlon hlat g hg
  rw [ht] at ht'
  obtain rfl := Option.some.inj ht'
  have hperm := C02_every_tile_once hn tiles calcTile k s h hd
  -- tiles covering a point are equal
  have hsame : ∀ a b : Int, ∀ t ∈ tiles, ∀ t' ∈ tiles, t.Covers a b → t'.Covers a b → t = t' := by
    intro a b t htm t' htm' hc hc'
    obtain ⟨i, j, rfl, rfl, hr⟩ := hback a b t htm hc
    obtain ⟨k0, -, hu⟩ := huniq i j hr
    obtain ⟨k1, hk1⟩ := List.getElem?_of_mem htm
    obtain ⟨k2, hk2⟩ := List.getElem?_of_mem htm'
    have e1 := hu k1 ⟨t, hk1, hc⟩
    have e2 := hu k2 ⟨t', hk2, hc'⟩
    rw [e1] at hk1
    rw [e2, hk1] at hk2
    exact Option.some.inj hk2
  have hval : ∀ y x : Int, ∀ ws : List (Limits × (Int → Int → V)), ws.Perm (serial tiles calcTile) →
      (∀ t ∈ tiles, t.Covers (x + g.imin) (y + g.jmin) →
        storeAll g.imin g.jmin zero ws y x = calcTile t (y + g.jmin - t.y1) (x + g.imin - t.x1)) ∧
      ((¬ ∃ t ∈ tiles, t.Covers (x + g.imin) (y + g.jmin)) →
        storeAll g.imin g.jmin zero ws y x = zero) := by
    intro y x ws hp
    constructor
    · intro t htm hc
      refine store_fold_value _ _ _ _ _ _ _ ?_ (Or.inr ⟨(t, calcTile t), ?_, hc⟩)
      · intro p hp' hpc
        rw [hp.mem_iff] at hp'
        simp only [serial, List.mem_map] at hp'
        obtain ⟨t', ht'm, rfl⟩ := hp'
        rw [hsame _ _ t htm t' ht'm hc hpc]
      · rw [hp.mem_iff]
        simp only [serial, List.mem_map]
        exact ⟨t, htm, rfl⟩
    · intro hno
      refine store_fold_value _ _ _ _ _ _ _ ?_ (Or.inl rfl)
      intro p hp' hpc
      rw [hp.mem_iff] at hp'
      simp only [serial, List.mem_map] at hp'
      obtain ⟨t', ht'm, rfl⟩ := hp'
      exact absurd ⟨t', ht'm, hpc⟩ hno
  constructor
  · funext y x
    by_cases hex : ∃ t ∈ tiles, t.Covers (x + g.imin) (y + g.jmin)
    · obtain ⟨t, htm, hc⟩ := hex
      rw [(hval y x _ hperm).1 t htm hc, (hval y x _ (List.Perm.refl _)).1 t htm hc]
    · rw [(hval y x _ hperm).2 hex, (hval y x _ (List.Perm.refl _)).2 hex]
  · intro i j hr
    obtain ⟨k0, ⟨t, hk0, hc⟩, -⟩ := huniq i j hr
    have htm := List.mem_of_getElem? hk0
    refine ⟨t, htm, hc, ?_⟩
    have := (hval (j - g.jmin) (i - g.imin) _ hperm).1 t htm (by simpa using hc)
    rw [this]
    congr 1 <;> omega

/-- Non-vacuity: with two workers and three tiles there is a complete run in which the
results arrive out of order (tile 1 before tile 0). -/
example : ∃ (k : Nat) (s : State Nat Nat 2), ReachIn hazardTags [10, 11, 12] (· + 100) k s ∧
    s.phase = .done ∧ s.written = [(11, 111), (10, 110), (12, 112)] := by
  have h0 : ReachIn hazardTags [10, 11, 12] (· + 100) 0 (start : State Nat Nat 2) := .start
  have h1 := ReachIn.step h0 (Step.initWork _ 0 (by omega) rfl 10 rfl)
  have h2 := ReachIn.step h1 (Step.initWork _ 1 (by omega) rfl 11 rfl)
  have h3 := ReachIn.step h2 (Step.initDone _ 2 (by omega) rfl)
  have h4 := ReachIn.step h3 (Step.workerTake _ 0 rfl [] [] (by simp) 10 rfl)
  have h5 := ReachIn.step h4 (Step.workerTake _ 1 rfl [] [] (by simp) 11 rfl)
  have h6 := ReachIn.step h5 (Step.workerSend _ 1 0 11 rfl)
  have h7 := ReachIn.step h6 (Step.workerSend _ 0 0 10 rfl)
  have h8 := ReachIn.step h7 (Step.recvWork _ rfl (by decide) 1 0 11 111 [] rfl 12 rfl)
  have h9 := ReachIn.step h8 (Step.recvStop _ rfl (by decide) 0 0 10 110 [] rfl (by decide))
  have h10 := ReachIn.step h9 (Step.workerTake _ 1 rfl [] [] (by simp) 12 rfl)
  have h11 := ReachIn.step h10 (Step.workerSend _ 1 0 12 rfl)
  have h12 := ReachIn.step h11 (Step.recvStop _ rfl (by decide) 1 0 12 112 [] rfl (by decide))
  have h13 := ReachIn.step h12 (Step.masterDone _ rfl (by decide))
  exact ⟨_, _, h13, rfl, rfl⟩

end Tcrm.Hazard
