import Mathlib.Data.Finset.Defs
import Mathlib.Data.Fintype.Defs
import Mathlib.Logic.Function.Basic

/-!
Model of the master/worker message protocol used to share tiles (hazard), event
files and track files (database) over MPI ranks:

* hazard/__init__.py L340-390 (master), L392-401 (worker), L403-429 (one process);
* database/__init__.py L369-416 (`processEvents`) and L567-615 (`processTracks`),
  the same protocol with fixed tags instead of echoed tags.

A job is a tile (file), a result is whatever the calculation returns for it.  The
calculation is an arbitrary function `f`; it is assumed not to raise.

MPI assumptions: sends are buffered and do not block; messages between a pair of
ranks are delivered in order; a receive with a tag takes the first message carrying
that tag; `MPI.ANY_SOURCE` may take the first message of any rank that has one.
-/

namespace Tcrm.Dispatch

/-- The tags of a variant of the protocol. `workTag` is the tag workers listen on
(`work_tag`), `resTag` the tag a worker answers with as a function of the tag of the
work it received, `replyTag` the tag the master sends the next work with as a
function of the tag of the result. -/
structure Tags where
  workTag : Nat
  resTag : Nat → Nat
  replyTag : Nat → Nat

/-- hazard/__init__.py L338, L381, L385, L396, L401: both sides echo `status.tag`. -/
def hazardTags : Tags := { workTag := 0, resTag := id, replyTag := id }

/-- database/__init__.py L367-368, L397-403, L408, L416 (and L564-565, L597-604,
L609, L615): results carry `result_tag = 1`, work carries `work_tag = 0`. -/
def databaseTags : Tags := { workTag := 0, resTag := fun _ => 1, replyTag := fun _ => 0 }

/-- Where a worker is in its `while True` loop. -/
inductive WStatus (J : Type) where
  /-- at `comm.recv` -/
  | waiting
  /-- between `recv` and `send`: holding job `j` received with a tag -/
  | computing (tag : Nat) (j : J)
  /-- left the loop after receiving `None` -/
  | stopped

/-- A worker rank with its incoming (from the master) and outgoing (to the master)
message queues. `none` is the Python `None` that stops the worker. -/
structure Worker (J R : Type) where
  inbox : List (Nat × Option J)
  status : WStatus J
  outbox : List (Nat × J × R)

/-- Control state of the master. -/
inductive Phase where
  /-- in the initial `for d in range(1, comm.size)` loop; `k` destinations served -/
  | init (k : Nat)
  /-- in `while terminated < p` -/
  | loop
  /-- after the loop -/
  | done
  deriving DecidableEq

/-- Global state for `n` workers (`comm.size = n + 1`). Worker `d : Fin n` is rank
`d + 1`. `written` records the results stored in the output arrays, in order. -/
structure State (J R : Type) (n : Nat) where
  phase : Phase
  w : Nat
  p : Nat
  terminated : Nat
  written : List (J × R)
  workers : Fin n → Worker J R

variable {J R : Type} {n : Nat}

/-- Append a message to the inbox of a worker (`comm.send` by the master). -/
def send (ws : Fin n → Worker J R) (d : Fin n) (m : Nat × Option J) : Fin n → Worker J R :=
  Function.update ws d { ws d with inbox := (ws d).inbox ++ [m] }

/-- Start of the run: hazard/__init__.py L341-343, L394-396. -/
def start : State J R n :=
  { phase := .init 0, w := 0, p := n, terminated := 0, written := []
    workers := fun _ => { inbox := [], status := .waiting, outbox := [] } }

/-- One atomic action of some rank. -/
inductive Step (tg : Tags) (tiles : List J) (f : J → R) : State J R n → State J R n → Prop where
  /-- hazard/__init__.py L344-347: initial work for rank `k+1`. -/
  | initWork (s : State J R n) (k : Nat) (hk : k < n) (hp : s.phase = .init k) (j : J)
      (hw : tiles[s.w]? = some j) :
      Step tg tiles f s { s with
        phase := .init (k + 1), w := s.w + 1
        workers := send s.workers ⟨k, hk⟩ (tg.workTag, some j) }
  /-- hazard/__init__.py L348-350: no initial work left, stop rank `k+1`; `p = w`. -/
  | initStop (s : State J R n) (k : Nat) (hk : k < n) (hp : s.phase = .init k)
      (hw : ¬ s.w < tiles.length) :
      Step tg tiles f s { s with
        phase := .init (k + 1), p := s.w
        workers := send s.workers ⟨k, hk⟩ (tg.workTag, none) }
  /-- hazard/__init__.py L352: the initial loop is over, `terminated = 0`. -/
  | initDone (s : State J R n) (k : Nat) (hk : ¬ k < n) (hp : s.phase = .init k) :
      Step tg tiles f s { s with phase := .loop, terminated := 0 }
  /-- hazard/__init__.py L353-383: receive a result of rank `d+1`, store it, send the next tile. -/
  | recvWork (s : State J R n) (hp : s.phase = .loop) (ht : s.terminated < s.p) (d : Fin n)
      (tag : Nat) (j : J) (r : R) (rest : List (Nat × J × R))
      (ho : (s.workers d).outbox = (tag, j, r) :: rest) (j' : J) (hw : tiles[s.w]? = some j') :
      Step tg tiles f s { s with
        w := s.w + 1, written := s.written ++ [(j, r)]
        workers := send (Function.update s.workers d { s.workers d with outbox := rest }) d
          (tg.replyTag tag, some j') }
  /-- hazard/__init__.py L353-379, L384-386: receive a result, nothing left, stop the rank. -/
  | recvStop (s : State J R n) (hp : s.phase = .loop) (ht : s.terminated < s.p) (d : Fin n)
      (tag : Nat) (j : J) (r : R) (rest : List (Nat × J × R))
      (ho : (s.workers d).outbox = (tag, j, r) :: rest) (hw : ¬ s.w < tiles.length) :
      Step tg tiles f s { s with
        terminated := s.terminated + 1, written := s.written ++ [(j, r)]
        workers := send (Function.update s.workers d { s.workers d with outbox := rest }) d
          (tg.replyTag tag, none) }
  /-- hazard/__init__.py L353: the loop condition is false. -/
  | masterDone (s : State J R n) (hp : s.phase = .loop) (ht : ¬ s.terminated < s.p) :
      Step tg tiles f s { s with phase := .done }
  /-- hazard/__init__.py L396-399: a waiting worker receives `None` and leaves its loop. -/
  | workerStop (s : State J R n) (d : Fin n) (hs : (s.workers d).status = .waiting)
      (pre post : List (Nat × Option J)) (hpre : ∀ m ∈ pre, m.1 ≠ tg.workTag)
      (hi : (s.workers d).inbox = pre ++ (tg.workTag, none) :: post) :
      Step tg tiles f s { s with
        workers := Function.update s.workers d
          { s.workers d with inbox := pre ++ post, status := .stopped } }
  /-- hazard/__init__.py L396-400: a waiting worker receives a job. -/
  | workerTake (s : State J R n) (d : Fin n) (hs : (s.workers d).status = .waiting)
      (pre post : List (Nat × Option J)) (hpre : ∀ m ∈ pre, m.1 ≠ tg.workTag) (j : J)
      (hi : (s.workers d).inbox = pre ++ (tg.workTag, some j) :: post) :
      Step tg tiles f s { s with
        workers := Function.update s.workers d
          { s.workers d with inbox := pre ++ post, status := .computing tg.workTag j } }
  /-- hazard/__init__.py L400-401: the calculation finishes and its result is sent. -/
  | workerSend (s : State J R n) (d : Fin n) (tag : Nat) (j : J)
      (hs : (s.workers d).status = .computing tag j) :
      Step tg tiles f s { s with
        workers := Function.update s.workers d
          { s.workers d with status := .waiting
                             outbox := (s.workers d).outbox ++ [(tg.resTag tag, j, f j)] } }

/-- `s` can be reached from the start in exactly `k` actions. -/
inductive ReachIn (tg : Tags) (tiles : List J) (f : J → R) : Nat → State J R n → Prop where
  | start : ReachIn tg tiles f 0 start
  | step {k : Nat} {s t : State J R n} : ReachIn tg tiles f k s → Step tg tiles f s t →
      ReachIn tg tiles f (k + 1) t

/-- Everybody has finished: the master left its loop and every worker left its loop. -/
def Finished (s : State J R n) : Prop :=
  s.phase = .done ∧ ∀ d, ∃ i o, s.workers d = { inbox := i, status := .stopped, outbox := o }

/-- hazard/__init__.py L403-429: a one-process run stores the results in tile order. -/
def serial (tiles : List J) (f : J → R) : List (J × R) := tiles.map fun j => (j, f j)

end Tcrm.Dispatch
