import Verif.Model.Dispatch
/-!
The protocol of `Model/Dispatch` when the calculation of a job may raise: hazard/__init__.py L392-401 (worker) has no
exception handler, so the exception takes the worker out of its loop (it is caught at the top, tcrm.py L643-658, where it
is logged), and the worker sends nothing any more. The same holds for database/__init__.py L405-416 and L606-615.
-/
namespace Tcrm.DispatchFail

open Tcrm.Dispatch

variable {J R : Type} {n : Nat}

/-- A run, and the workers that have been left by an exception. -/
structure FState (J R : Type) (n : Nat) where
  run : State J R n
  failed : Fin n → Bool

def start : FState J R n := ⟨Dispatch.start, fun _ => false⟩

/-- One action of some rank, where the calculation of the jobs `raises` raises an exception: a worker at such a job
does not get to its `send`, hazard/__init__.py L400-401. -/
inductive FStep (tg : Tags) (tiles : List J) (f : J → R) (raises : J → Bool) : FState J R n → FState J R n → Prop where
  /-- any action of `Model/Dispatch`, but that the calculation of a raising job does not end -/
  | act (s : State J R n) (failed : Fin n → Bool) (t : State J R n) (h : Step tg tiles f s t)
      (hr : ∀ d tag j, (s.workers d).status = .computing tag j → raises j = true →
        (t.workers d).status = .computing tag j) :
      FStep tg tiles f raises ⟨s, failed⟩ ⟨t, failed⟩
  /-- hazard/__init__.py L400: the exception -/
  | fail (s : State J R n) (failed : Fin n → Bool) (d : Fin n) (tag : Nat) (j : J)
      (hs : (s.workers d).status = .computing tag j) (hr : raises j = true) (hf : failed d = false) :
      FStep tg tiles f raises ⟨s, failed⟩ ⟨s, Function.update failed d true⟩

/-- `s` can be reached from the start in exactly `k` actions. -/
inductive FReachIn (tg : Tags) (tiles : List J) (f : J → R) (raises : J → Bool) : Nat → FState J R n → Prop where
  | start : FReachIn tg tiles f raises 0 start
  | step {k : Nat} {s t : FState J R n} : FReachIn tg tiles f raises k s → FStep tg tiles f raises s t →
      FReachIn tg tiles f raises (k + 1) t

/-- hazard/__init__.py L403-429, one process: the results stored, and whether the loop is left by an exception. -/
def serialFail (f : J → R) (raises : J → Bool) : List J → List (J × R) × Bool
  | [] => ([], false)
  | j :: tiles => if raises j then ([], true) else
      let r := serialFail f raises tiles
      ((j, f j) :: r.1, r.2)

end Tcrm.DispatchFail
