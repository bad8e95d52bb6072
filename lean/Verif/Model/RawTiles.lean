import Mathlib.Data.Fin.Basic
import Mathlib.Logic.Function.Basic
import Mathlib.Data.Fintype.Basic
/-!
Fetching the tiles of the raw wind multipliers from remote storage in one thread for each type of multiplier,
ProcessMultipliers/processMultipliers.py and Utilities/AsyncRun.py.
-/
namespace Tcrm.RawTiles

abbrev Text := List Char

/-- ProcessMultipliers/processMultipliers.py L371-373: the files of one type of multiplier; `var` is the variable of the type in lower
case. -/
def files (tiles dirns : List Text) (var : Text) : List Text :=
  tiles.flatMap fun t => dirns.map fun d => t ++ '_' :: var ++ '_' :: d ++ ".nc".toList

/-- A thread -/
inductive Thread where
  /-- fetching, with the files that are left -/
  | running (todo : List Text)
  /-- `run` has returned -/
  | returned
  /-- `run` was ended by an exception (`ClientError`), which `threading` reports on the terminal only -/
  | raised
  deriving DecidableEq

/-- The threads and the files in their directories; the directories of the threads are different. -/
structure State (n : ℕ) where
  threads : Fin n → Thread
  got : Fin n → List Text

/-- ProcessMultipliers/processMultipliers.py L364-382: all threads are started with their files and empty directories. That the main
thread starts them one after the other is no restriction: a thread need not act at once. -/
def start {n : ℕ} (lists : Fin n → List Text) : State n := ⟨fun i => .running (lists i), fun _ => []⟩

/-- One action of one thread: Utilities/AsyncRun.py L55-56 (`run`) and ProcessMultipliers/processMultipliers.py L479-487
(`download_files_from_s3`). `there i f`: the file can be fetched. -/
inductive Step {n : ℕ} (there : Fin n → Text → Prop) : State n → State n → Prop where
  | fetch (p : State n) (i : Fin n) (f : Text) (rest : List Text) (h : p.threads i = .running (f :: rest)) (hf : there i f) :
      Step there p ⟨Function.update p.threads i (.running rest), Function.update p.got i (p.got i ++ [f])⟩
  | fail (p : State n) (i : Fin n) (f : Text) (rest : List Text) (h : p.threads i = .running (f :: rest)) (hf : ¬ there i f) :
      Step there p ⟨Function.update p.threads i .raised, p.got⟩
  | finish (p : State n) (i : Fin n) (h : p.threads i = .running []) :
      Step there p ⟨Function.update p.threads i .returned, p.got⟩

/-- `q` can be reached from `p` in `k` actions. -/
inductive Run {n : ℕ} (there : Fin n → Text → Prop) : ℕ → State n → State n → Prop where
  | zero (p : State n) : Run there 0 p p
  | next {k : ℕ} {p q r : State n} : Run there k p q → Step there q r → Run there (k + 1) p r

/-- `thread.join()` returns for a thread that has ended, in whichever way. -/
def ended : Thread → Bool
  | .running _ => false
  | .returned => true
  | .raised => true

/-- ProcessMultipliers/processMultipliers.py L383-388: the directory that is used from now on, once all threads have ended -/
def afterJoin {n : ℕ} (temporary : Text) (p : State n) : Option Text :=
  if ∀ i, ended (p.threads i) = true then some (temporary ++ ['/']) else none

end Tcrm.RawTiles
