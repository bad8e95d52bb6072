import Mathlib.Data.Nat.Notation
import Mathlib.Logic.Function.Basic
import Mathlib.Logic.Relation

/-!
Model of the main programs, which run the stages of a simulation on one or several processes
(tcrm.py, Utilities/parallel.py), and of the synchronisation inside the evaluation of the
crossings of meridians (Evaluate/longitudeCrossing.py).

A process is the list of the actions it still has to perform.  What a stage computes is not
part of this model; its start, its end and its barriers are.
-/

namespace Tcrm.Pipeline

/-- The stages called by `main` in tcrm.py L515-567. -/
inductive Stage where
  | directories | download | data | stat | tracks | wind | hazard
  | plotData | database | evaluate | plotHazard
  deriving DecidableEq, Repr

/-- The section `Actions` of the configuration, tcrm.py L522-566. -/
structure Actions where
  downloadData : Bool
  dataProcess : Bool
  executeStat : Bool
  executeTrackGenerator : Bool
  executeWindfield : Bool
  executeHazard : Bool
  plotData : Bool
  createDatabase : Bool
  executeEvaluate : Bool
  plotHazard : Bool
  deriving DecidableEq, Repr

/-- tcrm.py L515, L522, L527, L532, L537, L542, L547, L552, L557, L561, L566: the option that
switches a stage on; the directories are always created. -/
def enabled (a : Actions) : Stage → Bool
  | .directories => true
  | .download => a.downloadData
  | .data => a.dataProcess
  | .stat => a.executeStat
  | .tracks => a.executeTrackGenerator
  | .wind => a.executeWindfield
  | .hazard => a.executeHazard
  | .plotData => a.plotData
  | .database => a.createDatabase
  | .evaluate => a.executeEvaluate
  | .plotHazard => a.plotHazard

/-- tcrm.py L515-567: the order of the calls in `main`. -/
def calls : List Stage :=
  [.directories, .download, .data, .stat, .tracks, .wind, .hazard, .plotData, .database,
   .evaluate, .plotHazard]

/-- tcrm.py L87, L143, L234, L261, L345, L424: functions decorated with `disableOnWorkers`. -/
def masterOnly : Stage → Bool
  | .directories | .download | .data | .plotData | .stat | .plotHazard => true
  | _ => false

/-- Utilities/parallel.py L128-133: a decorated function returns at once on a worker. -/
def skips (size rank : ℕ) : Bool := decide (1 < size) && decide (0 < rank)

/-- Barriers inside the stages: TrackGenerator/TrackGenerator.py L1822, L1870, L1896;
wind/__init__.py L972, L981; hazard/__init__.py L1015, L1029; database/__init__.py L719, L721,
L725, L727, L730; Evaluate: two in each of the five `run` methods and one in
Evaluate/interpolateTracks.py L326, all of them passed by a single process. -/
def innerBarriers : Stage → ℕ
  | .tracks => 3
  | .wind => 2
  | .hazard => 2
  | .database => 5
  | .evaluate => 11
  | _ => 0

/-- What a process does, as far as other processes can notice. -/
inductive Act where
  /-- a stage begins -/
  | start (s : Stage)
  /-- a stage ends -/
  | finish (s : Stage)
  /-- `comm.barrier()` -/
  | barrier
  /-- a message to process `d` -/
  | send (d : ℕ)
  /-- wait for a message -/
  | recv
  deriving DecidableEq, Repr

/-- The part of `main` for one stage on one process (tcrm.py L515-567 with the decorator of
Utilities/parallel.py L118-133).  The evaluation on several processes also exchanges messages:
see `crossingMaster`. -/
def block (a : Actions) (size rank : ℕ) (s : Stage) : List Act :=
  if enabled a s then
    if masterOnly s && skips size rank then []
    else .start s :: (List.replicate (innerBarriers s) .barrier ++ [.finish s])
  else []

/-- tcrm.py L501-571 `main`: each stage is followed by a barrier. -/
def mainProgram (a : Actions) (size rank : ℕ) : List Act :=
  calls.flatMap fun s => block a size rank s ++ [.barrier]

/-- Processes with the actions left to them, messages under way, and the stages begun and
ended so far, in the order in which this happened. -/
structure State where
  progs : ℕ → List Act
  mail : ℕ → ℕ
  log : List (ℕ × Act)

/-- One step of some process among `size` ones.  A barrier is passed by all processes at once,
when all have reached it; a message is received after it has been sent. -/
inductive Step (size : ℕ) : State → State → Prop where
  | start (st : State) (p : ℕ) (hp : p < size) (s : Stage) (r : List Act)
      (h : st.progs p = .start s :: r) :
      Step size st { st with progs := Function.update st.progs p r
                             log := st.log ++ [(p, .start s)] }
  | finish (st : State) (p : ℕ) (hp : p < size) (s : Stage) (r : List Act)
      (h : st.progs p = .finish s :: r) :
      Step size st { st with progs := Function.update st.progs p r
                             log := st.log ++ [(p, .finish s)] }
  | barrier (st : State) (h : ∀ p < size, (st.progs p).head? = some .barrier) :
      Step size st { st with progs := fun p => if p < size then (st.progs p).tail else st.progs p }
  | send (st : State) (p : ℕ) (hp : p < size) (d : ℕ) (r : List Act)
      (h : st.progs p = .send d :: r) :
      Step size st { st with progs := Function.update st.progs p r
                             mail := Function.update st.mail d (st.mail d + 1) }
  | recv (st : State) (p : ℕ) (hp : p < size) (r : List Act)
      (h : st.progs p = .recv :: r) (hm : 0 < st.mail p) :
      Step size st { st with progs := Function.update st.progs p r
                             mail := Function.update st.mail p (st.mail p - 1) }

/-- A step that is also allowed to be a failure: tcrm.py L644-658, the exception is written to
the log and the process ends (`sys.exit(1)`, L140, has the same effect). -/
inductive StepF (size : ℕ) : State → State → Prop where
  | step (st st' : State) (h : Step size st st') : StepF size st st'
  | failure (st : State) (p : ℕ) (hp : p < size) (h : st.progs p ≠ []) :
      StepF size st { st with progs := Function.update st.progs p [] }

/-- The beginning of a run of `size` processes. -/
def begin_ (progs : ℕ → List Act) : State := { progs := progs, mail := fun _ => 0, log := [] }

/-- States that can be reached without failures. -/
def Reach (size : ℕ) (progs : ℕ → List Act) : State → Prop :=
  Relation.ReflTransGen (Step size) (begin_ progs)

/-- States that can be reached with failures. -/
def ReachF (size : ℕ) (progs : ℕ → List Act) : State → Prop :=
  Relation.ReflTransGen (StepF size) (begin_ progs)

/-- All processes are at their end. -/
def Done (size : ℕ) (st : State) : Prop := ∀ p < size, st.progs p = []

/-- Evaluate/longitudeCrossing.py L511-522 on the first process of several: `historic` (L516),
whose call of `parseTracks` ends with a barrier (Evaluate/interpolateTracks.py L326), the
barrier of L518, then `synthetic` begins by sending work to each worker (L232-236).  `rest` is
what follows. -/
def crossingMaster (size : ℕ) (rest : List Act) : List Act :=
  [.start .evaluate, .barrier, .barrier] ++ (List.range (size - 1)).map (fun d => .send (d + 1))
    ++ rest

/-- The same on the other processes: `historic` returns at once (L176), the barrier of L518,
then a worker waits for work (L262). -/
def crossingWorker (rest : List Act) : List Act := [.start .evaluate, .barrier, .recv] ++ rest

/-- Evaluate/longitudeCrossing.py L511-525 on all processes. -/
def crossingProgram (size : ℕ) (rest : ℕ → List Act) (rank : ℕ) : List Act :=
  if rank = 0 then crossingMaster size (rest 0) else crossingWorker (rest rank)

/-- Evaluate/trackDensity.py L172-176 (the same in pressureDistribution.py L262-266,
longitudeCrossing.py L232-236, landfallRates.py L215-219, genesisDensity.py L268-272): the files
sent to the `n` workers at first, one for each; `none` is the `IndexError` of `trackfiles[w]`. -/
def firstFiles {α : Type} : List α → ℕ → Option (List α)
  | _, 0 => some []
  | [], _ + 1 => none
  | f :: fs, n + 1 => (firstFiles fs n).map (f :: ·)

end Tcrm.Pipeline
