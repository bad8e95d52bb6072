import Verif.Model.Pipeline

/-!
Vocabulary for the properties of the main program.
-/

namespace Tcrm.Pipeline

/-- The documented order of the stages: data are downloaded and processed, the model is
calibrated, tracks are generated, wind fields computed, then the hazard; plots of the data, the
database, the evaluation and the plots of the hazard come last. -/
def number : Stage → ℕ
  | .directories => 0
  | .download => 1
  | .data => 2
  | .stat => 3
  | .tracks => 4
  | .wind => 5
  | .hazard => 6
  | .plotData => 7
  | .database => 8
  | .evaluate => 9
  | .plotHazard => 10

/-- The user wants stage `s`: the option of the same name in the section `Actions` is set (the
directories are always wanted). -/
def Wanted (a : Actions) (s : Stage) : Prop :=
  s = .directories ∨ (s = .download ∧ a.downloadData = true) ∨
  (s = .data ∧ a.dataProcess = true) ∨ (s = .stat ∧ a.executeStat = true) ∨
  (s = .tracks ∧ a.executeTrackGenerator = true) ∨ (s = .wind ∧ a.executeWindfield = true) ∨
  (s = .hazard ∧ a.executeHazard = true) ∨ (s = .plotData ∧ a.plotData = true) ∨
  (s = .database ∧ a.createDatabase = true) ∨ (s = .evaluate ∧ a.executeEvaluate = true) ∨
  (s = .plotHazard ∧ a.plotHazard = true)

/-- Stages whose work is divided over the processes. -/
def Shared (s : Stage) : Prop :=
  s = .tracks ∨ s = .wind ∨ s = .hazard ∨ s = .database ∨ s = .evaluate

/-- Process `p` takes part in stage `s`: it is the first process, or the work is shared. -/
def TakesPart (p : ℕ) (s : Stage) : Prop := p = 0 ∨ Shared s

/-- How often process `p` began (ended) stage `s`. -/
def begun (st : State) (p : ℕ) (s : Stage) : ℕ := st.log.count (p, .start s)

/-- See `begun`. -/
def ended (st : State) (p : ℕ) (s : Stage) : ℕ := st.log.count (p, .finish s)

/-- Actions left to all processes. -/
def left (size : ℕ) (st : State) : ℕ := ((List.range size).map fun p => (st.progs p).length).sum

end Tcrm.Pipeline
