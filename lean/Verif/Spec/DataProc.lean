import Verif.Model.DataProc
/-!
What the properties C34-C38 talk about, independent of the loops of the program.
-/
namespace Tcrm.DataProc

/-- The observation lies in the closed box. -/
def In (b : Box) (o : Obs) : Prop := b.xMin ≤ o.lon ∧ o.lon ≤ b.xMax ∧ b.yMin ≤ o.lat ∧ o.lat ≤ b.yMax

/-- `q` is an observation of the record, and its track is inside `wf` at that or a later observation. -/
def EntersFrom (wf : Box) (obs : List Obs) (q : Obs) : Prop :=
  ∃ pre seg post, obs = pre ++ (q :: seg) ++ post ∧ (∀ s ∈ seg, s.index ≠ 1) ∧
    In wf ((q :: seg).getLast (List.cons_ne_nil _ _))

/-- A track: its first observation, and no other, has the start marker. -/
def IsTrack (t : List Obs) : Prop := ∃ h l, t = h :: l ∧ h.index = 1 ∧ ∀ o ∈ l, o.index ≠ 1

/-- The first and the last year of the record. -/
def Years (origins : List Origin) (lo hi : ℕ) : Prop :=
  (∀ o ∈ origins, lo ≤ o.year ∧ o.year ≤ hi) ∧ (∃ o ∈ origins, o.year = lo) ∧ ∃ o ∈ origins, o.year = hi

/-- The origins strictly inside the domain, from a year before `hi`. -/
noncomputable def insideBefore (b : Box) (origins : List Origin) (hi : ℕ) : List Origin := by
  classical exact origins.filter fun o => o.year < hi ∧ b.xMin < o.lon ∧ o.lon < b.xMax ∧ b.yMin < o.lat ∧ o.lat < b.yMax

/-- Observation `i` belongs to a track whose first observation is in the box. -/
def Kept (b : Box) (obs : List Obs) (i : ℕ) : Prop :=
  ∃ (k : ℕ) (o : Obs), k ≤ i ∧ obs[k]? = some o ∧ o.index = 1 ∧ In b o ∧
    ∀ (j : ℕ) (p : Obs), k < j → j ≤ i → obs[j]? = some p → p.index ≠ 1

/-- A piece of a marked record: one track. -/
def IsPiece {α : Type} (p : List (ℤ × α)) : Prop := ∃ x l, p = (1, x) :: l ∧ ∀ q ∈ l, q.1 = 0

end Tcrm.DataProc
