import Verif.Model.StatPlots
/-!
Vocabulary for C171: what the plots of the input data should show.
-/
namespace Tcrm.StatPlots
open Tcrm.Rates

/-- The value at each time after the first together with the value before: (later, earlier) -/
def successive {α : Type} : List α → List (α × α)
  | a :: b :: l => (b, a) :: successive (b :: l)
  | _ => []

/-- Both values were observed. -/
def Observed (p : ℚ × ℚ) : Prop := p.1 < M ∧ p.2 < M

instance : DecidablePred Observed := fun p => inferInstanceAs (Decidable (p.1 < M ∧ p.2 < M))

/-- The (later, earlier) pairs of observed values of the same storm, over all storms -/
def withinStorms (storms : List (List ℚ)) : List (ℚ × ℚ) :=
  storms.flatMap fun s => (successive s).filter fun p => decide (Observed p)

/-- The points are at the places that the labels promise, for a list of (later, earlier) pairs of values of `v`: both labels
name `v`, a label with lag 0 the later value, one with lag 1 the earlier. -/
def Placed {α : Type} (f : Fig α) (v : Var) (pairs : List (α × α)) : Prop :=
  f.x.var = v ∧ f.y.var = v ∧ f.x.lag ≤ 1 ∧ f.y.lag ≤ 1 ∧
    f.pts = pairs.map fun p => ((if f.x.lag = 0 then p.1 else p.2), (if f.y.lag = 0 then p.1 else p.2))

/-- The marks of the beginnings of storms with the given numbers of observations. -/
def flags {α : Type} (storms : List (List α)) : List ℤ :=
  storms.flatMap fun s => s.mapIdx fun i _ => if i = 0 then 1 else 0

/-- The cosine of half a bearing given in degrees. -/
noncomputable def cosHalf (b : ℚ) : ℝ := Real.cos (((b : ℝ) * Real.pi / 180) / 2)

/-- `m` is the lowest value of a storm. -/
def Lowest (s : List ℚ) (m : ℚ) : Prop := m ∈ s ∧ ∀ x ∈ s, m ≤ x

/-- The change of longitude of a step, the short way round. -/
def ShortWay (a b d : ℚ) : Prop := -180 ≤ d ∧ d ≤ 180 ∧ ∃ k : ℤ, d = b - a + 360 * k

end Tcrm.StatPlots
