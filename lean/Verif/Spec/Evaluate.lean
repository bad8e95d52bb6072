import Verif.Model.Evaluate
import Verif.Spec.Geometry
/-!
What the evaluation of tracks is meant to report.
-/
namespace Tcrm.Evaluate
open Tcrm.Geometry (Point OnSegment)

/-- Between the first and the last edge -/
def Within (edges : List ℚ) (v : ℚ) : Prop := ∃ a b, edges.head? = some a ∧ edges.getLast? = some b ∧ a ≤ v ∧ v ≤ b

instance (edges : List ℚ) (v : ℚ) : Decidable (Within edges v) :=
  match ha : edges.head?, hb : edges.getLast? with
  | some a, some b => decidable_of_iff (a ≤ v ∧ v ≤ b) (by unfold Within; rw [ha, hb]; simp)
  | none, _ => isFalse (by unfold Within; rw [ha]; simp)
  | _, none => isFalse (by unfold Within; rw [hb]; simp)

/-- In the `i`-th interval: half-open, but the last one contains its upper end. -/
def InCell (edges : List ℚ) (i : Nat) (v : ℚ) : Prop :=
  ∃ a b, edges[i]? = some a ∧ edges[i + 1]? = some b ∧ a ≤ v ∧ (v < b ∨ (i + 2 = edges.length ∧ v = b))

/-- All records of all tracks -/
def records (tracks : List Track) : List Obs := tracks.flatten

/-- Consecutive records of one of the tracks -/
def Leg (tracks : List Track) (a b : Obs) : Prop := ∃ t ∈ tracks, ∃ pre post, t = pre ++ a :: b :: post

/-- First and last year with a record -/
def FirstYear (tracks : List Track) (y : ℤ) : Prop := (∃ o ∈ records tracks, o.year = y) ∧ ∀ o ∈ records tracks, y ≤ o.year
def LastYear (tracks : List Track) (y : ℤ) : Prop := (∃ o ∈ records tracks, o.year = y) ∧ ∀ o ∈ records tracks, o.year ≤ y

/-- Pressures that are neither missing nor zero -/
def Recorded (o : Obs) : Prop := 0 < o.pressure ∧ o.pressure < 9223372036854775807

/-- The leg meets the meridian `x` at latitude `y`. -/
def MeetsMeridian (a b : Obs) (x y : ℚ) : Prop := OnSegment (pt a) (pt b) ⟨x, y⟩

end Tcrm.Evaluate
