import Mathlib.Order.Basic
import Mathlib.Order.Defs.LinearOrder
import Mathlib.Data.List.Basic
/-!
Specification vocabulary for interpolated positions.
-/
namespace Tcrm.Akima

/-- The times increase strictly from each observation to the next. -/
def Increasing {K : Type} [LT K] (x : List K) : Prop := x.Pairwise (· < ·)

/-- `t` is not before the first nor after the last of the times. -/
def Covered {K : Type} [LE K] (x : List K) (t : K) : Prop := (∃ a ∈ x, a ≤ t) ∧ ∃ b ∈ x, t ≤ b

end Tcrm.Akima
