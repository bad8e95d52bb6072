import Verif.Model.RingFile
/-!
Vocabulary of C209.
-/
namespace Tcrm.RingFile.Spec

/-- The positions at which consecutive parts begin, the first one at `k` -/
def starts {P : Type} : ℕ → List (List P) → List ℕ
  | _, [] => []
  | k, r :: rs => k :: starts (k + r.length) rs

/-- The shape with these parts -/
def shape {P : Type} (rings : List (List P)) : Shape P := ⟨rings.flatten, starts 0 rings⟩

/-- A closed ring: it ends with the point with which it begins, and with no other repetition of that point at the end. -/
def Ring {P : Type} (r : List P) : Prop := ∃ a mid, r = a :: mid ++ [a] ∧ mid ≠ [] ∧ mid.getLast? ≠ some a

end Tcrm.RingFile.Spec
