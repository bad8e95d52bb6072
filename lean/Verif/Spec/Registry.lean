import Verif.Model.Registry
/-!
Classes derived from a base, and arguments a class gets.
-/
namespace Tcrm.Registry

/-- `d` is derived from `c`, directly or not. -/
inductive Spec.Derived : Cls → Cls → Prop
  | direct {c d : Cls} : d ∈ c.subs → Derived c d
  | further {c s d : Cls} : s ∈ c.subs → Derived s d → Derived c d

/-- The arguments named by `p` come first, and the others have defaults. -/
def Spec.Leading (p : String → Prop) (args : List (String × Bool)) : Prop :=
  ∃ own others, args = own ++ others ∧ (∀ a ∈ own, p a.1) ∧ ∀ a ∈ others, ¬ p a.1 ∧ a.2 = true

end Tcrm.Registry
