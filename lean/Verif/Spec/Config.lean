import Verif.Model.Config
/-!
What a configuration file says about an option, independent of how tables are built.
-/
namespace Tcrm.Config

/-- All settings of a file in order: section, option name in lower case, text. -/
def settings (es : Entries) : List (Text × Text × Text) :=
  es.flatMap fun s => s.2.map fun e => (s.1, lower e.1, e.2)

/-- The text a file gives to an option: the last one. -/
def fileSays (es : Entries) (s o : Text) : Option Text :=
  ((settings es).reverse.find? fun e => e.1 = s ∧ e.2.1 = lower o).map fun e => e.2.2

/-- Python types of values. -/
inductive Ty where
  | none | str | bool | int | float | list | dict | obj
  deriving DecidableEq

def typeOf : Val → Ty
  | .none => .none | .str _ => .str | .bool _ => .bool | .int _ => .int | .float _ => .float
  | .list _ => .list | .dict _ => .dict | .obj _ => .obj

end Tcrm.Config
