import Verif.Spec.Config
import Verif.Model.Defaults
/-!
What a setting of a run is, when it is acceptable, and which settings have to be given.
-/
namespace Tcrm.Defaults

open Tcrm.Config

/-- The text of a setting: that of the file, or else the default. -/
def setting (file : Entries) (s o : Text) : Option Text := (fileSays file s o).or (fileSays defaults s o)

/-- The text is of the kind. -/
def Fits (c : Conv) : Kind → Text → Prop
  | .text, _ => True
  | .int, x => ∃ n, c.int x = some n
  | .float, x => ∃ q, c.float x = some q
  | .bool, x => lower x ∈ (["1", "yes", "true", "on", "0", "no", "false", "off"].map String.toList)
  | .eval, x => ∃ v, c.eval x = .ok v
  | .oneOf names, x => x ∈ names
  | .floats, x => ∀ w ∈ parseList x, ∃ q, c.float w = some q

/-- What it takes for a use of a setting to succeed: there is a text, and it fits. A setting that is only
used if present or if another one is switched on is not needed otherwise. -/
def Meets (c : Conv) (file : Entries) : Item → Prop
  | .get s o k => ∃ x, setting file s o = some x ∧ Fits c k x
  | .ifSet s o k => ∀ x, setting file s o = some x → Fits c k x
  | .ifTrue s' o' s o k => ∃ b, setting file s' o' = some b ∧ Fits c .bool b ∧
      (getBoolean b = .ok true → ∃ x, setting file s o = some x ∧ Fits c k x)
  | .via s' o' o k => ∃ s, setting file s' o' = some s ∧ ∃ x, setting file s o = some x ∧ Fits c k x

/-- The file itself gives a fitting text, or none. -/
def GivenFits (c : Conv) (file : Entries) (s o : Text) (k : Kind) : Prop :=
  ∀ x, fileSays file s o = some x → Fits c k x

/-- Every text the file gives for a setting the stage uses fits, and the format of the input data is
not changed to another one. -/
def FileFits (c : Conv) (file : Entries) (is : List Item) : Prop :=
  ∀ i ∈ is, match i with
    | .get s o k => GivenFits c file s o k
    | .ifSet s o k => GivenFits c file s o k
    | .ifTrue s' o' s o k => GivenFits c file s' o' .bool ∧ GivenFits c file s o k
    | .via s' o' o k => setting file s' o' = fileSays defaults s' o' ∧
        ∀ s, fileSays defaults s' o' = some s → GivenFits c file s o k

/-- Contract of Python: numbers in digits are integers and, also with a decimal point, floats; a pair
of decimal numbers can be evaluated. -/
structure Python (c : Conv) : Prop where
  int : ∀ x : Text, x ≠ [] → (∀ d ∈ x, d.isDigit) → ∃ n, c.int x = some n
  float : ∀ x : Text, x ≠ [] → (∀ d ∈ x, d.isDigit) → ∃ q, c.float x = some q
  point : ∀ x y : Text, x ≠ [] → y ≠ [] → (∀ d ∈ x, d.isDigit) → (∀ d ∈ y, d.isDigit) →
    ∃ q, c.float (x ++ '.' :: y) = some q
  pair : ∀ a b x y : Text, a ≠ [] → b ≠ [] → x ≠ [] → y ≠ [] → (∀ d ∈ a, d.isDigit) →
    (∀ d ∈ b, d.isDigit) → (∀ d ∈ x, d.isDigit) → (∀ d ∈ y, d.isDigit) →
    ∃ v, c.eval ("{'x':".toList ++ a ++ '.' :: b ++ ",'y':".toList ++ x ++ '.' :: y ++ ['}']) = .ok v

/-- The settings a stage cannot do without. -/
def required : Stage → List (Text × Text)
  | .dataProcess => []
  | .calibration => [(t "Region", t "gridLimit"), (t "StatInterface", t "kdeType")]
  | .trackGeneration => [(t "Region", t "gridLimit")]
  | .windFields => []
  | .hazard => [(t "Region", t "gridLimit"), (t "TrackGenerator", t "YearsPerSimulation")]
  | .database => [(t "Region", t "gridLimit"), (t "Process", t "DatFile"),
      (t "Process", t "ExcludePastProcessed")]
  | .hazardPlots => [(t "Region", t "gridLimit"), (t "Process", t "DatFile"),
      (t "Process", t "ExcludePastProcessed")]
  | .evaluation => [(t "Region", t "gridLimit"), (t "TrackGenerator", t "YearsPerSimulation")]
  | .landfallRates => [(t "TrackGenerator", t "YearsPerSimulation"), (t "Input", t "CoastlineGates")]

end Tcrm.Defaults
