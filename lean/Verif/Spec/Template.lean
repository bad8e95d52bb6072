import Verif.Model.Template
/-!
Specification vocabulary for C186: templates as texts with placeholders.
-/
namespace Tcrm.Template

/-- A piece of a template: text, or a placeholder by its key. -/
inductive Piece where
  | lit (t : Text)
  | key (k : Text)

/-- How a piece is written in the file. -/
def Piece.written : Piece → Text
  | .lit t => t
  | .key k => '{' :: k ++ ['}']

/-- What a piece is to become: a placeholder with a value is replaced by it, everything else stays. -/
def Piece.filled (reps : List (Text × Text)) : Piece → Text
  | .lit t => t
  | .key k =>
    match reps.lookup k with
    | some v => v
    | none => '{' :: k ++ ['}']

/-- Letters, digits and underscores only -/
def Word (k : Text) : Prop := ∀ c ∈ k, c.isAlphanum = true ∨ c = '_'

/-- Text in which braces cannot be taken for a placeholder: after each opening brace, and what letters, digits and
underscores follow it, there is another character, not a closing brace. -/
def Plain (t : Text) : Prop := ∀ a b : Text, t = a ++ '{' :: b →
  ∃ (w : Text) (d : Char) (r : Text), b = w ++ d :: r ∧ Word w ∧ ¬ (d.isAlphanum = true ∨ d = '_') ∧ d ≠ '}'

/-- A template: its text between placeholders is plain, and the keys of placeholders are words. -/
def WellFormed (ps : List Piece) : Prop :=
  ∀ p ∈ ps, match p with
    | .lit t => Plain t
    | .key k => Word k

/-- Values to be filled in: keys are words (not numbers) and no two are the same; values have no braces or backslashes. -/
def Values (reps : List (Text × Text)) : Prop :=
  (reps.map (·.1)).Nodup ∧ ∀ r ∈ reps, Word r.1 ∧ (∃ c ∈ r.1, c.isDigit = false) ∧ '{' ∉ r.2 ∧ '\\' ∉ r.2

end Tcrm.Template
