import Mathlib.Data.List.Basic
/-!
Filling in templates: Utilities/template.py. Texts are lists of characters. Of regular expressions only what occurs here is
modelled: patterns `'{' + key + '}'` with a key of letters, digits and underscores, and the replacement texts of `re.sub`.
-/
namespace Tcrm.Template

abbrev Text := List Char

inductive Err where
  /-- `re.error` -/
  | regex
  /-- `FileNotFoundError` -/
  | fileNotFound
  deriving DecidableEq

/-- Letters, digits and the underscore -/
def isWord (c : Char) : Bool := c.isAlphanum || c == '_'

/-- `re.compile('{' + key + '}')` for a key of word characters: digits only are read as a number of repetitions, of
nothing, which raises; everything else stands for itself (also `{}`). -/
def compiles (key : Text) : Bool := key.isEmpty || !(key.all Char.isDigit)

/-- The replacement text of `re.sub` (it is looked at whether there is something to replace or not): a backslash starts an
escape. `\\` is a backslash, the letters of `\a \b \f \n \r \t \v` are control characters, other letters raise, and so do
digits (references to groups that do not exist). Left out: octal escapes (`\0`, three digits) and `\g<0>`, which raise here.
Other characters are kept with their backslash. A backslash at the end raises. -/
def expand : Text → Except Err Text
  | [] => .ok []
  | '\\' :: [] => .error .regex
  | '\\' :: c :: cs =>
    match expand cs with
    | .error e => .error e
    | .ok r =>
      if c = '\\' then .ok ('\\' :: r)
      else if c = 'a' then .ok ('\x07' :: r)
      else if c = 'b' then .ok ('\x08' :: r)
      else if c = 'f' then .ok ('\x0c' :: r)
      else if c = 'n' then .ok ('\n' :: r)
      else if c = 'r' then .ok ('\r' :: r)
      else if c = 't' then .ok ('\t' :: r)
      else if c = 'v' then .ok ('\x0b' :: r)
      else if c.isAlphanum then .error .regex
      else .ok ('\\' :: c :: r)
  | c :: cs =>
    match expand cs with
    | .error e => .error e
    | .ok r => .ok (c :: r)

/-- Replacement of all occurrences of `pat`, from the left and without overlaps; the number says how many characters of an
occurrence are still to be passed over. -/
def subst (pat rep : Text) : ℕ → Text → Text
  | _, [] => []
  | k + 1, _ :: cs => subst pat rep k cs
  | 0, c :: cs => if pat.isPrefixOf (c :: cs) then rep ++ subst pat rep (pat.length - 1) cs else c :: subst pat rep 0 cs

/-- `re.sub('{' + key + '}', val, line)`, Utilities/template.py L41 -/
def sub (key val line : Text) : Except Err Text :=
  if compiles key then
    match expand val with
    | .error e => .error e
    | .ok rep => .ok (subst ('{' :: key ++ ['}']) rep 0 line)
  else .error .regex

/-- Utilities/template.py L40-41: the keys one after the other, in the order of the dictionary. -/
def fillLine : List (Text × Text) → Text → Except Err Text
  | [], line => .ok line
  | (key, val) :: rest, line =>
    match sub key val line with
    | .error e => .error e
    | .ok l => fillLine rest l

/-- `for line in fi`: the lines with their ends. (Ends of lines are `\n`; others are turned into it on reading.) -/
def lines : Text → List Text
  | [] => []
  | c :: cs =>
    if c = '\n' then [c] :: lines cs
    else
      match lines cs with
      | [] => [[c]]
      | l :: ls => (c :: l) :: ls

/-- Utilities/template.py L38-43: what is written, and the error that ended the loop. -/
def fillLines (reps : List (Text × Text)) : List Text → Text × Option Err
  | [] => ([], none)
  | l :: ls =>
    match fillLine reps l with
    | .error e => ([], some e)
    | .ok l' =>
      let r := fillLines reps ls
      (l' ++ r.1, r.2)

/-- Utilities/template.py L13-47 (`replace`): the files afterwards, and the error. The input is opened before the output is
emptied, so that a missing input leaves the output alone. -/
def replace (files : Text → Option Text) (infile outfile : Text) (reps : List (Text × Text)) :
    (Text → Option Text) × Option Err :=
  match files infile with
  | none => (files, some .fileNotFound)
  | some content =>
    let emptied := Function.update files outfile (some [])
    let r := fillLines reps (lines (if infile = outfile then [] else content))
    (Function.update emptied outfile (some r.1), r.2)

end Tcrm.Template
