import Mathlib.Data.Rat.Floor
/-!
Configuration, Utilities/config.py. Texts are lists of characters. The grammar of configuration files is
that of the standard library (`RawConfigParser`) and not modelled: a file is its sequence of sections
with their options and texts. `eval`, `int` and `float` are parameters.
-/
namespace Tcrm.Config

abbrev Text := List Char

/-- Python values that occur as settings and defaults; `dict` and `obj` are opaque. -/
inductive Val where
  | none
  | str (t : Text)
  | bool (b : Bool)
  | int (n : ℤ)
  | float (x : ℚ)
  | list (l : List Text)
  | dict (id : ℕ)
  | obj (id : ℕ)
  deriving DecidableEq

inductive Err where
  | valueError
  | noSection
  | noOption
  | attributeError
  | typeError
  | nameError
  | syntaxError
  | parsing
  | otherError
  deriving DecidableEq

/-- `RawConfigParser.optionxform`: option names are put in lower case (section names are not). -/
def lower (t : Text) : Text := t.map Char.toLower

/-- Sections, and the options (lower case) in each. -/
abbrev Table := Text → Option (Text → Option Val)

/-- A file: sections with options (as written) and texts, in order. -/
abbrev Entries := List (Text × List (Text × Text))

def putOption (tab : Text → Option Val) (o : Text) (v : Val) : Text → Option Val :=
  fun o' => if o' = lower o then some v else tab o'

/-- Reading one section adds it if it is new and sets its options; later entries win. -/
def putSection (tab : Table) (s : Text × List (Text × Text)) : Table := fun s' =>
  if s' = s.1 then
    some (s.2.foldl (fun t e => putOption t e.1 (.str e.2)) ((tab s').getD fun _ => none))
  else tab s'

def putEntries (tab : Table) (es : Entries) : Table := es.foldl putSection tab

/-- State of a path. `broken`: parsing stops with an error after the given entries (simplification: what
has been read up to there stays). -/
inductive FileState where
  | absent
  | unopenable
  | broken (es : Entries)
  | good (es : Entries)

/-- `_ConfigParser` object, Utilities/config.py L255-266. -/
structure Parser where
  table : Table
  readonce : Bool

/-- Utilities/config.py L263-266 (`__init__`) -/
def newParser (defaults : Entries) : Parser := ⟨putEntries (fun _ => none) defaults, false⟩

/-- Utilities/config.py L278-294 (`read`). `os.path.exists` is true of everything but an absent path;
`RawConfigParser.read` silently skips a file that cannot be opened. -/
def readFile (fs : Text → FileState) (p : Parser) : Option Text → Parser × Except Err Unit
  | none => (p, .ok ())
  | some path =>
    if p.readonce then (p, .ok ())
    else
      match fs path with
      | .absent => (p, .error .valueError)
      | .unopenable => ({ p with readonce := true }, .ok ())
      | .broken es => ({ p with table := putEntries p.table es }, .error .parsing)
      | .good es => (⟨putEntries p.table es, true⟩, .ok ())

/-- Utilities/config.py L32-43 (`parseList`): `txt.split(',')`, also used for other separators. -/
def split (c : Char) : Text → List Text
  | [] => [[]]
  | x :: t => if x = c then [] :: split c t else
      match split c t with
      | [] => [[x]]
      | w :: ws => (x :: w) :: ws

/-- `c.join(l)` -/
def join (c : Char) : List Text → Text
  | [] => []
  | [w] => w
  | w :: w' :: ws => w ++ c :: join c (w' :: ws)

def parseList (t : Text) : List Text := split ',' t

/-- Utilities/config.py L46-57 (`formatList`) for lists of texts. -/
def formatList (l : List Text) : Text := join ',' l

/-- Utilities/config.py L19-30 (`parseBool`) -/
def parseBool (t : Text) : Bool := decide (t = "True".toList)

/-- Key of the tables of parsers and formatters, `'%s_%s' % (section, option)`. -/
def key (s o : Text) : Text := s ++ '_' :: o

/-- Utilities/config.py L60-63 (`FORMATERS`) -/
def formatted : List Text := ["Input_mslpgrid".toList, "TCRM_columns".toList]

/-- The entries of `PARSERS` (Utilities/config.py L65-141) that give lists and truth values. -/
def listParsed : List Text := ["Hazard_years".toList, "Input_mslpgrid".toList, "TCRM_columns".toList]
def boolParsed : List Text := ["Actions_dataprocess", "Actions_executehazard", "Actions_executestat",
  "Actions_executetrackgenerator", "Actions_executewindfield", "Actions_plotdata", "Actions_plothazard",
  "Actions_createdatabase", "Actions_downloaddata", "Actions_executeevaluate", "DataProcess_filterseasons",
  "Hazard_calculateci", "Hazard_SmoothPlots", "Logging_progressbar", "Logging_verbose",
  "Logging_datestamp", "Process_excludepastprocessed", "RMW_getrmwdistfrominputdata",
  "Timeseries_Extract", "Timeseries_Windfields", "WindfieldInterface_plotoutput"].map String.toList

/-- Utilities/config.py L317-332 (`set`). A list given to a formatter that is not one of texts is not
considered; other values given to `formatList` raise TypeError (texts would be joined by character). -/
def setOption (p : Parser) (s o : Text) (v : Val) : Parser × Except Err Unit :=
  let newvalue : Except Err Val := if key s o ∈ formatted then
      match v with
      | .list l => .ok (.str (formatList l))
      | .str t => .ok (.str (formatList (t.map fun c => [c])))
      | _ => .error .typeError
    else .ok v
  match newvalue with
  | .error e => (p, .error e)
  | .ok v' =>
    match p.table s with
    | none => (p, .error .noSection)
    | some opts => ({ p with table := fun s' => if s' = s then some (putOption opts o v') else p.table s' },
        .ok ())

/-- `RawConfigParser.get` -/
def getOption (p : Parser) (s o : Text) : Except Err Val :=
  match p.table s with
  | none => .error .noSection
  | some opts =>
    match opts (lower o) with
    | none => .error .noOption
    | some v => .ok v

/-- Utilities/config.py L296-315 (`items`), the value of option `o` (lower case, as stored); parsers
other than those for lists and truth values leave the text (their results are not modelled). -/
def itemValue (p : Parser) (s o : Text) : Except Err Val :=
  match getOption p s o with
  | .error e => .error e
  | .ok v =>
    if key s o ∈ listParsed then
      match v with
      | .str t => .ok (.list (parseList t))
      | _ => .error .attributeError
    else if key s o ∈ boolParsed then
      match v with
      | .str t => .ok (.bool (parseBool t))
      | _ => .ok (.bool false)
    else .ok v

/-! ### Objects and handles -/

/-- The module: the objects created so far (handles are indices), and the current `singleton`. -/
structure World where
  heap : List Parser
  current : ℕ

inductive Op where
  | obtain
  | read (h : ℕ) (path : Option Text)
  | set (h : ℕ) (s o : Text) (v : Val)
  | get (h : ℕ) (s o : Text)
  | reset

inductive Out where
  | handle (h : ℕ)
  | done (r : Except Err Unit)
  | value (r : Except Err Val)

/-- Utilities/config.py L334 -/
def start (defaults : Entries) : World := ⟨[newParser defaults], 0⟩

/-- One operation; Utilities/config.py L335-340 for `obtain` (`ConfigParser()`) and `reset`. -/
def step (fs : Text → FileState) (defaults : Entries) (w : World) : Op → World × Out
  | .obtain => (w, .handle w.current)
  | .read h path =>
    let r := readFile fs (w.heap.getD h (newParser defaults)) path
    ({ w with heap := w.heap.set h r.1 }, .done r.2)
  | .set h s o v =>
    let r := setOption (w.heap.getD h (newParser defaults)) s o v
    ({ w with heap := w.heap.set h r.1 }, .done r.2)
  | .get h s o => (w, .value (getOption (w.heap.getD h (newParser defaults)) s o))
  | .reset => (⟨w.heap ++ [newParser defaults], w.heap.length⟩, .done (.ok ()))

/-- A history of operations and its outputs. -/
def run (fs : Text → FileState) (defaults : Entries) (w : World) : List Op → World × List Out
  | [] => (w, [])
  | op :: ops =>
    let r := step fs defaults w op
    let rest := run fs defaults r.1 ops
    (rest.1, r.2 :: rest.2)

/-! ### Settings with defaults -/

/-- Conversions of the standard library. -/
structure Conv where
  int : Text → Option ℤ
  float : Text → Option ℚ
  eval : Text → Except Err Val

/-- `getboolean` on a text: ValueError unless it is one of eight words, in any case. -/
def getBoolean (t : Text) : Except Err Bool :=
  if lower t ∈ ["1", "yes", "true", "on"].map String.toList then .ok true
  else if lower t ∈ ["0", "no", "false", "off"].map String.toList then .ok false
  else .error .valueError

/-- Value of option as a truth value, an integer, a float or evaluated. After `set` with something else
than a text: `int` and `float` accept numbers, `lower` and `eval` fail. -/
def asBool : Val → Except Err Val
  | .str t => (getBoolean t).map .bool
  | _ => .error .attributeError
def asInt (c : Conv) : Val → Except Err Val
  | .str t => match c.int t with
    | some n => .ok (.int n)
    | none => .error .valueError
  | .int n => .ok (.int n)
  | .bool b => .ok (.int (if b then 1 else 0))
  | .float x => .ok (.int (if 0 ≤ x then ⌊x⌋ else ⌈x⌉))
  | _ => .error .typeError
def asFloat (c : Conv) : Val → Except Err Val
  | .str t => match c.float t with
    | some x => .ok (.float x)
    | none => .error .valueError
  | .int n => .ok (.float n)
  | .bool b => .ok (.float (if b then 1 else 0))
  | .float x => .ok (.float x)
  | _ => .error .typeError
def asEval (c : Conv) : Val → Except Err Val
  | .str t => c.eval t
  | _ => .error .typeError

/-- Utilities/config.py L342-382 (`cnfGetIniValue`) after the configuration has been read. A default of
any other type than those listed falls off the end of the function: `None`. -/
def iniValue (c : Conv) (p : Parser) (s o : Text) (default : Val) : Except Err Val :=
  match p.table s with
  | none => .ok default
  | some opts =>
    match opts (lower o) with
    | none => .ok default
    | some v =>
      match default with
      | .none => match asEval c v with
        | .error .nameError => .ok v
        | .error .syntaxError => .ok v
        | r => r
      | .str _ => .ok v
      | .bool _ => asBool v
      | .int _ => asInt c v
      | .float _ => asFloat c v
      | .dict _ => asEval c v
      | .list _ => .ok .none
      | .obj _ => .ok .none

/-- Utilities/config.py L359-382: `cnfGetIniValue` reads the named file first (on the shared object). -/
def cnfGetIniValue (fs : Text → FileState) (c : Conv) (p : Parser) (file : Option Text) (s o : Text)
    (default : Val) : Parser × Except Err Val :=
  match readFile fs p file with
  | (p', .error e) => (p', .error e)
  | (p', .ok _) => (p', iniValue c p' s o default)

end Tcrm.Config
