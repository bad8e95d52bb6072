import Verif.Model.Dates
/-!
The dates of the observations of a track file: `date2ymdh` and `parseDates` of Utilities/loadData.py, with the part of
Python's `datetime.strptime` that numeric date formats use.  Not modelled: directives other than `%Y %m %d %H %M %S`
and `%%`, white space other than the blank, digits other than the ten of ASCII.
-/
namespace Tcrm.DateText
open Tcrm.Dates

abbrev Text := List Char

inductive Err where
  | valueError
  | keyError
  | typeError
  | unboundLocal
  /-- `re.error`: a directive occurs twice in a format. -/
  | regex
  deriving DecidableEq

/-- The components of a date and time that a format names. -/
inductive Field where
  | year | month | day | hour | minute | second
  deriving DecidableEq

/-- A format, as `strptime` compiles it: a directive, a character, or a run of blanks. -/
inductive Item where
  | field (k : Field)
  | lit (c : Char)
  | blank
  deriving DecidableEq

/-- A `datetime` object. -/
structure DateTime where
  year : ℕ
  month : ℕ
  day : ℕ
  hour : ℕ
  minute : ℕ
  second : ℕ
  deriving DecidableEq

def DateTime.get (d : DateTime) : Field → ℕ
  | .year => d.year
  | .month => d.month
  | .day => d.day
  | .hour => d.hour
  | .minute => d.minute
  | .second => d.second

/-- The constructor `datetime(year, month, day, hour, minute, second)`, used in Utilities/loadData.py L462-463 and by
`strptime`. -/
def datetime (y m d h mn s : ℕ) : Except Err DateTime :=
  if 1 ≤ y ∧ y ≤ 9999 ∧ validDay (isLeap y) m d = true ∧ h < 24 ∧ mn < 60 ∧ s < 60 then .ok ⟨y, m, d, h, mn, s⟩
  else .error .valueError

/-- Which directive a letter is (those modelled). -/
def directive (c : Char) : Option Item :=
  if c = 'Y' then some (.field .year) else if c = 'm' then some (.field .month) else if c = 'd' then some (.field .day)
  else if c = 'H' then some (.field .hour) else if c = 'M' then some (.field .minute)
  else if c = 'S' then some (.field .second) else if c = '%' then some (.lit '%') else none

/-- The compilation of a format by `strptime`; `none` for a directive that is unknown or not modelled. -/
def items : Text → Option (List Item)
  | [] => some []
  | '%' :: k :: t =>
    match directive k, items t with
    | some i, some f => some (i :: f)
    | _, _ => none
  | '%' :: [] => none
  | ' ' :: ' ' :: t => items (' ' :: t)
  | ' ' :: t => (items t).map (.blank :: ·)
  | c :: t => (items t).map (.lit c :: ·)

/-- The value of a digit. -/
def digit? (c : Char) : Option ℕ := if '0' ≤ c ∧ c ≤ '9' then some (c.toNat - '0'.toNat) else none

/-- One character of an alternative in the regular expressions of `strptime`: a digit of a range, or a blank. -/
inductive Pat where
  | rng (lo hi : ℕ)
  | sp

/-- The alternatives of a directive, in the order of Python's `_strptime.TimeRE`: `%Y` is `\d\d\d\d`, `%m` is
`1[0-2]|0[1-9]|[1-9]`, `%d` is `3[0-1]|[1-2]\d|0[1-9]|[1-9]| [1-9]`, `%H` is `2[0-3]|[0-1]\d|\d`, `%M` is `[0-5]\d|\d`
and `%S` is `6[0-1]|[0-5]\d|\d`. -/
def alts : Field → List (List Pat)
  | .year => [[.rng 0 9, .rng 0 9, .rng 0 9, .rng 0 9]]
  | .month => [[.rng 1 1, .rng 0 2], [.rng 0 0, .rng 1 9], [.rng 1 9]]
  | .day => [[.rng 3 3, .rng 0 1], [.rng 1 2, .rng 0 9], [.rng 0 0, .rng 1 9], [.rng 1 9], [.sp, .rng 1 9]]
  | .hour => [[.rng 2 2, .rng 0 3], [.rng 0 1, .rng 0 9], [.rng 0 9]]
  | .minute => [[.rng 0 5, .rng 0 9], [.rng 0 9]]
  | .second => [[.rng 6 6, .rng 0 1], [.rng 0 5, .rng 0 9], [.rng 0 9]]

/-- Matching one alternative at the start of a text: the number read after the digits of `v`, and what is left. -/
def matchAlt : List Pat → Text → ℕ → Option (ℕ × Text)
  | [], t, v => some (v, t)
  | .rng lo hi :: ps, c :: t, v =>
    match digit? c with
    | some k => if lo ≤ k ∧ k ≤ hi then matchAlt ps t (10 * v + k) else none
    | none => none
  | .sp :: ps, c :: t, v => if c = ' ' then matchAlt ps t v else none
  | _ :: _, [], _ => none

/-- The number of blanks a text starts with. -/
def blanks : Text → ℕ
  | ' ' :: t => blanks t + 1
  | _ => 0

/-- All the ways in which a format matches the start of a text, in the order in which the regular expression tries
them; letters match regardless of case. -/
def runs : List Item → Text → List (List (Field × ℕ) × Text)
  | [], t => [([], t)]
  | .lit _ :: _, [] => []
  | .lit c :: f, x :: t => if c.toLower = x.toLower then runs f t else []
  | .blank :: f, t => (List.range (blanks t)).flatMap fun i => runs f (t.drop (blanks t - i))
  | .field k :: f, t => (alts k).flatMap fun a =>
    match matchAlt a t 0 with
    | none => []
    | some (v, t') => (runs f t').map fun r => ((k, v) :: r.1, r.2)

/-- The directives of a format. -/
def fields (f : List Item) : List Field := f.filterMap fun i => match i with | .field k => some k | _ => none

/-- What a component is if the format does not name it: 1 January 1900, 00:00:00. -/
def unnamed : Field → ℕ
  | .year => 1900
  | .month => 1
  | .day => 1
  | .hour => 0
  | .minute => 0
  | .second => 0

def found (vs : List (Field × ℕ)) (k : Field) : ℕ := (vs.lookup k).getD (unnamed k)

/-- `datetime.strptime`: the first match of the format has to be all of the text. -/
def strptime (t : Text) (fmt : Text) : Except Err DateTime :=
  match items fmt with
  | none => .error .valueError
  | some f =>
    if (fields f).Nodup then
      match runs f t with
      | [] => .error .valueError
      | (vs, rest) :: _ =>
        if rest = [] then
          datetime (found vs .year) (found vs .month) (found vs .day) (found vs .hour) (found vs .minute) (found vs .second)
        else .error .valueError
    else .error .regex

/-- Utilities/loadData.py L386-388: whether `%y` occurs in the format. -/
def shortYear : Text → Bool
  | '%' :: 'y' :: _ => true
  | _ :: t => shortYear t
  | [] => false

/-- Utilities/loadData.py L368-411 (`date2ymdh`); the dates, of which the years, months, days, hours and minutes are
the components. -/
def date2ymdh (dates : List Text) (fmt : Text) : Except Err (List DateTime) :=
  if shortYear fmt then .error .valueError else dates.mapM fun t => strptime t fmt

/-- Utilities/config.py L245 and the default of Utilities/loadData.py L368 and L414: `%Y-%m-%d %H:%M:%S`. -/
def defaultFormat : Text :=
  ['%', 'Y', '-', '%', 'm', '-', '%', 'd', ' ', '%', 'H', ':', '%', 'M', ':', '%', 'S']

/-- What `numpy.genfromtxt` with `dtype=None` (Utilities/columns.py L41-43) and `str` (Utilities/loadData.py L399) make
of a column of dates: entries that are all whole numbers become numbers, and lose their leading zeros.  Of columns with
other characters only those are modelled that are no numbers for other reasons (a fraction, an exponent, a sign). -/
def readColumn (l : List Text) : List Text :=
  if ∀ t ∈ l, t ≠ [] ∧ ∀ c ∈ t, (digit? c).isSome then
    l.map fun t => if t.dropWhile (· = '0') = [] then ['0'] else t.dropWhile (· = '0')
  else l

/-- Utilities/loadData.py L837 and L854-856: the loader of track files reads the dates in the format of the
configuration. -/
def loaderDates (fmt : Text) (column : List Text) : Except Err (List DateTime) := date2ymdh (readColumn column) fmt

/-- DataProcess/DataProcess.py L239-240: data processing calls `parseDates` without the format of the configuration. -/
def processDates (_fmt : Text) (column : List Text) : Except Err (List DateTime) :=
  date2ymdh (readColumn column) defaultFormat

/-- The columns of a track file that `parseDates` looks for (whole numbers).  `missing` is what asking for a column
that is not there raises: `KeyError` for a dictionary of arrays, which the function is documented for, and `ValueError`
("no field of name …") for the structured array of `numpy` that Utilities/columns.py L41-43 returns. -/
structure Data where
  missing : Err
  date : Option (List Text)
  year : Option (List ℕ)
  month : Option (List ℕ)
  day : Option (List ℕ)
  hour : Option (List ℕ)
  minute : Option (List ℕ)

/-- `data[name]` -/
def Data.column {α : Type} (d : Data) : Option α → Except Err α
  | some c => .ok c
  | none => .error d.missing

/-- Utilities/loadData.py L442-450: the years of a file without them, from the markers and the months; `fill_year` is
unbound before the first marker or January. -/
def dummyYears : Option ℕ → List (ℤ × ℕ) → Except Err (List ℕ)
  | _, [] => .ok []
  | fill, (i, m) :: l =>
    match (if m = 1 then some 2001 else if i > 0 then some 2000 else fill) with
    | none => .error .unboundLocal
    | some y =>
      match dummyYears (some y) l with
      | .error e => .error e
      | .ok ys => .ok (y :: ys)

/-- Utilities/loadData.py L452-461: `hour.max()` fails for a file without records. -/
def clock (hours : List ℕ) : Option (List ℕ) → Except Err (List (ℕ × ℕ))
  | some ms => .ok (hours.zip ms)
  | none => if hours = [] then .error .valueError else .ok (splitHours hours)

/-- Utilities/loadData.py L462-463: the dates. -/
def assemble : List (ℕ × ℕ × ℕ × ℕ × ℕ) → Except Err (List DateTime)
  | [] => .ok []
  | (y, m, d, h, mn) :: l =>
    match datetime y m d h mn 0, assemble l with
    | .ok r, .ok rs => .ok (r :: rs)
    | .error e, _ => .error e
    | _, .error e => .error e

/-- Utilities/loadData.py L436-465: the dates from the columns of their components. -/
def fromColumns (d : Data) (indicator : List ℤ) : Except Err (List DateTime) :=
  match d.column d.month, d.column d.day, d.column d.hour with
  | .ok ms, .ok ds, .ok hs =>
    match (match d.year with | some ys => .ok ys | none => dummyYears none (indicator.zip ms) : Except Err (List ℕ)) with
    | .error e => .error e
    | .ok ys =>
      match clock hs d.minute with
      | .error e => .error e
      | .ok cs => assemble (ys.zip (ms.zip (ds.zip cs)))
  | _, _, _ => .error d.missing

/-- Utilities/loadData.py L414-465 (`parseDates`): only a `KeyError` of the column of dates leads to the columns of
components. -/
def parseDates (d : Data) (indicator : List ℤ) (fmt : Text) : Except Err (List DateTime) :=
  match d.date with
  | some col => date2ymdh col fmt
  | none => if d.missing = .keyError then fromColumns d indicator else .error d.missing

end Tcrm.DateText
