import Verif.Model.Config
/-!
Register of processed files, Utilities/process.py. Texts are lists of characters; files hold text.
Checksums and dates are what `flGetStat` (Utilities/files.py L120-167) returns, texts here.
-/
namespace Tcrm.Register

open Config (Text split join)

inductive Err where
  | valueError
  | ioError
  | typeError
  deriving DecidableEq

/-- `GLOBAL_PROCFILES`: directory, file name, attribute. -/
abbrev Reg := Text → Option (Text → Option (Text → Option Text))

def emptyReg : Reg := fun _ => none

def upd {β : Type} (f : Text → Option β) (k : Text) (v : β) : Text → Option β :=
  fun k' => if k' = k then some v else f k'

/-- Utilities/process.py L30-51 (`pSetProcessedEntry`) -/
def setEntry (r : Reg) (directory filename attr value : Text) : Reg :=
  match r directory with
  | some files =>
    match files filename with
    | some attrs => upd r directory (upd files filename (upd attrs attr value))
    | none => upd r directory (upd files filename (upd (fun _ => none) attr value))
  | none => upd r directory (upd (fun _ => none) filename (upd (fun _ => none) attr value))

/-- Utilities/process.py L53-71 (`pGetProcessedEntry`); `none` is the number 0. -/
def getEntry (r : Reg) (directory filename attr : Text) : Option Text :=
  ((r directory).bind fun files => files filename).bind fun attrs => attrs attr

/-- Utilities/process.py L167-188 (`pAlreadyProcessed`), the value being a text. -/
def alreadyProcessed (r : Reg) (directory filename attr value : Text) : Bool :=
  decide (getEntry r directory filename attr = some value)

/-- Reading in text mode: carriage returns, alone or before a newline, become newlines. -/
def univ : Bool → Text → Text
  | _, [] => []
  | afterCR, x :: t =>
    if x = '\r' then '\n' :: univ true t
    else if x = '\n' ∧ afterCR then univ false t
    else x :: univ false t

/-- Iteration over a text file: lines with their newline; the last one may have none. -/
def fileLines : Text → List Text
  | [] => []
  | x :: t =>
    if x = '\n' then ['\n'] :: fileLines t
    else
      match fileLines t with
      | [] => [[x]]
      | l :: ls => (x :: l) :: ls

/-- `rstrip('\n')` -/
def rstrip (t : Text) : Text := (t.reverse.dropWhile (· = '\n')).reverse

def MODDATE : Text := "moddate".toList
def MD5SUM : Text := "md5sum".toList

/-- Utilities/process.py L100-106, one line: exactly four fields, otherwise ValueError. -/
def loadLine (r : Reg) (line : Text) : Except Err Reg :=
  match split '|' line with
  | [directory, filename, moddate, md5sum] =>
    .ok (setEntry (setEntry r directory filename MODDATE (rstrip moddate)) directory filename MD5SUM
      (rstrip md5sum))
  | _ => .error .valueError

/-- Utilities/process.py L100-106, all lines. What was set before an error stays; as the error ends the
program the register is not kept here. -/
def loadLines : Reg → List Text → Except Err Reg
  | r, [] => .ok r
  | r, l :: ls =>
    match loadLine r l with
    | .error e => .error e
    | .ok r' => loadLines r' ls

/-- The process (`reg`, `datfile`) and the disk. -/
structure State where
  reg : Reg
  datfile : Option Text
  disk : Text → Option Text

/-- Utilities/process.py L74-114 (`pGetProcessedFiles`); the result is the return code. -/
def load (s : State) (name : Option Text) : Except Err (State × ℕ) :=
  match name with
  | none => .ok (s, 0)
  | some n =>
    if n = [] then .ok (s, 0)
    else
      match s.disk n with
      | none => .ok ({ s with datfile := some n }, 0)
      | some content =>
        match loadLines s.reg (fileLines (univ false content)) with
        | .error e => .error e
        | .ok r => .ok (⟨r, some n, s.disk⟩, 1)

/-- What `flGetStat` returns. -/
structure Rec where
  directory : Text
  name : Text
  md5 : Text
  moddate : Text
  deriving DecidableEq

/-- The line written for a record, Utilities/process.py L140. -/
def recLine (x : Rec) : Text := join '|' [x.directory, x.name, x.moddate, x.md5] ++ ['\n']

/-- Utilities/process.py L116-147 (`pWriteProcessedFile`); the register file can be opened. -/
def write (s : State) (x : Rec) : State × ℕ :=
  match s.datfile with
  | none => (s, 0)
  | some n =>
    let r1 := setEntry s.reg x.directory x.name MD5SUM x.md5
    let r2 := setEntry r1 x.directory x.name MODDATE x.moddate
    (⟨r2, some n, upd s.disk n ((s.disk n).getD [] ++ recLine x)⟩, 1)

/-- The program is killed while the line is being written: `k` characters have reached the disk. -/
def crashedWrite (s : State) (x : Rec) (k : ℕ) : Text → Option Text :=
  match s.datfile with
  | none => s.disk
  | some n => upd s.disk n ((s.disk n).getD [] ++ (recLine x).take k)

/-- A new process that opens the register `n`. -/
def restart (disk : Text → Option Text) (n : Text) : Except Err (State × ℕ) :=
  load ⟨emptyReg, none, disk⟩ (some n)

/-- Utilities/process.py L149-165 (`pDeleteDatFile`): `os.unlink` returns None, so the return code
is 0. -/
def deleteDat (s : State) : Except Err (State × ℕ) :=
  match s.datfile with
  | none => .error .typeError
  | some n =>
    match s.disk n with
    | none => .error .ioError
    | some _ => .ok ({ s with disk := fun p => if p = n then none else s.disk p }, 0)

/-- Operations on the register named `n`. -/
inductive Op where
  | record (x : Rec)
  | reload
  | restart

def step (n : Text) (s : State) : Op → Except Err State
  | .record x => .ok (write s x).1
  | .reload => match load s (some n) with
    | .error e => .error e
    | .ok r => .ok r.1
  | .restart => match restart s.disk n with
    | .error e => .error e
    | .ok r => .ok r.1

def run (n : Text) : State → List Op → Except Err State
  | s, [] => .ok s
  | s, op :: ops =>
    match step n s op with
    | .error e => .error e
    | .ok s' => run n s' ops

end Tcrm.Register
