import Mathlib.Algebra.Order.Floor.Ring
import Mathlib.Data.Rat.Floor
/-!
Reports of progress, Utilities/progressbar.py (`SimpleProgressBar`, the one that tcrm.py L28 and tcevent.py L37 use).
Exact numbers; what is written is the percentage of the line "... complete" (the name of the stage before it and the
copy in the log are left out).
-/
namespace Tcrm.Progress

/-- Where the program runs: `sys.stderr.isatty()` and `sys.stdin.isatty()` -/
structure Terminal where
  err : Bool
  inp : Bool

/-- Truth of a string in Python -/
def truthy (s : String) : Bool := decide (s ≠ "")

/-- The state of a progress bar -/
structure Bar where
  showbar : Bool
  last : ℚ
  deriving DecidableEq

/-- `%3d%%` of a percentage: truncation towards zero. Utilities/progressbar.py L53-54 (`_percentage`) -/
def percentage (prg : ℚ) : ℤ := if 0 ≤ prg * 100 then ⌊prg * 100⌋ else ⌈prg * 100⌉

/-- Utilities/progressbar.py L76-88 (`SimpleProgressBar.update`): the line written, if any, and the new state -/
def update (t : Terminal) (b : Bar) (progress : ℚ) (startPos : ℚ := 0) (endPos : ℚ := 1) (incr : ℚ := 5) :
    Option ℤ × Bar :=
  let prg := progress * (endPos - startPos) + startPos
  let percent := prg * 100
  if b.showbar && t.err then
    if percent ≥ 99 ∨ percent ≥ b.last + incr then (some (percentage prg), { b with last := b.last + incr })
    else (none, b)
  else (none, b)

/-- Utilities/progressbar.py L20-31 and L72-74 (`__init__`). `showbar` is the text of the setting: `config.get` in
tcrm.py L120, L192, L220, L247, L274, L358, L412, L440 and tcevent.py L196 returns a string. The call of `update` in L29
happens with `showbar` off and writes nothing. -/
def new (t : Terminal) (showbar : String) : Bar where
  showbar := t.err && t.inp && truthy showbar
  last := 0

/-- A stage: the lines written by a sequence of updates. -/
def run (t : Terminal) : Bar → List ℚ → List (Option ℤ) × Bar
  | b, [] => ([], b)
  | b, p :: l =>
    let r := update t b p
    let q := run t r.2 l
    (r.1 :: q.1, q.2)

end Tcrm.Progress
