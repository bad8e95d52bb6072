import Verif.Model.GustFiles
import Verif.Model.Windfield
/-!
Durations reported in the log, the decorator `timer` of tcrm.py and others and Utilities/progressbar.py. Exact numbers.
-/
namespace Tcrm.Timing
open GustFiles (pad)
open Windfield (pyInt)

abbrev Text := List Char

/-- Python's `divmod` of numbers -/
def divmod (x b : ℚ) : ℚ × ℚ := (⌊x / b⌋, x - b * ⌊x / b⌋)

/-- tcrm.py L73-75: `reduce(lambda ll, b: divmod(ll[0], b) + ll[1:], [(tottime,), 60, 60])` -/
def parts (tottime : ℚ) : ℚ × ℚ × ℚ :=
  let p := divmod tottime 60
  let q := divmod p.1 60
  (q.1, q.2, p.2)

/-- Python's `'%02d' % x`: the fraction is cut off, the width of two characters includes the sign -/
def dec2 (x : ℚ) : Text :=
  let n := pyInt x
  if n < 0 then '-' :: pad 1 n.natAbs else pad 2 n.toNat

/-- tcrm.py L73-75: the text of a duration in seconds -/
def clock (tottime : ℚ) : Text :=
  let (h, m, s) := parts tottime
  dec2 h ++ ':' :: dec2 m ++ ':' :: dec2 s ++ [' ']

/-- tcrm.py L61-79, tcevent.py L42-59, database/__init__.py L77-94, database/queries.py L17-34,
ProcessMultipliers/processMultipliers.py L104-121 (`timer`): the result of a decorated function, which may raise, and the
duration put in the log; `t1` and `t2` are the readings of `time.time()`. The words around the duration are left out. -/
def timed {α β ε : Type} (f : α → Except ε β) (t1 t2 : ℚ) (x : α) : Except ε β × List Text :=
  match f x with
  | .ok res =>
    let tottime := t2 - t1
    (.ok res, [clock tottime])
  | .error e => (.error e, [])

/-- Utilities/progressbar.py L56-58 (`_formatTime`); `gmtime` takes the whole seconds below -/
def formatTime (seconds : ℚ) : Text :=
  let n := pyInt (seconds / 3600)
  (if n < 0 then '-' :: pad 1 n.natAbs else pad 2 n.toNat) ++
    ':' :: pad 2 (⌊seconds⌋ / 60 % 60).toNat ++ ':' :: pad 2 (⌊seconds⌋ % 60).toNat

/-- Utilities/progressbar.py L60-67 (`_getTimeStr`) -/
def timeStr (prg secondsElapsed : ℚ) : Text :=
  if prg = 0 then "Time remaining: --:--:--".toList
  else if prg = 1 then "Elapsed time:   ".toList ++ formatTime secondsElapsed ++ ['\n']
  else "Time remaining: ".toList ++ formatTime (secondsElapsed / prg - secondsElapsed)

end Tcrm.Timing
