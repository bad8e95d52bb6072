import Verif.Model.Cells
/-!
Selection of the observations used for the statistics of a grid cell.
-/
namespace Tcrm.Extract
open Tcrm.Cells

/-- One observation: a row of `lonLat` (longitude, latitude, land/sea flag) and the parameter
value with the same index. -/
structure Obs where
  lon : ℚ
  lat : ℚ
  flag : ℚ
  value : ℚ

/-- The window bounds `wLon, eLon, nLat, sLat`. -/
structure Win where
  w : ℚ
  e : ℚ
  n : ℚ
  s : ℚ
  deriving DecidableEq

/-- `sys.maxsize` on a 64-bit platform -/
def maxsize : ℚ := 9223372036854775807

/-- Utilities/stats.py L233-240 (`statRemoveNum`): drop `missing` and everything not below
`sys.maxsize`. -/
def statRemoveNum (missing : ℚ) (l : List ℚ) : List ℚ :=
  (l.filter (· ≠ missing)).filter (· < maxsize)

/-- StatInterface/generateStats.py L282-292 and L316-324 (`np.where` and `statRemoveNum`);
`sel` is the land/sea condition on the flag (always true in
StatInterface/GenerateDistributions.py L266-270). -/
def sample (obs : List Obs) (missing : ℚ) (sel : ℚ → Bool) (w : Win) : List ℚ :=
  statRemoveNum missing ((obs.filter fun o =>
    (decide (w.s ≤ o.lat) && decide (o.lat < w.n)) &&
      (decide (w.w ≤ o.lon) && decide (o.lon < w.e)) && sel o.flag).map (·.value))

/-- StatInterface/generateStats.py L369-383 and GenerateDistributions.py L352-366
(`_checkGridLimits`) -/
def checkGridLimits (gl : Limit) (w : Win) : Win :=
  { w := if w.w < gl.xMin then gl.xMin else w.w
    e := if gl.xMax < w.e then gl.xMax else w.e
    n := if gl.yMax < w.n then gl.yMax else w.n
    s := if w.s < gl.yMin then gl.yMin else w.s }

/-- StatInterface/generateStats.py L353-367 and GenerateDistributions.py L336-350
(`_expandCell`) -/
def expandCell (gl : Limit) (inc : Space) (w : Win) : Win :=
  checkGridLimits gl { w := w.w - inc.x, e := w.e + inc.x, n := w.n + inc.y, s := w.s - inc.y }

/-- Outcome of a search: the sample and its window, `StopIteration` (`insufficient`), another
exception, or the end of the fuel (an execution longer than the given number of rounds). -/
inductive Res where
  | ok (w : Win) (p : List ℚ)
  | insufficient
  | valueError
  | indexError
  | outOfFuel
  deriving DecidableEq

/-- The two `while` loops have the same shape: while the sample is bad, expand the window;
if the window did not change, give up. `bad` is `none` when evaluating the condition raises
`ValueError` (`p.max()` of an empty array). -/
def search (smp : Win → List ℚ) (bad : List ℚ → Option Bool) (expand : Win → Win) :
    Nat → Win → Res
  | 0, _ => .outOfFuel
  | fuel + 1, w =>
    match bad (smp w) with
    | none => .valueError
    | some false => .ok w (smp w)
    | some true => if expand w = w then .insufficient else search smp bad expand fuel (expand w)

/-- `np.size(p) <= minSample` -/
def tooFew (minSample : ℤ) (p : List ℚ) : Option Bool := some (decide ((p.length : ℤ) ≤ minSample))

/-- `p.max() == p.min()`, which raises on an empty array -/
def constant (p : List ℚ) : Option Bool :=
  match p.max?, p.min? with
  | some a, some b => some (decide (a = b))
  | _, _ => none

/-- StatInterface/GenerateDistributions.py L235-319 and, for one land/sea class,
StatInterface/generateStats.py L276-350: first enough observations, then not all equal. -/
def searchClass (obs : List Obs) (missing : ℚ) (sel : ℚ → Bool) (minSample : ℤ) (gl : Limit)
    (inc : Space) (fuel : Nat) (w0 : Win) : Res :=
  match search (sample obs missing sel) (tooFew minSample) (expandCell gl inc) fuel w0 with
  | .ok w _ => search (sample obs missing sel) constant (expandCell gl inc) fuel w
  | r => r

/-- Initial window: StatInterface/generateStats.py L267-275, GenerateDistributions.py L251-264. -/
def initialWindow (cellNum : ℤ) (gl : Limit) (gs : Space) : Except Res Win :=
  if validCellNum cellNum gl gs then
    match getCellLonLat cellNum gl gs with
    | .ok (a, b) => .ok { w := a, e := a + gs.x, n := b, s := b - gs.y }
    | .error _ => .error .indexError
  else .error .indexError

/-- StatInterface/GenerateDistributions.py L235-319 (`extractParameter`) -/
def extractDistribution (obs : List Obs) (missing : ℚ) (minSample : ℤ) (gl : Limit) (gs inc : Space)
    (fuel : Nat) (cellNum : ℤ) : Res :=
  match initialWindow cellNum gl gs with
  | .error r => r
  | .ok w0 => searchClass obs missing (fun _ => true) minSample gl inc fuel w0

/-- StatInterface/generateStats.py L251-351 (`extractParameter`): over land, giving up falls
back to the open-ocean sample of the same cell. -/
def extractStats (obs : List Obs) (missing : ℚ) (minSample : ℤ) (gl : Limit) (gs inc : Space)
    (fuel : Nat) (cellNum : ℤ) (onLand : Bool) : Res :=
  match initialWindow cellNum gl gs with
  | .error r => r
  | .ok w0 =>
    if onLand then
      match searchClass obs missing (fun f => decide (0 < f)) minSample gl inc fuel w0 with
      | .insufficient => searchClass obs missing (fun f => decide (f = 0)) minSample gl inc fuel w0
      | r => r
    else searchClass obs missing (fun f => decide (f = 0)) minSample gl inc fuel w0

end Tcrm.Extract
