import Verif.Model.Dispatch
import Verif.Model.Units
import Verif.Model.Angles
/-!
The table of maximum wind speeds, Evaluate/windFieldValidation.py. The radial profile and the boundary
layer model are a parameter (`Wind`): they are the subject of the properties of the wind models.
-/
namespace Tcrm.WindTable

/-- What the wind models give over the points of the grid around the eye: the gradient level speeds and
the two components of the surface wind. Arguments are the latitude, the environmental and the central
pressure in Pa, the radius in m, the forward speed in m/s and the direction of movement (radians
anticlockwise from east). Evaluate/windFieldValidation.py L39-48, with the longitude 120, the profile
`powell` (no `beta`) and the field `kepert` of L147-151. -/
abbrev Wind := ℝ → ℝ → ℝ → ℝ → ℝ → ℝ → List ℝ × List (ℝ × ℝ)

/-- Evaluate/windFieldValidation.py L30-51 (`calculateWindField`) -/
noncomputable def calculateWindField (wind : Wind) (lat pEnv pCentre rMax vFm thetaFm : ℝ) : List ℝ × List ℝ :=
  let pCentre := Units.convert pCentre "hPa" "Pa"
  let pEnv := Units.convert pEnv "hPa" "Pa"
  let vFm := Units.convert vFm "kmh" "mps"
  let thetaFm := Angles.bearing2theta (Real.pi * thetaFm / 180)
  let rmax := Units.convert rMax "km" "m"
  let r := wind lat pEnv pCentre rmax vFm thetaFm
  (r.1, r.2.map fun u => Real.sqrt (u.1 * u.1 + u.2 * u.2) * 1.268)

/-- `np.max`; `none` is the ValueError for an empty array. -/
noncomputable def npMax : List ℝ → Option ℝ
  | [] => none
  | x :: l => some (l.foldl max x)

/-- `np.arange(a, b, s, dtype=float)` for integers: item `i`, and the number of items -/
def arangeItem (a s : ℤ) (i : ℕ) : ℝ := a + i * s

def arangeLen (a b s : ℤ) : ℕ := ⌈((b - a : ℤ) : ℚ) / s⌉.toNat

/-- Position in the table: latitude, central pressure, environmental pressure, radius, speed. -/
abbrev Idx := ℕ × ℕ × ℕ × ℕ × ℕ

/-- Evaluate/windFieldValidation.py L136-143 and L162: the indices of the table in C order -/
def idx : List Idx :=
  (List.range (arangeLen (-30) (-4) 2)).flatMap fun il => (List.range (arangeLen 900 991 5)).flatMap fun ic =>
    (List.range (arangeLen 995 1016 1)).flatMap fun ip => (List.range (arangeLen 10 91 5)).flatMap fun ir =>
      (List.range (arangeLen 0 51 5)).map fun iv => (il, ic, ip, ir, iv)

/-- Evaluate/windFieldValidation.py L136-140, L148 and L203-209 (the same in L214-221): the two numbers of
an entry. `none` is an exception. -/
noncomputable def entry (wind : Wind) (x : Idx) : Option (ℝ × ℝ) :=
  let r := calculateWindField wind (arangeItem (-30) 2 x.1) (arangeItem 995 1 x.2.2.1) (arangeItem 900 5 x.2.1)
    (arangeItem 10 5 x.2.2.2.1) (arangeItem 0 5 x.2.2.2.2) 70
  match npMax (r.1.map fun v => |v|), npMax r.2 with
  | some g, some s => some (g, s)
  | _, _ => none

/-- Evaluate/windFieldValidation.py L141-142, L185-188 and L220-221: tables of zeros, filled in. -/
noncomputable def fill (ws : List (Idx × Option (ℝ × ℝ))) : Idx → Option (ℝ × ℝ) :=
  ws.foldl (fun t w => Function.update t w.1 w.2) fun _ => some (0, 0)

/-- Evaluate/windFieldValidation.py L160-161, L164-210: work carries tag 0, results carry tag 1; the master
takes any tag. The messages are those of the database (`p = w` of L174 included). -/
def tags : Dispatch.Tags := Dispatch.databaseTags

/-- Evaluate/windFieldValidation.py L135-262 (`run`): the tables written to `output.nc` by a run with `n`
worker processes beside the master, for some schedule; one process alone if `n = 0` (L212-221). -/
def Written (wind : Wind) (n : ℕ) (t : Idx → Option (ℝ × ℝ)) : Prop :=
  (n = 0 ∧ t = fill (idx.map fun x => (x, entry wind x))) ∨
  (0 < n ∧ ∃ (k : ℕ) (s : Dispatch.State Idx (Option (ℝ × ℝ)) n),
    Dispatch.ReachIn tags idx (entry wind) k s ∧ s.phase = .done ∧ t = fill s.written)

end Tcrm.WindTable
