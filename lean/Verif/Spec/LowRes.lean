import Verif.Model.LowRes
import Verif.Spec.Compass
import Mathlib.Analysis.SpecialFunctions.Trigonometric.Basic
/-!
Specification vocabulary for C177: local gusts.
-/
namespace Tcrm.LowRes
open Real Spec

/-- The wind with components `u` (to the east) and `v` (to the north) comes from the bearing `b` (degrees). -/
def ComesFrom (u v b : ℝ) : Prop :=
  (u ≠ 0 ∨ v ≠ 0) ∧ 0 ≤ b ∧ b < 360 ∧ √(u ^ 2 + v ^ 2) * sin (b * π / 180) = -u ∧ √(u ^ 2 + v ^ 2) * cos (b * π / 180) = -v

/-- The documented order of the bands of a file of multipliers -/
def bandOrder : List String := ["e", "n", "ne", "nw", "s", "se", "sw", "w"]

/-- `v` are the local gusts of the wind field `g`: at every cell the gust times the multiplier of its place and of the
direction the wind comes from, where there is one (it is not negative), and otherwise the gust. -/
def LocalGusts (sample : ℕ → ℝ → ℝ → ℝ) (g : Gust) (v : ℕ → ℕ → ℝ) : Prop :=
  ∀ (i j k : ℕ) (y x b : ℝ) (e : String × ℚ), g.lat[i]? = some y → g.lon[j]? = some x →
    ComesFrom (g.ua i j) (g.va i j) b → e ∈ compass → Nearest e.2 b → bandOrder[k]? = some e.1 →
    (sample (k + 1) y x < 0 → v i j = g.vmax i j) ∧ (0 ≤ sample (k + 1) y x → v i j = g.vmax i j * sample (k + 1) y x)

end Tcrm.LowRes
