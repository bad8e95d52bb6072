import Verif.Model.SizeFit
/-!
Radius of maximum wind at the beginning of a storm, drawn until it is not too large.  Numbers are real: rounding is not modelled.
-/
namespace Tcrm.SizeDraw
open Tcrm.SizeFit

/-- TrackGenerator/TrackGenerator.py L649-658: `eps 0`, `eps 1`, ... are the numbers drawn by `np.random.normal(0, scale=0.335)`.
The result holds the number kept for the storm (`rmwEps`) and the radius (`genesisRmax`); `none` if more than `fuel` numbers are
needed.  (The `if` in L653 repeats the condition of the loop.) -/
noncomputable def drawSize (dp lat : ℝ) (eps : ℕ → ℝ) : ℕ → ℕ → Option (ℝ × ℝ)
  | 0, _ => none
  | fuel + 1, k => if 100 < rmax dp lat (eps k) then drawSize dp lat eps fuel (k + 1) else some (eps k, rmax dp lat (eps k))

end Tcrm.SizeDraw
