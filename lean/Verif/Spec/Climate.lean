import Verif.Model.Climate
/-!
What the file of a climatology holds.
-/
namespace Tcrm.Climate

/-- The latitude of a row of a file with rows at both poles, from the south. -/
def northward (n : ℕ) (y : ℚ) : ℚ := -90 + 180 * y / (n - 1)
/-- The latitude of a row of a file with rows at both poles, from the north (the NCEP files). -/
def southward (n : ℕ) (y : ℚ) : ℚ := 90 - 180 * y / (n - 1)

/-- `f` holds the climatology `P` (of day of year, latitude and longitude) exactly, also between its
nodes: the first record is day 1, rows lie at `lat`, columns at equal distances from longitude 0. -/
def Holds (lat : ℕ → ℚ → ℚ) (P : ℚ → ℚ → ℚ → ℚ) (f : File) : Prop :=
  ∀ t y x : ℚ, 0 ≤ t → t ≤ f.days - 1 → 0 ≤ y → y ≤ f.rows - 1 → 0 ≤ x → x ≤ f.cols - 1 →
    f.value t y x = P (1 + t) (lat f.rows y) (360 * x / f.cols)

end Tcrm.Climate
