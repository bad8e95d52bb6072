import Verif.Spec.Climate
import Mathlib.Tactic.Linarith
import Mathlib.Tactic.NormNum
import Mathlib.Tactic.FieldSimp
import Mathlib.Tactic.Ring
/-!
C127 (the environmental pressure of a storm is that of the climatology at its day and position).
The code reads another day, another latitude and, for files whose rows run from the north, the other
hemisphere.
-/
namespace Tcrm.Climate

theorem wrap_inside {n : ℕ} {x : ℚ} (h0 : 0 ≤ x) (h1 : x ≤ n - 1) : wrap n x = x := by
  simp only [wrap]
  rw [if_neg (not_lt.2 h0), if_neg (not_lt.2 h1)]

theorem index_bounds {n : ℕ} {c o s m : ℚ} (hn : 0 < n) (hs : 0 < s) (h0 : o ≤ c)
    (h1 : c ≤ o + s * m / n) : 0 ≤ index n c o s ∧ index n c o s ≤ m := by
  have hn' : (0 : ℚ) < n := by exact_mod_cast hn
  simp only [index]
  refine ⟨div_nonneg (mul_nonneg hn'.le (by linarith)) hs.le, ?_⟩
  rw [div_le_iff₀ hs]
  have h2 : c - o ≤ s * m / n := by linarith
  calc (n : ℚ) * (c - o) ≤ n * (s * m / n) := mul_le_mul_of_nonneg_left h2 hn'.le
    _ = m * s := by field_simp

/-- The day and position the code reads (for the days, latitudes and longitudes whose index lies in
the array): the next day, a latitude too far north by up to the distance of two rows, the right
longitude. -/
theorem C127_rows_from_south_partial (P : ℚ → ℚ → ℚ → ℚ) (f : File) (h : Holds northward P f)
    (hd : f.days = 365) (hr : 2 ≤ f.rows) (hc : 0 < f.cols) (day lat lon : ℚ)
    (hday : 0 ≤ day ∧ day ≤ 364) (hlat : -90 ≤ lat ∧ lat ≤ 90 - 180 / f.rows)
    (hlon : 0 ≤ lon ∧ lon ≤ 360 - 360 / f.cols) :
    getPressure f day lat lon = P (day + 1) (lat + (lat + 90) / (f.rows - 1)) lon := by
  have hr' : (0 : ℚ) < f.rows := by exact_mod_cast (by omega : 0 < f.rows)
  have hr1 : (1 : ℚ) < f.rows := by exact_mod_cast (by omega : 1 < f.rows)
  have hr2 : (f.rows : ℚ) - 1 ≠ 0 := by linarith
  have hc' : (0 : ℚ) < f.cols := by exact_mod_cast hc
  obtain ⟨a0, a1⟩ := index_bounds (n := f.days) (c := day) (o := 0) (s := 365) (m := f.days - 1)
    (by omega) (by norm_num) hday.1 (by rw [hd]; norm_num; exact hday.2)
  obtain ⟨b0, b1⟩ := index_bounds (n := f.rows) (c := lat) (o := -90) (s := 180) (m := f.rows - 1)
    (by omega) (by norm_num) hlat.1
    (hlat.2.trans (le_of_eq (by field_simp; ring)))
  obtain ⟨c0, c1⟩ := index_bounds (n := f.cols) (c := lon) (o := 0) (s := 360) (m := f.cols - 1)
    hc (by norm_num) hlon.1 (hlon.2.trans (le_of_eq (by field_simp; ring)))
  simp only [getPressure, interp3d]
  rw [wrap_inside a0 a1, wrap_inside b0 b1, wrap_inside c0 c1, h _ _ _ a0 a1 b0 b1 c0 c1]
  have e1 : 1 + index f.days day 0 365 = day + 1 := by
    simp only [index, hd]; push_cast; ring
  have e2 : northward f.rows (index f.rows lat (-90) 180) = lat + (lat + 90) / (f.rows - 1) := by
    simp only [index, northward]; field_simp; ring
  have e3 : 360 * index f.cols lon 0 360 / f.cols = lon := by
    simp only [index]; field_simp; ring
  rw [e1, e2, e3]

/-- In files whose rows run from the north (those the configuration names) the latitude read is in
the other hemisphere. -/
theorem C127_rows_from_north_partial (P : ℚ → ℚ → ℚ → ℚ) (f : File) (h : Holds southward P f)
    (hd : f.days = 365) (hr : 2 ≤ f.rows) (hc : 0 < f.cols) (day lat lon : ℚ)
    (hday : 0 ≤ day ∧ day ≤ 364) (hlat : -90 ≤ lat ∧ lat ≤ 90 - 180 / f.rows)
    (hlon : 0 ≤ lon ∧ lon ≤ 360 - 360 / f.cols) :
    getPressure f day lat lon = P (day + 1) (-(lat + (lat + 90) / (f.rows - 1))) lon := by
  have hf : ∀ n y, southward n y = -northward n y := fun n y => by
    simp only [southward, northward]; ring
  have := C127_rows_from_south_partial (fun d l => P d (-l)) f
    (fun t y x h1 h2 h3 h4 h5 h6 => by rw [h t y x h1 h2 h3 h4 h5 h6, hf]) hd hr hc day lat lon
    hday hlat hlon
  exact this

/-- Where the climatology depends on longitude only, it is read correctly (whatever the order of the
rows). -/
theorem C127_longitude_partial (P : ℚ → ℚ) (f : File)
    (h : Holds northward (fun _ _ => P) f ∨ Holds southward (fun _ _ => P) f)
    (hd : f.days = 365) (hr : 2 ≤ f.rows) (hc : 0 < f.cols) (day lat lon : ℚ)
    (hday : 0 ≤ day ∧ day ≤ 364) (hlat : -90 ≤ lat ∧ lat ≤ 90 - 180 / f.rows)
    (hlon : 0 ≤ lon ∧ lon ≤ 360 - 360 / f.cols) : getPressure f day lat lon = P lon := by
  rcases h with h | h
  · exact C127_rows_from_south_partial _ f h hd hr hc day lat lon hday hlat hlon
  · exact C127_rows_from_north_partial _ f h hd hr hc day lat lon hday hlat hlon

/-- The files of the configuration have 365 records, 73 rows from the north and 144 columns.  Below,
`ncep P` holds `P` exactly. -/
def ncep (P : ℚ → ℚ → ℚ → ℚ) : File :=
  ⟨365, 73, 144, fun t y x => P (1 + t) (southward 73 y) (360 * x / 144)⟩

theorem ncep_holds (P : ℚ → ℚ → ℚ → ℚ) : Holds southward P (ncep P) :=
  fun t y x _ _ _ _ _ _ => by simp [ncep]

/-- A storm at 18°S on day 10 gets the pressure of day 11 at 17°N. -/
theorem C127_hemisphere_fails (P : ℚ → ℚ → ℚ → ℚ) :
    getPressure (ncep P) 10 (-18) 150 = P 11 17 150 := by
  have := C127_rows_from_north_partial P (ncep P) (ncep_holds P) rfl (by simp [ncep])
    (by simp [ncep]) 10 (-18) 150 (by norm_num) (by simp only [ncep]; norm_num)
    (by simp only [ncep]; norm_num)
  rw [this]
  simp only [ncep]
  norm_num

/-- Observed tracks read their climatology the same way. -/
theorem C127_observed (f : File) (jday : ℕ) (time lat lon : ℚ) (h : 0 ≤ time ∧ time < 1) :
    ltmPressure f jday time lat lon = getPressure f (jday + time) lat lon := by
  simp only [ltmPressure, getPressure]
  rw [show ⌊time⌋ = 0 from Int.floor_eq_zero_iff.2 ⟨h.1, h.2⟩]
  simp

/-- The last day of the year gets the pressure of the second, and longitudes in the last column
those of the first columns: at 359° the pressure of 1.5°. -/
theorem C127_wrapping_fails (P : ℚ → ℚ → ℚ → ℚ) :
    getPressure (ncep P) 365 (-18) 359 = P 2 17 (3 / 2) := by
  have a : wrap 365 (index 365 365 0 365) = 1 := by
    have : index 365 365 0 365 = 365 := by simp only [index]; norm_num
    rw [this]
    have hf : ⌊(365 : ℚ) / ((365 : ℕ) - 1)⌋ = 1 := by norm_num
    simp only [wrap, hf]
    norm_num
  have b : wrap 73 (index 73 (-18) (-90) 180) = 146 / 5 := by
    have : index 73 (-18) (-90) 180 = 146 / 5 := by simp only [index]; norm_num
    rw [this]
    exact wrap_inside (by norm_num) (by norm_num)
  have c : wrap 144 (index 144 359 0 360) = 3 / 5 := by
    have : index 144 359 0 360 = 718 / 5 := by simp only [index]; norm_num
    rw [this]
    have hf : ⌊(718 / 5 : ℚ) / ((144 : ℕ) - 1)⌋ = 1 := by norm_num
    simp only [wrap, hf]
    norm_num
  simp only [getPressure, interp3d, ncep]
  rw [a, b, c]
  norm_num [southward]

/-- A file that meets the hypotheses, and a climatology for which the error matters. -/
example : ∃ P f, Holds southward P f ∧ f.days = 365 ∧ 2 ≤ f.rows ∧ 0 < f.cols ∧
    getPressure f 10 (-18) 150 = 1017 ∧ P 10 (-18) 150 = 982 :=
  ⟨fun _ lat _ => 1000 + lat, ncep _, ncep_holds _, rfl, by simp [ncep], by simp [ncep],
    by rw [C127_hemisphere_fails]; norm_num, by norm_num⟩

/-- C127 fails, for western longitudes: a longitude below zero is not moved by a full turn but by a full turn less the
distance of two columns, whatever the file. -/
theorem C127_west_fails (f : File) (hc : 2 ≤ f.cols) (day lat lon : ℚ)
    (hlon : -(360 - 360 / f.cols) < lon ∧ lon < 0) :
    getPressure f day lat lon = getPressure f day lat (lon + 360 - 360 / f.cols) := by
  have hn : (2 : ℚ) ≤ f.cols := by exact_mod_cast hc
  have h0 : (0 : ℚ) < f.cols := by linarith
  have e : index f.cols (lon + 360 - 360 / f.cols) 0 360 = index f.cols lon 0 360 + (f.cols - 1) := by
    simp only [index]; field_simp; ring
  have a : index f.cols lon 0 360 < 0 := by
    simp only [index]
    exact div_neg_of_neg_of_pos (mul_neg_of_pos_of_neg h0 (by linarith [hlon.2])) (by norm_num)
  have b : -(f.cols - 1 : ℚ) < index f.cols lon 0 360 := by
    simp only [index, sub_zero]
    rw [lt_div_iff₀ (by norm_num)]
    have h1 := mul_lt_mul_of_pos_left hlon.1 h0
    have h2 : (f.cols : ℚ) * (-(360 - 360 / f.cols)) = -(f.cols - 1) * 360 := by field_simp
    linarith
  have w1 : wrap f.cols (index f.cols lon 0 360) = index f.cols lon 0 360 + (f.cols - 1) := by
    have hf : ⌊-index f.cols lon 0 360 / ((f.cols : ℚ) - 1)⌋ = 0 := by
      rw [Int.floor_eq_iff]
      constructor
      · push_cast; exact div_nonneg (by linarith) (by linarith)
      · push_cast; rw [zero_add, div_lt_one (by linarith)]; linarith
    simp only [wrap, hf]
    rw [if_pos a, if_neg (by omega)]
    push_cast; ring
  have w2 : wrap f.cols (index f.cols (lon + 360 - 360 / f.cols) 0 360) = index f.cols lon 0 360 + (f.cols - 1) := by
    rw [e]
    exact wrap_inside (by linarith) (by linarith)
  simp only [getPressure, interp3d, w1, w2]

-- For the file of the configuration (144 columns) the position read for 60 degrees west is 62.5 degrees west.
example (f : File) (h : f.cols = 144) (day lat : ℚ) :
    getPressure f day lat (-60) = getPressure f day lat (360 - 62.5) := by
  rw [C127_west_fails f (by omega) day lat (-60) (by rw [h]; norm_num), h]
  norm_num

end Tcrm.Climate
