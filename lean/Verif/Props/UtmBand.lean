import Verif.Model.UtmBand
import Mathlib.Tactic.Linarith
import Mathlib.Tactic.NormNum
import Mathlib.Tactic.IntervalCases
/-!
C219: latitude bands of the UTM grid.
-/
namespace Tcrm.UtmBand

/-- The letters of the bands from south to north: the alphabet from C to X without I and O -/
def bands : List Char := "CDEFGHJKLMNPQRSTUVWX".toList

/-- The band with number `i` from the south: bands begin at 80 degrees south and are 8 degrees high; the last one is 12
degrees high and includes its northern limit. -/
def InBand (i : ℕ) (lat : ℚ) : Prop :=
  -80 + 8 * (i : ℚ) ≤ lat ∧ (if i = 19 then lat ≤ 84 else lat < -80 + 8 * ((i : ℚ) + 1))

/-- C219: a latitude has the letter of the band it is in. -/
theorem C219_band {lat : ℚ} {i : ℕ} (hi : i < 20) (h : InBand i lat) : bands[i]? = some (letterOf lat) := by
  unfold InBand at h
  obtain ⟨h1, h2⟩ := h
  interval_cases i <;> norm_num at h1 h2 <;> unfold letterOf
  · iterate 19 rw [if_neg (by rintro ⟨a, b⟩; linarith)]
    rw [if_pos ⟨by linarith, by linarith⟩]; rfl
  · iterate 18 rw [if_neg (by rintro ⟨a, b⟩; linarith)]
    rw [if_pos ⟨by linarith, by linarith⟩]; rfl
  · iterate 17 rw [if_neg (by rintro ⟨a, b⟩; linarith)]
    rw [if_pos ⟨by linarith, by linarith⟩]; rfl
  · iterate 16 rw [if_neg (by rintro ⟨a, b⟩; linarith)]
    rw [if_pos ⟨by linarith, by linarith⟩]; rfl
  · iterate 15 rw [if_neg (by rintro ⟨a, b⟩; linarith)]
    rw [if_pos ⟨by linarith, by linarith⟩]; rfl
  · iterate 14 rw [if_neg (by rintro ⟨a, b⟩; linarith)]
    rw [if_pos ⟨by linarith, by linarith⟩]; rfl
  · iterate 13 rw [if_neg (by rintro ⟨a, b⟩; linarith)]
    rw [if_pos ⟨by linarith, by linarith⟩]; rfl
  · iterate 12 rw [if_neg (by rintro ⟨a, b⟩; linarith)]
    rw [if_pos ⟨by linarith, by linarith⟩]; rfl
  · iterate 11 rw [if_neg (by rintro ⟨a, b⟩; linarith)]
    rw [if_pos ⟨by linarith, by linarith⟩]; rfl
  · iterate 10 rw [if_neg (by rintro ⟨a, b⟩; linarith)]
    rw [if_pos ⟨by linarith, by linarith⟩]; rfl
  · iterate 9 rw [if_neg (by rintro ⟨a, b⟩; linarith)]
    rw [if_pos ⟨by linarith, by linarith⟩]; rfl
  · iterate 8 rw [if_neg (by rintro ⟨a, b⟩; linarith)]
    rw [if_pos ⟨by linarith, by linarith⟩]; rfl
  · iterate 7 rw [if_neg (by rintro ⟨a, b⟩; linarith)]
    rw [if_pos ⟨by linarith, by linarith⟩]; rfl
  · iterate 6 rw [if_neg (by rintro ⟨a, b⟩; linarith)]
    rw [if_pos ⟨by linarith, by linarith⟩]; rfl
  · iterate 5 rw [if_neg (by rintro ⟨a, b⟩; linarith)]
    rw [if_pos ⟨by linarith, by linarith⟩]; rfl
  · iterate 4 rw [if_neg (by rintro ⟨a, b⟩; linarith)]
    rw [if_pos ⟨by linarith, by linarith⟩]; rfl
  · iterate 3 rw [if_neg (by rintro ⟨a, b⟩; linarith)]
    rw [if_pos ⟨by linarith, by linarith⟩]; rfl
  · iterate 2 rw [if_neg (by rintro ⟨a, b⟩; linarith)]
    rw [if_pos ⟨by linarith, by linarith⟩]; rfl
  · iterate 1 rw [if_neg (by rintro ⟨a, b⟩; linarith)]
    rw [if_pos ⟨by linarith, by linarith⟩]; rfl
  · rw [if_pos ⟨by linarith, by linarith⟩]; rfl

theorem exists_band {lat : ℚ} (h1 : -80 ≤ lat) (h2 : lat ≤ 84) : ∃ i < 20, InBand i lat := by
  by_cases ht : 72 ≤ lat
  · exact ⟨19, by norm_num, by unfold InBand; norm_num; exact ⟨ht, h2⟩⟩
  · push Not at ht
    have f1 := Int.floor_le ((lat + 80) / 8)
    have f2 := Int.lt_floor_add_one ((lat + 80) / 8)
    have f0 : 0 ≤ ⌊(lat + 80) / 8⌋ := Int.floor_nonneg.2 (by linarith)
    have f3 : ⌊(lat + 80) / 8⌋ < 19 := Int.floor_lt.2 (by push_cast; linarith)
    obtain ⟨n, hn⟩ := Int.eq_ofNat_of_zero_le f0
    rw [hn] at f1 f2 f3
    refine ⟨n, by omega, ?_⟩
    unfold InBand
    rw [if_neg (by omega)]
    push_cast at f1 f2
    constructor <;> linarith

/-- C219: the letter is Z outside the limits of the grid, 80 degrees south and 84 degrees north, and only there. -/
theorem C219_outside (lat : ℚ) : letterOf lat = 'Z' ↔ lat < -80 ∨ 84 < lat := by
  constructor
  · intro h
    by_contra hc
    push Not at hc
    obtain ⟨i, hi, hb⟩ := exists_band hc.1 hc.2
    have := C219_band hi hb
    rw [h] at this
    have hm : 'Z' ∈ bands := List.mem_of_getElem? this
    revert hm
    decide
  · rintro (h | h)
    · unfold letterOf
      iterate 20 rw [if_neg (by rintro ⟨a, b⟩; linarith)]
    · unfold letterOf
      iterate 20 rw [if_neg (by rintro ⟨a, b⟩; linarith)]

/-- C219: inside the limits, letters from N on are those of the northern hemisphere with the equator. -/
theorem C219_hemisphere_partial {lat : ℚ} (h1 : -80 ≤ lat) (h2 : lat ≤ 84) : 'N' ≤ letterOf lat ↔ 0 ≤ lat := by
  obtain ⟨i, hi, hb⟩ := exists_band h1 h2
  have hl := C219_band hi hb
  unfold InBand at hb
  obtain ⟨b1, b2⟩ := hb
  generalize letterOf lat = c at hl ⊢
  have key : 'N' ≤ c ↔ 10 ≤ i := by
    have hc : c = bands.getD i 'A' := by rw [List.getD_eq_getElem?_getD, hl]; rfl
    rw [hc]
    clear b1 b2 hl hc
    revert i
    decide
  rw [key]
  constructor
  · intro h
    have : (10 : ℚ) ≤ i := by exact_mod_cast h
    linarith
  · intro h
    by_contra hc
    rw [if_neg (by omega)] at b2
    have : (i : ℚ) + 1 ≤ 10 := by exact_mod_cast (by omega : i + 1 ≤ 10)
    linarith

/-- C219: south of 80 degrees south the letter is one of the northern hemisphere. -/
theorem C219_hemisphere_fails {lat : ℚ} (h : lat < -80) : 'N' ≤ letterOf lat ∧ lat < 0 := by
  rw [(C219_outside lat).2 (Or.inl h)]
  exact ⟨by decide, by linarith⟩

example : InBand 7 (-19.3) ∧ letterOf (-19.3) = 'K' ∧ letterOf 84 = 'X' ∧ letterOf (-80) = 'C' ∧ letterOf 0 = 'N' := by
  refine ⟨by unfold InBand; norm_num, ?_⟩
  decide +kernel

end Tcrm.UtmBand
