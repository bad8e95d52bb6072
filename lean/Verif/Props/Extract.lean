import Verif.Lemmas.Extract
import Mathlib.Tactic.NormNum
/-!
C11: the sample used for a cell.  `Divides` says that the domain consists of whole cells and
that the search increment is positive; `fuel` bounds the rounds of the loops, and
"for all large enough fuel" means that the loops terminate.
-/
namespace Tcrm.Extract
open Tcrm.Cells

/-- **C11** (StatInterface/generateStats.py): the search always terminates; over sea it returns a
sufficient sample from a window containing the cell and inside the domain, or gives up only if
the observations of the whole domain are insufficient. -/
theorem C11_sea_sample (obs : List Obs) (missing : ℚ) (minSample : ℤ) (hm : 0 ≤ minSample)
    (gl : Limit) (gs inc : Space) (nx ny : ℕ) (hd : Divides gl gs inc nx ny) :
    ∃ N, ∀ fuel, N ≤ fuel → ∀ c : ℕ, c < nx * ny →
      let r := extractStats obs missing minSample gl gs inc fuel c false
      Sufficient obs missing (fun f => f = 0) minSample gl (cellBox gl gs nx c) r ∨
      (r = .insufficient ∧
        ¬ Good minSample (valuesIn obs missing (fun f => f = 0) (wholeDomain gl))) := by
  obtain ⟨N, hN⟩ := searchClass_spec obs missing (fun f => decide (f = 0)) minSample hm gl inc
    hd.ix hd.iy
  refine ⟨N, fun fuel hf c hc => ?_⟩
  obtain ⟨hi, hin⟩ := initialWindow_eq gl gs inc nx ny hd c hc
  simp only [extractStats, hi]
  exact hN _ hin (by simp [cellBox, hd.gx.le]) (by simp [cellBox, hd.gy.le]) fuel hf

/-- **C11**, over land: the land observations are used if they suffice somewhere in the domain,
otherwise the open-ocean sample of the same cell. -/
theorem C11_land_sample (obs : List Obs) (missing : ℚ) (minSample : ℤ) (hm : 0 ≤ minSample)
    (gl : Limit) (gs inc : Space) (nx ny : ℕ) (hd : Divides gl gs inc nx ny) :
    ∃ N, ∀ fuel, N ≤ fuel → ∀ c : ℕ, c < nx * ny →
      let r := extractStats obs missing minSample gl gs inc fuel c true
      Sufficient obs missing (fun f => 0 < f) minSample gl (cellBox gl gs nx c) r ∨
      (¬ Good minSample (valuesIn obs missing (fun f => 0 < f) (wholeDomain gl)) ∧
        (Sufficient obs missing (fun f => f = 0) minSample gl (cellBox gl gs nx c) r ∨
          (r = .insufficient ∧
            ¬ Good minSample (valuesIn obs missing (fun f => f = 0) (wholeDomain gl))))) := by
  obtain ⟨N, hN⟩ := searchClass_spec obs missing (fun f => decide (f = 0)) minSample hm gl inc
    hd.ix hd.iy
  obtain ⟨M, hM⟩ := searchClass_spec obs missing (fun f => decide (0 < f)) minSample hm gl inc
    hd.ix hd.iy
  refine ⟨max N M, fun fuel hf c hc => ?_⟩
  obtain ⟨hi, hin⟩ := initialWindow_eq gl gs inc nx ny hd c hc
  have b1 : (cellBox gl gs nx c).w ≤ (cellBox gl gs nx c).e := by simp [cellBox, hd.gx.le]
  have b2 : (cellBox gl gs nx c).s ≤ (cellBox gl gs nx c).n := by simp [cellBox, hd.gy.le]
  simp only [extractStats, hi, if_true]
  rcases hM _ hin b1 b2 fuel (le_trans (le_max_right _ _) hf) with ⟨w, hw, h⟩ | ⟨hw, hbad⟩
  · left
    rw [hw]
    exact ⟨w, rfl, h⟩
  · right
    rw [hw]
    exact ⟨hbad, hN _ hin b1 b2 fuel (le_trans (le_max_left _ _) hf)⟩

/-- **C11** (StatInterface/GenerateDistributions.py): the same without land/sea classes. -/
theorem C11_distribution_sample (obs : List Obs) (missing : ℚ) (minSample : ℤ) (hm : 0 ≤ minSample)
    (gl : Limit) (gs inc : Space) (nx ny : ℕ) (hd : Divides gl gs inc nx ny) :
    ∃ N, ∀ fuel, N ≤ fuel → ∀ c : ℕ, c < nx * ny →
      let r := extractDistribution obs missing minSample gl gs inc fuel c
      Sufficient obs missing (fun _ => true) minSample gl (cellBox gl gs nx c) r ∨
      (r = .insufficient ∧
        ¬ Good minSample (valuesIn obs missing (fun _ => true) (wholeDomain gl))) := by
  obtain ⟨N, hN⟩ := searchClass_spec obs missing (fun _ => true) minSample hm gl inc hd.ix hd.iy
  refine ⟨N, fun fuel hf c hc => ?_⟩
  obtain ⟨hi, hin⟩ := initialWindow_eq gl gs inc nx ny hd c hc
  simp only [extractDistribution, hi]
  exact hN _ hin (by simp [cellBox, hd.gx.le]) (by simp [cellBox, hd.gy.le]) fuel hf

/-- **C11**: if the whole domain is sufficient then no cell fails. -/
theorem C11_never_fails_if_domain_suffices (obs : List Obs) (missing : ℚ) (minSample : ℤ)
    (hm : 0 ≤ minSample) (gl : Limit) (gs inc : Space) (nx ny : ℕ) (hd : Divides gl gs inc nx ny)
    (hg : Good minSample (valuesIn obs missing (fun f => f = 0) (wholeDomain gl))) :
    ∃ N, ∀ fuel, N ≤ fuel → ∀ c : ℕ, c < nx * ny → ∀ onLand, ∃ w p,
      extractStats obs missing minSample gl gs inc fuel c onLand = .ok w p ∧ Good minSample p := by
  obtain ⟨N, hN⟩ := C11_sea_sample obs missing minSample hm gl gs inc nx ny hd
  obtain ⟨M, hM⟩ := C11_land_sample obs missing minSample hm gl gs inc nx ny hd
  refine ⟨max N M, fun fuel hf c hc onLand => ?_⟩
  cases onLand with
  | false =>
    rcases hN fuel (le_trans (le_max_left _ _) hf) c hc with ⟨w, h, -, -, h2⟩ | ⟨-, h⟩
    · exact ⟨w, _, h, h2⟩
    · exact absurd hg h
  | true =>
    rcases hM fuel (le_trans (le_max_right _ _) hf) c hc with
      ⟨w, h, -, -, h2⟩ | ⟨-, ⟨w, h, -, -, h2⟩ | ⟨-, h⟩⟩
    · exact ⟨w, _, h, h2⟩
    · exact ⟨w, _, h, h2⟩
    · exact absurd hg h

/-- **C11**, invalid cell numbers are rejected. -/
theorem C11_invalid_cell (obs : List Obs) (missing : ℚ) (minSample : ℤ) (gl : Limit)
    (gs inc : Space) (nx ny : ℕ) (hd : Divides gl gs inc nx ny) (fuel : Nat) (onLand : Bool) (c : ℤ)
    (hc : c < 0 ∨ (nx * ny : ℕ) ≤ c) :
    extractStats obs missing minSample gl gs inc fuel c onLand = .indexError ∧
    extractDistribution obs missing minSample gl gs inc fuel c = .indexError := by
  simp [extractStats, extractDistribution, initialWindow_invalid gl gs inc nx ny hd c hc]

/-- Limits of the claim: an observation on the northern edge of the domain is accepted by the
cell numbering (`getCellNum`), but counts for no window inside the domain, so it is never used. -/
theorem C11_northern_edge_never_used (missing : ℚ) (sel : ℚ → Bool) (gl : Limit) (o : Obs)
    (ho : o.lat = gl.yMax) (w : Win) (hw : w.Inside gl) : ¬ Counts missing sel w o := by
  rintro ⟨-, -, -, h, -⟩
  have := hw.2.2.2
  linarith

/-- Concrete domain 110–114°E, 12–8°S with four 2° cells, increment 1°. -/
example : Divides ⟨110, 114, -12, -8⟩ ⟨2, 2⟩ ⟨1, 1⟩ 2 2 := by
  constructor <;> norm_num

/-- A cell with too few observations is widened: cell 0 of the same domain has one observation
and the minimum is 1, the search returns the two observations of the window grown by one round. -/
example : extractStats [⟨110.5, -9, 0, 3⟩, ⟨112.5, -9.5, 0, 5⟩, ⟨111, -9, 1, 7⟩] 9999 1
    ⟨110, 114, -12, -8⟩ ⟨2, 2⟩ ⟨1, 1⟩ 5 0 false = .ok ⟨110, 113, -8, -11⟩ [3, 5] := by
  decide +kernel

/-- One constant class: the search gives up. -/
example : extractStats [⟨110.5, -9, 0, 3⟩, ⟨112.5, -9.5, 0, 3⟩] 9999 1
    ⟨110, 114, -12, -8⟩ ⟨2, 2⟩ ⟨1, 1⟩ 9 0 false = .insufficient := by
  decide +kernel

end Tcrm.Extract
