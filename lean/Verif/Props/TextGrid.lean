import Verif.Spec.TextGrid
import Verif.Model.WindRun
import Mathlib.Tactic.Linarith
import Mathlib.Tactic.Ring
import Mathlib.Tactic.NormNum
import Mathlib.Tactic.FieldSimp
import Mathlib.Tactic.LinearCombination
/-!
C139: the export of a grid to text keeps every value at its place.
-/
namespace Tcrm.TextGrid

open Tcrm.Grid (Header)

theorem line_get {a d : ℚ} {n i : ℕ} (h : i < n) : (line a d n)[i]? = some (a + i * d) := by
  simp [line, h]

theorem line_length (a d : ℚ) (n : ℕ) : (line a d n).length = n := by simp [line]

theorem line_shift (a d s : ℚ) (n : ℕ) : (line a d n).map (fun x => x - s) = line (a - s) d n := by
  simp only [line, List.map_map, List.map_inj_left, Function.comp_apply]
  intro i _; ring

theorem line_min {a d : ℚ} (hd : 0 ≤ d) {n : ℕ} (hn : n ≠ 0) : (line a d n).min? = some a := by
  rw [List.min?_eq_some_iff]
  constructor
  · simp only [line, List.mem_map, List.mem_range]
    exact ⟨0, Nat.pos_of_ne_zero hn, by simp⟩
  · intro b hb
    simp only [line, List.mem_map, List.mem_range] at hb
    obtain ⟨i, -, rfl⟩ := hb
    have : (0 : ℚ) ≤ i * d := by positivity
    linarith

theorem line_reverse (a d : ℚ) (n : ℕ) : (line a d n).reverse = line (a + (n - 1) * d) (-d) n := by
  apply List.ext_getElem?
  intro i
  by_cases h : i < n
  · rw [line_get h, List.getElem?_reverse (by simpa [line] using h), line_length, line_get (by omega)]
    congr 1
    push_cast [Nat.cast_sub (show 1 + i ≤ n by omega), Nat.sub_sub]
    ring
  · rw [List.getElem?_eq_none (by simp [line]; omega), List.getElem?_eq_none (by simp [line]; omega)]

theorem line_neg_min {a d : ℚ} (hd : 0 ≤ d) {n : ℕ} (hn : n ≠ 0) :
    (line a (-d) n).min? = some (a - (n - 1) * d) := by
  have h := line_min (a := a - (n - 1) * d) hd hn
  have hr := line_reverse (a - (n - 1) * d) d n
  rw [show a - (n - 1) * d + (n - 1) * d = a by ring] at hr
  rw [List.min?_eq_some_iff] at h ⊢
  rw [← hr]
  simpa using h

/-- The export of a grid with at least two longitudes -/
theorem nc2txt_eq (fmt : ℚ → ℚ) (g : Nc) (a d : ℚ) (n : ℕ) (hn : 2 ≤ n) (hd : 0 ≤ d) (hlon : g.lons = line a d n)
    {y : ℚ} (hy : (g.lats.map fun y => y - d / 2).min? = some y) (mv : ℚ) :
    nc2txt fmt false g mv = .ok (⟨n, g.lats.length, a - d / 2, y, d, mv⟩, g.data.reverse.map fun row => row.map fmt) := by
  obtain ⟨m, rfl⟩ : ∃ m, n = m + 2 := ⟨n - 2, by omega⟩
  have h0 : g.lons[0]? = some a := by rw [hlon, line_get (by omega)]; simp
  have h1 : g.lons[1]? = some (a + d) := by rw [hlon, line_get (by omega)]; simp
  unfold nc2txt
  match hl : g.lons with
  | [] => rw [hl] at h0; simp at h0
  | [_] => rw [hl] at h1; simp at h1
  | x₀ :: x₁ :: rest =>
    rw [hl] at h0 h1
    simp only [List.getElem?_cons_zero, List.getElem?_cons_succ, Option.some.injEq] at h0 h1
    have e : x₁ - x₀ = d := by rw [h0, h1]; ring
    simp only [e]
    unfold grdSave
    rw [← hl, hlon, line_shift, line_min hd (by omega), hy]
    simp [line_length]

/-- A grid with square cells whose latitudes increase is exported correctly. -/
theorem C139_export_partial (fmt : ℚ → ℚ) (g : Nc) (hg : g.Shaped) (a b d : ℚ) (hd : 0 < d) (n m : ℕ) (hn : 2 ≤ n) (hm : 0 < m)
    (hlon : g.lons = line a d n) (hlat : g.lats = line b d m) (mv : ℚ) :
    ∃ h lines, nc2txt fmt false g mv = .ok (h, lines) ∧ h.nodata = mv ∧ SameMap fmt g h lines := by
  have hy : (g.lats.map fun y => y - d / 2).min? = some (b - d / 2) := by
    rw [hlat, line_shift, line_min hd.le hm.ne']
  refine ⟨_, _, nc2txt_eq fmt g a d n hn hd.le hlon hy mv, rfl, ?_, rfl, ?_, ?_⟩
  · rw [hlon, line_length]
  · intro k i row v hk hi
    rw [List.getElem?_map, Option.map_eq_some_iff] at hk
    obtain ⟨r, hr, rfl⟩ := hk
    rw [List.getElem?_map, Option.map_eq_some_iff] at hi
    obtain ⟨u, hu, rfl⟩ := hi
    have hlen : g.data.length = m := by rw [hg.1, hlat, line_length]
    have hkm : k < m := by
      have := (List.getElem?_eq_some_iff.1 hr).1
      simpa [hlen] using this
    rw [List.getElem?_reverse (by omega), hlen] at hr
    have hin : i < n := by
      have h1 := (List.getElem?_eq_some_iff.1 hu).1
      rwa [hg.2 r (List.mem_of_getElem? hr), hlon, line_length] at h1
    refine ⟨m - 1 - k, b + (m - 1 - k : ℕ) * d, a + i * d, r, u, ?_, ?_, hr, hu, rfl, ?_⟩
    · rw [hlat, line_get (by omega)]
    · rw [hlon, line_get hin]
    · simp only [centre, hlat, line_length, Prod.mk.injEq]
      rw [Nat.sub_sub, Nat.cast_sub (show 1 + k ≤ m by omega)]
      push_cast
      constructor <;> ring
  · intro j i r u hj hi
    have hjl := (List.getElem?_eq_some_iff.1 hj).1
    refine ⟨g.data.length - 1 - j, r.map fmt, ?_, by simp [hi]⟩
    rw [List.getElem?_map, List.getElem?_reverse (by omega),
      show g.data.length - 1 - (g.data.length - 1 - j) = j by omega, hj]
    rfl

/-- A grid whose latitudes decrease, as in all wind field and hazard files, is exported upside down: each line holds the values of
one latitude but is placed at the latitude of the same number from the other end. -/
theorem C139_upside_down_fails (fmt : ℚ → ℚ) (g : Nc) (hg : g.Shaped) (a b d : ℚ) (hd : 0 < d) (n m : ℕ) (hn : 2 ≤ n) (hm : 0 < m)
    (hlon : g.lons = line a d n) (hlat : g.lats = line b (-d) m) (mv : ℚ) :
    ∃ h lines, nc2txt fmt false g mv = .ok (h, lines) ∧ lines.length = m ∧
      (∀ (k i : ℕ), k < m → i < n → centre h k i = (a + i * d, b - k * d) ∧
        ∃ r, g.data[m - 1 - k]? = some r ∧ lines[k]? = some (r.map fmt)) ∧
      ((∃ k < m, ∃ r r' : List ℚ, g.data[k]? = some r ∧ g.data[m - 1 - k]? = some r' ∧ r.map fmt ≠ r'.map fmt) →
        ¬ SameMap fmt g h lines) := by
  have hy : (g.lats.map fun y => y - d / 2).min? = some (b - d / 2 - (m - 1) * d) := by
    rw [hlat, line_shift, line_neg_min hd.le hm.ne']
  have hlen : g.data.length = m := by rw [hg.1, hlat, line_length]
  have hc : ∀ k i : ℕ, centre ⟨n, g.lats.length, a - d / 2, b - d / 2 - (m - 1) * d, d, mv⟩ k i = (a + i * d, b - k * d) := by
    intro k i
    simp only [centre, hlat, line_length, Prod.mk.injEq]
    constructor <;> ring
  refine ⟨_, _, nc2txt_eq fmt g a d n hn hd.le hlon hy mv, by simp [hlen], ?_, ?_⟩
  · intro k i hk hi
    refine ⟨hc k i, ?_⟩
    have hk' : m - 1 - k < g.data.length := by omega
    refine ⟨g.data[m - 1 - k], by simp [hk'], ?_⟩
    rw [List.getElem?_map, List.getElem?_reverse (by omega), hlen]
    simp [hk']
  · rintro ⟨k, hk, r, r', hr, hr', hne⟩ ⟨-, -, hs, -⟩
    have hline : (g.data.reverse.map fun row => row.map fmt)[k]? = some (r'.map fmt) := by
      rw [List.getElem?_map, List.getElem?_reverse (by omega), hlen, hr']; rfl
    have l1 : r.length = n := by rw [hg.2 r (List.mem_of_getElem? hr), hlon, line_length]
    have l2 : r'.length = n := by rw [hg.2 r' (List.mem_of_getElem? hr'), hlon, line_length]
    apply hne
    apply List.ext_getElem?
    intro i
    by_cases hi : i < n
    · have hv : (r'.map fmt)[i]? = some (fmt r'[i]) := by simp [l2, hi]
      obtain ⟨j, y, x, q, u, hy1, hx1, hq, hu, hfu, hcc⟩ := hs k i _ _ hline hv
      rw [hc, Prod.mk.injEq] at hcc
      have hj : j < m := by
        have := (List.getElem?_eq_some_iff.1 hq).1
        omega
      rw [hlat, line_get hj, Option.some.injEq] at hy1
      have : (j : ℚ) = k := by
        have h2 : (j : ℚ) * d = k * d := by linarith [hcc.2]
        exact mul_right_cancel₀ hd.ne' h2
      have hjk : j = k := by exact_mod_cast this
      subst hjk
      rw [hr, Option.some.injEq] at hq
      subst hq
      rw [hv, hfu, List.getElem?_map, hu]
      rfl
    · rw [List.getElem?_eq_none (by simp; omega), List.getElem?_eq_none (by simp; omega)]

/-- The latitudes of every wind field file decrease and are equally spaced, so the export of wind fields is the one above. -/
theorem C139_wind_fields_descend (f : ℕ → ℕ → Windfield.Cell) (lons : List ℤ) (lo hi margin resolution : ℚ) :
    ∃ b m, (WindRun.toFile f lons (Windfield.regionAxis lo hi margin resolution)).lats.map (fun y : ℤ => (y : ℚ) / 100) =
      line b (-((Windfield.pyInt (100 * resolution) : ℤ) / 100)) m := by
  generalize hr : Windfield.pyInt (100 * resolution) = r
  simp only [WindRun.toFile, Windfield.regionAxis, Windfield.arange, hr, List.map_reverse, List.map_map]
  generalize Windfield.pyInt (100 * lo) - Windfield.pyInt (100 * margin) = a
  generalize (-((a - (Windfield.pyInt (100 * hi) + Windfield.pyInt (100 * margin) + r)) / r)).toNat = m
  refine ⟨(a : ℚ) / 100 + (m - 1) * (r / 100), m, ?_⟩
  rw [← line_reverse]
  congr 1
  simp only [line, List.map_inj_left, Function.comp_apply]
  intro i _
  push_cast
  ring

/-- Latitudes at another distance than longitudes: the export is wrong too. -/
theorem C139_rectangular_fails (fmt : ℚ → ℚ) (g : Nc) (hg : g.Shaped) (a b d e : ℚ) (hd : 0 < d) (he : 0 < e) (hde : d ≠ e)
    (n m : ℕ) (hn : 2 ≤ n) (hm : 2 ≤ m) (hlon : g.lons = line a d n) (hlat : g.lats = line b e m) (mv : ℚ) :
    ∃ h lines, nc2txt fmt false g mv = .ok (h, lines) ∧ ¬ SameMap fmt g h lines := by
  have hy : (g.lats.map fun y => y - d / 2).min? = some (b - d / 2) := by
    rw [hlat, line_shift, line_min he.le (by omega)]
  have hlen : g.data.length = m := by rw [hg.1, hlat, line_length]
  refine ⟨_, _, nc2txt_eq fmt g a d n hn hd.le hlon hy mv, ?_⟩
  rintro ⟨-, -, hs, -⟩
  have key : ∀ k < m, ∃ j < m, ((m : ℚ) - 1 - k) * d = j * e := by
    intro k hk
    have hk' : m - 1 - k < g.data.length := by omega
    have hline : (g.data.reverse.map fun row => row.map fmt)[k]? = some ((g.data[m - 1 - k]).map fmt) := by
      rw [List.getElem?_map, List.getElem?_reverse (by omega), hlen]; simp [hk']
    have l : (g.data[m - 1 - k]).length = n := by
      rw [hg.2 _ (List.getElem_mem hk'), hlon, line_length]
    have hv : ((g.data[m - 1 - k]).map fmt)[0]? = some (fmt (g.data[m - 1 - k][0])) := by
      rw [List.getElem?_map, List.getElem?_eq_getElem (by omega)]; rfl
    obtain ⟨j, y, x, q, u, hy1, hx1, hq, hu, hfu, hcc⟩ := hs k 0 _ _ hline hv
    have hj : j < m := by
      have := (List.getElem?_eq_some_iff.1 hq).1
      omega
    rw [hlat, line_get hj, Option.some.injEq] at hy1
    refine ⟨j, hj, ?_⟩
    simp only [centre, hlat, line_length, Prod.mk.injEq] at hcc
    linear_combination hcc.2 - hy1
  obtain ⟨j, hj, h1⟩ := key 0 (by omega)
  obtain ⟨j', hj', h2⟩ := key (m - 2) (by omega)
  rw [Nat.cast_sub hm] at h2
  push_cast at h1 h2
  -- h2 : d = j' e with j' ≥ 1, h1 : (m - 1) d = j e with j ≤ m - 1
  have h2' : d = j' * e := by linear_combination h2
  have j1 : 1 ≤ j' := by
    by_contra hc
    have : j' = 0 := by omega
    subst this
    rw [h2'] at hd; simp at hd
  have hm1 : (0 : ℚ) < (m : ℚ) - 1 := by
    have : (2 : ℚ) ≤ m := by exact_mod_cast hm
    linarith
  have hjm : (j : ℚ) ≤ m - 1 := by
    have : (j : ℚ) + 1 ≤ m := by exact_mod_cast hj
    linarith
  have h3 : ((m : ℚ) - 1) * (j' : ℚ) = j := by
    have : (((m : ℚ) - 1) * j') * e = j * e := by linear_combination h1 - ((m : ℚ) - 1) * h2'
    exact mul_right_cancel₀ he.ne' this
  have j1' : (1 : ℚ) ≤ j' := by exact_mod_cast j1
  have : (j' : ℚ) ≤ 1 := by
    by_contra hc
    push Not at hc
    nlinarith
  have hj1 : (j' : ℚ) = 1 := le_antisymm this j1'
  rw [hj1, one_mul] at h2'
  exact hde h2'

/-- An export over an existing file always raises. -/
theorem C139_overwrite_fails (fmt : ℚ → ℚ) (g : Nc) (mv : ℚ) : ∃ e, nc2txt fmt true g mv = .error e := by
  unfold nc2txt
  split
  · exact ⟨.nameError, rfl⟩
  · exact ⟨.indexError, rfl⟩

/-- A text grid written for latitudes from the north and square cells reads back as the same grid: coordinates and the values as
printed, missing values as not-a-number. -/
theorem C139_read_back (fmt : ℚ → ℚ) (data : List (List ℚ)) (a b d nodata : ℚ) (hd : 0 ≤ d) (n m : ℕ) (hn : 0 < n) (hm : 0 < m) :
    ∃ h lines, grdSave fmt false data (line a d n) (line b (-d) m) d nodata = .ok (h, lines) ∧
      Grid.grdRead h lines = ⟨line a d n, line b (-d) m,
        data.map fun row => row.map fun x => if fmt x = nodata then none else some (fmt x)⟩ := by
  unfold grdSave
  rw [line_min hd hn.ne', line_neg_min hd hm.ne']
  refine ⟨_, _, rfl, ?_⟩
  unfold Grid.grdRead
  simp only [line_length]
  have e1 : (List.range n).map (fun i : ℕ => (i : ℚ) * d + a) = line a d n := by
    simp only [line, List.map_inj_left]; intro i _; ring
  have e2 : ((List.range m).map (fun i : ℕ => (i : ℚ) * d + (b - (m - 1) * d))).reverse = line b (-d) m := by
    have : (List.range m).map (fun i : ℕ => (i : ℚ) * d + (b - (m - 1) * d)) = line (b - (m - 1) * d) d m := by
      simp only [line, List.map_inj_left]; intro i _; ring
    rw [this, line_reverse]; congr 1; ring
  rw [e1, e2]
  simp [List.map_map, Function.comp_def]

/-! ### Examples -/

deriving instance DecidableEq for Grid.Header

/-- Three longitudes, two latitudes -/
def demo (b d : ℚ) : Nc := ⟨line b d 2, line 110 (1 / 2) 3, [[1, 2, 3], [4, 5, 6]]⟩

-- From the south the export is right ...
example : (nc2txt id false (demo (-20) (1 / 2)) (-9999)).toOption =
    some (⟨3, 2, 110 - 1 / 4, -20 - 1 / 4, 1 / 2, -9999⟩, [[4, 5, 6], [1, 2, 3]]) := by decide +kernel

-- ... from the north it is upside down: the first line has to be [1, 2, 3].
example : (nc2txt id false (demo (-20) (-1 / 2)) (-9999)).toOption =
    some (⟨3, 2, 110 - 1 / 4, -20 - 1 / 2 - 1 / 4, 1 / 2, -9999⟩, [[4, 5, 6], [1, 2, 3]]) := by decide +kernel

example (b d : ℚ) : (demo b d).Shaped := ⟨by simp [demo, line_length], by simp [demo, line_length]⟩

end Tcrm.TextGrid
