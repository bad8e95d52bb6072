import Verif.Model.CellStats
import Verif.Spec.CellStats
import Verif.Spec.Extract
import Verif.Props.Extract
import Verif.Props.Acf
import Verif.Props.Circular
import Verif.Props.Cells
import Verif.Lemmas.GustFiles
/-!
C135: the statistics a storm uses are those of the observations of its cell.
-/
namespace Tcrm.CellStats
open Tcrm.Extract Tcrm.Cells

theorem calculate_spec (angular : Bool) {p : List ℚ} (h : ∃ a ∈ p, ∃ b ∈ p, a ≠ b) : ∃ f, calculate angular p = some f ∧
    Correlated (reals p) f.alpha f.phi ∧
    (angular = false → Describes (reals p) f.mu f.sig) ∧ (angular = true → DescribesAngles (reals p) f.mu f.sig) := by
  obtain ⟨a, ha, b, hb, hab⟩ := h
  have hne : reals p ≠ [] := by intro h; rw [reals, List.map_eq_nil_iff] at h; rw [h] at ha; simp at ha
  obtain ⟨alpha, phi, hc, he, h1, h2, h3, -, h5⟩ := Acf.C12_coefficients (reals p)
    ⟨a, List.mem_map_of_mem ha, b, List.mem_map_of_mem hb, by exact_mod_cast hab⟩
  obtain ⟨mn, hmn⟩ : ∃ mn, (reals p).min? = some mn := by
    cases hm : (reals p).min? with
    | none => exact absurd (List.min?_eq_none_iff.1 hm) hne
    | some mn => exact ⟨mn, rfl⟩
  have hn : (0 : ℝ) < (reals p).length := by exact_mod_cast List.length_pos_of_ne_nil hne
  refine ⟨_, by
    simp only [calculate]
    rw [show (p.map fun q : ℚ => (q : ℝ)) = reals p from rfl, hc, hmn], ⟨?_, h1, h2, h3, h5⟩, ?_, ?_⟩
  · have e0 : Acf.lag (reals p) 0 = ((reals p).map fun x => x ^ 2).sum := Acf.lag_zero _
    have e1 : Acf.lag (reals p) 1 = (List.zipWith (· * ·) (reals p).tail (reals p)).sum := by
      rw [Acf.lag, List.drop_one]
    simp only
    rw [he, e0, e1]
    have : ((reals p).map fun x => x ^ 2).sum ≠ 0 := by
      intro hz
      have hall : ∀ l : List ℝ, (l.map fun x => x ^ 2).sum = 0 → ∀ x ∈ l, x = 0 := by
        intro l hl x hx
        have hnn : ∀ y ∈ l.map fun x => x ^ 2, (0 : ℝ) ≤ y := by
          intro y hy; obtain ⟨z, -, rfl⟩ := List.mem_map.1 hy; positivity
        have := (List.single_le_sum hnn (x ^ 2) (List.mem_map_of_mem (f := fun x : ℝ => x ^ 2) hx))
        rw [hl] at this
        exact pow_eq_zero_iff (n := 2) (by norm_num) |>.1 (le_antisymm this (by positivity))
      have ea := hall _ hz (a : ℝ) (List.mem_map_of_mem ha)
      have eb := hall _ hz (b : ℝ) (List.mem_map_of_mem hb)
      apply hab
      have : (a : ℝ) = b := by rw [ea, eb]
      exact_mod_cast this
    field_simp
  · rintro rfl
    simp only [Bool.false_eq_true, if_false]
    refine ⟨by unfold mean; field_simp, Real.sqrt_nonneg _, ?_⟩
    have hnn : 0 ≤ ((reals p).map fun x => (x - mean (reals p)) ^ 2).sum := by
      refine List.sum_nonneg fun y hy => ?_
      obtain ⟨z, -, rfl⟩ := List.mem_map.1 hy
      positivity
    rw [std, mean, List.length_map, Real.sq_sqrt (by positivity)]
    field_simp
  · rintro rfl
    simp only [if_true]
    have hne' : (reals p).map radians ≠ [] := by simpa using hne
    obtain ⟨r0, r1⟩ := Circular.C136_range ((reals p).map radians)
    have hsum : ∀ (l : List ℝ) (m : ℝ), (l.map fun x => 1 - Real.cos (x * Real.pi / 180 - m)).sum =
        l.length - ((l.map radians).map fun a => Real.cos (a - m)).sum := by
      intro l m
      induction l with
      | nil => simp
      | cons x l ih =>
        simp only [List.map_cons, List.sum_cons, List.length_cons, ih, radians]
        push_cast
        ring
    refine ⟨r0, r1, fun m => ?_, ?_, ?_⟩
    · rw [hsum, hsum]
      have := (Circular.C136_closest _ hne' m).1
      linarith
    · exact (Circular.C136_spread _ hne').1
    · rw [hsum, Circular.circstd_eq, Real.sq_sqrt (by linarith [Circular.norm_resultant_le ((reals p).map radians)])]
      rw [Circular.sum_cos _ _ hne', List.length_map]
      have e : (Circular.resultant ((reals p).map radians) *
          Complex.exp (-(Complex.I * ((Circular.circmean ((reals p).map radians) (2 * Real.pi) 0 : ℝ) : ℂ)))).re =
          ‖Circular.resultant ((reals p).map radians)‖ := by
        conv_lhs => rw [Circular.resultant_polar]
        rw [mul_assoc, ← Complex.exp_add, Complex.re_ofReal_mul, add_neg_cancel, Complex.exp_zero, Complex.one_re, mul_one]
      rw [e]
      ring

theorem mapM_some {α β : Type} {f : α → Option β} {g : α → β} : ∀ {l : List α}, (∀ a ∈ l, f a = some (g a)) →
    l.mapM f = some (l.map g) := by
  intro l h
  rw [GustFiles.mapM_option_eq_some]
  induction l with
  | nil => exact List.Forall₂.nil
  | cons a l ih => exact List.Forall₂.cons (h a (by simp)) (ih fun b hb => h b (List.mem_cons_of_mem _ hb))

theorem flatten_chunks {α : Type} (nx : ℕ) : ∀ (ny : ℕ) (l : List α), l.length = ny * nx →
    ((List.range ny).map fun j => (l.drop (j * nx)).take nx).flatten = l
  | 0, l, h => by
    simp only [Nat.zero_mul, List.length_eq_zero_iff] at h
    subst h; rfl
  | ny + 1, l, h => by
    rw [List.range_succ_eq_map, List.map_cons, List.map_map, List.flatten_cons, Nat.zero_mul, List.drop_zero]
    have ih := flatten_chunks nx ny (l.drop nx) (by rw [List.length_drop, h, Nat.succ_mul]; omega)
    have e : (List.range ny).map ((fun j => (l.drop (j * nx)).take nx) ∘ Nat.succ) =
        (List.range ny).map fun j => ((l.drop nx).drop (j * nx)).take nx := by
      refine List.map_congr_left fun j _ => ?_
      simp only [Function.comp_apply, List.drop_drop]
      rw [Nat.succ_mul, Nat.add_comm]
    rw [e, ih, List.take_append_drop]

theorem reshape_some {α : Type} {ny nx : ℕ} {l : List α} (h : l.length = ny * nx) :
    reshape ny nx l = some ((List.range ny).map fun j => (l.drop (j * nx)).take nx) := if_pos h

/-- The ten names of the coefficients. -/
def names : List String := ["mu", "alpha", "sig", "min", "lmu", "lalpha", "lsig", "lmin", "phi", "lphi"]

/-- Saving and loading. -/
theorem save_spec (gl : Limit) (gs : Space) (a : Attrs)
    (h : ∀ v ∈ names, (a v).length = arangeSize gl.yMax gl.yMin (-gs.y) * arangeSize gl.xMin gl.xMax gs.x) :
    ∃ f, save gl gs a = some f ∧
      f.lat = ((List.range (arangeSize gl.yMax gl.yMin (-gs.y))).map fun j : ℕ => gl.yMax - j * gs.y) ∧
      f.lon = ((List.range (arangeSize gl.xMin gl.xMax gs.x)).map fun i : ℕ => gl.xMin + i * gs.x) ∧
      f.vars = names.map (fun v => (v, (List.range (arangeSize gl.yMax gl.yMin (-gs.y))).map fun j =>
        ((a v).drop (j * arangeSize gl.xMin gl.xMax gs.x)).take (arangeSize gl.xMin gl.xMax gs.x))) ∧
      ∀ b : Attrs, ∀ v ∈ names, load b f v = a v := by
  set nx := arangeSize gl.xMin gl.xMax gs.x
  set ny := arangeSize gl.yMax gl.yMin (-gs.y)
  have hm : (names.mapM fun v => (reshape ny nx (a v)).map fun rows => (v, rows)) =
      some (names.map fun v => (v, (List.range ny).map fun j => ((a v).drop (j * nx)).take nx)) :=
    mapM_some fun v hv => by rw [reshape_some (h v hv)]; rfl
  refine ⟨_, by simp only [save]; rw [show (["mu", "alpha", "sig", "min", "lmu", "lalpha", "lsig", "lmin", "phi", "lphi"] : List String) = names from rfl, hm], ?_, rfl, rfl, ?_⟩
  · exact List.map_congr_left fun j _ => by ring
  · intro b v hv
    have hflat : ∀ v ∈ names, ((List.range ny).map fun j => ((a v).drop (j * nx)).take nx).flatten = a v :=
      fun v hv => flatten_chunks nx ny _ (h v hv)
    simp only [load]
    rw [List.foldl_map]
    have gen : ∀ (l : List String) (b : Attrs), (∀ v ∈ l, v ∈ names) → v ∈ l →
        (l.foldl (fun (b : Attrs) (v : String) => setattr b v ((List.range ny).map fun j => ((a v).drop (j * nx)).take nx).flatten) b) v = a v := by
      have gen0 : ∀ (l : List String) (b : Attrs), (∀ v ∈ l, v ∈ names) → (v ∈ l ∨ b v = a v) →
          (l.foldl (fun (b : Attrs) (v : String) => setattr b v ((List.range ny).map fun j => ((a v).drop (j * nx)).take nx).flatten) b) v = a v := by
        intro l
        induction l with
        | nil => intro b _ h; simpa using h
        | cons w l ih =>
          intro b hl hv
          rw [List.foldl_cons]
          refine ih _ (fun v hv => hl v (List.mem_cons_of_mem _ hv)) ?_
          by_cases hw : v = w
          · right
            subst hw
            rw [setattr, if_pos rfl, hflat v (hl v (by simp))]
          · rcases hv with hv | hv
            · left
              rcases List.mem_cons.1 hv with hv | hv
              · exact absurd hv hw
              · exact hv
            · right; rw [setattr, if_neg hw]; exact hv
      exact fun l b hl hv => gen0 l b hl (Or.inl hv)
    exact gen names b (fun _ h => h) hv

theorem sizes {gl : Limit} {gs inc : Space} {nx ny : ℕ} (hd : Divides gl gs inc nx ny) :
    arangeSize gl.xMin gl.xMax gs.x = nx ∧ arangeSize gl.yMax gl.yMin (-gs.y) = ny ∧
      maxCellNum gl gs = (ny * nx : ℕ) - 1 := by
  have h1 : arangeSize gl.xMin gl.xMax gs.x = nx := by rw [hd.x]; exact arangeSize_up' _ _ _ hd.gx
  have h2 : arangeSize gl.yMax gl.yMin (-gs.y) = ny := by rw [hd.y]; exact arangeSize_down' _ _ _ hd.gy
  refine ⟨h1, h2, ?_⟩
  rw [maxCellNum, h1, h2]
  push_cast
  ring

theorem ofCell_spec (J : Job) {nx ny : ℕ} (hd : Divides J.gl J.gs J.inc nx ny) (hm : 0 ≤ J.minSample)
    (hg : Good J.minSample (valuesIn J.obs J.missing (fun f => f = 0) (wholeDomain J.gl))) :
    ∃ N, ∀ fuel, N ≤ fuel → ∀ c : ℕ, c < nx * ny → ∀ onLand, ∃ f, ofCell J fuel c onLand = some f ∧
      RightFor J nx c onLand ⟨f.alpha, f.phi, f.mu, f.sig⟩ := by
  obtain ⟨N, hN⟩ := C11_sea_sample J.obs J.missing J.minSample hm J.gl J.gs J.inc nx ny hd
  obtain ⟨M, hM⟩ := C11_land_sample J.obs J.missing J.minSample hm J.gl J.gs J.inc nx ny hd
  refine ⟨max N M, fun fuel hf c hc onLand => ?_⟩
  have fin : ∀ (sel : ℚ → Bool), Sufficient J.obs J.missing sel J.minSample J.gl (cellBox J.gl J.gs nx c)
      (extractStats J.obs J.missing J.minSample J.gl J.gs J.inc fuel c onLand) →
      (onLand = false → ∀ f, sel f = true ↔ f = 0) →
      (onLand = true → (∀ f, sel f = true ↔ 0 < f) ∨ ((∀ f, sel f = true ↔ f = 0) ∧
        ¬ Good J.minSample (valuesIn J.obs J.missing (fun f => 0 < f) (wholeDomain J.gl)))) →
      ∃ f, ofCell J fuel c onLand = some f ∧ RightFor J nx c onLand ⟨f.alpha, f.phi, f.mu, f.sig⟩ := by
    rintro sel ⟨w, hw, h1, h2, h3⟩ h4 h5
    obtain ⟨f, hf, hc1, hc2, hc3⟩ := calculate_spec J.angular h3.2
    exact ⟨f, by rw [ofCell, hw]; exact hf, w, sel, h1, h2, h3, h4, h5, hc1, hc2, hc3⟩
  cases onLand with
  | false =>
    rcases hN fuel (le_trans (le_max_left _ _) hf) c hc with h | ⟨-, h⟩
    · exact fin _ h (fun _ f => by simp) (by simp)
    · exact absurd hg h
  | true =>
    rcases hM fuel (le_trans (le_max_right _ _) hf) c hc with h | ⟨hn, h | ⟨-, h⟩⟩
    · exact fin _ h (by simp) (fun _ => Or.inl fun f => by simp)
    · exact fin _ h (by simp) (fun _ => Or.inr ⟨fun f => by simp, hn⟩)
    · exact absurd hg h

/-- C135: in every grid of two or more cells whose domain has enough observations, calibration writes a file with the
axes of the grid, and for every cell the track generator reads from it, over sea and over land, the coefficients of the
observations around that cell. -/
theorem C135_statistics (J : Job) {nx ny : ℕ} (hd : Divides J.gl J.gs J.inc nx ny) (h2 : 2 ≤ nx * ny)
    (hm : 0 ≤ J.minSample) (hg : Good J.minSample (valuesIn J.obs J.missing (fun f => f = 0) (wholeDomain J.gl))) :
    ∃ N, ∀ fuel, N ≤ fuel → ∃ f, stage J fuel = some f ∧
      f.lat = ((List.range ny).map fun j : ℕ => J.gl.yMax - j * J.gs.y) ∧
      f.lon = ((List.range nx).map fun i : ℕ => J.gl.xMin + i * J.gs.x) ∧
      ∀ c : ℕ, c < nx * ny → ∀ onLand, ∃ k, coef (loaded J.gl J.gs f) onLand c = some k ∧ RightFor J nx c onLand k := by
  obtain ⟨N, hN⟩ := ofCell_spec J hd hm hg
  obtain ⟨s1, s2, s3⟩ := sizes hd
  refine ⟨N, fun fuel hf => ?_⟩
  haveI : Nonempty Five := ⟨⟨0, 0, 0, 0, 0⟩⟩
  choose! g hg1 hg2 using fun c => fun onLand => fun hc => hN fuel hf c hc onLand
  have hn : (maxCellNum J.gl J.gs + 1).toNat = ny * nx := by rw [s3]; omega
  have hmm : ∀ b, ((List.range (ny * nx)).mapM fun c => ofCell J fuel c b) = some ((List.range (ny * nx)).map fun c => g c b) :=
    fun b => mapM_some fun c hc => hg1 c b (by rw [Nat.mul_comm]; exact List.mem_range.1 hc)
  have hcalc := calculateStatistics.eq_def J fuel
  simp only [hn, hmm] at hcalc
  set a : Attrs := fun name =>
      if name = "mu" then ((List.range (ny * nx)).map fun c => g c false).map (·.mu)
      else if name = "sig" then ((List.range (ny * nx)).map fun c => g c false).map (·.sig)
      else if name = "alpha" then ((List.range (ny * nx)).map fun c => g c false).map (·.alpha)
      else if name = "phi" then ((List.range (ny * nx)).map fun c => g c false).map (·.phi)
      else if name = "min" then ((List.range (ny * nx)).map fun c => g c false).map (·.mn)
      else if name = "lmu" then ((List.range (ny * nx)).map fun c => g c true).map (·.mu)
      else if name = "lsig" then ((List.range (ny * nx)).map fun c => g c true).map (·.sig)
      else if name = "lalpha" then ((List.range (ny * nx)).map fun c => g c true).map (·.alpha)
      else if name = "lphi" then ((List.range (ny * nx)).map fun c => g c true).map (·.phi)
      else if name = "lmin" then ((List.range (ny * nx)).map fun c => g c true).map (·.mn)
      else [] with ha
  have hlen : ∀ v ∈ names, (a v).length = arangeSize J.gl.yMax J.gl.yMin (-J.gs.y) * arangeSize J.gl.xMin J.gl.xMax J.gs.x := by
    rw [s1, s2]
    intro v hv
    simp only [names, List.mem_cons, List.not_mem_nil, or_false] at hv
    rcases hv with rfl | rfl | rfl | rfl | rfl | rfl | rfl | rfl | rfl | rfl <;> simp [ha]
  obtain ⟨f, hf1, hf2, hf3, -, hf5⟩ := save_spec J.gl J.gs a hlen
  refine ⟨f, ?_, by rw [hf2, s2], by rw [hf3, s1], ?_⟩
  · have hp : ∃ cols, plotColumns (maxCellNum J.gl J.gs).toNat = some cols := by
      unfold plotColumns
      rw [if_neg (by rw [s3]; rw [Nat.mul_comm] at h2; omega)]
      exact ⟨_, rfl⟩
    obtain ⟨cols, hp⟩ := hp
    simp only [stage, hcalc, hp, hf1]
  · intro c hc onLand
    have hc' : c < ny * nx := by rw [Nat.mul_comm]; exact hc
    have hget : ∀ (φ : Five → ℝ) (b : Bool), (((List.range (ny * nx)).map fun c => g c b).map φ)[c]? = some (φ (g c b)) := by
      intro φ b
      rw [List.getElem?_map, List.getElem?_map, List.getElem?_range hc']; rfl
    refine ⟨⟨(g c onLand).alpha, (g c onLand).phi, (g c onLand).mu, (g c onLand).sig⟩, ?_, hg2 c onLand hc⟩
    cases onLand with
    | false =>
      simp only [coef, loaded, Bool.false_eq_true, if_false]
      rw [hf5 _ "alpha" (by decide), hf5 _ "phi" (by decide), hf5 _ "mu" (by decide), hf5 _ "sig" (by decide)]
      simp [ha, hc']
    | true =>
      simp only [coef, loaded, if_true]
      rw [hf5 _ ("l" ++ "alpha") (by decide), hf5 _ ("l" ++ "phi") (by decide), hf5 _ ("l" ++ "mu") (by decide),
        hf5 _ ("l" ++ "sig") (by decide)]
      simp [ha, hc', show "l" ++ "alpha" = "lalpha" by decide, show "l" ++ "phi" = "lphi" by decide,
        show "l" ++ "mu" = "lmu" by decide, show "l" ++ "sig" = "lsig" by decide]

/-- A domain 110–114°E, 12–8°S of four cells with two observations over sea and more than one wanted. -/
example (angular : Bool) : ∃ N, ∀ fuel, N ≤ fuel → ∃ f,
    stage ⟨[⟨110.5, -9, 0, 3⟩, ⟨112.5, -9.5, 0, 5⟩, ⟨111, -9, 1, 7⟩], 9999, 1, ⟨110, 114, -12, -8⟩, ⟨2, 2⟩, ⟨1, 1⟩, angular⟩
      fuel = some f ∧ f.lon = [110, 112] := by
  obtain ⟨N, hN⟩ := C135_statistics
    ⟨[⟨110.5, -9, 0, 3⟩, ⟨112.5, -9.5, 0, 5⟩, ⟨111, -9, 1, 7⟩], 9999, 1, ⟨110, 114, -12, -8⟩, ⟨2, 2⟩, ⟨1, 1⟩, angular⟩
    (nx := 2) (ny := 2) (by constructor <;> norm_num) (by norm_num) (by norm_num) (by
      have : valuesIn [⟨110.5, -9, 0, 3⟩, ⟨112.5, -9.5, 0, 5⟩, ⟨111, -9, 1, 7⟩] 9999 (fun f => f = 0)
          (wholeDomain ⟨110, 114, -12, -8⟩) = [3, 5] := by decide +kernel
      simp only [this]
      exact ⟨by simp, 3, by simp, 5, by simp, by norm_num⟩)
  refine ⟨N, fun fuel hf => ?_⟩
  obtain ⟨f, h1, -, h3, -⟩ := hN fuel hf
  exact ⟨f, h1, by rw [h3]; norm_num [List.range_succ]⟩

/-- C135: each variable of the file shows the value of a cell in the row and column of the cell. -/
theorem C135_map (gl : Limit) (gs inc : Space) {nx ny : ℕ} (hd : Divides gl gs inc nx ny) (hx : 0 < nx) (a : Attrs)
    (ha : ∀ v ∈ names, (a v).length = ny * nx) :
    ∃ f, save gl gs a = some f ∧ f.vars.map (·.1) = names ∧ ∀ v rows, (v, rows) ∈ f.vars → ∀ c, c < nx * ny →
      (rows[c / nx]?.bind fun r => r[c % nx]?) = (a v)[c]? ∧ f.lon[c % nx]? = some (cellBox gl gs nx c).w ∧
      f.lat[c / nx]? = some (cellBox gl gs nx c).n := by
  obtain ⟨s1, s2, -⟩ := sizes hd
  obtain ⟨f, h1, h2, h3, h4, -⟩ := save_spec gl gs a (by rw [s1, s2]; exact ha)
  rw [s2] at h2
  rw [s1] at h3
  rw [s1, s2] at h4
  refine ⟨f, h1, by rw [h4, List.map_map]; simp [Function.comp_def], ?_⟩
  intro v rows hv c hc
  rw [h4, List.mem_map] at hv
  obtain ⟨v', hv', he⟩ := hv
  obtain ⟨rfl, rfl⟩ := Prod.mk.injEq .. ▸ he
  have hj : c / nx < ny := by rw [Nat.div_lt_iff_lt_mul hx, Nat.mul_comm]; exact hc
  have hi : c % nx < nx := Nat.mod_lt _ hx
  refine ⟨?_, ?_, ?_⟩
  · rw [List.getElem?_map, List.getElem?_range hj]
    simp only [Option.map_some, Option.bind_some]
    rw [List.getElem?_take_of_lt hi, List.getElem?_drop, Nat.div_add_mod']
  · rw [h3, List.getElem?_map, List.getElem?_range hi]; rfl
  · rw [h2, List.getElem?_map, List.getElem?_range hj]; rfl

/-- C135 for a storm at a position in a domain of whole degrees on one side of the Greenwich meridian and of the
equator (elsewhere cell numbers are wrong, see C09): its coefficients are those of the observations around the cell
that contains it. -/
theorem C135_storm_partial (J : Job) (x0 y0 : ℤ) (nx ny dx dy : ℕ) (hdx : 0 < dx) (hdy : 0 < dy) (h2 : 2 ≤ nx * ny)
    (hX : OneSided x0 (x0 + nx * dx)) (hY : OneSided y0 (y0 + ny * dy))
    (hgl : J.gl = ⟨x0, (x0 + nx * dx : ℤ), y0, (y0 + ny * dy : ℤ)⟩) (hgs : J.gs = ⟨dx, dy⟩) (hix : 0 < J.inc.x)
    (hiy : 0 < J.inc.y) (hm : 0 ≤ J.minSample)
    (hg : Good J.minSample (valuesIn J.obs J.missing (fun f => f = 0) (wholeDomain J.gl))) :
    ∃ N, ∀ fuel, N ≤ fuel → ∃ f, stage J fuel = some f ∧
      ∀ (lon lat : ℚ), (x0 : ℚ) ≤ lon → lon < ((x0 + nx * dx : ℤ) : ℚ) → (y0 : ℚ) < lat →
        lat ≤ ((y0 + ny * dy : ℤ) : ℚ) → ∀ onLand, ∃ (c : ℕ) (k : Coef), getCellNum lon lat J.gl J.gs = .ok (c : ℤ) ∧
          coef (loaded J.gl J.gs f) onLand c = some k ∧ RightFor J nx c onLand k ∧
          (cellBox J.gl J.gs nx c).w ≤ lon ∧ lon < (cellBox J.gl J.gs nx c).e ∧
          (cellBox J.gl J.gs nx c).s < lat ∧ lat ≤ (cellBox J.gl J.gs nx c).n := by
  have hd : Divides J.gl J.gs J.inc nx ny := by
    rw [hgl, hgs]
    exact ⟨by simpa using hdx, by simpa using hdy, hix, hiy, by push_cast; ring, by push_cast; ring⟩
  obtain ⟨N, hN⟩ := C135_statistics J hd h2 hm hg
  refine ⟨N, fun fuel hf => ?_⟩
  obtain ⟨f, h1, -, -, h4⟩ := hN fuel hf
  refine ⟨f, h1, fun lon lat a1 a2 a3 a4 onLand => ?_⟩
  obtain ⟨k, l, hk, hl, hc, hr, hn, -⟩ := C09_cell_number_partial x0 y0 nx ny dx dy hdx hdy hX hY lon lat a1 a2 a3 a4
  have hlt : l * nx + k < nx * ny := by
    calc l * nx + k < l * nx + nx := by omega
      _ = (l + 1) * nx := by ring
      _ ≤ ny * nx := Nat.mul_le_mul_right _ hl
      _ = nx * ny := Nat.mul_comm _ _
  obtain ⟨co, e1, e2⟩ := h4 (l * nx + k) hlt onLand
  have hm1 : (l * nx + k) % nx = k := by rw [Nat.mul_add_mod', Nat.mod_eq_of_lt hk]
  have hm2 : (l * nx + k) / nx = l := by
    rw [Nat.mul_comm, Nat.mul_add_div (by omega), Nat.div_eq_of_lt hk, Nat.add_zero]
  refine ⟨l * nx + k, co, by rw [hgl, hgs]; exact hn, e1, e2, ?_⟩
  obtain ⟨c1, c2⟩ := hc
  obtain ⟨r1, r2⟩ := hr
  simp only [cellBox, hm1, hm2, hgl, hgs]
  refine ⟨c1, by linarith, by linarith, r2⟩

/-- A domain of one cell gets no statistics: the plot that precedes the file fails. -/
theorem C135_single_cell_fails (J : Job) (hd : Divides J.gl J.gs J.inc 1 1) (fuel : ℕ) : stage J fuel = none := by
  obtain ⟨-, -, s3⟩ := sizes hd
  have hp : plotColumns (maxCellNum J.gl J.gs).toNat = none := by rw [s3]; rfl
  simp only [stage, hp]
  cases calculateStatistics J fuel <;> rfl

/-- The plot leaves out cell 0: its columns are the cells from 1. -/
theorem C135_plot_without_first_cell (n : ℕ) (hn : 0 < n) : plotColumns n = some ((List.range n).map (· + 1)) := by
  unfold plotColumns
  rw [if_neg hn.ne']
  congr 1
  have gen : ∀ m, m ≤ n → ∃ rest : List ℕ, rest.length = n - m ∧ (List.range (m + 1)).foldl
      (fun cols i => cols.set (if i = 0 then n - 1 else i - 1) i) (List.replicate n 0) =
        (List.range m).map (· + 1) ++ rest := by
    intro m
    induction m with
    | zero =>
      intro _
      exact ⟨List.replicate n 0, by simp, by simp⟩
    | succ m ih =>
      intro hm
      obtain ⟨rest, hr, he⟩ := ih (by omega)
      rw [List.range_succ, List.foldl_append, he]
      cases rest with
      | nil => simp at hr; omega
      | cons x rest =>
        refine ⟨rest, by simp at hr; omega, ?_⟩
        simp only [List.foldl_cons, List.foldl_nil, Nat.add_eq_zero_iff, one_ne_zero, and_false, if_false,
          Nat.add_sub_cancel]
        rw [List.set_append_right _ _ (by simp), List.length_map, List.length_range, Nat.sub_self, List.set_cons_zero,
          List.range_succ, List.map_append, List.append_assoc]
        rfl
  obtain ⟨rest, hr, he⟩ := gen n le_rfl
  rw [he, List.length_eq_zero_iff.1 (by omega : rest.length = 0), List.append_nil]

/-- The file is not checked against the grid of the run: with a file of a domain of the same size further west, a storm
gets the coefficients of a cell that it is not in. -/
theorem C135_other_grid_fails (a : Attrs) (ha : ∀ v ∈ names, (a v).length = 4) :
    ∃ f, save ⟨100, 104, -14, -10⟩ ⟨2, 2⟩ a = some f ∧
      getCellNum 110 (-10) ⟨110, 114, -14, -10⟩ ⟨2, 2⟩ = .ok 0 ∧
      (loaded ⟨110, 114, -14, -10⟩ ⟨2, 2⟩ f "mu")[0]? = (a "mu")[0]? ∧ f.lon[0]? = some 100 := by
  have hd : Divides ⟨100, 104, -14, -10⟩ ⟨2, 2⟩ ⟨1, 1⟩ 2 2 := by constructor <;> norm_num
  obtain ⟨s1, s2, -⟩ := sizes hd
  obtain ⟨f, h1, -, h3, -, h5⟩ := save_spec ⟨100, 104, -14, -10⟩ ⟨2, 2⟩ a (by rw [s1, s2]; exact ha)
  refine ⟨f, h1, ?_, ?_, ?_⟩
  · have f1 : ⌊(110 : ℚ)⌋ = 110 := by norm_num
    have f2 : ⌈(-10 : ℚ)⌉ = -10 := by rw [Int.ceil_eq_iff]; norm_num
    simp only [getCellNum, f1, f2]; norm_num
  · rw [loaded, h5 _ "mu" (by decide)]
  · rw [h3, s1]; norm_num [List.range_succ]

end Tcrm.CellStats
