import Verif.Spec.Foliation
import Verif.Lemmas.Windfield
import Verif.Props.Stations
import Mathlib.Tactic.FieldSimp
/-!
C90 (the file of all wind fields).
-/
namespace Tcrm.Foliation
open Tcrm.Stations (Layer Entry at2 at2_ok)
open Tcrm.Windfield (regionAxis arange pyInt_hundredths arange_length)

theorem rint_int (n : ℤ) : rint (n : ℚ) = n := by
  unfold rint
  rw [Int.floor_intCast, if_pos (by norm_num)]

/-- Entries of the regional axis for whole hundredths. -/
theorem regionAxis_spec (a b M r q : ℤ) (hr : 0 < r) (hq : 0 ≤ q) (hd : b - a + 2 * M = r * q) :
    (regionAxis (a / 100) (b / 100) (M / 100) (r / 100)).length = (q + 1).toNat ∧
    ∀ (k : ℕ), (k : ℤ) ≤ q → (regionAxis (a / 100) (b / 100) (M / 100) (r / 100))[k]? = some (a - M + r * k) := by
  have e : -((a - M - (b + M + r)) / r) = q + 1 := by
    have : a - M - (b + M + r) = r * (-(q + 1)) := by linarith
    rw [this, Int.mul_ediv_cancel_left _ hr.ne']
    ring
  have hlen : (regionAxis (a / 100) (b / 100) (M / 100) (r / 100)).length = (q + 1).toNat := by
    unfold regionAxis
    simp only [pyInt_hundredths, arange_length, e]
  refine ⟨hlen, ?_⟩
  intro k hk
  unfold regionAxis
  simp only [pyInt_hundredths, arange, e, List.getElem?_map]
  rw [List.getElem?_range (by omega)]
  rfl

/-- The axis of the file is that of the regional grid. -/
theorem series_spec (a b M r q : ℤ) (hr : 0 < r) (hq : 0 ≤ q) (hd : b - a + 2 * M = r * q) :
    series ((a : ℚ) / 100 - M / 100) ((b : ℚ) / 100 + M / 100) (r / 100) =
      .ok ((regionAxis (a / 100) (b / 100) (M / 100) (r / 100)).map fun x : ℤ => (x : ℚ) / 100) := by
  have hr' : (r : ℚ) ≠ 0 := by exact_mod_cast hr.ne'
  have hd' : ((b : ℚ) - a + 2 * M) = r * q := by exact_mod_cast hd
  have e : ((b : ℚ) / 100 + M / 100 - (a / 100 - M / 100)) / (r / 100) = (q : ℤ) := by
    rw [div_eq_iff (by positivity)]
    linarith
  unfold series
  rw [e, rint_int, if_neg (by omega)]
  congr 1
  obtain ⟨hlen, hget⟩ := regionAxis_spec a b M r q hr hq hd
  apply List.ext_getElem?
  intro k
  unfold linspace
  rw [List.getElem?_map, List.getElem?_map]
  rcases le_or_gt (k : ℤ) q with hk | hk
  · rw [hget k hk, List.getElem?_range (by omega)]
    simp only [Option.map_some, Option.some.injEq]
    have hn : (((q + 1).toNat : ℕ) : ℚ) = q + 1 := by
      have : (((q + 1).toNat : ℕ) : ℤ) = q + 1 := by omega
      exact_mod_cast this
    split
    · rename_i h1
      have : k = 0 := by omega
      subst this
      push_cast
      ring
    · rename_i h1
      have hq0 : (q : ℚ) ≠ 0 := by
        intro h
        have : q = 0 := by exact_mod_cast h
        exact h1 (by omega)
      rw [hn]
      have : ((b : ℚ) / 100 + M / 100 - (a / 100 - M / 100)) = r * q / 100 := by linarith
      rw [this, add_sub_cancel_right, div_right_comm, mul_div_assoc, div_self hq0]
      push_cast
      ring
  · rw [List.getElem?_eq_none (by simp; omega), List.getElem?_eq_none (by rw [hlen]; omega)]
    rfl

/-- Part of an axis: head, last and all entries. -/
theorem partOf_spec {a b M r q : ℤ} (hr : 0 < r) (hq : 0 ≤ q) (hd : b - a + 2 * M = r * q) {g : List ℚ}
    (h : PartOf (regionAxis (a / 100) (b / 100) (M / 100) (r / 100)) g) :
    ∃ p n : ℕ, 0 < n ∧ ((p + n : ℕ) : ℤ) ≤ q + 1 ∧ g.length = n ∧
      g.head? = some (((a - M + r * p : ℤ) : ℚ) / 100) ∧
      g.getLast? = some (((a - M + r * ((p + n - 1 : ℕ) : ℤ) : ℤ) : ℚ) / 100) ∧
      ∀ k : ℕ, g[k]? = if k < n then some (((a - M + r * ((p + k : ℕ) : ℤ) : ℤ) : ℚ) / 100) else none := by
  obtain ⟨p, n, hn, hpn, rfl⟩ := h
  obtain ⟨hlen, hget⟩ := regionAxis_spec a b M r q hr hq hd
  rw [hlen] at hpn
  have hall : ∀ k : ℕ, ((((regionAxis (a / 100) (b / 100) (M / 100) (r / 100)).drop p).take n).map
      fun x : ℤ => (x : ℚ) / 100)[k]? = if k < n then some (((a - M + r * ((p + k : ℕ) : ℤ) : ℤ) : ℚ) / 100) else none := by
    intro k
    split
    · rename_i hk
      rw [List.getElem?_map, List.getElem?_take_of_lt hk, List.getElem?_drop, hget (p + k) (by push_cast; omega)]
      rfl
    · rename_i hk
      exact List.getElem?_eq_none (by simp; omega)
  have hl : ((((regionAxis (a / 100) (b / 100) (M / 100) (r / 100)).drop p).take n).map
      fun x : ℤ => (x : ℚ) / 100).length = n := by
    simp [hlen]; omega
  refine ⟨p, n, hn, by omega, hl, ?_, ?_, hall⟩
  · rw [List.head?_eq_getElem?, hall 0, if_pos hn, Nat.add_zero]
  · rw [List.getLast?_eq_getElem?, hl, hall (n - 1), if_pos (by omega)]
    congr 6
    omega

theorem index_spec (a M r : ℤ) (p : ℕ) (hr : 0 < r) :
    rint ((((a - M + r * (p : ℤ) : ℤ) : ℚ) / 100 - ((a : ℚ) / 100 - M / 100)) / (r / 100)) = p := by
  have hr' : (r : ℚ) ≠ 0 := by exact_mod_cast hr.ne'
  have : (((a - M + r * (p : ℤ) : ℤ) : ℚ) / 100 - ((a : ℚ) / 100 - M / 100)) / (r / 100) = ((p : ℤ) : ℚ) := by
    rw [div_eq_iff (by positivity)]
    push_cast
    ring
  rw [this, rint_int]

/-- Placing a table of the right shape. -/
theorem place_shows {K : Type} {xa xb ya yb M r qx qy : ℤ} (hr : 0 < r) (hqx : 0 ≤ qx) (hqy : 0 ≤ qy)
    (hdx : xb - xa + 2 * M = r * qx) (hdy : yb - ya + 2 * M = r * qy) {gx gy : List ℚ} {px nx py ny : ℕ}
    (hnx : 0 < nx) (hny : 0 < ny) (hpx : ((px + nx : ℕ) : ℤ) ≤ qx + 1) (hpy : ((py + ny : ℕ) : ℤ) ≤ qy + 1)
    (hgx : ∀ k : ℕ, gx[k]? = if k < nx then some (((xa - M + r * ((px + k : ℕ) : ℤ) : ℤ) : ℚ) / 100) else none)
    (hgy : ∀ k : ℕ, gy[k]? = if k < ny then some (((ya - M + r * ((py + k : ℕ) : ℤ) : ℤ) : ℚ) / 100) else none)
    {lat lon : List ℚ}
    (hlat : lat = (regionAxis (ya / 100) (yb / 100) (M / 100) (r / 100)).map fun x : ℤ => (x : ℚ) / 100)
    (hlon : lon = (regionAxis (xa / 100) (xb / 100) (M / 100) (r / 100)).map fun x : ℤ => (x : ℚ) / 100)
    {t : List (List K)} (ht : Shape ny nx t) :
    ∃ g, place lat.length lon.length py ((py + ny - 1 : ℕ) : ℤ) px ((px + nx - 1 : ℕ) : ℤ) t = .ok g ∧
      Shows lat lon gy gx t g := by
  obtain ⟨lx, ax⟩ := regionAxis_spec xa xb M r qx hr hqx hdx
  obtain ⟨ly, ay⟩ := regionAxis_spec ya yb M r qy hr hqy hdy
  have hleny : lat.length = (qy + 1).toNat := by rw [hlat, List.length_map, ly]
  have hlenx : lon.length = (qx + 1).toNat := by rw [hlon, List.length_map, lx]
  unfold place
  rw [if_pos]
  swap
  · refine ⟨by omega, by omega, by omega, by omega, ?_, ?_⟩
    · rw [ht.1]; omega
    · intro row hrow
      rw [ht.2 row hrow]; omega
  refine ⟨_, rfl, ?_⟩
  intro j i y x hj hi
  have hj' := (List.getElem?_eq_some_iff.1 hj).1
  have hi' := (List.getElem?_eq_some_iff.1 hi).1
  have hr' : (r : ℚ) ≠ 0 := by exact_mod_cast hr.ne'
  have ey : y = ((ya - M + r * (j : ℤ) : ℤ) : ℚ) / 100 := by
    rw [hlat, List.getElem?_map, ay j (by omega)] at hj
    simp only [Option.map_some, Option.some.injEq] at hj
    exact hj.symm
  have ex : x = ((xa - M + r * (i : ℤ) : ℤ) : ℚ) / 100 := by
    rw [hlon, List.getElem?_map, ax i (by omega)] at hi
    simp only [Option.map_some, Option.some.injEq] at hi
    exact hi.symm
  have inj : ∀ (c : ℤ) (m n : ℕ), ((c + r * (m : ℤ) : ℤ) : ℚ) / 100 = ((c + r * (n : ℤ) : ℤ) : ℚ) / 100 → m = n := by
    intro c m n h
    have h1 : ((c + r * (m : ℤ) : ℤ) : ℚ) = ((c + r * (n : ℤ) : ℤ) : ℚ) := by linarith
    have h2 : c + r * (m : ℤ) = c + r * (n : ℤ) := by exact_mod_cast h1
    have h3 : r * (m : ℤ) = r * (n : ℤ) := by linarith
    have := mul_left_cancel₀ hr.ne' h3
    exact_mod_cast this
  constructor
  · intro k l hk hl
    rw [hgy k] at hk
    rw [hgx l] at hl
    split at hk
    case isFalse => cases hk
    split at hl
    case isFalse => cases hl
    rename_i kn ln
    simp only [Option.some.injEq] at hk hl
    have e1 := inj _ _ _ (hk.trans ey)
    have e2 := inj _ _ _ (hl.trans ex)
    have hrow : ∃ row, t[k]? = some row := ⟨_, List.getElem?_eq_getElem (by rw [ht.1]; exact kn)⟩
    obtain ⟨row, hrow⟩ := hrow
    have hrl := ht.2 row (List.mem_of_getElem? hrow)
    refine ⟨row[l]'(by rw [hrl]; exact ln), ⟨row, hrow, List.getElem?_eq_getElem (by rw [hrl]; exact ln)⟩, ?_⟩
    simp only
    rw [if_pos ⟨by omega, by omega, by omega, by omega⟩]
    have e3 : j - (py : ℤ).toNat = k := by omega
    have e4 : i - (px : ℤ).toNat = l := by omega
    rw [e3, e4, (at2_ok (a := t) (j := k) (i := l)).2 ⟨row, hrow, List.getElem?_eq_getElem (by rw [hrl]; exact ln)⟩]
  · intro hnot
    simp only
    rw [if_neg]
    rintro ⟨c1, c2, c3, c4⟩
    rcases hnot with h | h
    · apply h
      refine List.mem_of_getElem? (i := j - py) ?_
      rw [hgy, if_pos (by omega), ey]
      congr 5
      omega
    · apply h
      refine List.mem_of_getElem? (i := i - px) ?_
      rw [hgx, if_pos (by omega), ex]
      congr 5
      omega

/-- A file with one more time step. -/
def added {K : Type} (l : Layer K) (s u v p : ℕ → ℕ → Option K) (f : File K) : File K :=
  ⟨f.lat, f.lon, f.x0, f.y0, f.res, f.times ++ [l.time], f.speed ++ [s], f.ux ++ [u], f.uy ++ [v], f.prs ++ [p]⟩

/-- C90 for limits, margin and resolution in whole hundredths of a degree with the resolution dividing the size of
the domain: for any sequence of time steps on parts of the regional grid the file has the coordinates of the
regional grid, one field per time step in order, and each field is stored at its own coordinates. Other settings
are refuted below, hence partial. -/
theorem C90_file_partial {K : Type} (gl : Windfield.Limits) {xa xb ya yb M r : ℤ} (hr : 0 < r)
    (hx1 : gl.xMin = xa / 100) (hx2 : gl.xMax = xb / 100) (hy1 : gl.yMin = ya / 100) (hy2 : gl.yMax = yb / 100)
    (hx : 0 ≤ xb - xa + 2 * M) (hy : 0 ≤ yb - ya + 2 * M)
    (hdx : r ∣ xb - xa + 2 * M) (hdy : r ∣ yb - ya + 2 * M) (ls : List (Layer K))
    (hls : ∀ l ∈ ls, PartOf (regionAxis gl.xMin gl.xMax (M / 100) (r / 100)) l.gridx ∧
      PartOf (regionAxis gl.yMin gl.yMax (M / 100) (r / 100)) l.gridy ∧
      Shape l.gridy.length l.gridx.length l.spd ∧ Shape l.gridy.length l.gridx.length l.uu ∧
      Shape l.gridy.length l.gridx.length l.vv ∧ Shape l.gridy.length l.gridx.length l.prs) :
    ∃ f0 f : File K, create gl (r / 100) (M / 100) = .ok f0 ∧ writeAll ls f0 = .ok f ∧
      f.lon = (regionAxis gl.xMin gl.xMax (M / 100) (r / 100)).map (fun x : ℤ => (x : ℚ) / 100) ∧
      f.lat = (regionAxis gl.yMin gl.yMax (M / 100) (r / 100)).map (fun x : ℤ => (x : ℚ) / 100) ∧
      f.times = ls.map (·.time) ∧
      List.Forall₂ (fun (l : Layer K) g => Shows f.lat f.lon l.gridy l.gridx l.spd g) ls f.speed ∧
      List.Forall₂ (fun (l : Layer K) g => Shows f.lat f.lon l.gridy l.gridx l.uu g) ls f.ux ∧
      List.Forall₂ (fun (l : Layer K) g => Shows f.lat f.lon l.gridy l.gridx l.vv g) ls f.uy ∧
      List.Forall₂ (fun (l : Layer K) g => Shows f.lat f.lon l.gridy l.gridx l.prs g) ls f.prs := by
  obtain ⟨qx, hqx⟩ := hdx
  obtain ⟨qy, hqy⟩ := hdy
  have qx0 : 0 ≤ qx := by
    by_contra h
    have : r * qx < 0 := mul_neg_of_pos_of_neg hr (by omega)
    omega
  have qy0 : 0 ≤ qy := by
    by_contra h
    have : r * qy < 0 := mul_neg_of_pos_of_neg hr (by omega)
    omega
  have hr' : (r : ℚ) / 100 ≠ 0 := by
    have : (r : ℚ) ≠ 0 := by exact_mod_cast hr.ne'
    positivity
  obtain ⟨gx1, gx2, gy1, gy2⟩ := gl
  simp only at hx1 hx2 hy1 hy2 hls ⊢
  subst hx1 hx2 hy1 hy2
  generalize hlon : (regionAxis (xa / 100) (xb / 100) (M / 100) (r / 100)).map (fun x : ℤ => (x : ℚ) / 100) = lon
  generalize hlat : (regionAxis (ya / 100) (yb / 100) (M / 100) (r / 100)).map (fun x : ℤ => (x : ℚ) / 100) = lat
  refine ⟨⟨lat, lon, xa / 100 - M / 100, ya / 100 - M / 100, r / 100, [], [], [], [], []⟩, ?_⟩
  have hc : create ⟨xa / 100, xb / 100, ya / 100, yb / 100⟩ (r / 100) (M / 100) = .ok (⟨lat, lon, xa / 100 - M / 100, ya / 100 - M / 100, r / 100, [], [], [], [], []⟩ : File K) := by
    unfold create
    rw [if_neg hr']
    simp only
    rw [series_spec ya yb M r qy hr qy0 hqy, series_spec xa xb M r qx hr qx0 hqx]
    simp only [hlon, hlat]
  -- one step keeps the axes and appends
  have step : ∀ (l : Layer K), l ∈ ls → ∀ f : File K, f.lat = lat → f.lon = lon → f.x0 = xa / 100 - M / 100 →
      f.y0 = ya / 100 - M / 100 → f.res = r / 100 → ∃ s u v p,
        write l f = .ok (added l s u v p f) ∧ Shows lat lon l.gridy l.gridx l.spd s ∧
        Shows lat lon l.gridy l.gridx l.uu u ∧ Shows lat lon l.gridy l.gridx l.vv v ∧
        Shows lat lon l.gridy l.gridx l.prs p := by
    intro l hl f e1 e2 e3 e4 e5
    obtain ⟨px', py', s1, s2, s3, s4⟩ := hls l hl
    obtain ⟨px, nx, nx0, pxn, lx, hx1, hx2, hxa⟩ := partOf_spec hr qx0 hqx px'
    obtain ⟨py, ny, ny0, pyn, ly, hy1, hy2, hya⟩ := partOf_spec hr qy0 hqy py'
    rw [lx, ly] at s1 s2 s3 s4
    obtain ⟨g1, h1, w1⟩ := place_shows hr qx0 qy0 hqx hqy nx0 ny0 pxn pyn hxa hya hlat.symm hlon.symm s1
    obtain ⟨g2, h2, w2⟩ := place_shows hr qx0 qy0 hqx hqy nx0 ny0 pxn pyn hxa hya hlat.symm hlon.symm s2
    obtain ⟨g3, h3, w3⟩ := place_shows hr qx0 qy0 hqx hqy nx0 ny0 pxn pyn hxa hya hlat.symm hlon.symm s3
    obtain ⟨g4, h4, w4⟩ := place_shows hr qx0 qy0 hqx hqy nx0 ny0 pxn pyn hxa hya hlat.symm hlon.symm s4
    refine ⟨g1, g2, g3, g4, ?_, w1, w2, w3, w4⟩
    unfold write
    rw [hx1, hx2, hy1, hy2]
    simp only [e1, e2, e3, e4, e5, index_spec _ _ _ _ hr, h1, h2, h3, h4, added]
  have all : ∀ (ks : List (Layer K)), (∀ l ∈ ks, l ∈ ls) → ∀ (f : File K), f.lat = lat → f.lon = lon →
      f.x0 = xa / 100 - M / 100 → f.y0 = ya / 100 - M / 100 → f.res = r / 100 → ∃ (f' : File K) (s u v p : List (ℕ → ℕ → Option K)),
        writeAll ks f = .ok f' ∧ f'.lat = lat ∧ f'.lon = lon ∧ f'.times = f.times ++ ks.map (·.time) ∧
        f'.speed = f.speed ++ s ∧ f'.ux = f.ux ++ u ∧ f'.uy = f.uy ++ v ∧ f'.prs = f.prs ++ p ∧
        List.Forall₂ (fun (l : Layer K) g => Shows lat lon l.gridy l.gridx l.spd g) ks s ∧
        List.Forall₂ (fun (l : Layer K) g => Shows lat lon l.gridy l.gridx l.uu g) ks u ∧
        List.Forall₂ (fun (l : Layer K) g => Shows lat lon l.gridy l.gridx l.vv g) ks v ∧
        List.Forall₂ (fun (l : Layer K) g => Shows lat lon l.gridy l.gridx l.prs g) ks p := by
    intro ks
    induction ks with
    | nil =>
      intro _ f e1 e2 _ _ _
      exact ⟨f, [], [], [], [], rfl, e1, e2, by simp, by simp, by simp, by simp, by simp, .nil, .nil, .nil, .nil⟩
    | cons l ks ih =>
      intro hks f e1 e2 e3 e4 e5
      obtain ⟨s, u, v, p, hw, w1, w2, w3, w4⟩ := step l (hks l List.mem_cons_self) f e1 e2 e3 e4 e5
      obtain ⟨f', s', u', v', p', h, a1, a2, a3, a4, a5, a6, a7, b1, b2, b3, b4⟩ :=
        ih (fun l hl => hks l (List.mem_cons_of_mem _ hl)) (added l s u v p f) e1 e2 e3 e4 e5
      refine ⟨f', s :: s', u :: u', v :: v', p :: p', ?_, a1, a2, by simp [a3, added], by simp [a4, added], by simp [a5, added], by simp [a6, added],
        by simp [a7, added], .cons w1 b1, .cons w2 b2, .cons w3 b3, .cons w4 b4⟩
      unfold writeAll
      rw [hw]
      exact h
  obtain ⟨f', s, u, v, p, h, a1, a2, a3, a4, a5, a6, a7, b1, b2, b3, b4⟩ := all ls (fun _ h => h)
    ⟨lat, lon, xa / 100 - M / 100, ya / 100 - M / 100, r / 100, [], [], [], [], []⟩ rfl rfl rfl rfl rfl
  simp only [List.nil_append] at a3 a4 a5 a6 a7
  refine ⟨f', hc, h, a2, a1, a3, ?_, ?_, ?_, ?_⟩
  · rw [a1, a2, a4]; exact b1
  · rw [a1, a2, a5]; exact b2
  · rw [a1, a2, a6]; exact b3
  · rw [a1, a2, a7]; exact b4

/-- The window of a time step is a part of the regional axis as required above. -/
example : PartOf (regionAxis 150 152 1 (1 / 2)) [150, 301 / 2, 151] := by
  refine ⟨2, 3, by norm_num, by decide +kernel, by decide +kernel⟩

/-- The rounding: no integer is nearer, and a half goes to the even one. -/
theorem rint_nearest (x : ℚ) : |(rint x : ℚ) - x| ≤ 1 / 2 ∧ (|(rint x : ℚ) - x| = 1 / 2 → rint x % 2 = 0) := by
  have h0 := Int.floor_le x
  have h1 := Int.lt_floor_add_one x
  unfold rint
  split
  · next h =>
    rw [abs_of_nonpos (by linarith)]
    exact ⟨by linarith, fun e => by linarith⟩
  · split
    · push_cast
      rw [abs_of_nonneg (by linarith)]
      exact ⟨by linarith, fun e => by linarith⟩
    · split
      · next he =>
        rw [abs_of_nonpos (by linarith)]
        exact ⟨by linarith, fun _ => he⟩
      · push_cast
        rw [abs_of_nonneg (by linarith)]
        refine ⟨by linarith, fun _ => by omega⟩

/-- C90: for any limits and resolution an axis of the file goes from one limit to the other in equal steps; their number
is the one nearest to the size over the resolution (half way, the even one). -/
theorem C90_axis {start stop inc : ℚ} {l : List ℚ} (h : series start stop inc = .ok l) (hlt : start < stop)
    (hl : 2 ≤ l.length) :
    l[0]? = some start ∧ l[l.length - 1]? = some stop ∧
    (∀ (k : ℕ) (v : ℚ), l[k]? = some v → v = start + k * ((stop - start) / (l.length - 1 : ℕ))) ∧
    |((l.length - 1 : ℕ) : ℚ) - (stop - start) / inc| ≤ 1 / 2 ∧
    (|((l.length - 1 : ℕ) : ℚ) - (stop - start) / inc| = 1 / 2 → Even (l.length - 1)) := by
  unfold series at h
  split at h
  · cases h
  next hn =>
    injection h with h
    have hlen : l.length = (rint ((stop - start) / inc) + 1).toNat := by rw [← h]; simp [linspace]
    generalize hR : rint ((stop - start) / inc) = R at h hlen hn
    have hR1 : 1 ≤ R := by omega
    have hln : ((l.length - 1 : ℕ) : ℤ) = R := by omega
    have hlq : ((l.length - 1 : ℕ) : ℚ) = (R : ℚ) := by exact_mod_cast hln
    have hN : (((R + 1).toNat : ℕ) : ℚ) = R + 1 := by
      have : (((R + 1).toNat : ℕ) : ℤ) = R + 1 := by omega
      exact_mod_cast this
    have hget : ∀ (k : ℕ) (v : ℚ), l[k]? = some v → v = start + k * ((stop - start) / (l.length - 1 : ℕ)) := by
      intro k v hk
      rw [← h, linspace, List.getElem?_map] at hk
      obtain ⟨j, hj, e⟩ := Option.map_eq_some_iff.1 hk
      obtain ⟨hjk, e'⟩ := List.getElem?_eq_some_iff.1 hj
      rw [List.getElem_range] at e'
      subst e'
      rw [if_neg (by omega)] at e
      rw [← e, hN, hlq]
      ring
    have hRq : (R : ℚ) ≠ 0 := by exact_mod_cast (by omega : R ≠ 0)
    have nn := rint_nearest ((stop - start) / inc)
    rw [hR] at nn
    refine ⟨?_, ?_, hget, ?_, ?_⟩
    · rw [List.getElem?_eq_getElem (by omega), Option.some.injEq]
      rw [hget 0 _ (List.getElem?_eq_getElem (by omega))]
      simp
    · rw [List.getElem?_eq_getElem (by omega), Option.some.injEq]
      rw [hget _ _ (List.getElem?_eq_getElem (by omega)), hlq]
      field_simp
      ring
    · rw [hlq]; exact nn.1
    · rw [hlq]
      intro e
      have := nn.2 e
      rw [Nat.even_iff]
      omega

/-- C90: limits in the wrong order are refused from one and a half cells on, and only then; nearer ones give an axis with
no point or with one. -/
theorem C90_axis_refused (start stop inc : ℚ) :
    series start stop inc = .error .valueError ↔ (stop - start) / inc ≤ -(3 / 2) := by
  have nn := rint_nearest ((stop - start) / inc)
  unfold series
  generalize rint ((stop - start) / inc) = R at nn ⊢
  generalize (stop - start) / inc = x at nn ⊢
  have h1 := abs_le.1 nn.1
  split
  next h =>
    have hR : R ≤ -2 := by omega
    have hq : (R : ℚ) ≤ -2 := by exact_mod_cast hR
    refine ⟨fun _ => by linarith [h1.1], fun _ => rfl⟩
  next h =>
    have hR : -1 ≤ R := by omega
    have hq : (-1 : ℚ) ≤ R := by exact_mod_cast hR
    refine ⟨(fun e => by cases e), fun e => ?_⟩
    have hx : x = -(3 / 2) := by linarith [h1.2]
    have hr : (R : ℚ) = -1 := by linarith [h1.2]
    have hz : R = -1 := by exact_mod_cast hr
    have := nn.2 (by rw [hr, hx]; norm_num)
    omega

example : series 1 0 (2 / 3) = .error .valueError ∧ (series 1 0 (3 / 4)).toOption = some [] ∧
    (series 1 0 2).toOption = some [1] := by
  decide +kernel

example : (series 0 1 (3 / 10)).toOption = some [0, 1 / 3, 2 / 3, 1] ∧ (series 0 1 (2 / 5)).toOption = some [0, 1 / 2, 1] := by
  decide +kernel

/-- C90: nothing is written beyond the last row or column of the file: the step fails instead. -/
theorem C90_inside {K : Type} (l : Layer K) (f f' : File K) (h : write l f = .ok f') :
    ∃ xb yb : ℚ, l.gridx.getLast? = some xb ∧ l.gridy.getLast? = some yb ∧
      rint ((xb - f.x0) / f.res) < f.lon.length ∧ rint ((yb - f.y0) / f.res) < f.lat.length := by
  have hpl : ∀ (nlat nlon : ℕ) (a b c d : ℤ) (t : List (List K)) g, place nlat nlon a b c d t = .ok g →
      d < nlon ∧ b < nlat := by
    intro nlat nlon a b c d t g hg
    unfold place at hg
    split at hg
    · next hc => exact ⟨hc.2.2.2.1, hc.2.2.1⟩
    · cases hg
  unfold write at h
  split at h
  · next xa xb ya yb h1 h2 h3 h4 =>
    simp only at h
    split at h
    · next s u v p hs _ _ _ => exact ⟨xb, yb, h2, h4, hpl _ _ _ _ _ _ _ _ hs⟩
    · cases h
  · cases h

/-- A step of two rows in a file of one row. -/
example : (write (⟨0, [[1], [2]], [[1], [2]], [[1], [2]], [[1], [2]], [0], [0, 1]⟩ : Layer ℚ)
    ⟨[0], [0], 0, 0, 1, [], [], [], [], []⟩).toOption.isNone = true := by decide +kernel

/-- C90 fails if the resolution does not divide the size of the domain: a domain of one degree with a resolution of
0.3 degrees; the wind at 0.3E is stored at 1/3E. -/
theorem C90_labels_fail : ∃ (gl : Windfield.Limits) (res : ℚ) (l : Layer ℚ) (f0 f : File ℚ),
    PartOf (regionAxis gl.xMin gl.xMax 0 res) l.gridx ∧ PartOf (regionAxis gl.yMin gl.yMax 0 res) l.gridy ∧
    create gl res 0 = .ok f0 ∧ write l f0 = .ok f ∧ l.gridx = [0, 3 / 10, 6 / 10, 9 / 10] ∧ l.gridy = [0] ∧
    f.lon = [0, 1 / 3, 2 / 3, 1] ∧ f.lat = [0] ∧ l.spd = [[1, 2, 3, 4]] ∧
    (f.speed.map fun g => [g 0 0, g 0 1, g 0 2, g 0 3]) = [[some 1, some 2, some 3, some 4]] := by
  have h1 : series (0 - 0) (1 + 0) (3 / 10) = .ok [0, 1 / 3, 2 / 3, 1] := by decide +kernel
  have h2 : series (0 - 0) (0 + 0) (3 / 10) = .ok [0] := by decide +kernel
  have e : rint ((0 - (0 - 0)) / (3 / 10)) = 0 ∧ rint ((9 / 10 - (0 - 0)) / (3 / 10)) = 3 := by decide +kernel
  refine ⟨⟨0, 1, 0, 0⟩, 3 / 10, ⟨0, [[1, 2, 3, 4]], [[1, 2, 3, 4]], [[1, 2, 3, 4]], [[1, 2, 3, 4]],
    [0, 3 / 10, 6 / 10, 9 / 10], [0]⟩, ⟨[0], [0, 1 / 3, 2 / 3, 1], 0 - 0, 0 - 0, 3 / 10, [], [], [], [], []⟩, ?_⟩
  have hp : ∃ g, place 1 4 0 0 0 3 [[(1 : ℚ), 2, 3, 4]] = .ok g ∧ [g 0 0, g 0 1, g 0 2, g 0 3] = [some 1, some 2, some 3, some 4] := by
    unfold place
    rw [if_pos (by simp)]
    exact ⟨_, rfl, by decide +kernel⟩
  obtain ⟨g, hg, hv⟩ := hp
  refine ⟨⟨[0], [0, 1 / 3, 2 / 3, 1], 0 - 0, 0 - 0, 3 / 10, [0], [g], [g], [g], [g]⟩,
    ⟨0, 4, by norm_num, by decide +kernel, by decide +kernel⟩,
    ⟨0, 1, by norm_num, by decide +kernel, by decide +kernel⟩, ?_, ?_, rfl, rfl, rfl, rfl, rfl, ?_⟩
  · unfold create
    rw [if_neg (by norm_num)]
    simp only [h1, h2]
  · simp only [write, List.head?_cons, List.getLast?_cons_cons, List.getLast?_singleton, e.1, e.2, List.length_cons, List.length_nil,
      zero_add, Nat.reduceAdd, hg, List.nil_append]
  · simp only [List.map_cons, List.map_nil, hv]

end Tcrm.Foliation
