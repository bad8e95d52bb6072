import Verif.Spec.Tiles
import Verif.Lemmas.Tiles
/-!
C01 — hazard tiles partition the domain.
-/
namespace Tcrm.Tiles

/-- Every requested grid point lies in exactly one tile of `getTiles`, and the tiles
contain nothing but requested grid points; `getTiles` succeeds and returns
`numTiles` tiles, none of them empty. -/
theorem C01_tiles_partition (lon lat : List Int) (xLo xHi yLo yHi : Int) (xstep ystep : Nat)
    (hlon : IsAxis lon) (hlat : IsAxis lat) (g : Grid)
    (hg : mkGrid lon lat xLo xHi yLo yHi xstep ystep = .ok g) :
    ∃ tiles : List Limits, getTiles g = some tiles ∧ tiles.length = g.numTiles ∧
      (∀ t ∈ tiles, t.x1 < t.x2 ∧ t.y1 < t.y2) ∧
      (∀ t ∈ tiles, t.x2 - t.x1 ≤ xstep ∧ t.y2 - t.y1 ≤ ystep) ∧
      (∀ i j : Nat, Requested lon lat xLo xHi yLo yHi i j →
        ∃! k : Nat, ∃ t, tiles[k]? = some t ∧ t.Covers i j) ∧
      (∀ i j : Int, ∀ t ∈ tiles, t.Covers i j →
        ∃ i' j' : Nat, i = i' ∧ j = j' ∧ Requested lon lat xLo xHi yLo yHi i' j') := by
  unfold mkGrid at hg
  simp only at hg
  split at hg
  case h_2 => simp at hg
  case h_1 imin imax jmin jmax hi1 hi2 hj1 hj2 =>
    split at hg
    · simp at hg
    case isFalse hstep =>
      push Not at hstep
      obtain ⟨hxs, hys⟩ := hstep
      simp only [Except.ok.injEq] at hg
      subst hg
      have hxs' : (0 : Int) < xstep := by omega
      have hys' : (0 : Int) < ystep := by omega
      set xdim : Int := (imax : Int) - imin + 1 with hxdim
      set ydim : Int := (jmax : Int) - jmin + 1 with hydim
      set M := ceilDiv xdim xstep with hM
      set N := ceilDiv ydim ystep with hN
      let mk : Nat → Nat → Limits := fun i j =>
        { x1 := (span imin xdim xstep i).1, x2 := (span imin xdim xstep i).2 + 1
          y1 := (span jmin ydim ystep j).1, y2 := (span jmin ydim ystep j).2 + 1 }
      have hlim : ∀ k, getGridLimit
          (⟨imin, imax, jmin, jmax, M * N, tileGrid imin jmin xdim ydim xstep ystep⟩ : Grid) k =
            if k < M * N then some (mk (k / N) (k % N)) else none := by
        intro k
        simp only [getGridLimit, tileGrid, getElem?_nested]
        rw [← hM, ← hN]
        split <;> simp [mk]
      have htiles : getTiles (⟨imin, imax, jmin, jmax, M * N, tileGrid imin jmin xdim ydim xstep ystep⟩ : Grid) =
          some ((List.range (M * N)).map fun k => mk (k / N) (k % N)) := by
        unfold getTiles
        simp only
        have : ∀ l : List Nat, (∀ k ∈ l, k < M * N) →
            l.mapM (getGridLimit (⟨imin, imax, jmin, jmax, M * N, tileGrid imin jmin xdim ydim xstep ystep⟩ : Grid)) =
            some (l.map fun k => mk (k / N) (k % N)) := by
          intro l hl
          induction l with
          | nil => simp
          | cons a t ih =>
            rw [List.mapM_cons, hlim a, if_pos (hl a (by simp)), ih (fun k hk => hl k (by simp [hk]))]
            simp
        exact this _ (by simp)
      refine ⟨_, htiles, by simp, ?_, ?_, ?_, ?_⟩
      · intro t ht
        simp only [List.mem_map, List.mem_range] at ht
        obtain ⟨k, hk, rfl⟩ := ht
        have hN0 : 0 < N := by
          rcases Nat.eq_zero_or_pos N with h | h
          · simp [h] at hk
          · exact h
        have h1 : k / N < M := Nat.div_lt_of_lt_mul (by rwa [Nat.mul_comm])
        have h2 : k % N < N := Nat.mod_lt _ hN0
        have h3 := (ceilDiv_lt_iff hxs' _).1 h1
        have h4 := (ceilDiv_lt_iff hys' _).1 h2
        simp only [mk, span]
        have e1 := add_mul ((k / N : Nat) : Int) 1 (xstep : Int)
        have e2 := add_mul ((k % N : Nat) : Int) 1 (ystep : Int)
        constructor <;> omega
      · intro t ht
        simp only [List.mem_map, List.mem_range] at ht
        obtain ⟨k, hk, rfl⟩ := ht
        simp only [mk, span]
        have e1 := add_mul ((k / N : Nat) : Int) 1 (xstep : Int)
        have e2 := add_mul ((k % N : Nat) : Int) 1 (ystep : Int)
        constructor <;> omega
      · intro i j ⟨hi, hj⟩
        have hi' := (within_interval hlon hi1 hi2 i).1 (mem_within.2 hi)
        have hj' := (within_interval hlat hj1 hj2 j).1 (mem_within.2 hj)
        obtain ⟨a, ha, ha1, ha2⟩ := (span_cover (lo := imin) (dim := xdim) hxs' (i : Int)).1
          ⟨by omega, by omega⟩
        obtain ⟨b, hb, hb1, hb2⟩ := (span_cover (lo := jmin) (dim := ydim) hys' (j : Int)).1
          ⟨by omega, by omega⟩
        rw [← hM] at ha
        rw [← hN] at hb
        have hlt : a * N + b < M * N := by nlinarith
        have hN0 : 0 < N := by omega
        have hd : (a * N + b) / N = a := by
          rw [Nat.add_comm, Nat.add_mul_div_right _ _ hN0, Nat.div_eq_of_lt hb]; omega
        have hm : (a * N + b) % N = b := by
          rw [Nat.add_comm, Nat.add_mul_mod_self_right, Nat.mod_eq_of_lt hb]
        refine ⟨a * N + b, ⟨mk a b, ?_, ?_⟩, ?_⟩
        · simp [List.getElem?_range hlt, hd, hm]
        · simp only [Limits.Covers, mk]; omega
        · rintro k ⟨t, hk, hc⟩
          have hkl : k < M * N := by
            by_contra h
            simp [Nat.not_lt.1 h] at hk
          simp only [List.getElem?_map, List.getElem?_range hkl, Option.map_some,
            Option.some.injEq] at hk
          subst hk
          simp only [Limits.Covers, mk] at hc
          have h1 := (span_mem_iff hxs' (k / N) (i : Int)).1 ⟨hc.1, by omega⟩
          have h2 := (span_mem_iff hys' (k % N) (j : Int)).1 ⟨hc.2.2.1, by omega⟩
          have h3 := (span_mem_iff hxs' a (i : Int)).1 ⟨ha1, ha2⟩
          have h4 := (span_mem_iff hys' b (j : Int)).1 ⟨hb1, hb2⟩
          have e1 : k / N = a := by omega
          have e2 : k % N = b := by omega
          have := Nat.div_add_mod k N
          rw [e1, e2] at this
          rw [← this, Nat.mul_comm]
      · intro i j t ht hc
        simp only [List.mem_map, List.mem_range] at ht
        obtain ⟨k, hk, rfl⟩ := ht
        have hN0 : 0 < N := by
          rcases Nat.eq_zero_or_pos N with h | h
          · simp [h] at hk
          · exact h
        have h1 : k / N < M := Nat.div_lt_of_lt_mul (by rwa [Nat.mul_comm])
        have h2 : k % N < N := Nat.mod_lt _ hN0
        simp only [Limits.Covers, mk] at hc
        have hx := (span_cover (lo := imin) (dim := xdim) hxs' i).2 ⟨k / N, h1, hc.1, by omega⟩
        have hy := (span_cover (lo := jmin) (dim := ydim) hys' j).2 ⟨k % N, h2, hc.2.2.1, by omega⟩
        refine ⟨i.toNat, j.toNat, by omega, by omega, ?_, ?_⟩
        · exact mem_within.1 ((within_interval hlon hi1 hi2 _).2 (by omega))
        · exact mem_within.1 ((within_interval hlat hj1 hj2 _).2 (by omega))

/-- Construction fails exactly when nothing is requested along an axis, or a step is zero. -/
theorem C01_grid_error_iff (lon lat : List Int) (xLo xHi yLo yHi : Int) (xstep ystep : Nat) :
    (∃ e, mkGrid lon lat xLo xHi yLo yHi xstep ystep = .error e) ↔
      (¬ ∃ i j, Requested lon lat xLo xHi yLo yHi i j) ∨ xstep = 0 ∨ ystep = 0 := by
  unfold mkGrid
  simp only
  have key : ∀ (axis : List Int) lo hi, within axis lo hi = [] ↔
      ¬ ∃ (i : Nat) (x : Int), axis[i]? = some x ∧ lo ≤ x ∧ x ≤ hi := by
    intro axis lo hi
    rw [List.eq_nil_iff_forall_not_mem]
    simp [mem_within]
  by_cases hx : within lon xLo xHi = []
  · have := (key _ _ _).1 hx
    simp only [hx, List.head?_nil, List.getLast?_nil]
    refine iff_of_true ⟨_, rfl⟩ (Or.inl ?_)
    rintro ⟨i, j, h, -⟩
    exact this ⟨i, h⟩
  · by_cases hy : within lat yLo yHi = []
    · have := (key _ _ _).1 hy
      simp only [hy, List.head?_nil, List.getLast?_nil]
      refine iff_of_true ?_ (Or.inl ?_)
      · split
        · simp_all
        · exact ⟨_, rfl⟩
      · rintro ⟨i, j, -, h⟩
        exact this ⟨j, h⟩
    · have hx' := fun h => hx ((key _ _ _).2 h)
      have hy' := fun h => hy ((key _ _ _).2 h)

      obtain ⟨i, hi⟩ := not_not.1 hx'
      obtain ⟨j, hj⟩ := not_not.1 hy'
      rw [List.head?_eq_some_head hx, List.getLast?_eq_some_getLast hx,
        List.head?_eq_some_head hy, List.getLast?_eq_some_getLast hy]
      simp only
      by_cases hs : xstep = 0 ∨ ystep = 0
      · rw [if_pos hs]; exact iff_of_true ⟨_, rfl⟩ (Or.inr hs)
      · rw [if_neg hs]
        refine iff_of_false (by simp) ?_
        rintro (h | h)
        · exact h ⟨i, j, hi, hj⟩
        · exact hs h

example : IsAxis [0, 50, 100, 150, 200, 250, 300] ∧ IsAxis [160, 110, 60, 10] :=
  ⟨.inl (by decide), .inr (by decide)⟩

/-- Non-vacuity: a 5×3 domain inside a 7×4 wind-field grid, cut in 2×2 tiles, gives six tiles. -/
example : ∃ g, mkGrid [0, 50, 100, 150, 200, 250, 300] [160, 110, 60, 10] 50 250 0 120 2 2 = .ok g ∧
    g.numTiles = 6 := by
  refine ⟨_, rfl, ?_⟩
  decide +kernel

end Tcrm.Tiles
