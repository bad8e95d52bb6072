import Verif.Model.OriginCdf
import Verif.Props.Cdf
import Verif.Props.NcGrid
/-!
C159: the distribution function of the origins.
-/
namespace Tcrm.OriginCdf

open Tcrm.Cdf

variable {K : Type} [Field K] [LinearOrder K]

/-- Position of a value in a sorted table. -/
theorem searchsorted_le_iff {l : List K} (hl : l.Pairwise (· ≤ ·)) (q : K) (i : ℕ) (v : K) (hv : l[i]? = some v) :
    searchsorted l q ≤ i ↔ q ≤ v := by
  obtain ⟨hi, rfl⟩ := List.getElem?_eq_some_iff.1 hv
  constructor
  · intro h
    set k := searchsorted l q with hk
    have hkl : k < l.length := by omega
    have := ((searchsorted_spec l q k _ (List.getElem?_eq_getElem hkl)).1 hk.symm).1
    refine this.trans ?_
    rcases Nat.lt_or_ge k i with h' | h'
    · exact List.pairwise_iff_getElem.1 hl k i hkl hi h'
    · have : k = i := by omega
      subst this; exact le_rfl
  · intro h
    by_contra hc
    have hk : searchsorted l q < l.length := (searchsorted_lt_iff l q).2 ⟨_, List.getElem_mem hi, h⟩
    have := ((searchsorted_spec l q _ _ (List.getElem?_eq_getElem hk)).1 rfl).2 i _ (by omega) hv
    exact absurd this (not_lt.2 h)

theorem pyGet_nat {A : Type} (l : List A) (n : ℕ) : pyGet l (n : ℤ) = l[n]? := by
  simp [pyGet]

theorem pyGet_last {A : Type} (l : List A) : pyGet l (-1) = l.getLast? := by
  unfold pyGet
  rw [if_neg (by decide), List.getLast?_eq_getElem?]
  cases l with
  | nil => simp
  | cons a t => simp

variable [IsStrictOrderedRing K]

theorem condRow_nonneg (z : Grid K) (hz : ∀ j i, 0 ≤ z.val j i) (i : ℕ) : ∀ v ∈ condRow z i, 0 ≤ v := by
  intro v hv
  simp only [condRow, List.mem_map, List.mem_range] at hv
  obtain ⟨j, _, rfl⟩ := hv
  split_ifs
  · exact le_rfl
  · exact div_nonneg (hz j i) (List.sum_nonneg fun w hw => by
      simp only [List.mem_map, List.mem_range] at hw
      obtain ⟨j', _, rfl⟩ := hw
      exact hz j' i)

theorem colSums_nonneg (z : Grid K) (hz : ∀ j i, 0 ≤ z.val j i) : ∀ v ∈ colSums z, 0 ≤ v := by
  intro v hv
  simp only [colSums, List.mem_map, List.mem_range] at hv
  obtain ⟨i, -, rfl⟩ := hv
  exact List.sum_nonneg fun w hw => by
    simp only [List.mem_map, List.mem_range] at hw
    obtain ⟨j, -, rfl⟩ := hw
    exact hz j i

/-- A table of the distribution is sorted, also that of a column without density. -/
theorem cdf_sorted (x0 x1 : K) (xs y : List K) (hx : x0 ≠ x1) (hy : ∀ v ∈ y, 0 ≤ v) (hne : y ≠ []) :
    ∃ c, cdf (x0 :: x1 :: xs) y = .ok c ∧ c.length = y.length ∧ c.Pairwise (· ≤ ·) ∧
      (0 < y.sum → c.getLast? = some 1) := by
  rcases (List.sum_nonneg hy).eq_or_lt with h | h
  · have hz : ∀ v ∈ y, v = 0 := by
      intro v hv
      exact le_antisymm (h ▸ List.single_le_sum hy v hv) (hy v hv)
    refine ⟨_, C05_zero_density x0 x1 xs y hne hz, by simp, ?_, by rw [← h]; simp⟩
    exact List.pairwise_replicate.2 (.inr le_rfl)
  · obtain ⟨c, h1, h2, _, h3, _, h4⟩ := C05_cdf_is_distribution_function x0 x1 xs y hx hy h
    exact ⟨c, h1, h2, h3, fun _ => h4⟩

/-- A grid with a density on it -/
structure Density (x y : List K) (z : Grid K) : Prop where
  lon : x.Pairwise (· < ·)
  lat : y.Pairwise (· < ·)
  lon2 : 2 ≤ x.length
  lat2 : 2 ≤ y.length
  cols : x.length = z.cols
  rows : y.length = z.rows
  nonneg : ∀ j i, 0 ≤ z.val j i
  mass : ∃ j i, j < z.rows ∧ i < z.cols ∧ 0 < z.val j i

theorem tables {x y : List K} {z : Grid K} (h : Density x y z) :
    ∃ cx cy, originCdf x y z = .ok (cx, cy) ∧ cx.length = x.length ∧ cx.Pairwise (· ≤ ·) ∧ cx.getLast? = some 1 ∧
      cy.length = x.length ∧
      ∀ i < x.length, ∃ row, cy[i]? = some row ∧ row.length = y.length ∧ row.Pairwise (· ≤ ·) ∧
        ((∃ j < y.length, 0 < z.val j i) → row.getLast? = some 1) := by
  obtain ⟨hlon, hlat, h2, h2', hc, hr, hn, j0, i0, hj0, hi0, hp⟩ := h
  obtain ⟨x0, x1, xs, rfl⟩ : ∃ a b t, x = a :: b :: t := by
    match x, h2 with
    | a :: b :: t, _ => exact ⟨a, b, t, rfl⟩
  obtain ⟨y0, y1, ys, rfl⟩ : ∃ a b t, y = a :: b :: t := by
    match y, h2' with
    | a :: b :: t, _ => exact ⟨a, b, t, rfl⟩
  have hx : x0 ≠ x1 := (List.pairwise_cons.1 hlon).1 x1 (by simp) |>.ne
  have hy : y0 ≠ y1 := (List.pairwise_cons.1 hlat).1 y1 (by simp) |>.ne
  have hcol : ∀ i, (∃ j, j < z.rows ∧ 0 < z.val j i) → 0 < ((List.range z.rows).map fun j => z.val j i).sum := by
    rintro i ⟨j, hj, hp⟩
    refine lt_of_lt_of_le hp ?_
    apply List.single_le_sum (l := (List.range z.rows).map fun j => z.val j i)
    · intro w hw
      simp only [List.mem_map, List.mem_range] at hw
      obtain ⟨k, -, rfl⟩ := hw
      exact hn k i
    · exact List.mem_map.2 ⟨j, List.mem_range.2 hj, rfl⟩
  have hs : 0 < (colSums z).sum := by
    refine lt_of_lt_of_le (hcol i0 ⟨j0, hj0, hp⟩) ?_
    apply List.single_le_sum (colSums_nonneg z hn)
    exact List.mem_map.2 ⟨i0, List.mem_range.2 hi0, rfl⟩
  obtain ⟨cx, hcx, hl, hsorted, hlast⟩ := cdf_sorted x0 x1 xs (colSums z) hx (colSums_nonneg z hn)
    (by rintro h0; rw [h0] at hs; simp at hs)
  have hz0 : 0 < z.rows := by omega
  have hne : ∀ i, condRow z i ≠ [] := by
    intro i h0
    have := congrArg List.length h0
    simp [condRow] at this
    omega
  obtain ⟨cy, hcy, hcl, hci⟩ := mapM_ok_of_forall (fun i => cdf (y0 :: y1 :: ys) (condRow z i)) (List.range z.cols)
    (fun i _ => by
      obtain ⟨c, h1, _⟩ := cdf_sorted y0 y1 ys (condRow z i) hy (condRow_nonneg z hn i) (hne i)
      exact ⟨c, h1⟩)
  refine ⟨cx, cy, ?_, ?_, hsorted, hlast hs, ?_, ?_⟩
  · simp [originCdf, hcx, hcy]
  · rw [hl]; simp [colSums, hc]
  · rw [hcl]; simp [hc]
  · intro i hi
    obtain ⟨row, hrow, hrc⟩ := hci i i (by rw [List.getElem?_range]; omega)
    obtain ⟨c, h1, h3, h4, h5⟩ := cdf_sorted y0 y1 ys (condRow z i) hy (condRow_nonneg z hn i) (hne i)
    rw [hrc] at h1
    cases h1
    refine ⟨row, hrow, by rw [h3]; simp [condRow, hr], h4, ?_⟩
    rintro ⟨j, hj, hp⟩
    apply h5
    have hpx := hcol i ⟨j, by omega, hp⟩
    refine lt_of_lt_of_le (div_pos hp hpx) ?_
    apply List.single_le_sum (condRow_nonneg z hn i)
    simp only [condRow, List.mem_map, List.mem_range]
    exact ⟨j, by omega, by rw [if_neg hpx.ne']⟩

/-- What a sample says about its variates. -/
theorem sample_inv {x y : List K} {z : Grid K} {cx : List K} {cy : List (List K)} (h : originCdf x y z = .ok (cx, cy))
    {q1 q2 a b : K} (hs : sampleOrigin x y z q1 q2 = .ok (a, b)) :
    ∃ row, x[searchsorted cx q1]? = some a ∧ cy[searchsorted cx q1]? = some row ∧
      y[searchsorted row q2]? = some b := by
  simp only [sampleOrigin, h, originPpf] at hs
  split at hs
  · cases hs
  · rename_i row hrow
    split at hs
    · rename_i a' b' ha hb
      cases hs
      exact ⟨row, ha, hrow, hb⟩
    · cases hs

/-- C159 (part): at a location east of the first grid longitude and north of the first grid latitude, the first value is
the probability of a sampled longitude less than that of the location: just those variates up to it give one. The second
value is the probability of a lower latitude among the samples at the last grid longitude west of the location. -/
theorem C159_distribution_partial {x y : List K} {z : Grid K} (h : Density x y z) (xx yy : K) (hxx : ∃ a ∈ x, a < xx)
    (hyy : ∃ b ∈ y, b < yy) :
    ∃ F G, distribution x y z xx yy = .ok (F, G) ∧ ∀ q1 q2 a b, sampleOrigin x y z q1 q2 = .ok (a, b) →
      (a < xx ↔ q1 ≤ F) ∧ ((a < xx ∧ ∀ a' ∈ x, a' < xx → a' ≤ a) → (b < yy ↔ q2 ≤ G)) := by
  obtain ⟨cx, cy, ht, hcxl, hcxs, _, hcyl, hrows⟩ := tables h
  have key : ∀ (l : List K), l.Pairwise (· < ·) → ∀ v, (∃ a ∈ l, a < v) →
      ∃ m, searchsorted l v = m + 1 ∧ m < l.length := by
    intro l hl v ⟨a, ha, hav⟩
    obtain ⟨i, hi, rfl⟩ := List.getElem_of_mem ha
    have h1 : ¬ searchsorted l v ≤ i := fun h0 =>
      absurd ((searchsorted_le_iff (hl.imp le_of_lt) v i _ (List.getElem?_eq_getElem hi)).1 h0) (not_le.2 hav)
    have h2 := searchsorted_le l v
    exact ⟨searchsorted l v - 1, by omega, by omega⟩
  obtain ⟨m, hm, hml⟩ := key x h.lon xx hxx
  obtain ⟨n, hn, hnl⟩ := key y h.lat yy hyy
  obtain ⟨row, hrow, hrl, hrs, _⟩ := hrows m hml
  have hF : cx[m]? = some (cx[m]'(by omega)) := List.getElem?_eq_getElem (by omega)
  have hG : row[n]? = some (row[n]'(by omega)) := List.getElem?_eq_getElem (by omega)
  have below : ∀ (l : List K), l.Pairwise (· < ·) → ∀ (v : K) (m k : ℕ) (a : K), searchsorted l v = m + 1 → l[k]? = some a →
      (a < v ↔ k ≤ m) := by
    intro l hl v m k a hm ha
    rw [← not_le, ← searchsorted_le_iff (hl.imp le_of_lt) v k a ha, hm]
    omega
  refine ⟨cx[m]'(by omega), row[n]'(by omega), ?_, ?_⟩
  · simp only [distribution, ht, cdfAt, hm, hn]
    rw [show ((m + 1 : ℕ) : ℤ) - 1 = (m : ℤ) by push_cast; ring, show ((n + 1 : ℕ) : ℤ) - 1 = (n : ℤ) by push_cast; ring,
      pyGet_nat, pyGet_nat, hF, hrow]
    simp only [Option.bind_some, pyGet_nat, hG]
  · intro q1 q2 a b hs
    obtain ⟨row', ha, hrow', hb⟩ := sample_inv ht hs
    refine ⟨?_, ?_⟩
    · rw [below x h.lon xx m _ a hm ha, searchsorted_le_iff hcxs q1 m _ hF]
    · rintro ⟨hlt, hmax⟩
      have hk : searchsorted cx q1 = m := by
        have h1 := (below x h.lon xx m _ a hm ha).1 hlt
        by_contra hne
        have h2 : x[m] ≤ a := hmax _ (List.getElem_mem hml)
          ((below x h.lon xx m m _ hm (List.getElem?_eq_getElem hml)).2 le_rfl)
        obtain ⟨hk, rfl⟩ := List.getElem?_eq_some_iff.1 ha
        exact absurd h2 (not_le.2 (List.pairwise_iff_getElem.1 h.lon _ _ hk hml (by omega)))
      rw [hk, hrow] at hrow'
      cases hrow'
      rw [below y h.lat yy n _ b hn hb, searchsorted_le_iff hrs q2 n _ hG]

/-- C159 (part): between grid longitudes the first value is the distribution function. -/
theorem C159_between_partial {x y : List K} {z : Grid K} (h : Density x y z) (xx yy : K) (hxx : ∃ a ∈ x, a < xx)
    (hyy : ∃ b ∈ y, b < yy) (hoff : xx ∉ x) :
    ∃ F G, distribution x y z xx yy = .ok (F, G) ∧ ∀ q1 q2 a b, sampleOrigin x y z q1 q2 = .ok (a, b) →
      (a ≤ xx ↔ q1 ≤ F) := by
  obtain ⟨F, G, h1, h2⟩ := C159_distribution_partial h xx yy hxx hyy
  refine ⟨F, G, h1, fun q1 q2 a b hs => ?_⟩
  rw [← (h2 q1 q2 a b hs).1]
  obtain ⟨cx, cy, ht, _⟩ := tables h
  obtain ⟨_, ha, _⟩ := sample_inv ht hs
  have : a ≠ xx := fun e => hoff (e ▸ List.mem_of_getElem? ha)
  exact ⟨fun h => lt_of_le_of_ne h this, le_of_lt⟩

/-- C159 (the failure): at the first grid longitude and anywhere west of it the first value is 1, though no sample lies
west of there. -/
theorem C159_west_fails {x y : List K} {z : Grid K} (h : Density x y z) (xx yy : K) (hxx : ∀ a ∈ x, xx ≤ a)
    (F G : K) (hd : distribution x y z xx yy = .ok (F, G)) :
    F = 1 ∧ ∀ q1 q2 a b, sampleOrigin x y z q1 q2 = .ok (a, b) → xx ≤ a := by
  obtain ⟨cx, cy, ht, hcxl, hcxs, hlast, _⟩ := tables h
  have h0 : searchsorted x xx = 0 := by
    have hx := h.lon2
    have : x[0]? = some (x[0]'(by omega)) := List.getElem?_eq_getElem (by omega)
    have := (searchsorted_le_iff (h.lon.imp le_of_lt) xx 0 _ this).2 (hxx _ (List.getElem_mem _))
    omega
  constructor
  · simp only [distribution, ht, cdfAt, h0] at hd
    rw [show ((0 : ℕ) : ℤ) - 1 = -1 by rfl, pyGet_last, hlast] at hd
    split at hd
    · rename_i a b ha hb
      cases hd
      exact (Option.some.inj ha).symm
    · cases hd
  · intro q1 q2 a b hs
    obtain ⟨_, ha, _⟩ := sample_inv ht hs
    exact hxx a (List.mem_of_getElem? ha)

/-- C159 (the failure): it is not the inverse of `ppf`: at a sampled location it gives a first value below the variate
that gave the sample, except at the first longitude, where it is 1. -/
theorem C159_inverse_fails {x y : List K} {z : Grid K} (h : Density x y z) (q1 q2 a b F G : K)
    (hs : sampleOrigin x y z q1 q2 = .ok (a, b)) (hd : distribution x y z a b = .ok (F, G)) :
    F < q1 ∨ F = 1 ∧ x.head? = some a := by
  by_cases hxx : ∃ a' ∈ x, a' < a
  · left
    by_cases hyy : ∃ b' ∈ y, b' < b
    · obtain ⟨F', G', h1, h2⟩ := C159_distribution_partial h a b hxx hyy
      rw [hd] at h1
      cases h1
      have := (h2 q1 q2 a b hs).1.not.1 (lt_irrefl a)
      exact not_le.1 this
    · -- the first value does not depend on the latitude
      obtain ⟨cx, cy, ht, hcxl, hcxs, _⟩ := tables h
      obtain ⟨_, ha, _⟩ := sample_inv ht hs
      obtain ⟨hk, he⟩ := List.getElem?_eq_some_iff.1 ha
      have hidx : searchsorted x a = searchsorted cx q1 := by
        rw [searchsorted_spec x a _ _ ha]
        refine ⟨le_rfl, fun j w hj hw => ?_⟩
        obtain ⟨hj', rfl⟩ := List.getElem?_eq_some_iff.1 hw
        rw [← he]
        exact List.pairwise_iff_getElem.1 h.lon _ _ hj' hk hj
      have hpos : 0 < searchsorted cx q1 := by
        by_contra h0
        have h0 : searchsorted cx q1 = 0 := by omega
        obtain ⟨a', ha', hlt⟩ := hxx
        obtain ⟨i, hi, rfl⟩ := List.getElem_of_mem ha'
        have := (searchsorted_le_iff (h.lon.imp le_of_lt) a i _ (List.getElem?_eq_getElem hi)).1 (by omega)
        exact absurd this (not_le.2 hlt)
      obtain ⟨m, hm⟩ : ∃ m, searchsorted cx q1 = m + 1 := ⟨_, (Nat.succ_pred_eq_of_pos hpos).symm⟩
      have hml : m < cx.length := by omega
      simp only [distribution, ht, cdfAt, hidx, hm] at hd
      rw [show ((m + 1 : ℕ) : ℤ) - 1 = (m : ℤ) by push_cast; ring, pyGet_nat, List.getElem?_eq_getElem hml] at hd
      split at hd
      · rename_i a'' b'' ha'' hb''
        cases hd
        have hF := Option.some.inj ha''
        rw [← hF, ← not_le, ← searchsorted_le_iff hcxs q1 m _ (List.getElem?_eq_getElem hml)]
        omega
      · cases hd
  · right
    push Not at hxx
    refine ⟨(C159_west_fails h a b hxx F G hd).1, ?_⟩
    obtain ⟨cx, cy, ht, _⟩ := tables h
    obtain ⟨_, ha, _⟩ := sample_inv ht hs
    have h2 := h.lon2
    obtain ⟨x0, x1, xs, rfl⟩ : ∃ a b t, x = a :: b :: t := by
      match x, h2 with
      | a :: b :: t, _ => exact ⟨a, b, t, rfl⟩
    have := hxx x0 (by simp)
    rcases List.mem_cons.1 (List.mem_of_getElem? ha) with rfl | hm
    · rfl
    · exact absurd this (not_le.2 ((List.pairwise_cons.1 h.lon).1 a hm))

/-- C159 (the failure): at the first grid latitude and south of it the second value is 1, if there is density in the
column, though no sample is south of there. -/
theorem C159_south_fails {x y : List K} {z : Grid K} (h : Density x y z) (xx yy : K) (hxx : ∃ a ∈ x, a < xx)
    (hyy : ∀ b ∈ y, yy ≤ b) (hd : ∀ i < x.length, ∃ j < y.length, 0 < z.val j i) :
    (∃ F, distribution x y z xx yy = .ok (F, 1)) ∧
      ∀ q1 q2 a b, sampleOrigin x y z q1 q2 = .ok (a, b) → yy ≤ b := by
  obtain ⟨cx, cy, ht, hcxl, hcxs, hlast, hcyl, hrows⟩ := tables h
  have h0 : searchsorted y yy = 0 := by
    have hy := h.lat2
    have : y[0]? = some (y[0]'(by omega)) := List.getElem?_eq_getElem (by omega)
    have := (searchsorted_le_iff (h.lat.imp le_of_lt) yy 0 _ this).2 (hyy _ (List.getElem_mem _))
    omega
  obtain ⟨m, hm, hml⟩ : ∃ m, searchsorted x xx = m + 1 ∧ m < x.length := by
    obtain ⟨a, ha, hav⟩ := hxx
    obtain ⟨i, hi, rfl⟩ := List.getElem_of_mem ha
    have h1 : ¬ searchsorted x xx ≤ i := fun h0 =>
      absurd ((searchsorted_le_iff (h.lon.imp le_of_lt) xx i _ (List.getElem?_eq_getElem hi)).1 h0) (not_le.2 hav)
    have h2 := searchsorted_le x xx
    exact ⟨searchsorted x xx - 1, by omega, by omega⟩
  obtain ⟨row, hrow, hrl, hrs, hone⟩ := hrows m hml
  refine ⟨⟨cx[m]'(by omega), ?_⟩, ?_⟩
  · simp only [distribution, ht, cdfAt, hm, h0]
    rw [show ((m + 1 : ℕ) : ℤ) - 1 = (m : ℤ) by push_cast; ring, show ((0 : ℕ) : ℤ) - 1 = -1 by rfl, pyGet_nat, pyGet_nat,
      hrow, List.getElem?_eq_getElem (by omega)]
    simp only [Option.bind_some, pyGet_last, hone (hd m hml)]
  · intro q1 q2 a b hs
    obtain ⟨_, _, _, hb⟩ := sample_inv ht hs
    exact hyy b (List.mem_of_getElem? hb)

omit [Field K] [LinearOrder K] [IsStrictOrderedRing K] in
/-- Values computed one by one -/
theorem mapM_ok_get {α β : Type} {f : α → Except Err β} {l : List α} {r : List β} (h : l.mapM f = .ok r) (i : ℕ) (a : α)
    (ha : l[i]? = some a) : ∃ b, r[i]? = some b ∧ f a = .ok b := by
  induction l generalizing r i with
  | nil => simp at ha
  | cons w t ih =>
    rw [List.mapM_cons] at h
    cases hw : f w with
    | error e => simp [hw, bind, Except.bind] at h
    | ok v =>
      cases ht : t.mapM f with
      | error e => simp [hw, ht, bind, Except.bind] at h
      | ok vs =>
        simp [hw, ht, bind, Except.bind, pure, Except.pure] at h
        subst h
        cases i with
        | zero => simp at ha; subst ha; exact ⟨v, rfl, hw⟩
        | succ i => exact ih ht i (by simpa using ha)

/-- C159: a longitude with no density at any latitude has a table of zeros, so that a variate above zero is not found in
it. -/
theorem C159_empty_column {x y : List K} {z : Grid K} (h : Density x y z) (i : ℕ) (hi : i < x.length)
    (he : ∀ j < y.length, z.val j i = 0) :
    ∃ cx cy row, originCdf x y z = .ok (cx, cy) ∧ cy[i]? = some row ∧ row.length = y.length ∧ (∀ v ∈ row, v = 0) ∧
      ∀ q, 0 < q → searchsorted row q = y.length := by
  obtain ⟨cx, cy, ht, -, -, -, -, hrows⟩ := tables h
  obtain ⟨row, hrow, hrl, hrs, -⟩ := hrows i hi
  have hz : ∀ v ∈ row, v = 0 := by
    have h2 := h.lat2
    obtain ⟨y0, y1, ys, rfl⟩ : ∃ a b t, y = a :: b :: t := by
      match y, h2 with
      | a :: b :: t, _ => exact ⟨a, b, t, rfl⟩
    have hcr : condRow z i = List.replicate z.rows 0 := by
      rw [List.eq_replicate_iff]
      refine ⟨by simp [condRow], fun v hv => ?_⟩
      simp only [condRow, List.mem_map, List.mem_range] at hv
      obtain ⟨j, hj, rfl⟩ := hv
      rw [he j (by rw [h.rows]; exact hj)]
      simp
    have hcs : ∀ n, cumsumFrom (0 : K) (List.replicate n 0) = List.replicate n 0 := by
      intro n
      induction n with
      | zero => rfl
      | succ n ih => simp only [List.replicate_succ, cumsumFrom, add_zero, ih]
    have hcdf : cdf (y0 :: y1 :: ys) (condRow z i) = .ok row := by
      simp only [originCdf] at ht
      split at ht
      · cases ht
      · split at ht
        · cases ht
        · rename_i cy' hcy
          cases ht
          obtain ⟨c, hc, hc'⟩ := (mapM_ok_get hcy i i (by rw [List.getElem?_range]; rw [← h.cols]; exact hi))
          rw [hrow] at hc
          cases hc
          exact hc'
    rw [hcr] at hcdf
    simp only [cdf, cumsum, List.map_replicate, mul_zero, hcs] at hcdf
    split at hcdf
    · cases hcdf
    · rename_i last hl
      have : last = 0 := List.eq_of_mem_replicate (List.mem_of_getLast? hl)
      rw [if_pos this] at hcdf
      cases hcdf
      intro v hv
      exact List.eq_of_mem_replicate hv
  refine ⟨cx, cy, row, ht, hrow, hrl, hz, fun q hq => ?_⟩
  rw [← hrl]
  unfold searchsorted
  rw [List.findIdx_eq_length]
  intro v hv
  rw [hz v hv]
  simpa using hq

/-- A density with no origins in its third column -/
example : Density (K := ℚ) [100, 101, 102] [-20, -19] ⟨2, 3, fun j i => if i = j then 1 else 0⟩ ∧
    ∀ j < 2, (⟨2, 3, fun j i => if i = j then 1 else 0⟩ : Grid ℚ).val j 2 = 0 :=
  ⟨⟨by decide +kernel, by decide +kernel, by decide, by decide, rfl, rfl,
    fun j i => by simp only; split_ifs <;> norm_num, ⟨0, 0, by decide, by decide, by simp⟩⟩, by decide⟩

/-- A density with origins in the south in the first column and in the north in the second -/
def exZ : Grid ℚ := ⟨2, 2, fun j i => if i = j then 1 else 0⟩

theorem ex_density : Density (K := ℚ) [100, 101] [-20, -19] exZ where
  lon := by decide +kernel
  lat := by decide +kernel
  lon2 := by decide
  lat2 := by decide
  cols := rfl
  rows := rfl
  nonneg := fun j i => by simp only [exZ]; split_ifs <;> norm_num
  mass := ⟨0, 0, by decide, by decide, by simp [exZ]⟩

/-- C159 (the failure): at a grid point the second value is that of the column to its west. In the second column all
origins are at -19, but the probability of a lower latitude is given as 1. -/
theorem C159_column_fails : distribution [100, 101] [-20, -19] exZ 101 (-19) = .ok (1 / 2, 1) ∧
    ∀ q2 a b, 0 < q2 → q2 ≤ 1 → sampleOrigin [100, 101] [-20, -19] exZ 1 q2 = .ok (a, b) → a = 101 ∧ b = -19 := by
  constructor
  · norm_num [distribution, exZ, originCdf, cdfAt, cdf, colSums, condRow, cumsum, cumsumFrom, pyGet,
      List.range_succ, searchsorted, List.findIdx_cons, bind, Except.bind, pure, Except.pure]
  · intro q2 a b h0 h1 hs
    norm_num [sampleOrigin, exZ, originCdf, originPpf, cdf, colSums, condRow, cumsum, cumsumFrom,
      List.range_succ, searchsorted, List.findIdx_cons, bind, Except.bind, pure, Except.pure, h0, not_le.2 h0, h1] at hs
    exact ⟨hs.1.symm, hs.2.symm⟩

/-- Half-way between the columns, half of the samples lie to the west. -/
example : distribution [100, 101] [-20, -19] exZ (201 / 2) (-39 / 2) = .ok (1 / 2, 1) := by
  norm_num [distribution, exZ, originCdf, cdfAt, cdf, colSums, condRow, cumsum, cumsumFrom, pyGet,
    List.range_succ, searchsorted, List.findIdx_cons, bind, Except.bind, pure, Except.pure]

theorem rows_get {A B C : Type} (F : A → B → C) (x : List A) (y : List B) (i j : ℕ) (a : A) (b : B)
    (hi : x[i]? = some a) (hj : y[j]? = some b) :
    (y.flatMap fun b => x.map fun a => F a b)[j * x.length + i]? = some (F a b) := by
  induction y generalizing j with
  | nil => simp at hj
  | cons c y ih =>
    have hlt : i < x.length := (List.getElem?_eq_some_iff.1 hi).1
    rw [List.flatMap_cons]
    cases j with
    | zero =>
      obtain rfl : c = b := by simpa using hj
      rw [List.getElem?_append_left (by simpa using hlt)]
      simp [hi]
    | succ j =>
      rw [List.getElem?_append_right (by simp; nlinarith)]
      rw [show (j + 1) * x.length + i - (x.map fun a => F a c).length = j * x.length + i by
        rw [List.length_map, Nat.succ_mul]; omega]
      exact ih j (by simpa using hj)

omit [Field K] [LinearOrder K] [IsStrictOrderedRing K] in
/-- C159: without saving, the estimated distribution function is returned at every grid point, longitude by
longitude for each latitude, each value with the coordinates of its own point. -/
theorem C159_grid (F : K → K → K) (x y : List K) (i j : ℕ) (a b : K) (hi : x[i]? = some a) (hj : y[j]? = some b) :
    (gridCdf F x y).shape = [y.length * x.length] ∧ (gridCdf F x y).data.length = y.length * x.length ∧
      (gridCdf F x y).data[j * x.length + i]? = some (F a b) := by
  refine ⟨rfl, ?_, rows_get F x y i j a b hi hj⟩
  simp [gridCdf, List.length_flatMap]

example : (gridCdf (fun a b => a - b) [100, 101] [(-5 : ℤ), -6, -7]).data[1 * 2 + 1]? = some (101 - -6) := by decide

omit [Field K] [LinearOrder K] [IsStrictOrderedRing K] in
/-- C159 (the failure): saving the distribution function always raises, after a file with the axes but without the
distribution function has replaced an earlier one. -/
theorem C159_save_fails {T : Type} (lib : NcGrid.Lib T K) (ty : NcGrid.Types T) (default nodata : K)
    (disk : NcGrid.Disk T K) (path : String) (F : K → K → K) (x y : List K) :
    ∃ disk' f, saveCdf lib ty default nodata disk path F x y = (disk', some .value) ∧
      NcGrid.ncLoadFile disk' path = .ok f ∧ NcGrid.ncGetData f "gcdf" = .error .key ∧
      NcGrid.ncGetDims f "lat" = .ok (y.map (lib.cast ty.f)) := by
  have h : saveCdf lib ty default nodata disk path F x y = (Function.update disk path (some
      ⟨[("lat", y.length), ("lon", x.length)],
        [⟨"lat", ty.f, ["lat"], none, y.map (lib.cast ty.f), {}⟩, ⟨"lon", ty.f, ["lon"], none, x.map (lib.cast ty.f), {}⟩]⟩),
      some .value) := by
    simp [saveCdf, NcGrid.ncSaveGrid, NcGrid.addDims, NcGrid.addVars, NcGrid.ncCreateDim, NcGrid.createVar, NcGrid.sizes,
      gridCdf, List.lookup, Function.comp_def]
  refine ⟨_, _, h, by simp only [NcGrid.ncLoadFile, Function.update_self]; rfl, ?_, ?_⟩
  · simp [NcGrid.ncGetData, NcGrid.ncGetVar]
  · simp [NcGrid.ncGetDims, NcGrid.ncGetVar, Except.map]

omit [Field K] [LinearOrder K] [IsStrictOrderedRing K] in
/-- C159: the density is saved, row by row of the grid. -/
theorem C159_density_saved {T : Type} (lib : NcGrid.Lib T K) (ty : NcGrid.Types T) (default nodata : K)
    (disk : NcGrid.Disk T K) (path : String) (f : K → K → K) (x y : List K) :
    ∃ disk' file, savePdf lib ty default nodata disk path f x y = (disk', none) ∧
      NcGrid.ncLoadFile disk' path = .ok file ∧ NcGrid.ncGetDims file "lat" = .ok (y.map (lib.cast ty.f)) ∧
      NcGrid.ncGetDims file "lon" = .ok (x.map (lib.cast ty.f)) ∧
      NcGrid.ncGetData file "gpdf" =
        .ok ⟨[y.length, x.length], y.flatMap fun b => x.map fun a => lib.cast ty.f (f a b)⟩ := by
  have h : savePdf lib ty default nodata disk path f x y = (Function.update disk path (some
      ⟨[("lat", y.length), ("lon", x.length)],
        [⟨"lat", ty.f, ["lat"], none, y.map (lib.cast ty.f), {}⟩, ⟨"lon", ty.f, ["lon"], none, x.map (lib.cast ty.f), {}⟩,
          ⟨"gpdf", ty.f, ["lat", "lon"], some (lib.cast ty.f nodata),
            y.flatMap fun b => x.map fun a => lib.cast ty.f (f a b), {}⟩]⟩), none) := by
    simp [savePdf, NcGrid.ncSaveGrid, NcGrid.addDims, NcGrid.addVars, NcGrid.ncCreateDim, NcGrid.createVar, NcGrid.sizes,
      List.lookup, List.map_flatMap, Function.comp_def]
  refine ⟨_, _, h, by simp only [NcGrid.ncLoadFile, Function.update_self]; rfl, ?_, ?_, ?_⟩
  · simp [NcGrid.ncGetDims, NcGrid.ncGetVar, Except.map]
  · simp [NcGrid.ncGetDims, NcGrid.ncGetVar, Except.map]
  · simp [NcGrid.ncGetData, NcGrid.ncGetVar, NcGrid.sizes, List.lookup]

end Tcrm.OriginCdf
