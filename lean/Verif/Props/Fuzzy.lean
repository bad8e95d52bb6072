import Verif.Lemmas.Fuzzy
import Verif.Props.DataProc
/-!
C185 (limits of a domain in double precision).
-/
namespace Tcrm.Fuzzy

/-- C185: the next number in the direction of a target is the representable number next to the given one. -/
theorem C185_nextafter (x : ℤ) (y : ℚ) :
    (y < value x → Representable (value (nextafter x y)) ∧ value (nextafter x y) < value x ∧
      ∀ u, Representable u → u < value x → u ≤ value (nextafter x y)) ∧
    (value x < y → Representable (value (nextafter x y)) ∧ value x < value (nextafter x y) ∧
      ∀ u, Representable u → value x < u → value (nextafter x y) ≤ u) ∧
    (y = value x → nextafter x y = x) := by
  unfold nextafter
  refine ⟨fun h => ?_, fun h => ?_, fun h => ?_⟩
  · rw [if_pos h]
    refine ⟨(representable_iff _).2 ⟨_, rfl⟩, value_strictMono (by omega), ?_⟩
    intro u hu hlt
    obtain ⟨k, rfl⟩ := (representable_iff u).1 hu
    exact value_strictMono.le_iff_le.2 (by have := value_strictMono.lt_iff_lt.1 hlt; omega)
  · rw [if_neg (not_lt.2 h.le), if_pos h]
    refine ⟨(representable_iff _).2 ⟨_, rfl⟩, value_strictMono (by omega), ?_⟩
    intro u hu hlt
    obtain ⟨k, rfl⟩ := (representable_iff u).1 hu
    exact value_strictMono.le_iff_le.2 (by have := value_strictMono.lt_iff_lt.1 hlt; omega)
  · rw [if_neg (by rw [h]; exact lt_irrefl _), if_neg (by rw [h]; exact lt_irrefl _)]

/-- C185: with limits included, a number passes if and only if it is in the range or outside by not more than `fuzz`
representable numbers. -/
theorem C185_between (v lo hi : ℤ) (fuzz : ℕ) : between v lo hi fuzz true = true ↔
    NotFarBelow fuzz (value v) (value lo) ∧ NotFarAbove fuzz (value v) (value hi) := by
  unfold between
  rw [expand_eq, notFarBelow_iff, notFarAbove_iff]
  simp [value_strictMono.le_iff_le]

/-- C185: with limits excluded, a number passes if and only if it is strictly inside the range or, with the limit itself
counted, outside by not more than `fuzz` representable numbers. -/
theorem C185_between_exclusive (v lo hi : ℤ) (fuzz : ℕ) : between v lo hi fuzz false = true ↔
    ({u : ℚ | Representable u ∧ value v ≤ u ∧ u ≤ value lo}.ncard ≤ fuzz) ∧
    ({u : ℚ | Representable u ∧ value hi ≤ u ∧ u ≤ value v}.ncard ≤ fuzz) := by
  have h : ∀ a b : ℤ, {u : ℚ | Representable u ∧ value a ≤ u ∧ u ≤ value b}.ncard = (b + 1 - a).toNat := by
    intro a b
    have : {u : ℚ | Representable u ∧ value a ≤ u ∧ u ≤ value b} = value '' Set.Icc a b := by
      ext u
      simp only [Set.mem_setOf_eq, representable_iff, Set.mem_image, Set.mem_Icc]
      constructor
      · rintro ⟨⟨k, rfl⟩, h1, h2⟩
        exact ⟨k, ⟨value_strictMono.le_iff_le.1 h1, value_strictMono.le_iff_le.1 h2⟩, rfl⟩
      · rintro ⟨k, ⟨h1, h2⟩, rfl⟩
        exact ⟨⟨k, rfl⟩, value_strictMono.le_iff_le.2 h1, value_strictMono.le_iff_le.2 h2⟩
    rw [this, Set.ncard_image_of_injective _ value_strictMono.injective, ← Finset.coe_Icc, Set.ncard_coe_finset,
      Int.card_Icc]
  unfold between
  rw [expand_eq, h, h]
  simp only [Bool.false_eq_true, if_false, Bool.and_eq_true, decide_eq_true_eq, value_strictMono.lt_iff_lt]
  omega

/-- C185: everything in the closed range passes, whatever the widening. -/
theorem C185_inside (v lo hi : ℤ) (fuzz : ℕ) (h1 : value lo ≤ value v) (h2 : value v ≤ value hi) :
    between v lo hi fuzz true = true := by
  rw [C185_between, notFarBelow_iff, notFarAbove_iff]
  have := value_strictMono.le_iff_le.1 h1
  have := value_strictMono.le_iff_le.1 h2
  omega

/-- The program with widened limits is the exact one on the widened domain. -/
theorem extract_eq (b : Box) (obs : List Obs) : extractTracks b obs =
    DataProc.extractTracks ⟨value (b.xMin - 2), value (b.xMax + 2), value (b.yMin - 2), value (b.yMax + 2)⟩
      (obs.map fun o => ⟨o.index, value o.lon, value o.lat⟩) := by
  unfold extractTracks DataProc.extractTracks
  rw [List.foldl_map]
  congr 2
  funext s o
  unfold extractStep DataProc.extractStep DataProc.isIn between
  simp only [expand_eq]
  simp [Bool.and_assoc]

/-- C185: restricting a record to a domain keeps, in order and without repetition, exactly the observations of the tracks
that start in the domain or not more than two representable numbers outside. -/
theorem C185_extract (b : Box) (obs : List Obs) : (extractTracks b obs).Pairwise (· < ·) ∧
    ∀ i, i ∈ extractTracks b obs ↔ i < obs.length ∧ StartsWith (Near b) obs i := by
  rw [extract_eq]
  obtain ⟨h1, h2⟩ := DataProc.C36_extract
    ⟨value (b.xMin - 2), value (b.xMax + 2), value (b.yMin - 2), value (b.yMax + 2)⟩
    (obs.map fun o => ⟨o.index, value o.lon, value o.lat⟩)
  refine ⟨h1, fun i => (h2 i).trans ?_⟩
  rw [List.length_map]
  refine and_congr_right fun _ => ?_
  unfold DataProc.Kept StartsWith
  have hn : ∀ o : Obs, DataProc.In ⟨value (b.xMin - 2), value (b.xMax + 2), value (b.yMin - 2), value (b.yMax + 2)⟩
      ⟨o.index, value o.lon, value o.lat⟩ ↔ Near b o := by
    intro o
    unfold DataProc.In Near
    simp only [notFarBelow_iff, notFarAbove_iff, value_strictMono.le_iff_le, Nat.cast_ofNat]
  constructor
  · rintro ⟨k, o, hk, ho, hi, hin, hj⟩
    rw [List.getElem?_map, Option.map_eq_some_iff] at ho
    obtain ⟨x, hx, rfl⟩ := ho
    refine ⟨k, x, hk, hx, hi, (hn x).1 hin, ?_⟩
    intro j p h1 h2 hp
    exact hj j _ h1 h2 (by rw [List.getElem?_map, hp]; rfl)
  · rintro ⟨k, o, hk, ho, hi, hin, hj⟩
    refine ⟨k, _, hk, by rw [List.getElem?_map, ho]; rfl, hi, (hn o).2 hin, ?_⟩
    intro j p h1 h2 hp
    rw [List.getElem?_map, Option.map_eq_some_iff] at hp
    obtain ⟨x, hx, rfl⟩ := hp
    exact hj j x h1 h2 hx

/-- C185: a track that starts in the closed domain is kept. -/
theorem C185_start_inside (b : Box) (obs : List Obs) (i : ℕ) (o : Obs) (ho : obs[i]? = some o) (hi : o.index = 1)
    (hx : value b.xMin ≤ value o.lon ∧ value o.lon ≤ value b.xMax)
    (hy : value b.yMin ≤ value o.lat ∧ value o.lat ≤ value b.yMax) : i ∈ extractTracks b obs := by
  rw [(C185_extract b obs).2]
  refine ⟨(List.getElem?_eq_some_iff.1 ho).1, i, o, le_refl _, ho, hi, ?_, fun j p h1 h2 => by omega⟩
  unfold Near
  simp only [notFarBelow_iff, notFarAbove_iff]
  simp only [value_strictMono.le_iff_le] at hx hy
  omega

/-- A degree of longitude, 110, and the number two steps below it: 110 has the bit pattern 0x405B800000000000. -/
example : value 0x405B800000000000 = 110 := by unfold value magnitude; norm_num

example : value 0x405B7FFFFFFFFFFE = 110 - 2 / 2 ^ 46 := by unfold value magnitude; norm_num

example : value (-0x4024000000000000) = -10 := by unfold value magnitude; norm_num

/-- The domain from 110 to 120 (0x405E000000000000) and -20 (0x4034000000000000) to -10: tracks starting on its corner, two
steps outside and three steps outside. -/
example : extractTracks ⟨0x405B800000000000, 0x405E000000000000, -0x4034000000000000, -0x4024000000000000⟩
    [⟨1, 0x405B800000000000, -0x4024000000000000⟩, ⟨0, 0, 0⟩,
     ⟨1, 0x405B7FFFFFFFFFFE, -0x4024000000000000⟩, ⟨0, 0, 0⟩,
     ⟨1, 0x405B7FFFFFFFFFFD, -0x4024000000000000⟩, ⟨0, 0, 0⟩,
     ⟨1, 0x405E000000000000, -0x4023FFFFFFFFFFFE⟩, ⟨1, 0x405E000000000000, -0x4023FFFFFFFFFFFD⟩] = [0, 1, 2, 3, 6] := by
  rw [extract_eq]
  unfold DataProc.extractTracks DataProc.extractStep DataProc.isIn
  simp [value_strictMono.le_iff_le]

end Tcrm.Fuzzy
