import Verif.Model.MultiplierFiles
import Verif.Props.Config
import Mathlib.Tactic.Linarith
import Mathlib.Tactic.NormNum
import Mathlib.Tactic.FinCases
/-!
C80: combination of multipliers. C81: locations in S3. C82: the extent of the output. C83: files of local wind.
-/
namespace Tcrm.MultiplierFiles
open Tcrm.Config (Text split join)

/-- C80: the combined multiplier is the product, if all three are known, and missing if the one for the terrain is. -/
theorem C80_product_partial (a b c : ℝ) :
    (a ≠ -9999 → b ≠ -9999 → c ≠ -9999 → combine a b c = a * b * c) ∧ (a = -9999 → combine a b c = -9999) := by
  unfold combine maskedMul masked missing
  constructor
  · intro ha hb hc; simp [ha, hb, hc]
  · intro ha; simp [ha]

/-- C80 fails: a missing multiplier for topography or shielding is taken to be 1 (and with the former, that for
shielding too, though it may be known). -/
theorem C80_missing_fails (a b c : ℝ) (ha : a ≠ -9999) :
    (b = -9999 → combine a b c = a) ∧ (b ≠ -9999 → c = -9999 → combine a b c = a * b) := by
  unfold combine maskedMul masked missing
  constructor
  · intro hb; simp [ha, hb]
  · intro hb hc; simp [ha, hb, hc]

example : (1 : ℝ) ≠ -9999 := by norm_num

theorem join_split (c : Char) (t : Text) : join c (split c t) = t := by
  induction t with
  | nil => rfl
  | cons x t ih =>
    unfold split
    have hn := Config.split_ne_nil c t
    split_ifs with h
    · cases e : split c t with
      | nil => exact absurd e hn
      | cons w ws =>
        rw [e] at ih
        show [] ++ c :: join c (w :: ws) = _
        rw [ih, h]; rfl
    · cases e : split c t with
      | nil => exact absurd e hn
      | cons w ws =>
        rw [e] at ih
        cases ws with
        | nil => show x :: w = _; rw [← ih]; rfl
        | cons w' ws => show (x :: w) ++ c :: join c (w' :: ws) = _; rw [← ih]; rfl

theorem split_mid (c : Char) (t f : Text) : split c (t ++ c :: f) = split c t ++ split c f := by
  induction t with
  | nil =>
    show split c (c :: f) = _
    have : split c (c :: f) = [] :: split c f := by conv_lhs => rw [split.eq_2, if_pos rfl]
    rw [this]; rfl
  | cons x t ih =>
    show split c (x :: (t ++ c :: f)) = _
    rw [split, split]
    split_ifs with h
    · rw [ih]; rfl
    · rw [ih]
      cases e : split c t with
      | nil => exact absurd e (Config.split_ne_nil c t)
      | cons w ws => rfl

/-- The path `/vsis3/` followed by a text -/
def vsis3 (t : Text) : Text := "/vsis3/".toList ++ t

theorem split_vsis3 (t : Text) : split '/' (vsis3 t) = [] :: "vsis3".toList :: split '/' t := by
  have : vsis3 t = [] ++ '/' :: ("vsis3".toList ++ '/' :: t) := rfl
  rw [this, Config.split_append (by simp), Config.split_append (by decide)]

theorem segments_eq {bucket : Text} (hb : '/' ∉ bucket) (key : Text) :
    s3Segments (vsis3 (bucket ++ '/' :: key)) = .ok (bucket, key, (split '/' key).getLastD []) := by
  unfold s3Segments
  rw [split_vsis3, Config.split_append hb]
  simp only [ne_eq, not_true_eq_false, if_false, join_split]
  congr 3
  cases e : split '/' key with
  | nil => exact absurd e (Config.split_ne_nil _ _)
  | cons w ws => rfl

/-- C81: bucket, key and file name of a location are those written. -/
theorem C81_segments (bucket dir file : Text) (hb : '/' ∉ bucket) (hf : '/' ∉ file) :
    s3Segments (vsis3 (bucket ++ '/' :: file)) = .ok (bucket, file, file) ∧
    s3Segments (vsis3 (bucket ++ '/' :: (dir ++ '/' :: file))) = .ok (bucket, dir ++ '/' :: file, file) := by
  rw [segments_eq hb, segments_eq hb]
  constructor
  · rw [Config.split_of_no_sep hf]; rfl
  · congr 3
    rw [split_mid, Config.split_of_no_sep hf, List.getLastD_eq_getLast?, List.getLast?_concat]
    rfl

/-- C81: anything else is refused, but a bucket without key is accepted, and taken for the name of the file too. -/
theorem C81_refused (path : Text) (r : Text × Text × Text) : s3Segments path = .ok r ↔
    ∃ bucket, '/' ∉ bucket ∧ ((path = vsis3 bucket ∧ r = (bucket, [], bucket)) ∨
      ∃ key, path = vsis3 (bucket ++ '/' :: key) ∧ r = (bucket, key, (split '/' key).getLastD [])) := by
  constructor
  · intro h
    have hj := join_split '/' path
    unfold s3Segments at h
    cases e : split '/' path with
    | nil => exact absurd e (Config.split_ne_nil _ _)
    | cons s0 l =>
      have ns : ∀ w ∈ s0 :: l, '/' ∉ w := fun w hw => Config.split_no_sep (e ▸ hw)
      simp only [e] at h
      split_ifs at h with h0
      push Not at h0
      subst h0
      cases l with
      | nil => simp at h
      | cons s1 l =>
        simp only at h
        split_ifs at h with h1
        push Not at h1
        subst h1
        cases l with
        | nil => simp at h
        | cons b l =>
          simp only [Except.ok.injEq] at h
          refine ⟨b, ns b (by simp), ?_⟩
          rw [e] at hj
          cases l with
          | nil => left; exact ⟨hj.symm, h.symm⟩
          | cons w ws =>
            right
            refine ⟨join '/' (w :: ws), hj.symm, ?_⟩
            rw [← h, Config.split_join (by simp) (fun x hx => ns x (by simp at hx ⊢; tauto))]
            simp
  · rintro ⟨b, hb, ⟨rfl, rfl⟩ | ⟨key, rfl, rfl⟩⟩
    · unfold s3Segments
      rw [split_vsis3, Config.split_of_no_sep hb]
      rfl
    · exact segments_eq hb key

/-- C81: a file of a directory has the key of the directory, a slash and its name, whether or not the directory is
written with a slash at the end. -/
theorem C81_directory (bucket dir file : Text) (hb : '/' ∉ bucket) (hb' : bucket ≠ [])
    (hd : dir.getLast? ≠ some '/') (hd' : dir ≠ []) :
    s3File (vsis3 (bucket ++ '/' :: dir)) file = .ok (bucket, dir ++ '/' :: file) ∧
    s3File (vsis3 (bucket ++ '/' :: (dir ++ ['/']))) file = .ok (bucket, dir ++ '/' :: file) ∧
    s3File (vsis3 bucket) file = .ok (bucket, file) ∧ s3File (vsis3 (bucket ++ ['/'])) file = .ok (bucket, file) := by
  have l0 (t : Text) (h : t ≠ []) : (vsis3 t).getLast? = t.getLast? := List.getLast?_append_of_ne_nil _ h
  have l1 : (vsis3 bucket).getLast? ≠ some '/' := by
    rw [l0 _ hb']
    intro e
    exact hb (List.mem_of_getLast? e)
  have l2 : (vsis3 (bucket ++ '/' :: dir)).getLast? ≠ some '/' := by
    rw [l0 _ (by simp), List.getLast?_append_of_ne_nil _ (by simp)]
    cases dir with
    | nil => exact absurd rfl hd'
    | cons a u => rw [List.getLast?_cons_cons]; exact hd
  have l3 : (vsis3 (bucket ++ '/' :: (dir ++ ['/']))).getLast? = some '/' := by
    rw [l0 _ (by simp)]
    have : bucket ++ '/' :: (dir ++ ['/']) = (bucket ++ '/' :: dir) ++ ['/'] := by simp
    rw [this, List.getLast?_concat]
  have l4 : (vsis3 (bucket ++ ['/'])).getLast? = some '/' := by
    rw [l0 _ (by simp), List.getLast?_concat]
  have app (t u : Text) : vsis3 t ++ u = vsis3 (t ++ u) := List.append_assoc _ _ _
  have e1 : s3File (vsis3 (bucket ++ '/' :: (dir ++ ['/']))) file = .ok (bucket, dir ++ '/' :: file) := by
    unfold s3File
    simp only [if_pos l3, segments_eq hb, List.append_assoc]
    rfl
  have e2 : s3File (vsis3 (bucket ++ ['/'])) file = .ok (bucket, file) := by
    unfold s3File
    simp only [if_pos l4]
    rw [segments_eq hb]
    rfl
  refine ⟨?_, e1, ?_, e2⟩
  · rw [← e1]
    unfold s3File
    rw [if_neg l2, if_pos l3, app, List.append_assoc]
    rfl
  · rw [← e2]
    unfold s3File
    rw [if_neg l1, if_pos l4, app]

example : '/' ∉ "bucket".toList ∧ "bucket".toList ≠ [] ∧ "a/b".toList.getLast? ≠ some '/' ∧ "a/b".toList ≠ [] ∧
    '/' ∉ "m4.tif".toList := by decide

/-- A point lies in an extent. -/
def Extent.Has (e : Extent) (x y : ℚ) : Prop := e.xMin ≤ x ∧ x ≤ e.xMax ∧ e.yMin ≤ y ∧ y ≤ e.yMax

/-- C82: without a complete extent in the configuration, the output covers the points of both rasters. -/
theorem C82_intersection (gust image : Extent) (x y : ℚ) :
    (effectiveExtent none gust image).Has x y ↔ gust.Has x y ∧ image.Has x y := by
  simp only [effectiveExtent, Extent.Has, max_le_iff, le_min_iff]
  tauto

/-- C82: a complete extent is used as it is. -/
theorem C82_given (e gust image : Extent) : effectiveExtent (some e) gust image = e := rfl

/-- C82, partial: the extent of an image with north at the top has all its points and no others. -/
theorem C82_image_partial (gt : Fin 6 → ℚ) (width height : ℕ) (h2 : gt 2 = 0) (h4 : gt 4 = 0) (h1 : 0 < gt 1)
    (h5 : gt 5 < 0) (u v : ℚ) :
    (imageExtent gt width height).Has (gt 0 + u * gt 1 + v * gt 2) (gt 3 + u * gt 4 + v * gt 5) ↔
      0 ≤ u ∧ u ≤ width ∧ 0 ≤ v ∧ v ≤ height := by
  simp only [imageExtent, Extent.Has, h2, h4, mul_zero, add_zero]
  constructor
  · rintro ⟨a, b, c, d⟩
    refine ⟨?_, ?_, ?_, ?_⟩
    · by_contra hn; push Not at hn; nlinarith
    · by_contra hn; push Not at hn; nlinarith
    · by_contra hn; push Not at hn; nlinarith
    · by_contra hn; push Not at hn; nlinarith
  · rintro ⟨a, b, c, d⟩
    refine ⟨?_, ?_, ?_, ?_⟩ <;> nlinarith

/-- C82 fails for an image with south at the top: its extent is empty. -/
theorem C82_south_up_fails (gt : Fin 6 → ℚ) (width height : ℕ) (hh : 0 < height) (h4 : gt 4 = 0) (h5 : 0 < gt 5)
    (x y : ℚ) : ¬(imageExtent gt width height).Has x y := by
  rintro ⟨-, -, c, d⟩
  simp only [imageExtent, h4, mul_zero, add_zero] at c d
  have : (0 : ℚ) < height * gt 5 := mul_pos (by exact_mod_cast hh) h5
  linarith

/-- C82 fails for rasters that do not overlap: an empty extent is returned, and no error is raised. -/
theorem C82_disjoint_fails (gust image : Extent) (h : gust.xMax < image.xMin) (x y : ℚ) :
    ¬(effectiveExtent none gust image).Has x y := by
  rw [C82_intersection]
  rintro ⟨⟨-, a, -, -⟩, b, -⟩
  linarith

end Tcrm.MultiplierFiles
