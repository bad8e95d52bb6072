import Verif.Spec.LowRes
import Verif.Props.Multipliers
import Mathlib.Analysis.SpecialFunctions.Trigonometric.Angle
import Mathlib.Data.List.Nodup
/-!
C177: multipliers applied at the resolution of the wind fields.
-/
namespace Tcrm.LowRes
open LocalWind (Path join)
open Real Spec Multipliers

/-- C177 fails: the program never writes anything, whatever the configuration and the files are. -/
theorem C177_nothing_fails (w : World) (sample : ℕ → ℝ → ℝ → ℝ) (dir mult work : Path) :
    (run w sample dir mult work).1 = [] ∧ ∃ e, (run w sample dir mult work).2 = some e := by
  unfold run mainWith
  split
  · exact ⟨rfl, _, rfl⟩
  · rename_i p ps hp
    unfold downscale
    by_cases h1 : w.isFile mult = true <;> by_cases h2 : w.isFile p = true <;> simp [h1, h2]

/-- C177: bringing a multiplier file to the grid of another reports a missing file exactly if one of the two is missing,
and otherwise ends with the attribute that does not exist. -/
theorem C177_missing (w : World) (src matchFile dst : Path) :
    (downscale w src matchFile dst = .error .fileNotFound ↔ w.isFile src = false ∨ w.isFile matchFile = false) ∧
    (downscale w src matchFile dst = .error .attributeError ↔ w.isFile src = true ∧ w.isFile matchFile = true) := by
  unfold downscale
  cases w.isFile src <;> cases w.isFile matchFile <;> simp

example : downscale ⟨[], fun p => p = ['a'], fun _ => false, fun _ => none⟩ ['a'] ['b'] ['c'] = .error .fileNotFound := by
  simp [downscale]

theorem localAt_eq (wind b : ℝ) (m4 : ℕ → ℝ) (h0 : 0 ≤ b) (h1 : b < 360) : localAt wind b m4 = localWind wind b m4 := by
  have : localAt wind b m4 =
      if 337.5 ≤ b ∧ b < 360 then wind * m4 8 else if 292.5 ≤ b ∧ b < 337.5 then wind * m4 7
      else if 247.5 ≤ b ∧ b < 292.5 then wind * m4 6 else if 202.5 ≤ b ∧ b < 247.5 then wind * m4 5
      else if 157.5 ≤ b ∧ b < 202.5 then wind * m4 4 else if 112.5 ≤ b ∧ b < 157.5 then wind * m4 3
      else if 67.5 ≤ b ∧ b < 112.5 then wind * m4 2 else if 22.5 ≤ b ∧ b < 67.5 then wind * m4 1
      else if 0 ≤ b ∧ b < 22.5 then wind * m4 0 else wind := by
    unfold localAt indices
    simp only [List.zipIdx_cons, List.zipIdx_nil, List.foldl_cons, List.foldl_nil]
    norm_num
  rw [this, localWind_eq]
  split_ifs <;> first | rfl | skip
  exfalso
  rename_i g1 g2 g3 g4 g5 g6 g7 g8 g9
  by_cases a1 : b < 22.5
  · exact g9 ⟨h0, a1⟩
  by_cases a2 : b < 67.5
  · exact g8 ⟨not_lt.1 a1, a2⟩
  by_cases a3 : b < 112.5
  · exact g7 ⟨not_lt.1 a2, a3⟩
  by_cases a4 : b < 157.5
  · exact g6 ⟨not_lt.1 a3, a4⟩
  by_cases a5 : b < 202.5
  · exact g5 ⟨not_lt.1 a4, a5⟩
  by_cases a6 : b < 247.5
  · exact g4 ⟨not_lt.1 a5, a6⟩
  by_cases a7 : b < 292.5
  · exact g3 ⟨not_lt.1 a6, a7⟩
  by_cases a8 : b < 337.5
  · exact g2 ⟨not_lt.1 a7, a8⟩
  exact g1 ⟨not_lt.1 a8, h1⟩

theorem bearing_unique {u v a b : ℝ} (hne : u ≠ 0 ∨ v ≠ 0) (ha0 : 0 ≤ a) (ha1 : a < 360) (hb0 : 0 ≤ b) (hb1 : b < 360)
    (as : √(u ^ 2 + v ^ 2) * sin (a * π / 180) = -u) (ac : √(u ^ 2 + v ^ 2) * cos (a * π / 180) = -v)
    (bs : √(u ^ 2 + v ^ 2) * sin (b * π / 180) = -u) (bc : √(u ^ 2 + v ^ 2) * cos (b * π / 180) = -v) : a = b := by
  have hpos : 0 < √(u ^ 2 + v ^ 2) := by
    apply Real.sqrt_pos.2
    rcases hne with h | h
    · have := sq_pos_of_ne_zero h; have := sq_nonneg v; linarith
    · have := sq_pos_of_ne_zero h; have := sq_nonneg u; linarith
  have e1 : cos (a * π / 180) = cos (b * π / 180) := mul_left_cancel₀ hpos.ne' (ac.trans bc.symm)
  have e2 : sin (a * π / 180) = sin (b * π / 180) := mul_left_cancel₀ hpos.ne' (as.trans bs.symm)
  obtain ⟨n, hn⟩ := Real.Angle.angle_eq_iff_two_pi_dvd_sub.1 (Real.Angle.cos_sin_inj e1 e2)
  have hp := pi_pos
  have hd : a - b = 360 * n := by
    have : π * (a - b) = π * (360 * n) := by linarith
    exact mul_left_cancel₀ hp.ne' this
  have h1 : -1 < n := by
    have : (-1 : ℝ) < n := by linarith
    exact_mod_cast this
  have h2 : n < 1 := by
    have : (n : ℝ) < 1 := by linarith
    exact_mod_cast this
  have : n = 0 := by omega
  subst this
  push_cast at hd
  linarith

/-- One wind field that is not larger than the first: the multiplier of the direction the wind comes from, of the place
of the cell in the first. -/
theorem apply_spec {sample : ℕ → ℝ → ℝ → ℝ} {first g : Gust} (hlat : g.lat.length ≤ first.lat.length)
    (hlon : g.lon.length ≤ first.lon.length) :
    ∃ v, apply sample first g = .ok v ∧ ∀ (i j k : ℕ) (y x b : ℝ) (e : String × ℚ), first.lat[i]? = some y →
      first.lon[j]? = some x → ComesFrom (g.ua i j) (g.va i j) b → e ∈ compass → Nearest e.2 b → bandOrder[k]? = some e.1 →
      (sample (k + 1) y x < 0 → v i j = g.vmax i j) ∧
      (0 ≤ sample (k + 1) y x → v i j = g.vmax i j * sample (k + 1) y x) := by
  unfold apply
  rw [if_neg (by omega)]
  refine ⟨_, rfl, ?_⟩
  rintro i j k y x b e hy hx ⟨hne, hb0, hb1, hs, hc⟩ he hn hk
  obtain ⟨q1, q2, q3, q4⟩ := C51_bearing (g.ua i j) (g.va i j)
  have hbe := bearing_unique hne q1 q2 hb0 hb1 q3 q4 hs hc
  have key : localAt (g.vmax i j) (calculateBearing (g.ua i j) (g.va i j)) (fun k =>
      (((bands sample first)[(bandNumbers[k]?).getD 0 - 1]?).getD fun _ _ => 0) i j) =
      g.vmax i j * fill (sample (k + 1) y x) := by
    rw [hbe, localAt_eq _ _ _ hb0 hb1]
    have hy' : first.lat.getD i 0 = y := by rw [List.getD_eq_getElem?_getD, hy]; rfl
    have hx' : first.lon.getD j 0 = x := by rw [List.getD_eq_getElem?_getD, hx]; rfl
    have hm : (fun k => (((bands sample first)[(bandNumbers[k]?).getD 0 - 1]?).getD fun _ _ => 0) i j) =
        fromList (listedBands fun n => fill (sample n y x)) := by
      funext m
      unfold fromList listedBands bands
      rw [List.getElem?_map, List.getElem?_map]
      simp only [dirns, List.length_cons, List.length_nil, Nat.reduceAdd]
      cases (List.range 8)[(bandNumbers[m]?).getD 0 - 1]? with
      | none => rfl
      | some n => simp only [Option.map_some, Option.getD_some, hy', hx']
    rw [hm]
    let files : String → ℝ := fun d => fill (sample (dirns.findIdx (· == d) + 1) y x)
    have hf : ∀ (k : ℕ) (d : String), dirns[k]? = some d → fill (sample (k + 1) y x) = files d := by
      intro k d hd
      have : ∀ k < 8, ∀ d, dirns[k]? = some d → dirns.findIdx (· == d) = k := by
        intro k hk d hd
        unfold dirns at hd ⊢
        interval_cases k <;> simp at hd <;> subst hd <;> decide
      have hk8 : k < 8 := (List.getElem?_eq_some_iff.1 hd).1
      simp only [files, this k hk8 d hd]
    rw [(C51_bands (g.vmax i j) b files (fun n => fill (sample n y x)) hf).2.2,
      C51_selects _ _ files hb0 hb1 e he hn, ← hf k e.1 hk]
  beta_reduce
  rw [key]
  unfold fill
  constructor
  · intro h; rw [if_pos h, mul_one]
  · intro h; rw [if_neg (not_lt.2 h)]

theorem replace_slash {pat rep : List Char} (h : '/' ∉ pat) (h0 : pat ≠ []) (b : List Char) : ∀ (a : List Char) (k : ℕ),
    k ≤ a.length → replace pat rep k (a ++ '/' :: b) = replace pat rep k a ++ '/' :: replace pat rep 0 b
  | [], k, hk => by
    have : k = 0 := by simpa using hk
    subst this
    rw [List.nil_append]
    simp only [replace, List.nil_append]
    rw [if_neg]
    intro hp
    cases pat with
    | nil => exact h0 rfl
    | cons c cs =>
      have := List.isPrefixOf_iff_prefix.1 hp
      rw [List.cons_prefix_cons] at this
      exact h (by rw [this.1]; simp)
  | c :: a, k + 1, hk => by
    rw [List.cons_append]
    simp only [replace]
    exact replace_slash h h0 b a k (by simpa using hk)
  | c :: a, 0, _ => by
    rw [List.cons_append]
    simp only [replace]
    by_cases hp : pat <+: c :: a
    · have hp' : pat <+: c :: (a ++ '/' :: b) := hp.trans (by rw [← List.cons_append]; exact List.prefix_append _ _)
      rw [if_pos (List.isPrefixOf_iff_prefix.2 hp), if_pos (List.isPrefixOf_iff_prefix.2 hp'), List.append_assoc,
        replace_slash h h0 b a _ (by have := hp.length_le; simp at this; omega)]
    · have hp' : ¬ pat <+: c :: (a ++ '/' :: b) := by
        intro hp'
        rw [← List.cons_append] at hp'
        rcases List.prefix_or_prefix_of_prefix hp' (List.prefix_append (c :: a) ('/' :: b)) with h1 | ⟨t, ht⟩
        · exact hp h1
        · rw [← ht, List.prefix_append_right_inj] at hp'
          cases t with
          | nil => exact hp (by rw [← ht, List.append_nil])
          | cons d t =>
            rw [List.cons_prefix_cons] at hp'
            exact h (by rw [← ht, hp'.1]; simp)
      rw [if_neg (mt List.isPrefixOf_iff_prefix.1 hp), if_neg (mt List.isPrefixOf_iff_prefix.1 hp'), List.cons_append,
        replace_slash h h0 b a 0 (Nat.zero_le _)]

theorem outputPath_slash (a b : List Char) : outputPath (a ++ '/' :: b) = outputPath a ++ '/' :: outputPath b :=
  replace_slash (by decide) (by decide) b a 0 (Nat.zero_le _)

theorem outputPath_cons (c : Char) (s : List Char) (h : ¬ gustText <+: c :: s) : outputPath (c :: s) = c :: outputPath s := by
  unfold outputPath
  conv_lhs => simp only [replace]
  rw [if_neg (mt List.isPrefixOf_iff_prefix.1 h)]

theorem outputPath_gust (s : List Char) : outputPath (gustText ++ s) = ['w', 'm', '_', 'g', 'u', 's', 't'] ++ outputPath s := by
  unfold outputPath gustText
  rfl

/-- The path stays as it is exactly if the text does not occur in it. -/
theorem outputPath_eq_self : ∀ s : List Char, outputPath s = s ↔ ¬ gustText <:+: s
  | [] => by decide
  | c :: s => by
    by_cases h : gustText <+: c :: s
    · obtain ⟨t, ht⟩ := h
      refine ⟨fun he => ?_, fun hn => absurd (by rw [← ht]; exact (List.prefix_append _ _).isInfix) hn⟩
      rw [← ht, outputPath_gust] at he
      have := congrArg List.head? he
      simp [gustText] at this
    · rw [outputPath_cons c s h, List.infix_cons_iff, List.cons_inj_right, outputPath_eq_self s]
      simp [h]

/-- A text without `w` at the start of the output is at the start of the name. -/
theorem prefix_of_output : ∀ (q s : List Char), 'w' ∉ q → q <+: outputPath s → q <+: s
  | [], s, _, _ => List.nil_prefix
  | c :: q, [], _, h => h
  | c :: q, d :: s, hw, h => by
    by_cases hg : gustText <+: d :: s
    · obtain ⟨t, ht⟩ := hg
      rw [← ht, outputPath_gust, List.cons_append, List.cons_prefix_cons] at h
      exact absurd (by rw [h.1]; simp) hw
    · rw [outputPath_cons d s hg, List.cons_prefix_cons] at h
      rw [List.cons_prefix_cons]
      exact ⟨h.1, prefix_of_output q s (fun hq => hw (List.mem_cons_of_mem _ hq)) h.2⟩

theorem output_mixed {s t : List Char} (hs : gustText <+: s) (ht : ¬ gustText <+: t) : outputPath s ≠ outputPath t := by
  intro he
  obtain ⟨s', rfl⟩ := hs
  rw [outputPath_gust] at he
  cases t with
  | nil => simp [outputPath, replace] at he
  | cons c t =>
    rw [outputPath_cons c t ht, List.cons_append, List.cons.injEq] at he
    obtain ⟨t', rfl⟩ := prefix_of_output ['m', '_', 'g', 'u', 's', 't'] t (by decide) (by rw [← he.2]; exact List.prefix_append _ _)
    have e2 : outputPath (['m', '_', 'g', 'u', 's', 't'] ++ t') = 'm' :: '_' :: outputPath (gustText ++ t') := by
      rw [List.cons_append, outputPath_cons _ _ (by simp [gustText]), List.cons_append, outputPath_cons _ _ (by simp [gustText])]
      rfl
    rw [e2, outputPath_gust] at he
    simp at he

/-- Different names have different outputs. -/
theorem outputPath_injective : ∀ (n : ℕ) (s t : List Char), s.length ≤ n → outputPath s = outputPath t → s = t
  | n, [], t, _, he => by
    cases t with
    | nil => rfl
    | cons c t =>
      exfalso
      by_cases ht : gustText <+: c :: t
      · exact output_mixed ht (by decide) he.symm
      · rw [outputPath_cons c t ht] at he
        exact nomatch he
  | 0, c :: s, t, hn, _ => by simp at hn
  | n + 1, c :: s, t, hn, he => by
    by_cases hs : gustText <+: c :: s <;> by_cases ht : gustText <+: t
    · obtain ⟨s', hs'⟩ := hs
      obtain ⟨t', rfl⟩ := ht
      rw [← hs'] at he hn ⊢
      rw [outputPath_gust, outputPath_gust, List.append_cancel_left_eq] at he
      rw [outputPath_injective n s' t' (by simp [gustText] at hn; omega) he]
    · exact absurd he (output_mixed hs ht)
    · exact absurd he.symm (output_mixed ht hs)
    · cases t with
      | nil => rw [outputPath_cons c s hs] at he; exact nomatch he
      | cons d t =>
        rw [outputPath_cons c s hs, outputPath_cons d t ht, List.cons.injEq] at he
        rw [he.1, outputPath_injective n s t (by simpa using hn) he.2]

theorem outputPath_noslash : ∀ (s : List Char), '/' ∉ s → '/' ∉ outputPath s
  | [], h => h
  | c :: s, h => by
    by_cases hg : gustText <+: c :: s
    · obtain ⟨t, ht⟩ := hg
      have hlen : t.length ≤ s.length := by
        have := congrArg List.length ht
        simp [gustText] at this
        omega
      rw [← ht, outputPath_gust]
      have hs : '/' ∉ t := fun hm => h (by rw [← ht]; exact List.mem_append_right _ hm)
      intro hm
      rcases List.mem_append.1 hm with hm | hm
      · revert hm; decide
      · exact outputPath_noslash t hs hm
    · rw [outputPath_cons c s hg]
      intro hm
      rcases List.mem_cons.1 hm with hm | hm
      · exact h (by rw [← hm]; simp)
      · exact outputPath_noslash s (fun hq => h (List.mem_cons_of_mem _ hq)) hm
termination_by s => s.length

theorem folder_of (a n : List Char) (ha : a = [] ∨ a.getLast? = some '/') (hn : '/' ∉ n) : folder (a ++ n) = a := by
  unfold folder
  rw [List.reverse_append, List.dropWhile_append_of_pos (by
    intro c hc
    simp only [ne_eq, decide_not, Bool.not_eq_eq_eq_not, Bool.not_true, decide_eq_false_iff_not]
    rintro rfl
    exact hn (List.mem_reverse.1 hc))]
  rcases ha with rfl | ha
  · rfl
  · have : a.reverse.head? = some '/' := by rw [List.head?_reverse]; exact ha
    cases hr : a.reverse with
    | nil => rw [hr] at this; exact nomatch this
    | cons c r =>
      rw [hr] at this
      injection this with this
      subst this
      rw [List.dropWhile_cons_of_neg (by simp), ← hr, List.reverse_reverse]

/-- The start of the paths of the files in a folder -/
theorem join_eq (dir n : List Char) (hn : n.head? ≠ some '/') : join dir n = join dir [] ++ n := by
  unfold join
  by_cases h : dir = [] ∨ dir.getLast? = some '/' <;> simp [hn, h]

theorem join_end (dir : List Char) : join dir [] = [] ∨ (join dir []).getLast? = some '/' := by
  unfold join
  rw [if_neg (by simp)]
  split_ifs with h
  · rw [List.append_nil]; exact h
  · right; simp

theorem output_join (dir n : List Char) (hn : n.head? ≠ some '/') : outputPath (join dir n) = outputPath (join dir []) ++ outputPath n := by
  rw [join_eq dir n hn]
  rcases join_end dir with h | h
  · rw [h]; rfl
  · obtain ⟨a, ha⟩ := List.getLast?_eq_some_iff.1 h
    rw [ha, List.append_assoc, List.singleton_append, outputPath_slash, outputPath_slash, List.append_assoc]
    rfl

theorem gust_head {n : List Char} (h : gustText <+: n) : n.head? ≠ some '/' := by
  obtain ⟨t, rfl⟩ := h
  simp [gustText]

theorem output_end (dir : List Char) : outputPath (join dir []) = [] ∨ (outputPath (join dir [])).getLast? = some '/' := by
  rcases join_end dir with h | h
  · rw [h]; exact Or.inl rfl
  · obtain ⟨a, ha⟩ := List.getLast?_eq_some_iff.1 h
    right
    rw [ha, outputPath_slash]
    simp [outputPath, replace]

/-- The folder of an output -/
theorem output_folder {dir n : List Char} (hg : gustText <+: n) (hn : '/' ∉ n) :
    folder (outputPath (join dir n)) = outputPath (join dir []) := by
  rw [output_join dir n (gust_head hg)]
  exact folder_of _ _ (output_end dir) (outputPath_noslash n hn)

theorem infix_join (dir : List Char) : gustText <:+: join dir [] ↔ gustText <:+: dir := by
  unfold join
  rw [if_neg (by simp)]
  split_ifs with h
  · rw [List.append_nil]
  · constructor
    · intro hi
      by_contra hc
      have h1 := (outputPath_eq_self dir).2 hc
      have h2 : outputPath (dir ++ ['/']) = dir ++ ['/'] := by rw [outputPath_slash, h1]; rfl
      exact (outputPath_eq_self _).1 h2 hi
    · exact fun hi => hi.trans (List.prefix_append _ _).isInfix

/-- C177, for a working downscaling of the multipliers (without the fault of `C177_nothing_fails`): if the path of the
folder does not contain the text `gust`, every wind field of the folder gets one file beside it, named as it with `wm_`
in front, with its local gusts; there are no other outputs. -/
theorem C177_outputs_partial {down : Path → Except Err Unit} {w : World} {sample : ℕ → ℝ → ℝ → ℝ} {dir : Path} {lat lon : List ℝ}
    (hdown : ∀ p, down p = .ok ()) (hd : ¬ "gust".toList <:+: dir) (hdir : w.isDir (join dir []) = true)
    (hsome : ∃ n ∈ w.listing, "gust".toList <+: n) (hn : ∀ n ∈ w.listing, '/' ∉ n)
    (hread : ∀ n ∈ w.listing, "gust".toList <+: n → ∃ g, w.gust (join dir n) = some g ∧ g.lat = lat ∧ g.lon = lon) :
    ∃ out, mainWith down w sample dir = (out, none) ∧
      List.Forall₂ (fun n o => (∀ r, n = "gust".toList ++ r → ¬ "gust".toList <:+: r → o.1 = join dir ("wm_".toList ++ n)) ∧
        ∃ g, w.gust (join dir n) = some g ∧ LocalGusts sample g o.2)
        (w.listing.filter fun n => decide ("gust".toList <+: n)) out := by
  have ht : "gust".toList = gustText := by decide
  have hwm : "wm_".toList = ['w', 'm', '_'] := by decide
  rw [ht] at hd hsome hread ⊢
  rw [hwm]
  have hself : outputPath (join dir []) = join dir [] := (outputPath_eq_self _).2 (mt (infix_join dir).1 hd)
  have hfil : (w.listing.filter fun n => gustText.isPrefixOf n) = w.listing.filter fun n => decide (gustText <+: n) := by
    congr 1
    funext n
    rw [Bool.eq_iff_iff, List.isPrefixOf_iff_prefix, decide_eq_true_eq]
  have hloop : ∀ (first : Gust), first.lat = lat → first.lon = lon → ∀ l : List (List Char),
      (∀ n ∈ l, n ∈ w.listing ∧ gustText <+: n) →
      ∃ out, loop w sample first (l.map (join dir)) = (out, none) ∧
      List.Forall₂ (fun n o => (∀ r, n = gustText ++ r → ¬ gustText <:+: r → o.1 = join dir (['w', 'm', '_'] ++ n)) ∧
        ∃ g, w.gust (join dir n) = some g ∧ LocalGusts sample g o.2) l out := by
    intro first f1 f2 l
    induction l with
    | nil => exact fun _ => ⟨[], rfl, .nil⟩
    | cons n l ih =>
      intro hl
      obtain ⟨out, ho, hf⟩ := ih fun m hm => hl m (List.mem_cons_of_mem _ hm)
      obtain ⟨hmem, hpre⟩ := hl n (by simp)
      obtain ⟨g, hg, g1, g2⟩ := hread n hmem hpre
      obtain ⟨v, hv, hspec⟩ := apply_spec (sample := sample) (first := first) (g := g) (by rw [g1, f1]) (by rw [g2, f2])
      have hfold : w.isDir (folder (outputPath (join dir n))) = true := by
        rw [output_folder hpre (hn n hmem), hself]; exact hdir
      refine ⟨(outputPath (join dir n), v) :: out, ?_, .cons ⟨?_, g, hg, ?_⟩ hf⟩
      · rw [List.map_cons]
        simp only [loop, hg, hv, hfold, if_true, ho]
      · intro r hr hnr
        rw [output_join dir n (gust_head hpre), hself, join_eq dir (['w', 'm', '_'] ++ n) (by simp), hr, outputPath_gust,
          (outputPath_eq_self r).2 hnr]
        rfl
      · intro i j k y x b e hy hx
        rw [g1, ← f1] at hy
        rw [g2, ← f2] at hx
        exact hspec i j k y x b e hy hx
  rw [← hfil]
  unfold mainWith gustFiles
  have hmem : ∀ n ∈ w.listing.filter (fun n => gustText.isPrefixOf n), n ∈ w.listing ∧ gustText <+: n := by
    intro n hn
    rw [List.mem_filter] at hn
    exact ⟨hn.1, List.isPrefixOf_iff_prefix.1 hn.2⟩
  cases hl : w.listing.filter (fun n => gustText.isPrefixOf n) with
  | nil =>
    exfalso
    obtain ⟨n, hn1, hn2⟩ := hsome
    have : n ∈ w.listing.filter (fun n => gustText.isPrefixOf n) := List.mem_filter.2 ⟨hn1, List.isPrefixOf_iff_prefix.2 hn2⟩
    rw [hl] at this
    exact nomatch this
  | cons n l =>
    rw [hl] at hmem
    obtain ⟨g, hg, g1, g2⟩ := hread n (hmem n (by simp)).1 (hmem n (by simp)).2
    obtain ⟨out, ho, hf⟩ := hloop g g1 g2 (n :: l) hmem
    refine ⟨out, ?_, hf⟩
    rw [List.map_cons]
    simp only [hdown, hg]
    rw [← List.map_cons]
    exact ho

theorem loop_outputs {w : World} {sample : ℕ → ℝ → ℝ → ℝ} {first : Gust} : ∀ (ps : List Path),
    ∀ o ∈ (loop w sample first ps).1, ∃ p ∈ ps, o.1 = outputPath p
  | [], o, h => nomatch h
  | p :: ps, o, h => by
    simp only [loop] at h
    split at h
    · exact nomatch h
    · split at h
      · exact nomatch h
      · split_ifs at h
        · rcases List.mem_cons.1 h with rfl | h
          · exact ⟨p, by simp, rfl⟩
          · obtain ⟨q, hq, he⟩ := loop_outputs ps o h
            exact ⟨q, List.mem_cons_of_mem _ hq, he⟩
        · exact nomatch h

theorem main_outputs {down : Path → Except Err Unit} {w : World} {sample : ℕ → ℝ → ℝ → ℝ} {dir : Path} {o : Path × (ℕ → ℕ → ℝ)}
    (h : o ∈ (mainWith down w sample dir).1) : ∃ n ∈ w.listing, gustText <+: n ∧ o.1 = outputPath (join dir n) := by
  unfold mainWith at h
  split at h
  · exact nomatch h
  · rename_i p ps hp
    split at h
    · exact nomatch h
    · split at h
      · exact nomatch h
      · obtain ⟨q, hq, he⟩ := loop_outputs _ o h
        rw [← hp] at hq
        obtain ⟨n, hn, rfl⟩ := List.mem_map.1 hq
        rw [List.mem_filter] at hn
        exact ⟨n, hn.1, List.isPrefixOf_iff_prefix.1 hn.2, he⟩

/-- C177: no wind field is overwritten, and an output is never taken for a wind field by a later run. -/
theorem C177_inputs_kept {down : Path → Except Err Unit} {w : World} {sample : ℕ → ℝ → ℝ → ℝ} {dir : Path}
    {o : Path × (ℕ → ℕ → ℝ)} (h : o ∈ (mainWith down w sample dir).1) (hn : ∀ n ∈ w.listing, '/' ∉ n) (m : List Char)
    (hm : '/' ∉ m) (hg : "gust".toList <+: m) : o.1 ≠ join dir m := by
  have ht : "gust".toList = gustText := by decide
  rw [ht] at hg
  obtain ⟨n, h1, h2, h3⟩ := main_outputs h
  intro he
  rw [h3, output_join dir n (gust_head h2), join_eq dir m (gust_head hg)] at he
  have hf := congrArg folder he
  rw [folder_of _ _ (output_end dir) (outputPath_noslash n (hn n h1)), folder_of _ _ (join_end dir) hm] at hf
  rw [hf, List.append_cancel_left_eq] at he
  obtain ⟨t, rfl⟩ := h2
  obtain ⟨t', rfl⟩ := hg
  rw [outputPath_gust] at he
  simp [gustText] at he

theorem loop_prefix {w : World} {sample : ℕ → ℝ → ℝ → ℝ} {first : Gust} : ∀ (ps : List Path),
    (loop w sample first ps).1.map (·.1) <+: ps.map outputPath
  | [] => List.nil_prefix
  | p :: ps => by
    simp only [loop]
    split
    · exact List.nil_prefix
    · split
      · exact List.nil_prefix
      · split_ifs
        · rw [List.map_cons, List.map_cons, List.cons_prefix_cons]
          exact ⟨rfl, loop_prefix ps⟩
        · exact List.nil_prefix

/-- C177: different wind fields have different outputs: none is written over another. -/
theorem C177_distinct {down : Path → Except Err Unit} {w : World} {sample : ℕ → ℝ → ℝ → ℝ} {dir : Path}
    (h : w.listing.Nodup) : ((mainWith down w sample dir).1.map (·.1)).Nodup := by
  have hinj : ∀ p q : Path, outputPath p = outputPath q → p = q := fun p q => outputPath_injective p.length p q le_rfl
  have hnod : (gustFiles w dir).Nodup := by
    unfold gustFiles
    refine List.Nodup.map_on ?_ (h.filter _)
    intro a ha b hb he
    rw [List.mem_filter] at ha hb
    rw [join_eq dir a (gust_head (List.isPrefixOf_iff_prefix.1 ha.2)),
      join_eq dir b (gust_head (List.isPrefixOf_iff_prefix.1 hb.2)), List.append_cancel_left_eq] at he
    exact he
  unfold mainWith
  split
  · exact List.nodup_nil
  · rename_i p ps hp
    split
    · exact List.nodup_nil
    · split
      · exact List.nodup_nil
      · refine List.Nodup.sublist (loop_prefix _).sublist ?_
        rw [← hp]
        exact List.Nodup.map (fun a b => hinj a b) hnod

theorem loop_complete {w : World} {sample : ℕ → ℝ → ℝ → ℝ} {first : Gust} : ∀ (ps : List Path),
    (loop w sample first ps).2 = none → (loop w sample first ps).1.length = ps.length
  | [], _ => rfl
  | p :: ps, h => by
    simp only [loop] at h ⊢
    split
    · rename_i hg; simp only [hg] at h; exact nomatch h
    · rename_i g hg
      simp only [hg] at h
      split
      · rename_i e he; simp only [he] at h; exact nomatch h
      · rename_i v hv
        simp only [hv] at h
        split_ifs at h ⊢
        simp only [List.length_cons]
        rw [loop_complete ps h]

/-- C177: a run that leaves out a wind field has an error. -/
theorem C177_complete {down : Path → Except Err Unit} {w : World} {sample : ℕ → ℝ → ℝ → ℝ} {dir : Path}
    (h : (mainWith down w sample dir).2 = none) :
    (mainWith down w sample dir).1.length = (w.listing.filter fun n => decide ("gust".toList <+: n)).length := by
  have ht : "gust".toList = gustText := by decide
  have hfil : (gustFiles w dir).length = (w.listing.filter fun n => decide ("gust".toList <+: n)).length := by
    rw [ht]
    unfold gustFiles
    rw [List.length_map]
    congr 2
    funext n
    rw [Bool.eq_iff_iff, List.isPrefixOf_iff_prefix, decide_eq_true_eq]
  rw [← hfil]
  unfold mainWith at h ⊢
  split
  · rename_i hp; simp only [hp] at h; exact nomatch h
  · rename_i p ps hp
    simp only [hp] at h
    split
    · rename_i e he; simp only [he] at h; exact nomatch h
    · rename_i he
      simp only [he] at h
      split
      · rename_i hg; simp only [hg] at h; exact nomatch h
      · rename_i g hg
        simp only [hg] at h
        rw [hp]
        exact loop_complete _ h

/-- C177 fails for a folder with `gust` in its path: nothing is written beside the wind fields, as the path of the folder is
changed too. -/
theorem C177_folder_fails {down : Path → Except Err Unit} {w : World} {sample : ℕ → ℝ → ℝ → ℝ} {dir : Path}
    (hd : "gust".toList <:+: dir) (hn : ∀ n ∈ w.listing, '/' ∉ n) :
    (∀ o ∈ (mainWith down w sample dir).1, folder o.1 ≠ join dir []) ∧
    (w.isDir (outputPath (join dir [])) = false → (mainWith down w sample dir).1 = []) := by
  have ht : "gust".toList = gustText := by decide
  rw [ht] at hd
  constructor
  · intro o ho
    obtain ⟨n, h1, h2, h3⟩ := main_outputs ho
    rw [h3, output_folder h2 (hn n h1)]
    intro he
    exact (outputPath_eq_self _).1 he ((infix_join dir).2 hd)
  · intro hdir
    unfold mainWith
    split
    · rfl
    · rename_i p ps hp
      split
      · rfl
      · split
        · rfl
        · have hp' : p ∈ gustFiles w dir := by rw [hp]; simp
          obtain ⟨n, hn1, rfl⟩ := List.mem_map.1 hp'
          rw [List.mem_filter] at hn1
          have hf := output_folder (dir := dir) (List.isPrefixOf_iff_prefix.1 hn1.2) (hn n hn1.1)
          simp only [loop]
          split
          · rfl
          · split
            · rfl
            · rw [hf, hdir]; rfl

/-- C177 fails for a wind field on another grid than that of the first: it gets the multipliers of other places. -/
theorem C177_grid_fails : ∃ (sample : ℕ → ℝ → ℝ → ℝ) (first g : Gust) (v : ℕ → ℕ → ℝ), apply sample first g = .ok v ∧
    ¬ LocalGusts sample g v := by
  let sample : ℕ → ℝ → ℝ → ℝ := fun _ y _ => if y = 0 then 1 else 2
  let first : Gust := ⟨[0], [0], fun _ _ => 30, fun _ _ => 0, fun _ _ => -1⟩
  let g : Gust := ⟨[1], [0], fun _ _ => 30, fun _ _ => 0, fun _ _ => -1⟩
  obtain ⟨v, hv, hs⟩ := apply_spec (sample := sample) (first := first) (g := g) le_rfl le_rfl
  refine ⟨sample, first, g, v, hv, ?_⟩
  intro hl
  have hc : ComesFrom (0 : ℝ) (-1) 0 := ⟨Or.inr (by norm_num), le_rfl, by norm_num, by simp, by simp⟩
  have hn : Nearest 0 0 := ⟨0, by norm_num, by norm_num⟩
  have e1 := (hs 0 0 1 0 0 0 ("n", 0) rfl rfl hc (by decide) hn rfl).2 (by simp [sample])
  have e2 := (hl 0 0 1 1 0 0 ("n", 0) rfl rfl hc (by decide) hn rfl).2 (by simp [sample])
  simp only [sample, first, g] at e1 e2
  norm_num at e1 e2
  rw [e1] at e2
  norm_num at e2

/-- The hypotheses of `C177_outputs_partial` are met by a folder with two wind fields and another file, for a wind from the north-east. -/
example : ∃ (w : World) (g : Gust) (b : ℝ), w.listing = ["gust.001.nc".toList, "readme".toList, "gust.002.nc".toList] ∧
    w.isDir (join "out/windfield".toList []) = true ∧ ¬ "gust".toList <:+: "out/windfield".toList ∧
    (∀ n ∈ w.listing, '/' ∉ n) ∧ (∀ n ∈ w.listing, "gust".toList <+: n → w.gust (join "out/windfield".toList n) = some g) ∧
    ComesFrom (g.ua 0 0) (g.va 0 0) b ∧ Nearest 45 b := by
  let g : Gust := ⟨[-20], [150], fun _ _ => 40, fun _ _ => -1, fun _ _ => -1⟩
  refine ⟨⟨["gust.001.nc".toList, "readme".toList, "gust.002.nc".toList], fun _ => true, fun _ => true, fun _ => some g⟩, g, 45,
    rfl, rfl, by decide, by decide, fun _ _ _ => rfl, ⟨Or.inl (by norm_num), by norm_num, by norm_num, ?_, ?_⟩, 0, by norm_num, by norm_num⟩
  · have : (45 : ℝ) * π / 180 = π / 4 := by ring
    rw [this, sin_pi_div_four]
    norm_num
    rw [← mul_div_assoc, Real.mul_self_sqrt (by norm_num)]
    norm_num
  · have : (45 : ℝ) * π / 180 = π / 4 := by ring
    rw [this, cos_pi_div_four]
    norm_num
    rw [← mul_div_assoc, Real.mul_self_sqrt (by norm_num)]
    norm_num

example : outputPath "out/gusts/gust.001.nc".toList = "out/wm_gusts/wm_gust.001.nc".toList := by decide

end Tcrm.LowRes
