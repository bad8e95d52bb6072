import Verif.Model.Timing
import Verif.Spec.Timing
import Verif.Lemmas.GustFiles
import Verif.Lemmas.Windfield
/-!
C195: durations in the log.
-/
namespace Tcrm.Timing
open GustFiles (pad ofDigitChars_pad isDigit_of_mem_pad split_first)
open Windfield (pyInt pyInt_intCast)

theorem pad_ne_nil (w n : ℕ) : pad w n ≠ [] := by
  unfold pad
  simp

theorem pad_digits (w n : ℕ) : Spec.Digits (pad w n) n :=
  ⟨pad_ne_nil w n, fun _ h => isDigit_of_mem_pad h, (ofDigitChars_pad w n).symm⟩

theorem pad_length {n : ℕ} (h : n < 60) : (pad 2 n).length = 2 := by
  have : ∀ n < 60, (pad 2 n).length = 2 := by decide +kernel
  exact this n h

theorem pad_le (w n : ℕ) : w ≤ (pad w n).length := by
  unfold pad
  simp only [List.length_append, List.length_replicate]
  omega

theorem floor_split (t : ℚ) : ⌊t / 60⌋ = ⌊t⌋ / 60 := by
  have := Int.floor_div_natCast t 60
  simpa using this

/-- The text in whole seconds, with floor division -/
theorem clock_eq (t : ℚ) :
    clock t = (if ⌊t⌋ / 3600 < 0 then '-' :: pad 1 (⌊t⌋ / 3600).natAbs else pad 2 (⌊t⌋ / 3600).toNat) ++
      ':' :: pad 2 (⌊t⌋ / 60 % 60).toNat ++ ':' :: pad 2 (⌊t⌋ % 60).toNat ++ [' '] := by
  have e1 : pyInt (t - 60 * ((⌊t⌋ / 60 : ℤ) : ℚ)) = ⌊t⌋ % 60 := by
    have h0 : (0 : ℚ) ≤ t - 60 * ((⌊t⌋ / 60 : ℤ) : ℚ) := by
      have h1 := Int.floor_le t
      have h2 : 60 * (⌊t⌋ / 60) ≤ ⌊t⌋ := by omega
      have h3 : (60 : ℚ) * ((⌊t⌋ / 60 : ℤ) : ℚ) ≤ (⌊t⌋ : ℚ) := by exact_mod_cast h2
      linarith
    unfold pyInt
    rw [if_pos h0, show t - 60 * ((⌊t⌋ / 60 : ℤ) : ℚ) = t - ((60 * (⌊t⌋ / 60) : ℤ) : ℚ) by push_cast; ring,
      Int.floor_sub_intCast]
    omega
  have e2 : pyInt (((⌊t⌋ / 60 : ℤ) : ℚ) - 60 * ((⌊t⌋ / 60 / 60 : ℤ) : ℚ)) = ⌊t⌋ / 60 % 60 := by
    rw [show ((⌊t⌋ / 60 : ℤ) : ℚ) - 60 * ((⌊t⌋ / 60 / 60 : ℤ) : ℚ) = ((⌊t⌋ / 60 - 60 * (⌊t⌋ / 60 / 60) : ℤ) : ℚ) by
      push_cast; ring, pyInt_intCast]
    omega
  have e3 : ⌊t⌋ / 60 / 60 = ⌊t⌋ / 3600 := by omega
  have n1 : ¬ ⌊t⌋ % 60 < 0 := by omega
  have n2 : ¬ ⌊t⌋ / 60 % 60 < 0 := by omega
  unfold clock parts divmod dec2
  simp only [floor_split, Int.floor_intCast, e1, e2, if_neg n1, if_neg n2, pyInt_intCast]
  rw [e3]

/-- C195: the duration logged is the time that has passed, in whole seconds (below it also if the clock was put back). -/
theorem C195_shows (t : ℚ) : ∃ text, clock t = text ++ [' '] ∧ Spec.Shows text ⌊t⌋ := by
  refine ⟨_, clock_eq t, ?_⟩
  have hm : (⌊t⌋ / 60 % 60).toNat < 60 := by omega
  have hs : (⌊t⌋ % 60).toNat < 60 := by omega
  by_cases h : ⌊t⌋ / 3600 < 0
  · rw [if_pos h]
    refine ⟨['-'], pad 1 (⌊t⌋ / 3600).natAbs, _, _, _, _, _, pad_digits _ _, pad_digits _ _, pad_digits _ _, ?_,
      pad_length hm, pad_length hs, hm, hs, rfl, Or.inr ⟨rfl, ?_⟩⟩
    · have := pad_le 1 (⌊t⌋ / 3600).natAbs
      simp only [List.length_append, List.length_singleton]
      omega
    · omega
  · rw [if_neg h]
    refine ⟨[], pad 2 (⌊t⌋ / 3600).toNat, _, _, _, _, _, pad_digits _ _, pad_digits _ _, pad_digits _ _, ?_,
      pad_length hm, pad_length hs, hm, hs, rfl, Or.inl ⟨rfl, ?_⟩⟩
    · exact pad_le 2 _
    · omega

theorem colon_notMem {d : List Char} {n : ℕ} (h : Spec.Digits d n) : ':' ∉ d := fun hc => by
  have := h.2.1 _ hc
  revert this
  decide

/-- What a text shows is unique. -/
theorem Spec.Shows.unique {text : List Char} {n n' : ℤ} (h : Spec.Shows text n) (h' : Spec.Shows text n') : n = n' := by
  obtain ⟨g, hh, mm, ss, a, b, c, d1, d2, d3, -, -, -, -, -, e, r⟩ := h
  obtain ⟨g', hh', mm', ss', a', b', c', d1', d2', d3', -, -, -, -, -, e', r'⟩ := h'
  have hg : ∀ {g hh : List Char} {a : ℕ} {n x y : ℤ}, Spec.Digits hh a → (g = [] ∧ n = x) ∨ (g = ['-'] ∧ n = y) →
      ':' ∉ g ++ hh := by
    intro g hh a n x y d r hc
    rcases List.mem_append.1 hc with hc | hc
    · rcases r with ⟨rfl, -⟩ | ⟨rfl, -⟩
      · simp at hc
      · simp at hc
    · exact colon_notMem d hc
  rw [e] at e'
  simp only [List.append_assoc, List.cons_append] at e'
  rw [← List.append_assoc, ← List.append_assoc g'] at e'
  obtain ⟨f1, f2⟩ := split_first (hg d1 r) (hg d1' r') e'
  obtain ⟨f2, f3⟩ := split_first (colon_notMem d2) (colon_notMem d2') f2
  have q2 : b = b' := by rw [d2.2.2, d2'.2.2, f2]
  have q3 : c = c' := by rw [d3.2.2, d3'.2.2, f3]
  have dash : ∀ {x : List Char} {k : ℕ}, Spec.Digits x k → ∀ y, x ≠ '-' :: y := by
    intro x k d y hxy
    have := d.2.1 '-' (by rw [hxy]; simp)
    revert this
    decide
  rcases r with ⟨rfl, r⟩ | ⟨rfl, r⟩ <;> rcases r' with ⟨rfl, r'⟩ | ⟨rfl, r'⟩
  · have q1 : a = a' := by rw [d1.2.2, d1'.2.2]; simpa using congrArg (Nat.ofDigitChars 10 · 0) f1
    rw [r, r', q1, q2, q3]
  · exact absurd f1 (dash d1 _)
  · exact absurd f1.symm (dash d1' _)
  · have q1 : a = a' := by
      rw [d1.2.2, d1'.2.2]
      have : hh = hh' := by simpa using f1
      rw [this]
    rw [r, r', q1, q2, q3]

/-- C195: durations are told apart exactly to the second, however long. -/
theorem C195_distinct (t t' : ℚ) : clock t = clock t' ↔ ⌊t⌋ = ⌊t'⌋ := by
  constructor
  · intro h
    obtain ⟨x, hx, sx⟩ := C195_shows t
    obtain ⟨y, hy, sy⟩ := C195_shows t'
    rw [hx, hy] at h
    have : x = y := by simpa using h
    subst this
    exact sx.unique sy
  · intro h
    rw [clock_eq, clock_eq, h]

/-- C195: timing a function changes neither what it returns nor what it raises; one duration is logged if it returns, none
if it raises. -/
theorem C195_transparent {α β ε : Type} (f : α → Except ε β) (t1 t2 : ℚ) (x : α) :
    (timed f t1 t2 x).1 = f x ∧ (∀ r, f x = .ok r → (timed f t1 t2 x).2 = [clock (t2 - t1)]) ∧
      ∀ e, f x = .error e → (timed f t1 t2 x).2 = [] := by
  unfold timed
  cases f x <;> simp

/-- C195: the progress bar writes durations in the same way. -/
theorem C195_bar {t : ℚ} (ht : 0 ≤ t) : Spec.Shows (formatTime t) ⌊t⌋ := by
  have h0 : 0 ≤ ⌊t⌋ := Int.floor_nonneg.2 ht
  have e : pyInt (t / 3600) = ⌊t⌋ / 3600 := by
    unfold pyInt
    rw [if_pos (by positivity)]
    have := Int.floor_div_natCast t 3600
    simpa using this
  obtain ⟨x, hx, sx⟩ := C195_shows t
  have : formatTime t ++ [' '] = clock t := by
    rw [clock_eq]
    unfold formatTime
    simp only [e]
  have : x = formatTime t := by
    rw [hx] at this
    simpa using this.symm
  rwa [← this]

/-- C195: while work goes on at a constant rate, the time remaining is the time that will pass until its end. -/
theorem C195_remaining {elapsed total : ℚ} (h0 : 0 < elapsed) (h1 : elapsed < total) :
    ∃ text, timeStr (elapsed / total) elapsed = "Time remaining: ".toList ++ text ∧
      Spec.Shows text ⌊total - elapsed⌋ := by
  have ht : 0 < total := h0.trans h1
  refine ⟨formatTime (total - elapsed), ?_, C195_bar (by linarith)⟩
  unfold timeStr
  rw [if_neg (div_pos h0 ht).ne', if_neg (by rw [div_eq_one_iff_eq ht.ne']; exact h1.ne)]
  congr 2
  field_simp

/-- C195: before the first step of the work no time is shown, and at its end, on a line that is closed, the time it took. -/
theorem C195_ends (total : ℚ) (h : 0 < total) :
    timeStr (0 / total) 0 = "Time remaining: --:--:--".toList ∧
    ∃ text, timeStr (total / total) total = "Elapsed time:   ".toList ++ text ++ ['\n'] ∧ Spec.Shows text ⌊total⌋ := by
  refine ⟨by simp [timeStr], formatTime total, ?_, C195_bar h.le⟩
  unfold timeStr
  rw [div_self h.ne', if_neg one_ne_zero, if_pos rfl]

example : timeStr (90 / 90) 90 = "Elapsed time:   00:01:30\n".toList := by decide +kernel

/-- A run of 100 hours and 65.9 seconds; the clock put back by a second -/
example : clock 360065.9 = "100:01:05 ".toList ∧ clock (-1) = "-1:59:59 ".toList ∧
    timeStr (1 / 4) 30 = "Time remaining: 00:01:30".toList := by
  decide +kernel

end Tcrm.Timing
