import Verif.Model.Progress
import Mathlib.Tactic.Linarith
import Mathlib.Tactic.NormNum
import Mathlib.Tactic.Positivity
/-!
C172: progress is reported.
-/
namespace Tcrm.Progress

/-- Progress that does not go back. -/
def Steady (l : List ℚ) : Prop := l.Pairwise (· ≤ ·)

/-- A line is written for an update that completes a stage, whatever happened before, and says 100 %. -/
theorem C172_completion (t : Terminal) (b : Bar) (h : b.showbar = true) (ht : t.err = true) :
    (update t b 1).1 = some 100 := by
  have h1 : (1 * (1 - 0) + 0 : ℚ) * 100 = 100 := by norm_num
  simp only [update, h, ht, Bool.and_self, if_true]
  rw [if_pos (Or.inl (by norm_num))]
  simp only [percentage, h1]
  norm_num

/-- The number written is the percentage of the work done, rounded down. -/
theorem C172_percentage (t : Terminal) (b : Bar) (p s e : ℚ) (hp : 0 ≤ p) (hs : 0 ≤ s) (he : s ≤ e) (n : ℤ)
    (h : (update t b p s e).1 = some n) : (n : ℚ) ≤ 100 * (s + p * (e - s)) ∧ 100 * (s + p * (e - s)) < n + 1 := by
  simp only [update] at h
  split at h
  · split at h
    · simp only [Option.some.injEq, percentage] at h
      have h0 : 0 ≤ (p * (e - s) + s) * 100 := by
        have : 0 ≤ e - s := by linarith
        positivity
      rw [if_pos h0] at h
      have h1 := Int.floor_le ((p * (e - s) + s) * 100)
      have h2 := Int.lt_floor_add_one ((p * (e - s) + s) * 100)
      rw [h] at h1 h2
      constructor <;> linarith
    · simp at h
  · simp at h

/-- Nothing is written without a terminal or with an empty setting. -/
theorem C172_silent (t : Terminal) (setting : String) (h : t.err = false ∨ t.inp = false ∨ setting = "") (l : List ℚ) :
    ∀ x ∈ (run t (new t setting) l).1, x = none := by
  have hb : (new t setting).showbar = false := by
    rcases h with h | h | h
    · simp [new, h]
    · simp [new, h]
    · simp [new, truthy, h]
  generalize new t setting = b at hb
  induction l generalizing b with
  | nil => simp [run]
  | cons p l ih =>
    have hu : update t b p = (none, b) := by simp [update, hb]
    intro x hx
    simp only [run, hu, List.mem_cons] at hx
    rcases hx with rfl | hx
    · rfl
    · exact ih b hb x hx

/-- The setting `ProgressBar=False` does not turn the reports off: any text does the same as `True`. -/
theorem C172_off_fails (t : Terminal) (setting : String) (h : setting ≠ "") : new t setting = new t "True" := by
  simp [new, truthy, h]

theorem update_cases (t : Terminal) (b : Bar) (p : ℚ) (h : b.showbar = true) (ht : t.err = true) :
    update t b p = if 99 ≤ p * 100 ∨ b.last + 5 ≤ p * 100 then (some (percentage p), { b with last := b.last + 5 })
      else (none, b) := by
  have : (p * (1 - 0) + 0 : ℚ) = p := by ring
  simp only [update, h, ht, Bool.and_self, if_true, this, ge_iff_le]

/-- What has been reported is never more than five per cent behind: if an update of a steady stage is not reported, the
progress is less than five per cent more than at some earlier time that was reported, or than zero. -/
theorem C172_behind (t : Terminal) (setting : String) (ht : t.err = true ∧ t.inp = true) (hs : setting ≠ "") (l : List ℚ)
    (hl : Steady l) (i : ℕ) (p : ℚ) (hp : l[i]? = some p) (hn : (run t (new t setting) l).1[i]? = some none) :
    100 * p < 5 ∨ ∃ (k : ℕ) (q : ℚ) (n : ℤ), k < i ∧ l[k]? = some q ∧
      (run t (new t setting) l).1[k]? = some (some n) ∧ 100 * p < 100 * q + 5 := by
  -- the bar's mark is at most a bound that is zero or the progress of a reported update
  have key : ∀ (l : List ℚ) (b : Bar) (bound : ℚ), b.showbar = true → Steady l → b.last ≤ 100 * bound →
      ∀ (i : ℕ) (p : ℚ), l[i]? = some p → (run t b l).1[i]? = some none →
        100 * p < 100 * bound + 5 ∨ ∃ (k : ℕ) (q : ℚ) (n : ℤ), k < i ∧ l[k]? = some q ∧
          (run t b l).1[k]? = some (some n) ∧ 100 * p < 100 * q + 5 := by
    intro l
    induction l with
    | nil => intro b bound _ _ _ i p hp; simp at hp
    | cons x l ih =>
      intro b bound hb hst hlast i p hp hn
      have hst' := List.pairwise_cons.1 hst
      by_cases hc : 99 ≤ x * 100 ∨ b.last + 5 ≤ x * 100
      · have hu := update_cases t b x hb ht.1
        rw [if_pos hc] at hu
        cases i with
        | zero => simp [run, hu] at hn
        | succ i =>
          simp only [List.getElem?_cons_succ] at hp
          simp only [run, hu, List.getElem?_cons_succ] at hn
          by_cases h5 : b.last + 5 ≤ x * 100
          · rcases ih { b with last := b.last + 5 } x hb hst'.2 (by simp only; linarith) i p hp hn with h | ⟨k, q, n, hk, hq, hr, hlt⟩
            · exact Or.inr ⟨0, x, percentage x, by omega, rfl, by simp [run, hu], h⟩
            · exact Or.inr ⟨k + 1, q, n, by omega, by simpa using hq, by simpa [run, hu] using hr, hlt⟩
          · -- from 99 per cent on every update is reported
            exfalso
            have h99 : 99 ≤ x * 100 := hc.resolve_right h5
            have hall : ∀ (l : List ℚ) (b : Bar), b.showbar = true → (∀ y ∈ l, x ≤ y) → ∀ i : ℕ, (run t b l).1[i]? ≠ some none := by
              intro l
              induction l with
              | nil => intro b _ _ i; simp [run]
              | cons y l ih =>
                intro b hb hy i
                have hu := update_cases t b y hb ht.1
                rw [if_pos (Or.inl (by have := hy y (by simp); linarith))] at hu
                cases i with
                | zero => simp [run, hu]
                | succ i => simpa [run, hu] using ih { b with last := b.last + 5 } hb (fun z hz => hy z (by simp [hz])) i
            refine hall l _ ?_ hst'.1 i hn
            exact hb
      · have hu := update_cases t b x hb ht.1
        rw [if_neg hc] at hu
        push Not at hc
        cases i with
        | zero =>
          simp only [List.getElem?_cons_zero, Option.some.injEq] at hp
          subst hp
          left; linarith [hc.2]
        | succ i =>
          simp only [List.getElem?_cons_succ] at hp
          simp only [run, hu, List.getElem?_cons_succ] at hn
          rcases ih b bound hb hst'.2 hlast i p hp hn with h | ⟨k, q, n, hk, hq, hr, hlt⟩
          · exact Or.inl h
          · exact Or.inr ⟨k + 1, q, n, by omega, by simpa using hq, by simpa [run, hu] using hr, hlt⟩
  have hb : (new t setting).showbar = true := by simp [new, truthy, ht.1, ht.2, hs]
  rcases key l (new t setting) 0 hb hl (by simp [new]) i p hp hn with h | h
  · left; linarith
  · exact Or.inr h

/-- Before 99 per cent at most one line is written for five per cent of progress, however many updates there are. -/
theorem C172_throttle (t : Terminal) (setting : String) (l : List ℚ) (bound : ℚ)
    (h0 : 0 ≤ bound) (hb : ∀ p ∈ l, p ≤ bound ∧ 100 * p < 99) :
    5 * (((run t (new t setting) l).1.filter (·.isSome)).length : ℚ) ≤ 100 * bound := by
  have key : ∀ (l : List ℚ) (b : Bar), (∀ p ∈ l, p ≤ bound ∧ 100 * p < 99) → b.last ≤ 100 * bound →
      b.last + 5 * (((run t b l).1.filter (·.isSome)).length : ℚ) ≤ 100 * bound := by
    intro l
    induction l with
    | nil => intro b _ h; simpa [run] using h
    | cons x l ih =>
      intro b hl h
      have hx := hl x (by simp)
      have hl' : ∀ p ∈ l, p ≤ bound ∧ 100 * p < 99 := fun p hp => hl p (by simp [hp])
      by_cases hs : b.showbar = true ∧ t.err = true
      · have hu := update_cases t b x hs.1 hs.2
        by_cases hc : 99 ≤ x * 100 ∨ b.last + 5 ≤ x * 100
        · rw [if_pos hc] at hu
          have h5 : b.last + 5 ≤ x * 100 := hc.resolve_left (by linarith [hx.2])
          have := ih { b with last := b.last + 5 } hl' (by simp only; linarith [hx.1])
          simp only [run, hu, List.filter_cons, Option.isSome_some, if_true, List.length_cons]
          push_cast
          simp only at this
          linarith
        · rw [if_neg hc] at hu
          simpa [run, hu] using ih b hl' h
      · have hu : update t b x = (none, b) := by
          simp only [update]
          rw [if_neg (by simpa using hs)]
        simpa [run, hu] using ih b hl' h
  have := key l (new t setting) hb (by simp only [new]; linarith)
  simp only [new] at this
  simpa [new] using this

/-- From 99 per cent on every update is reported: the number of lines is not bounded. -/
theorem C172_end_fails (t : Terminal) (setting : String) (ht : t.err = true ∧ t.inp = true) (hs : setting ≠ "")
    (l : List ℚ) (h : ∀ p ∈ l, 99 ≤ 100 * p) : ∀ x ∈ (run t (new t setting) l).1, x ≠ none := by
  have hb : (new t setting).showbar = true := by simp [new, truthy, ht.1, ht.2, hs]
  generalize new t setting = b at hb
  induction l generalizing b with
  | nil => simp [run]
  | cons p l ih =>
    have hu := update_cases t b p hb ht.1
    rw [if_pos (Or.inl (by have := h p (by simp); linarith))] at hu
    intro x hx
    simp only [run, hu, List.mem_cons] at hx
    rcases hx with rfl | hx
    · simp
    · exact ih (fun q hq => h q (by simp [hq])) { b with last := b.last + 5 } hb x hx

/-- A stage of twenty simulations; a stage that jumps to 50 % and is then reported at every update until the mark
catches up; a run with the setting `False`. -/
example : (run ⟨true, true⟩ (new ⟨true, true⟩ "True") [1/20, 2/20, 3/20, 1]).1 = [some 5, some 10, some 15, some 100] ∧
    (run ⟨true, true⟩ (new ⟨true, true⟩ "True") [1/100, 1/2, 51/100, 52/100]).1 = [none, some 50, some 51, some 52] ∧
    (run ⟨true, true⟩ (new ⟨true, true⟩ "False") [1/2]).1 = [some 50] ∧
    (run ⟨true, false⟩ (new ⟨true, false⟩ "True") [1/2]).1 = [none] := by decide +kernel

/-- The hypotheses of `C172_behind` and `C172_throttle` -/
example : Steady [1/100, 1/20, 3/50] ∧ (run ⟨true, true⟩ (new ⟨true, true⟩ "True") [1/100, 1/20, 3/50]).1[2]? = some none ∧
    (∀ p ∈ [1/100, 1/20, 3/50], p ≤ (3/50 : ℚ) ∧ 100 * p < 99) := by
  refine ⟨?_, by decide +kernel, by decide +kernel⟩
  simp only [Steady]
  decide +kernel

end Tcrm.Progress
