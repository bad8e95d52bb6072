import Verif.Model.Rerun

/-!
Which files a run reads that it has not written itself.
-/

namespace Tcrm.Rerun

/-- An exception is among the operations. -/
def stops : List Op → Bool
  | [] => false
  | .stop :: _ => true
  | _ :: r => stops r

/-- Files needed that have not been written before, `w` being written already. -/
def needed (w : List F) : List Op → List F
  | [] => []
  | .stop :: _ => []
  | .write fs :: r => needed (w ++ fs) r
  | .need fs :: r => fs.filter (fun f => f ∉ w) ++ needed w r
  | .optional _ :: r => needed w r

/-- Optional files that have not been written before. -/
def wanted (w : List F) : List Op → List F
  | [] => []
  | .stop :: _ => []
  | .write fs :: r => wanted (w ++ fs) r
  | .need _ :: r => wanted w r
  | .optional f :: r => [f].filter (fun f => f ∉ w) ++ wanted w r

variable {run : ℕ}

/-- The directory `d₀` after the files `w` have been written. -/
def over (run : ℕ) (w : List F) (d₀ : Dir) : Dir := fun f => if f ∈ w then some run else d₀ f

theorem over_write (w fs : List F) (d₀ : Dir) :
    (fun f => if f ∈ fs then some run else over run w d₀ f) = over run (w ++ fs) d₀ := by
  funext f
  unfold over
  by_cases h1 : f ∈ fs <;> by_cases h2 : f ∈ w <;> simp [h1, h2]

theorem over_nil (d₀ : Dir) : over run [] d₀ = d₀ := by
  funext f; simp [over]

theorem completed_iff (ops : List Op) (w : List F) (d₀ : Dir) :
    (runOps run ops (over run w d₀)).completed = true ↔
      stops ops = false ∧ ∀ f ∈ needed w ops, (d₀ f).isSome = true := by
  induction ops generalizing w with
  | nil => simp [runOps, stops, needed]
  | cons o r ih =>
    cases o with
    | stop => simp [runOps, stops]
    | write fs => simp only [runOps, stops, needed, over_write]; exact ih _
    | optional f => simp only [runOps, stops, needed]; exact ih _
    | need fs =>
      simp only [runOps, stops, needed]
      have hall : (fs.all fun f => (over run w d₀ f).isSome) = true ↔
          ∀ f ∈ fs, f ∉ w → (d₀ f).isSome = true := by
        rw [List.all_eq_true]
        refine forall₂_congr fun f _ => ?_
        unfold over
        by_cases h : f ∈ w <;> simp [h]
      by_cases h : (fs.all fun f => (over run w d₀ f).isSome) = true
      · rw [if_pos h]
        have := hall.mp h
        simp only [ih, List.mem_append, List.mem_filter, decide_eq_true_eq]
        constructor
        · rintro ⟨h1, h2⟩
          refine ⟨h1, fun f hf => ?_⟩
          rcases hf with hf | hf
          · exact this f hf.1 hf.2
          · exact h2 f hf
        · rintro ⟨h1, h2⟩
          exact ⟨h1, fun f hf => h2 f (.inr hf)⟩
      · rw [if_neg h]
        rw [hall] at h
        simp only [Bool.false_eq_true, false_iff, not_and]
        intro _ h2
        exact h fun f hf hw => h2 f (by simp [hf, hw])

theorem mem_read (fs : List F) (d : Dir) (f : F) (v : ℕ) :
    (f, v) ∈ (fs.filterMap fun f => (d f).map (f, ·)) ↔ f ∈ fs ∧ d f = some v := by
  simp only [List.mem_filterMap, Option.map_eq_some_iff, Prod.mk.injEq]
  constructor
  · rintro ⟨g, hg, w, hw, rfl, rfl⟩; exact ⟨hg, hw⟩
  · rintro ⟨h1, h2⟩; exact ⟨f, h1, v, h2, rfl, rfl⟩

theorem used_only (ops : List Op) (w : List F) (d₀ : Dir) (f : F) (v : ℕ)
    (h : (f, v) ∈ (runOps run ops (over run w d₀)).used) :
    v = run ∨ (f ∈ needed w ops ∨ f ∈ wanted w ops) ∧ d₀ f = some v := by
  have hov : ∀ w, over run w d₀ f = some v → v = run ∨ f ∉ w ∧ d₀ f = some v := by
    intro w hh
    unfold over at hh
    by_cases e : f ∈ w
    · simp [e] at hh; exact .inl hh.symm
    · simp [e] at hh; exact .inr ⟨e, hh⟩
  induction ops generalizing w with
  | nil => simp [runOps] at h
  | cons o r ih =>
    cases o with
    | stop => simp [runOps] at h
    | write fs => simp only [runOps, needed, wanted, over_write] at h ⊢; exact ih _ h
    | optional g =>
      simp only [runOps, List.mem_append, mem_read] at h
      rcases h with ⟨h1, h2⟩ | h
      · rcases hov w h2 with h3 | ⟨h3, h4⟩
        · exact .inl h3
        · exact .inr ⟨.inr (by simp only [wanted, List.mem_append, List.mem_filter]; exact .inl ⟨h1, by simpa using h3⟩), h4⟩
      · rcases ih _ h with h | ⟨h1 | h1, h2⟩
        · exact .inl h
        · exact .inr ⟨.inl h1, h2⟩
        · exact .inr ⟨.inr (by simp only [wanted, List.mem_append]; exact .inr h1), h2⟩
    | need fs =>
      simp only [runOps] at h
      split at h
      · simp only [List.mem_append, mem_read] at h
        rcases h with ⟨h1, h2⟩ | h
        · rcases hov w h2 with h3 | ⟨h3, h4⟩
          · exact .inl h3
          · exact .inr ⟨.inl (by simp only [needed, List.mem_append, List.mem_filter]; exact .inl ⟨h1, by simpa using h3⟩), h4⟩
        · rcases ih _ h with h | ⟨h1 | h1, h2⟩
          · exact .inl h
          · exact .inr ⟨.inl (by simp only [needed, List.mem_append]; exact .inr h1), h2⟩
          · exact .inr ⟨.inr h1, h2⟩
      · simp at h

theorem used_outside (ops : List Op) (w : List F) (d₀ : Dir) (f : F) (v : ℕ)
    (hc : (runOps run ops (over run w d₀)).completed = true)
    (hf : f ∈ needed w ops ∨ f ∈ wanted w ops) (hd : d₀ f = some v) :
    (f, v) ∈ (runOps run ops (over run w d₀)).used := by
  have hov : ∀ w, f ∉ w → over run w d₀ f = some v := by
    intro w hw; simp [over, hw, hd]
  induction ops generalizing w with
  | nil => simp [needed, wanted] at hf
  | cons o r ih =>
    cases o with
    | stop => simp [runOps] at hc
    | write fs =>
      simp only [runOps, needed, wanted, over_write] at hc hf ⊢
      exact ih _ hc hf
    | optional g =>
      simp only [runOps, needed, wanted, List.mem_append, List.mem_filter, mem_read] at hc hf ⊢
      rcases hf with hf | hf | hf
      · exact .inr (ih _ hc (.inl hf))
      · exact .inl ⟨hf.1, hov w (by simpa using hf.2)⟩
      · exact .inr (ih _ hc (.inr hf))
    | need fs =>
      simp only [runOps] at hc ⊢
      split at hc
      · rename_i hall
        rw [if_pos hall]
        simp only [needed, wanted, List.mem_append, List.mem_filter, mem_read] at hf ⊢
        rcases hf with (hf | hf) | hf
        · exact .inl ⟨hf.1, hov w (by simpa using hf.2)⟩
        · exact .inr (ih _ hc (.inl hf))
        · exact .inr (ih _ hc (.inr hf))
      · simp at hc

/-- What the model run needs from outside. -/
theorem model_outside (i : Input) (s : Settings) (hf : i.format = .txt) (ha : i.age = false) :
    stops (modelRun i s) = false ∧
    (∀ f, f ∈ needed [] (modelRun i s) ↔
      f = .initRmax ∧ s.rmwFromInput = true ∧ i.rmax = false) ∧
    (∀ f, f ∈ wanted [] (modelRun i s) ↔ f = .cdfRmax ∧ s.rmwFromInput = false) := by
  obtain ⟨g, a, b, c, e⟩ := i
  obtain ⟨x, y, z⟩ := s
  simp only at hf ha
  subst hf ha
  have key : stops (modelRun ⟨.txt, false, b, c, e⟩ ⟨x, y, z⟩) = false ∧
      needed [] (modelRun ⟨.txt, false, b, c, e⟩ ⟨x, y, z⟩) =
        (if x && !c then [.initRmax] else []) ∧
      wanted [] (modelRun ⟨.txt, false, b, c, e⟩ ⟨x, y, z⟩) = if x then [] else [.cdfRmax] := by
    revert b c e x y z
    decide +kernel
  obtain ⟨h1, h2, h3⟩ := key
  refine ⟨h1, fun f => ?_, fun f => ?_⟩
  · rw [h2]; cases x <;> cases c <;> simp
  · rw [h3]; cases x <;> simp

theorem model_stops (i : Input) (s : Settings) (h : i.format ≠ .txt ∨ i.age = true) :
    stops (modelRun i s) = true := by
  obtain ⟨g, a, b, c, e⟩ := i
  obtain ⟨x, y, z⟩ := s
  simp only at h
  revert a b c e x y z
  cases g <;> decide +kernel

theorem plot_outside (i : Input) :
    (stops (plotRun i) = true ↔ i.format ≠ .txt ∨ i.age = true) ∧
    (i.format = .txt → i.age = false →
      needed [] (plotRun i) = if i.severalYears then [] else [.frequency]) := by
  obtain ⟨g, a, b, c, e⟩ := i
  revert a b c e
  cases g <;> decide +kernel

end Tcrm.Rerun
