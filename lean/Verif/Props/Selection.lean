import Verif.Model.Selection
import Mathlib.Tactic.ByContra
/-!
C77: every documented choice of profile can be used.
-/
namespace Tcrm.Selection

/-- docs/setup.rst L215-227 -/
def documentedProfiles : List String := ["holland", "powell", "schloemer", "willoughby", "jelesnianski", "doubleHolland"]

/-- docs/setup.rst L230-237 -/
def documentedFields : List String := ["kepert", "hubbert", "mcconochie"]

/-- C77, partial: four of the six documented profiles can be used with each boundary-layer model. -/
theorem C77_usable_partial (p f : String) (hp : p ∈ ["holland", "powell", "schloemer", "willoughby"])
    (hf : f ∈ documentedFields) : windField p f = .ok () := by
  simp only [documentedFields, List.mem_cons, List.not_mem_nil, or_false] at hp hf
  rcases hp with rfl | rfl | rfl | rfl <;> rcases hf with rfl | rfl | rfl <;> rfl

/-- C77 fails: the other two can be used with no boundary-layer model. -/
theorem C77_unusable_fails (f : String) :
    windField "jelesnianski" f = .error .unbound ∧ windField "doubleHolland" f = .error .key ∧
      windField "doubleholland" f = .error .unbound :=
  ⟨rfl, rfl, rfl⟩

/-- C77: a choice works only if the name is one of those four, whatever the documentation says. -/
theorem C77_exactly (p f : String) : windField p f = .ok () ↔
    p ∈ ["holland", "powell", "schloemer", "willoughby"] ∧ f ∈ documentedFields := by
  constructor
  · intro h
    have hp : p ∈ pressureMethods := by
      by_contra hn
      have hc : pressureMethods.contains p = false := by
        rw [Bool.eq_false_iff]; intro c; exact hn (List.contains_iff_mem.1 c)
      unfold windField at h
      cases h1 : profile p with
      | error e => rw [h1] at h; cases h
      | ok a =>
        cases h2 : build a with
        | error e => simp only [h1, h2, bind, Except.bind] at h; cases h
        | ok u => simp only [h1, h2, bind, Except.bind, pressure, hc] at h; cases h
    have hp' : p ∈ ["holland", "powell", "schloemer", "willoughby"] := by
      simp only [pressureMethods, List.mem_cons, List.not_mem_nil, or_false] at hp ⊢
      rcases hp with rfl | rfl | rfl | rfl | rfl
      · exact Or.inl rfl
      · exact Or.inr (Or.inr (Or.inr rfl))
      · exact Or.inr (Or.inr (Or.inl rfl))
      · cases h
      · exact Or.inr (Or.inl rfl)
    refine ⟨hp', ?_⟩
    by_contra hf
    have hc : fields.contains f = false := by
      rw [Bool.eq_false_iff]
      intro c
      have := List.contains_iff_mem.1 c
      simp only [fields, documentedFields, List.mem_cons, List.not_mem_nil, or_false] at this hf
      rcases this with rfl | rfl | rfl
      · exact hf (Or.inr (Or.inl rfl))
      · exact hf (Or.inr (Or.inr rfl))
      · exact hf (Or.inl rfl)
    simp only [List.mem_cons, List.not_mem_nil, or_false] at hp'
    rcases hp' with rfl | rfl | rfl | rfl <;>
    · change (if fields.contains f then Except.ok () else Except.error Err.key) = _ at h
      rw [hc] at h
      cases h
  · rintro ⟨hp, hf⟩
    exact C77_usable_partial p f hp hf

end Tcrm.Selection
