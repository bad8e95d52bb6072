import Verif.Model.DynArray
/-!
C41: the record array behaves like a list.
-/
namespace Tcrm.DynArray
variable {α : Type}

/-- What holds of every array that can be made. -/
def Inv (a : Arr α) : Prop := a.store.length = a.size ∧ 2 ≤ a.size ∧ a.length ≤ a.size

theorem npResize_length {a : List α} (ha : a ≠ []) (n : ℕ) : (npResize a n).length = n := by
  unfold npResize
  have hpos : 0 < a.length := List.length_pos_iff.2 ha
  have : (List.range n).filterMap (fun i => a[i % a.length]?) =
      (List.range n).map (fun i => a[i % a.length]'(Nat.mod_lt _ hpos)) := by
    rw [← List.filterMap_eq_map]
    apply List.filterMap_congr
    intro i _
    rw [List.getElem?_eq_getElem (Nat.mod_lt _ hpos)]
    rfl
  rw [this]; simp

theorem npResize_take {a : List α} {n k : ℕ} (hk : k ≤ a.length) (hn : k ≤ n) : (npResize a n).take k = a.take k := by
  rcases Nat.eq_zero_or_pos a.length with h0 | hpos
  · have : k = 0 := by omega
    subst this; simp
  have e : npResize a n = (List.range n).map (fun i => a[i % a.length]'(Nat.mod_lt _ hpos)) := by
    unfold npResize
    rw [← List.filterMap_eq_map]
    apply List.filterMap_congr
    intro i _
    rw [List.getElem?_eq_getElem (Nat.mod_lt _ hpos)]
    rfl
  rw [e]
  apply List.ext_getElem
  · simp; omega
  · intro i h1 h2
    simp only [List.getElem_take, List.getElem_map, List.getElem_range]
    have : i < a.length := by simp at h2; omega
    simp [Nat.mod_eq_of_lt this]

theorem append_spec {a : Arr α} (h : Inv a) (r : α) :
    ∃ b, append a r = .ok b ∧ Inv b ∧ data b = data a ++ [r] := by
  obtain ⟨h1, h2, h3⟩ := h
  have key : ∀ c : Arr α, c.store.length = c.size → 2 ≤ c.size → c.length < c.size → data c = data a →
      ∃ b, (if c.length < c.store.length then Except.ok (ε := Err) (Arr.mk (c.store.set c.length r) (c.length + 1) c.size)
        else .error .indexError) = .ok b ∧ Inv b ∧ data b = data a ++ [r] := by
    intro c c1 c2 c3 c4
    refine ⟨_, if_pos (by omega), ⟨by simpa using c1, c2, c3⟩, ?_⟩
    rw [← c4]
    unfold data
    simp only
    have hl : (c.store.take c.length).length = c.length := by rw [List.length_take]; omega
    rw [List.take_set, List.take_succ_eq_append_getElem (by omega)]
    apply List.ext_getElem
    · simp; omega
    · intro i i1 i2
      rw [List.getElem_set]
      by_cases hi : c.length = i
      · subst hi
        rw [if_pos rfl, List.getElem_append_right (by omega)]
        simp
      · rw [if_neg hi]
        have : i < (c.store.take c.length).length := by simp at i1; omega
        rw [List.getElem_append_left this, List.getElem_append_left this]
  unfold append
  by_cases hfull : a.length = a.size
  · rw [if_pos hfull]
    have hne : a.store ≠ [] := by intro e; rw [e] at h1; simp at h1; omega
    apply key
    · exact npResize_length hne _
    · simp only; omega
    · simp only; omega
    · unfold data
      simp only
      exact npResize_take (by omega) (by omega)
  · rw [if_neg hfull]
    exact key a h1 h2 (by omega) rfl

/-- C41: starting from an empty array, any sequence of appended records is read back, with its length,
and no append fails. -/
theorem C41_like_list {junk : List α} (hj : junk.length = 10) (rs : List α) :
    ∃ a, extend (new junk) rs = .ok a ∧ data a = rs ∧ a.length = rs.length := by
  have key : ∀ (rs : List α) (a : Arr α), Inv a → ∃ b, extend a rs = .ok b ∧ Inv b ∧ data b = data a ++ rs := by
    intro rs
    induction rs with
    | nil => intro a ha; exact ⟨a, rfl, ha, by simp⟩
    | cons r rs ih =>
      intro a ha
      obtain ⟨b, hb, hi, hd⟩ := append_spec ha r
      obtain ⟨c, hc, hci, hcd⟩ := ih b hi
      exact ⟨c, by simp [extend, hb, hc], hci, by rw [hcd, hd]; simp⟩
  obtain ⟨b, hb, hi, hd⟩ := key rs (new junk) ⟨hj, by simp [new], by simp [new]⟩
  have hd' : data b = rs := by rw [hd]; simp [data, new]
  refine ⟨b, hb, hd', ?_⟩
  have : (data b).length = b.length := by
    unfold data
    rw [List.length_take]
    have := hi.1
    have := hi.2.2
    omega
  rw [← this, hd']

/-- C41: the records read earlier stay in the array. -/
theorem C41_append {junk : List α} (hj : junk.length = 10) (rs : List α) (r : α) :
    ∃ a b, extend (new junk) rs = .ok a ∧ append a r = .ok b ∧ data b = data a ++ [r] := by
  obtain ⟨a, ha, hd, _⟩ := C41_like_list hj rs
  obtain ⟨b, hb, hdb, _⟩ := C41_like_list hj (rs ++ [r])
  have split : ∀ (rs : List α) (x : Arr α), extend x (rs ++ [r]) =
      match extend x rs with
      | .error e => .error e
      | .ok y => append y r := by
    intro rs
    induction rs with
    | nil => intro x; simp only [List.nil_append, extend]; cases append x r <;> rfl
    | cons s rs ih =>
      intro x
      simp only [List.cons_append, extend]
      cases append x s with
      | error e => rfl
      | ok y => exact ih y
  rw [split, ha] at hb
  exact ⟨a, b, ha, hb, by rw [hdb, hd]⟩

/-- C41: the room taken is never more than that of ten records or of half as many records again as were appended. -/
theorem C41_room {junk : List α} (hj : junk.length = 10) (rs : List α) :
    ∃ a, extend (new junk) rs = .ok a ∧ rs.length ≤ a.store.length ∧ a.store.length ≤ max 10 (3 * rs.length / 2) := by
  have step : ∀ (a b : Arr α) (r : α), Inv a → a.size ≤ max 10 (3 * a.length / 2) → append a r = .ok b →
      b.length = a.length + 1 ∧ b.size ≤ max 10 (3 * b.length / 2) := by
    intro a b r _ hs hb
    unfold append at hb
    by_cases hfull : a.length = a.size
    · rw [if_pos hfull] at hb
      simp only at hb
      split at hb
      · injection hb with hb
        subst hb
        exact ⟨rfl, by simp only; omega⟩
      · cases hb
    · rw [if_neg hfull] at hb
      simp only at hb
      split at hb
      · injection hb with hb
        subst hb
        exact ⟨rfl, by simp only; omega⟩
      · cases hb
  have key : ∀ (rs : List α) (a : Arr α), Inv a → a.size ≤ max 10 (3 * a.length / 2) →
      ∃ b, extend a rs = .ok b ∧ Inv b ∧ b.length = a.length + rs.length ∧ b.size ≤ max 10 (3 * b.length / 2) := by
    intro rs
    induction rs with
    | nil => intro a ha hs; exact ⟨a, rfl, ha, by simp, hs⟩
    | cons r rs ih =>
      intro a ha hs
      obtain ⟨b, hb, hi, -⟩ := append_spec ha r
      obtain ⟨hl, hs'⟩ := step a b r ha hs hb
      obtain ⟨c, hc, hci, hcl, hcs⟩ := ih b hi hs'
      exact ⟨c, by simp [extend, hb, hc], hci, by rw [hcl, hl, List.length_cons]; omega, hcs⟩
  obtain ⟨b, hb, hi, hl, hs⟩ := key rs (new junk) ⟨hj, by simp [new], by simp [new]⟩ (by simp [new])
  have hl' : b.length = rs.length := by simpa [new] using hl
  have h1 := hi.1
  have h3 := hi.2.2
  exact ⟨b, hb, by omega, by rw [h1, ← hl']; exact hs⟩

example : (extend (new (List.replicate 10 0)) (List.range 40)).map (fun a => (data a, a.size)) =
    .ok (List.range 40, 49) := by decide +kernel

end Tcrm.DynArray
