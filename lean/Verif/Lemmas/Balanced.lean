import Verif.Model.Balanced
import Mathlib.Data.List.Basic
namespace Tcrm.Balanced
variable {α : Type}

theorem everyNth_getElem? (s : Nat) (hs : 0 < s) (l : List α) (k : Nat) :
    (everyNth s l)[k]? = l[k * s]? := by
  induction k generalizing l with
  | zero => cases l <;> simp [everyNth]
  | succ k ih =>
    cases l with
    | nil => simp [everyNth]
    | cons x t =>
      rw [everyNth, List.getElem?_cons_succ, ih, List.getElem?_drop]
      have : (k + 1) * s = (s - 1 + k * s) + 1 := by rw [Nat.succ_mul]; omega
      rw [this, List.getElem?_cons_succ]

theorem balanced_nil (P p : Nat) : balanced ([] : List α) P p = [] := by
  simp [balanced, everyNth]

theorem balanced_cons_zero (x : α) (t : List α) (P : Nat) :
    balanced (x :: t) P 0 = x :: balanced t P (P - 1) := by
  simp [balanced, everyNth]

theorem balanced_cons_succ (x : α) (t : List α) (P p : Nat) :
    balanced (x :: t) P (p + 1) = balanced t P p := by
  simp [balanced]

theorem balanced_getElem? (l : List α) (P p k : Nat) (hP : 0 < P) :
    (balanced l P p)[k]? = l[p + k * P]? := by
  rw [balanced, everyNth_getElem? _ hP, List.getElem?_drop]

theorem balanced_perm (l : List α) (P : Nat) (hP : 0 < P) :
    ((List.range P).flatMap (balanced l P)).Perm l := by
  induction l with
  | nil => simp [balanced_nil]
  | cons x t ih =>
    obtain ⟨Q, rfl⟩ : ∃ Q, P = Q + 1 := ⟨P - 1, by omega⟩
    rw [List.range_succ_eq_map, List.flatMap_cons, balanced_cons_zero, List.flatMap_map]
    simp only [Nat.succ_eq_add_one, balanced_cons_succ, Nat.add_sub_cancel, List.cons_append]
    refine List.Perm.cons x (List.Perm.trans ?_ ih)
    rw [List.range_succ, List.flatMap_append]
    simpa using List.perm_append_comm

theorem balanced_load (l : List α) (P p q : Nat) (hq : q < P) (h : p ≤ q) :
    (balanced l P q).length ≤ (balanced l P p).length ∧
    (balanced l P p).length ≤ (balanced l P q).length + 1 := by
  induction l generalizing p q with
  | nil => simp [balanced_nil]
  | cons x t ih =>
    cases q with
    | zero => obtain rfl : p = 0 := by omega
              simp
    | succ q =>
      cases p with
      | zero =>
        rw [balanced_cons_zero, balanced_cons_succ]
        have := ih q (P - 1) (by omega) (by omega)
        simp only [List.length_cons]
        omega
      | succ p =>
        rw [balanced_cons_succ, balanced_cons_succ]
        exact ih p q (by omega) (by omega)

theorem everyNth_sublist (s : Nat) (l : List α) : (everyNth s l).Sublist l := by
  fun_induction everyNth s l with
  | case1 => simp
  | case2 x t ih => exact List.Sublist.cons_cons x (ih.trans (List.drop_sublist _ _))

end Tcrm.Balanced
