import Mathlib.Data.List.Basic
/-!
The growing record array, Utilities/dynarray.py.
-/
namespace Tcrm.DynArray

/-- Utilities/dynarray.py L16-24: stored elements (with `size` places), length and size. -/
structure Arr (α : Type) where
  store : List α
  length : ℕ
  size : ℕ

inductive Err where
  | indexError
  deriving DecidableEq

variable {α : Type}

/-- Utilities/dynarray.py L20-24 (`__init__`); `junk` are the ten values `np.empty` happens to hold. -/
def new (junk : List α) : Arr α := ⟨junk, 0, 10⟩

/-- `np.resize(a, n)`: `a` repeated up to length `n`. -/
def npResize (a : List α) (n : ℕ) : List α := (List.range n).filterMap fun i => a[i % a.length]?

/-- Utilities/dynarray.py L29-40 (`append`); `int(1.5 * size)` is `3 * size / 2`. -/
def append (a : Arr α) (r : α) : Except Err (Arr α) :=
  let b : Arr α := if a.length = a.size then ⟨npResize a.store (3 * a.size / 2), a.length, 3 * a.size / 2⟩ else a
  if b.length < b.store.length then .ok ⟨b.store.set b.length r, b.length + 1, b.size⟩ else .error .indexError

/-- Utilities/dynarray.py L42-50 (`extend`) -/
def extend (a : Arr α) : List α → Except Err (Arr α)
  | [] => .ok a
  | r :: rs =>
    match append a r with
    | .error e => .error e
    | .ok b => extend b rs

/-- Utilities/dynarray.py L52-57 (`data`) -/
def data (a : Arr α) : List α := a.store.take a.length

end Tcrm.DynArray
