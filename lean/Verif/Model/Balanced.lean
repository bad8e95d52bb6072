import Mathlib.Data.List.Sort
/-!
Round-robin sharing of work over MPI ranks.
-/
namespace Tcrm.Balanced

variable {α : Type}

/-- Every `step`-th element starting with the first; the iteration done by
`itertools.islice` once the start has been reached. `step = 0` is not a legal argument. -/
def everyNth (step : Nat) : List α → List α
  | [] => []
  | x :: t => x :: everyNth step (t.drop (step - 1))
termination_by l => l.length
decreasing_by simp; omega

/-- TrackGenerator/TrackGenerator.py L1689-1699 and wind/__init__.py L876-886
(`balanced`): `itertools.islice(iterable, p, None, P)` on the rank `p` of `P`. -/
def balanced (l : List α) (P p : Nat) : List α := everyNth P (l.drop p)

/-- wind/__init__.py L808-837 (`loadTracksFromFiles`) on the rank `p` of `P`.
`load f` stands for `filterTracks(loadTracks(f), gridLimit, margin)`. With several
files the files are shared, with one file its tracks are shared. An empty list of
files raises `IndexError` (L831), here `none`. -/
def loadTracksFromFiles {F T : Type} (load : F → List T) (files : List F) (P p : Nat) :
    Option (List T) :=
  match files with
  | [] => none
  | [f] => some (balanced (load f) P p)
  | files => some ((balanced files P p).flatMap load)

/-- wind/__init__.py L707-736 (`dumpGustsFromTrackfiles`): the directory listing is
sorted first. The order of file names is an arbitrary linear order. -/
def tracksOfRank {F T : Type} [LinearOrder F] (load : F → List T) (listing : List F)
    (P p : Nat) : Option (List T) :=
  loadTracksFromFiles load (listing.insertionSort (· ≤ ·)) P p

end Tcrm.Balanced
