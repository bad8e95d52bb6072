import Verif.Model.GustFiles
/-!
What users expect of the wind-field files, independently of how they are selected and written.
-/
namespace Tcrm.GustFiles

/-- `v` is the greatest element of a list. -/
def IsMaxOf {K : Type} [LE K] (v : K) (l : List K) : Prop :=
  v ∈ l ∧ ∀ x ∈ l, x ≤ v

/-- The file of a track as an uninterrupted write leaves it. -/
def fullFile {D : Type} (data : Var → D) : File D :=
  ⟨[(.lat, some (data .lat)), (.lon, some (data .lon)), (.vmax, some (data .vmax)),
    (.ua, some (data .ua)), (.va, some (data .va)), (.slp, some (data .slp)), (.crs, none)], true⟩

variable {T L D X : Type}

/-- A disk left by any number of interrupted (or finished) runs, starting from `d₀`. Each run starts a
new process, hence with the configured grid limit. -/
inductive Crashed (S : Stage T L D X) (ts : List T) (lim : Option L) (d₀ : Disk D X) :
    Disk D X → Prop
  | start : Crashed S ts lim d₀ d₀
  | crash {d d' : Disk D X} : Crashed S ts lim d₀ d → d' ∈ runStates S ts lim d →
      Crashed S ts lim d₀ d'

/-- The netCDF library refuses files that were not closed and reads those that were written
completely. -/
structure Faithful (S : Stage T L D X) : Prop where
  unclosed : ∀ f : File D, f.closed = false → S.readable f = false
  full : ∀ data : Var → D, S.readable (fullFile data) = true

end Tcrm.GustFiles
