import Verif.Model.MultiplierTiles
/-!
Vocabulary for C173: the files of a tile.
-/
namespace Tcrm.MultTiles

/-- The eight directions -/
def eight : List Name :=
  [['e'], ['n'], ['n', 'e'], ['n', 'w'], ['s'], ['s', 'e'], ['s', 'w'], ['w']]

/-- The code of a multiplier in file names: Ms for shielding, Mz for terrain and height, Mt for topography -/
def code : Kind → Name
  | .shielding => ['m', 's']
  | .terrain => ['m', 'z']
  | .topographic => ['m', 't']

/-- Every multiplier with every direction -/
def everyPair : List (Kind × Name) :=
  [Kind.shielding, Kind.terrain, Kind.topographic].flatMap fun k => eight.map fun d => (k, d)

/-- The file of raw multipliers of a kind for tile `t` and direction `d`: `t_ms_d.nc`. -/
def rawName (t : Name) (k : Kind) (d : Name) : Name := t ++ '_' :: code k ++ '_' :: d ++ ['.', 'n', 'c']

/-- The same as an image: `t_ms_d.tif`. -/
def imageName (t : Name) (k : Kind) (d : Name) : Name := t ++ '_' :: code k ++ '_' :: d ++ tif

/-- The text of a tile in the configuration: the name of the tile, or the name with an underscore (as in the example
configuration). -/
def Names (text t : Name) : Prop := text = t ∨ text = t ++ ['_']

/-- The folder of the raw multipliers of each kind has one file for each tile and direction. -/
def Holds (src : Kind → List Name) (available : List Name) : Prop :=
  ∀ k s, s ∈ src k ↔ ∃ t ∈ available, ∃ d ∈ eight, s = rawName t k d

/-- A text of the configuration matches the files of the tile that it names only. -/
def Unambiguous (tiles available : List Name) : Prop :=
  ∀ text ∈ tiles, ∀ t ∈ available, ∀ k d, text <+: rawName t k d → Names text t

/-- The folders below the working directory are all there, or none is. -/
def Consistent (w : Work) : Prop := (∀ k, w.folder k ≠ none) ∨ ∀ k, w.folder k = none

end Tcrm.MultTiles
