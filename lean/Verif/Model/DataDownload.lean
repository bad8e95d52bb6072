import Verif.Model.Datasets
import Verif.Model.Config
/-!
The download stage of a run: reading the list of datasets from the configuration and fetching those that are not there
(Utilities/datasets.py and tcrm.py).
-/
namespace Tcrm.DataDownload
open Tcrm.Datasets

/-- The settings: section and option to value, `none` if there is no such section or option. Option names are as written in the
program; `RawConfigParser` compares them without regard to case, section names exactly. -/
abbrev Settings := Name → Name → Option Name

/-- A registered dataset: its address and where it goes -/
structure Entry where
  url : Name
  dataset : DataSet
  deriving DecidableEq

/-- Utilities/datasets.py L112-119: the dataset of one section, `none` if reading an option raises -/
def entry (get : Settings) (name : Name) : Option Entry :=
  match get name "URL".toList with
  | none => none
  | some url =>
    match get name "path".toList with
    | none => none
    | some path => some ⟨url, make url path (get name "filename".toList)⟩

/-- Utilities/datasets.py L111-120: the sections one after the other, appended to the global list, until one raises -/
def register (get : Settings) : List Name → List Entry → List Entry × Outcome
  | [], known => (known, .done)
  | n :: rest, known =>
    match entry get n with
    | none => (known, .raised)
    | some e => register get rest (known ++ [e])

/-- Utilities/datasets.py L99-120 (`loadDatasets`): the global list after the call, and how it ends -/
def loadDatasets (get : Settings) (known : List Entry) : List Entry × Outcome :=
  match get "Input".toList "Datasets".toList with
  | none => (known, .raised)
  | some text => register get (Config.split ',' text) known

/-- tcrm.py L115-140 (`doDataDownload`): the global list, the disk and the end of the stage. `server` answers by address. The stage
stops at the first dataset that cannot be fetched (`sys.exit(1)` after an `IOError`, the exception otherwise; both are `raised`).
Looking twice whether the file is there (L124 and Utilities/datasets.py L55) is looking once. The log and the progress bar are left
out. -/
def doDataDownload {B : Type} (tools : Tools B) (get : Settings) (server : Name → Option (List B)) (known : List Entry)
    (d : Disk B) : List Entry × Disk B × Outcome :=
  match loadDatasets get known with
  | (known', .raised) => (known', d, .raised)
  | (known', .done) => (known', checkAll tools (known'.map fun e => (e.dataset, server e.url)) d)

end Tcrm.DataDownload
