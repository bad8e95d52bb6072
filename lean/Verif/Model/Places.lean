import Verif.Model.TextFiles
import Verif.Model.Database
/-!
Stations and locations read from files: Utilities/shptools.py L249-390, Utilities/timeseries.py L129-175 and
`buildLocationDatabase` (database/__init__.py). The reader of the library pyshp gives the names of the fields and, for
each feature, the values of the fields and the points of the shape (two coordinates each).
-/
namespace Tcrm.Places

open Tcrm.TextFiles (Text load Loaded)

inductive Err where
  | indexError
  | valueError
  deriving DecidableEq, Repr

/-- A feature: values of the fields, and points -/
structure Feature (V : Type) where
  record : List V
  points : List (ℚ × ℚ)
  deriving DecidableEq

/-- A shape file; `fields` is without the deletion flag (Utilities/shptools.py L288, L341). -/
structure ShapeFile (V : Type) where
  fields : List String
  features : List (Feature V)

/-- A key of the dictionary: the number of the feature, or a value -/
inductive Key (V : Type) where
  | number (i : ℕ)
  | value (v : V)
  deriving DecidableEq

variable {V : Type} [DecidableEq V]

/-- `d[k] = v` of a Python dictionary, which keeps the order in which keys were first set -/
def put {A B : Type} [DecidableEq A] (d : List (A × B)) (k : A) (v : B) : List (A × B) :=
  if k ∈ d.map (·.1) then d.map fun e => if e.1 = k then (k, v) else e else d ++ [(k, v)]

/-- Utilities/shptools.py L291-292: the index of the key field, if a name is given and there is such a field. (An empty
name is as none.) -/
def keyIndex (sf : ShapeFile V) (key : Option String) : Option ℕ :=
  match key with
  | none => none
  | some name => if name = "" then none else sf.fields.idxOf? name

/-- Utilities/shptools.py L296-302: the key of feature `i` -/
def keyOf (idx : Option ℕ) (i : ℕ) (f : Feature V) : Except Err (Key V) :=
  match idx with
  | none => .ok (.number i)
  | some k => match f.record[k]? with
    | none => .error .indexError
    | some v => .ok (.value v)

/-- The loop of Utilities/shptools.py L296-302 -/
def fill (idx : Option ℕ) : ℕ → List (Feature V) → List (Key V × List (ℚ × ℚ)) → Except Err (List (Key V × List (ℚ × ℚ)))
  | _, [], d => .ok d
  | i, f :: fs, d => match keyOf idx i f with
    | .error e => .error e
    | .ok k => fill idx (i + 1) fs (put d k f.points)

/-- Utilities/shptools.py L249-304 (`shpGetVertices`) -/
def getVertices (sf : ShapeFile V) (key : Option String) : Except Err (List (Key V × List (ℚ × ℚ))) :=
  fill (keyIndex sf key) 0 sf.features []

/-- Utilities/shptools.py L311-364 (`shpGetField`); the conversion of the values is not modelled. -/
def getField (sf : ShapeFile V) (name : String) : Except Err (List V) :=
  match sf.fields.idxOf? name with
  | none => .error .valueError
  | some k => sf.features.mapM fun f => match f.record[k]? with
    | none => .error .indexError
    | some v => .ok v

/-- Utilities/shptools.py L367-390 (`shpReadShapeFile`) -/
def readShapeFile (sf : ShapeFile V) : Except Err (List (Key V × List (ℚ × ℚ)) × List (List V)) :=
  match getVertices sf none with
  | .error e => .error e
  | .ok d => .ok (d, sf.features.map (·.record))

/-- A station: identifier, longitude, latitude -/
structure Station (I : Type) where
  id : I
  lon : ℚ
  lat : ℚ
  deriving DecidableEq

/-- Utilities/timeseries.py L155-159: the station of an entry -/
def station {I : Type} (e : I × List (ℚ × ℚ)) : Except Err (Station I) :=
  match e.2 with
  | [] => .error .indexError
  | p :: _ => .ok ⟨e.1, if p.1 < 0 then p.1 + 360 else p.1, p.2⟩

/-- Utilities/timeseries.py L147-159: the stations of a shape file -/
def shapeStations (sf : ShapeFile V) (key : Option String) : Except Err (List (Station (Key V))) :=
  match getVertices sf key with
  | .error e => .error e
  | .ok d => d.mapM station

/-- What is read from a station file of text: identifier, longitude, latitude; `none` is NaN. -/
abbrev CsvStation := Option ℚ × Option ℚ × Option ℚ

/-- Utilities/timeseries.py L162-174: the stations of a text file. An array with one axis has no `shape[1]` (IndexError),
and a table of two columns no third. -/
def csvStations (text : Text) : Except Err (List CsvStation) :=
  match load text with
  | .bad => .error .valueError
  | .vector _ => .error .indexError
  | .scalar _ => .error .indexError
  | .table rows => rows.mapM fun r => match r with
    | a :: b :: c :: _ => .ok (a, b, c)
    | _ => .error .indexError

/-- A row of `tblLocations` -/
structure Row (V : Type) where
  locId : ℕ
  code : String
  name : V
  type : String
  lon : ℚ
  lat : ℚ
  elev : V
  country : V
  source : String
  comment : V
  deriving DecidableEq

/-- The next primary key of an SQLite table: one more than the largest -/
def nextId (table : List (Row V)) : ℕ := (table.map (·.locId)).foldr max 0 + 1

/-- database/__init__.py L798-811: the entry of a feature (without its key); the columns of the file are those of the
list of stations provided with RIP4. -/
def entry (text : V → String) (source type : String) (points : List (ℚ × ℚ)) (r : List V) : Except Err (Row V) :=
  match points with
  | [] => .error .indexError
  | p :: _ => match r[0]?, r[2]?, r[4]?, r[7]?, r[1]? with
    | some code, some name, some country, some elev, some comment =>
      .ok ⟨0, text code, name, type, Database.storedLon p.1, p.2, elev, country, source, comment⟩
    | _, _, _, _, _ => .error .indexError

/-- `executemany(INSLOCATIONS, …)`, database/definitions.py L54-55, with the key left to the database -/
def insertRows (table : List (Row V)) : List (Row V) → List (Row V)
  | [] => table
  | r :: rs => insertRows (table ++ [{ r with locId := nextId table }]) rs

/-- `v[0]`, database/__init__.py L782 and L799 -/
def firstPoint (points : List (ℚ × ℚ)) : Except Err (ℚ × ℚ) :=
  match points with
  | [] => .error .indexError
  | p :: _ => .ok p

/-- database/__init__.py L779-794: the first points, and the check that they look like longitudes and latitudes; `max`
and `min` of an empty list raise ValueError. -/
def check (vertices : List (Key V × List (ℚ × ℚ))) : Except Err Unit :=
  match vertices.mapM fun e => firstPoint e.2 with
  | .error e => .error e
  | .ok ps =>
    if ps = [] then .error .valueError
    else if ps.any fun p => decide (721 < p.1 ∨ p.1 < -721 ∨ 91 < p.2 ∨ p.2 < -91) then .error .valueError
    else .ok ()

/-- database/__init__.py L734-818 (`buildLocationDatabase`) -/
def buildLocations (text : V → String) (source : String) (sf : ShapeFile V) (table : List (Row V)) :
    Except Err (List (Row V)) :=
  match readShapeFile sf with
  | .error e => .error e
  | .ok (vertices, records) => match check vertices with
    | .error e => .error e
    | .ok _ => match (vertices.zip records).mapM fun x => entry text source "AWS" x.1.2 x.2 with
      | .error e => .error e
      | .ok rows => .ok (insertRows table rows)

/-- database/__init__.py L705-709 (`run`): the database of locations is built unless its file exists. `none` is no file. -/
def ensureLocations (text : V → String) (source : String) (sf : ShapeFile V) (db : Option (List (Row V))) :
    Except Err (List (Row V)) :=
  match db with
  | some table => .ok table
  | none => buildLocations text source sf []

end Tcrm.Places
