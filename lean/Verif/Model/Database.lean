import Verif.Model.GustFiles
import Verif.Model.Grid
/-!
The hazard database: tables, updating (database/__init__.py) and queries (database/queries.py).

SQL is modelled by its meaning: a table is a list of rows, a join the list of matching combinations, a comparison with
NULL is not true, ORDER BY returns some ordering of the rows. Numbers are exact. Columns that no query returns (comments,
times of creation, versions, fitted parameters) are left out.
-/
namespace Tcrm.Database
open Tcrm.GustFiles (Name pad)

/-- A number or NULL (sqlite stores a NaN as NULL) -/
abbrev Num := Option ℚ

/-- database/definitions.py L14-19; `locId` is the primary key. -/
structure Location where
  locId : ℤ
  name : Name
  lon : ℚ
  lat : ℚ
  deriving DecidableEq

/-- database/definitions.py L22-27; `number` is the primary key. -/
structure Event where
  number : ℕ
  eventId : Name
  file : Name
  maxWind : Num
  minPressure : Num
  deriving DecidableEq

/-- database/definitions.py L30-33; no key -/
structure Wind where
  locId : ℤ
  eventId : Name
  wspd : Num
  umax : Num
  vmax : Num
  deriving DecidableEq

/-- database/definitions.py L36-41; no key -/
structure Hazard where
  locId : ℤ
  period : ℚ
  wspd : Num
  upper : Num
  lower : Num
  deriving DecidableEq

/-- database/definitions.py L44-47; no key -/
structure Passage where
  locId : ℤ
  eventId : Name
  dist : ℚ
  deriving DecidableEq

/-- The tables -/
structure DB where
  locations : List Location
  events : List Event
  winds : List Wind
  hazard : List Hazard
  tracks : List Passage
  deriving DecidableEq

/-- SQL `a > b`: true only for two numbers -/
def gt (a b : Num) : Bool :=
  match a, b with
  | some x, some y => decide (y < x)
  | _, _ => false

/-- The order of ORDER BY ... ASC, NULL first -/
def before (a b : Num) : Prop :=
  match a, b with
  | none, _ => True
  | some _, none => False
  | some x, some y => x ≤ y

/-- `res` is an answer with the given rows ordered by `key`; the order of rows with the same key is not specified. -/
def OrderedBy {α : Type} (key : α → Num) (rows res : List α) : Prop :=
  res.Perm rows ∧ res.Pairwise fun a b => before (key a) (key b)

/-- A record of database/queries.py L61 -/
structure Exceeding where
  locId : ℤ
  locName : Name
  wspd : Num
  eventId : Name
  deriving DecidableEq

/-- The rows selected in database/queries.py L61-66 -/
def exceedingRows (db : DB) (locId : ℤ) (windSpeed : Num) : List Exceeding :=
  db.locations.flatMap fun l =>
    (db.winds.filter fun w => l.locId = w.locId ∧ gt w.wspd windSpeed ∧ l.locId = locId).map fun w =>
      ⟨l.locId, l.name, w.wspd, w.eventId⟩

/-- database/queries.py L37-71 (`locationRecordsExceeding`) -/
def locationRecordsExceeding (db : DB) (locId : ℤ) (windSpeed : Num) (res : List Exceeding) : Prop :=
  OrderedBy (·.wspd) (exceedingRows db locId windSpeed) res

/-- A record of database/queries.py L85 -/
structure Record where
  locId : ℤ
  locName : Name
  wspd : Num
  umax : Num
  vmax : Num
  eventId : Name
  deriving DecidableEq

/-- database/queries.py L74-96 (`locationRecords`) -/
def locationRecords (db : DB) (locId : ℤ) (res : List Record) : Prop :=
  OrderedBy (·.wspd) (db.winds.flatMap fun w =>
    (db.locations.filter fun l => w.locId = l.locId ∧ l.locId = locId).map fun l =>
      ⟨w.locId, l.name, w.wspd, w.umax, w.vmax, w.eventId⟩) res

/-- A record of database/queries.py L120-121 -/
structure Passing where
  locId : ℤ
  locName : Name
  eventId : Name
  dist : ℚ
  wspd : Num
  file : Name
  deriving DecidableEq

/-- database/queries.py L99-133 (`locationPassage`); the order of the result is not specified. -/
def locationPassage (db : DB) (locId : ℤ) (distance : ℚ) (res : List Passing) : Prop :=
  res.Perm (db.locations.flatMap fun l =>
    (db.tracks.filter fun t => l.locId = t.locId).flatMap fun t =>
      (db.winds.filter fun w => w.eventId = t.eventId).flatMap fun w =>
        (db.events.filter fun e => e.eventId = t.eventId ∧ t.dist < distance ∧ l.locId = locId).map fun e =>
          ⟨l.locId, l.name, t.eventId, t.dist, w.wspd, e.file⟩)

/-- A record of database/queries.py L150-151 -/
structure PassingWind where
  locName : Name
  wspd : Num
  umax : Num
  vmax : Num
  eventId : Name
  dist : ℚ
  maxWind : Num
  minPressure : Num
  deriving DecidableEq

/-- database/queries.py L136-164 (`locationPassageWindSpeed`) -/
def locationPassageWindSpeed (db : DB) (locId : ℤ) (speed : Num) (distance : ℚ) (res : List PassingWind) : Prop :=
  OrderedBy (·.wspd) (db.locations.flatMap fun l =>
    (db.winds.filter fun w => l.locId = w.locId).flatMap fun w =>
      (db.events.filter fun e => e.eventId = w.eventId).flatMap fun e =>
        (db.tracks.filter fun t => w.locId = t.locId ∧ w.eventId = t.eventId ∧ l.locId = locId ∧ gt w.wspd speed ∧
          t.dist ≤ distance).map fun t =>
            ⟨l.name, w.wspd, w.umax, w.vmax, w.eventId, t.dist, e.maxWind, e.minPressure⟩) res

inductive Err where
  | indexError
  | valueError
  | attributeError
  deriving DecidableEq

/-- database/queries.py L167-199 (`locationReturnPeriodEvents`): the first of the selected levels, in some order, is
taken. -/
def locationReturnPeriodEvents (db : DB) (locId : ℤ) (period : ℚ) (res : Except Err (List Exceeding)) : Prop :=
  ∃ row : List Num, row.Perm (db.locations.flatMap fun l =>
      (db.hazard.filter fun h => l.locId = h.locId ∧ h.period = period ∧ l.locId = locId).map fun h => h.wspd) ∧
    match row with
    | [] => res = .error .indexError
    | level :: _ => ∃ r, locationRecordsExceeding db locId level r ∧ res = .ok r

/-- A record of database/queries.py L218-219 -/
structure Level where
  locId : ℤ
  locName : Name
  period : ℚ
  wspd : Num
  lower : Num
  upper : Num
  deriving DecidableEq

/-- database/queries.py L202-230 (`locationAllReturnLevels`) -/
def locationAllReturnLevels (db : DB) (locId : ℤ) (res : List Level) : Prop :=
  OrderedBy (fun r => some r.period) (db.locations.flatMap fun l =>
    (db.hazard.filter fun h => l.locId = h.locId ∧ l.locId = locId).map fun h =>
      ⟨l.locId, l.name, h.period, h.wspd, h.lower, h.upper⟩) res

/-! ### Updating -/

/-- `re.compile(r'\d+').findall` (for ASCII digits), `cur` being the digits read last, in reverse -/
def numbersFrom (cur : Name) : Name → List Name
  | [] => if cur = [] then [] else [cur.reverse]
  | c :: s =>
    if c.isDigit then numbersFrom (c :: cur) s
    else if cur = [] then numbersFrom [] s
    else cur.reverse :: numbersFrom [] s

/-- The text of an event identifier, `"%03d-%05d" % (sim, num)` -/
def idText (sim num : ℕ) : Name := pad 3 sim ++ '-' :: pad 5 num

/-- database/__init__.py L439-440: the identifier of the event of a file; other than two numbers in its name are a
ValueError. -/
def eventIdOf (file : Name) : Except Err Name :=
  match numbersFrom [] file with
  | [a, b] => .ok (idText (Nat.ofDigitChars 10 a 0) (Nat.ofDigitChars 10 b 0))
  | _ => .error .valueError

/-- A wind-field file: its axes, and at row `j` and column `i` the gust and its components -/
structure Field where
  lon : List ℚ
  lat : List ℚ
  vmax : ℕ → ℕ → Num
  ua : ℕ → ℕ → Num
  va : ℕ → ℕ → Num
  maxWind : Num
  minPressure : Num

/-- database/__init__.py L468-481: the record for a location -/
def windAt (f : Field) (eventId : Name) (l : Location) : Except Err Wind :=
  match Grid.findIndex f.lon l.lon, Grid.findIndex f.lat l.lat with
  | .ok i, .ok j => .ok ⟨l.locId, eventId, f.vmax j i, f.ua j i, f.va j i⟩
  | _, _ => .error .valueError

/-- database/__init__.py L430-483 (`processEvent`); `none` is a file that is not a wind field: it has not the attributes
read in L113 (`windfieldAttributes`). -/
def processEvent (file : Name) (field : Option Field) (locations : List Location) (eventNum : ℕ) :
    Except Err (Event × List Wind) :=
  match eventIdOf file with
  | .error e => .error e
  | .ok eventId =>
    match field with
    | none => .error .attributeError
    | some f =>
      match locations.mapM (windAt f eventId) with
      | .error e => .error e
      | .ok ws => .ok (⟨eventNum, eventId, file, f.maxWind, f.minPressure⟩, ws)

/-- database/__init__.py L306-329 (`insertEvents`): an event with a known number is not inserted (the error is only
logged). -/
def insertEvent (db : DB) (e : Event) : DB :=
  if db.events.any fun x => x.number = e.number then db else { db with events := db.events ++ [e] }

/-- database/__init__.py L331-349 (`insertWindSpeeds`) -/
def insertWinds (db : DB) (ws : List Wind) : DB := { db with winds := db.winds ++ ws }

/-- database/__init__.py L418-428: the events of a listing in turn, numbered from `n`. The tables reached are returned
with the error, as every insertion is committed. For several processes the insertions are in another order (C02). -/
def processEvents (locations : List Location) : ℕ → List (Name × Option Field) → DB → DB × Option Err
  | _, [], db => (db, none)
  | n, (file, f) :: fs, db =>
    match processEvent file f locations n with
    | .error e => (db, some e)
    | .ok r => processEvents locations (n + 1) fs (insertWinds (insertEvent db r.1) r.2)

/-- A domain -/
structure Domain where
  xMin : ℚ
  xMax : ℚ
  yMin : ℚ
  yMax : ℚ

/-- INSERT OR REPLACE into tblLocations, database/definitions.py L51-52 -/
def replaceLocation (ls : List Location) (l : Location) : List Location :=
  ls.filter (fun x => x.locId ≠ l.locId) ++ [l]

/-- database/__init__.py L219-244 (`setLocations`) with the statement of database/definitions.py L69-71 -/
def setLocations (stored : List Location) (d : Domain) (db : DB) : DB :=
  let found := stored.filter fun l => d.xMin ≤ l.lon ∧ l.lon ≤ d.xMax ∧ d.yMin ≤ l.lat ∧ l.lat ≤ d.yMax
  { db with locations := found.foldl replaceLocation db.locations }

/-- database/__init__.py L664-691 (`processTrack`) for one track: `dist` is `minimumDistance` to each location. -/
def passages (id : ℕ × ℕ) (dist : Location → ℚ) (locations : List Location) : List Passage :=
  locations.map fun l => ⟨l.locId, idText id.1 id.2, dist l⟩

/-- database/__init__.py L549-642 (`processTracks`), the tracks of all files in turn -/
def processTracks (tracks : List ((ℕ × ℕ) × (Location → ℚ))) (db : DB) : DB :=
  { db with tracks := db.tracks ++ tracks.flatMap fun t => passages t.1 t.2 db.locations }

/-- database/__init__.py L486-546 (`processHazard`): `level period l` is the level and its limits at the grid point found
for the location; `int(year)` is the floor, periods being positive. -/
def processHazard (periods : List ℚ) (level : ℚ → Location → Num × Num × Num) (db : DB) : DB :=
  { db with hazard := db.hazard ++ periods.flatMap fun y => db.locations.map fun l =>
      ⟨l.locId, ⌊y⌋, (level y l).1, (level y l).2.1, (level y l).2.2⟩ }

/-- The output of a simulation -/
structure Output where
  fields : List (Name × Option Field)
  periods : List ℚ
  level : ℚ → Location → Num × Num × Num
  tracks : List ((ℕ × ℕ) × (Location → ℚ))

/-- database/__init__.py L693-733 (`run`) -/
def update (stored : List Location) (d : Domain) (o : Output) (db : DB) : DB × Option Err :=
  let db1 := setLocations stored d db
  let r := processEvents db1.locations 0 o.fields db1
  match r.2 with
  | some e => (r.1, some e)
  | none => (processTracks o.tracks (processHazard o.periods o.level r.1), none)

/-- The tables before the first update -/
def empty : DB := ⟨[], [], [], [], []⟩

/-- database/__init__.py L797-801 (`buildLocationDatabase`): the longitude stored for a location, `np.mod(lon, 360)` -/
def storedLon (lon : ℚ) : ℚ := lon - 360 * ⌊lon / 360⌋

end Tcrm.Database
