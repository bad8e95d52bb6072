import Verif.Model.Selection
/-!
Discovery of the models of the wind, wind/windmodels.py.
-/
namespace Tcrm.Registry

abbrev Text := List Char

/-- A class: its name, the arguments of its constructor after `self, lat, lon, eP, cP, rMax` (after `self,
windProfileModel` for the boundary layers) with whether they have a default, and its `__subclasses__()`. -/
inductive Cls where
  | mk (name : Text) (args : List (String × Bool)) (subs : List Cls)

def Cls.name : Cls → Text
  | .mk n _ _ => n

def Cls.args : Cls → List (String × Bool)
  | .mk _ a _ => a

def Cls.subs : Cls → List Cls
  | .mk _ _ s => s

mutual
/-- wind/windmodels.py L1171-1176, hazard/evd.py L532-537 (`allSubclasses`) -/
def allSubclasses : Cls → List Cls
  | .mk _ _ subs => subs ++ allOf subs

/-- wind/windmodels.py L1176: `[g for s in cls.__subclasses__() for g in allSubclasses(s)]` -/
def allOf : List Cls → List Cls
  | [] => []
  | s :: r => allSubclasses s ++ allOf r
end

/-- `remove` with a number of characters still to be left out -/
def removeFrom (pat : Text) : Nat → Text → Text
  | _, [] => []
  | k + 1, _ :: cs => removeFrom pat k cs
  | 0, c :: cs => if pat.isPrefixOf (c :: cs) then removeFrom pat (pat.length - 1) cs else c :: removeFrom pat 0 cs

/-- Python's `text.replace(pat, '')` for a text `pat` that is not empty -/
def remove (pat s : Text) : Text := removeFrom pat 0 s

/-- wind/windmodels.py L1217 and L1220, hazard/evd.py L549: `k.__name__.replace(pat, '').lower()` -/
def key (pat : Text) (c : Cls) : Text := (remove pat c.name).map Char.toLower

/-- wind/windmodels.py L1179-1184, L1198-1203, L1217-1221 (`profile`, `field`), hazard/evd.py L539-540, L549-550: look-up
in the dictionary, where the last class with a key stays; `none` is a `KeyError`. -/
def find (pat : Text) (base : Cls) (name : Text) : Option Cls :=
  (allSubclasses base).reverse.find? fun c => key pat c == name

/-- A call with positional arguments: which argument gets which value; `none` is the default. `error` is a `TypeError`. -/
def bind {V : Type} : List (String × Bool) → List V → Except Selection.Err (List (String × Option V))
  | [], [] => .ok []
  | [], _ :: _ => .error .type
  | (a, _) :: args, v :: vs => (bind args vs).map ((a, some v) :: ·)
  | (a, d) :: args, [] => if d then (bind args []).map ((a, none) :: ·) else .error .type

/-- wind/windmodels.py L1187-1195, L1206-1214 (`profileParams`, `fieldParams`) and wind/__init__.py L190-193, L200-203: the
names of the arguments that the base class does not have (`std`) and the track has (`has`) choose the values, which are
passed by position. -/
def create {V : Type} (std : List String) (has : String → Bool) (value : String → V) (c : Cls) :
    Except Selection.Err (List (String × Option V)) :=
  let params := (c.args.map (·.1)).filter fun p => !std.contains p
  let values := (params.filter has).map value
  bind c.args values

/-- Arguments of `WindProfileModel.__init__`, wind/windmodels.py L158 -/
def profileStd : List String := ["self", "lat", "lon", "eP", "cP", "rMax", "windSpeedModel"]

/-- The profiles of wind/windmodels.py L143-897: class statements L234, L293, L460, L491, L557, L579, L794, L824 and
constructors L249, L313, L482, L507, L575, L603, L814, L842 -/
def profiles : Cls :=
  .mk "WindProfileModel".toList [("windSpeedModel", false)] [
    .mk "JelesnianskiWindProfile".toList [("windSpeedModel", true)] [],
    .mk "HollandWindProfile".toList [("beta", false), ("windSpeedModel", true)] [
      .mk "WilloughbyWindProfile".toList [("windSpeedModel", true)] [],
      .mk "SchloemerWindProfile".toList [] [],
      .mk "PowellWindProfile".toList [] []],
    .mk "RankineWindProfile".toList [("windSpeedModel", true)] [],
    .mk "DoubleHollandWindProfile".toList
      [("beta1", false), ("beta2", false), ("rMax2", true), ("windSpeedModel", true)] [],
    .mk "NewHollandWindProfile".toList [("rGale", true)] []]

/-- The boundary layers of wind/windmodels.py L900-1165: class statements L961, L1001, L1057, which inherit the
constructor of L913 -/
def fields : Cls :=
  .mk "WindFieldModel".toList [] [
    .mk "HubbertWindField".toList [] [], .mk "McConochieWindField".toList [] [], .mk "KepertWindField".toList [] []]

end Tcrm.Registry
