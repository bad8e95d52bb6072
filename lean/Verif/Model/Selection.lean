/-!
Choosing the radial profile and the boundary-layer model by name, wind/windmodels.py and wind/__init__.py.
-/
namespace Tcrm.Selection

inductive Err where
  /-- `KeyError`: no such profile or field -/
  | key
  /-- `TypeError`: missing arguments -/
  | type
  /-- `UnboundLocalError`, wind/__init__.py L165-170 -/
  | unbound
  deriving DecidableEq

/-- The arguments of the constructors after `self, lat, lon, eP, cP, rMax` and without `windSpeedModel`:
wind/windmodels.py L249, L313, L482, L507, L575, L603, L814, L842; the flag says whether there is a default. -/
def constructors : List (String × List (String × Bool)) := [
  ("jelesnianski", []), ("holland", [("beta", false)]), ("willoughby", []), ("rankine", []), ("schloemer", []),
  ("doubleholland", [("beta1", false), ("beta2", false), ("rMax2", true)]), ("powell", []), ("newholland", [("rGale", true)])]

/-- wind/windmodels.py L1217-1218 and L179-184: `PROFILES[name]`, whose keys are in lower case -/
def profile (name : String) : Except Err (List (String × Bool)) :=
  match constructors.lookup name with
  | some a => .ok a
  | none => .error .key

/-- The attributes of `WindfieldAroundTrack`, wind/__init__.py L108-119, among the names of arguments -/
def attributes : List String := ["beta", "beta1", "beta2"]

/-- wind/windmodels.py L1187-1195, wind/__init__.py L190-193: the values are those of the arguments the track has, in
order, and are passed by position; all arguments without default must be covered. -/
def build (args : List (String × Bool)) : Except Err Unit :=
  let values := (args.map (·.1)).filter (attributes.contains ·)
  if (args.drop values.length).all (·.2) then .ok () else .error .type

/-- The methods of `PrsProfile`, PressureInterface/pressureProfile.py L146-263 -/
def pressureMethods : List String := ["holland", "willoughby", "schloemer", "doubleHolland", "powell"]

/-- wind/__init__.py L165-170: a missing method is logged, and then called -/
def pressure (name : String) : Except Err Unit :=
  if pressureMethods.contains name then .ok () else .error .unbound

/-- wind/windmodels.py L1220-1221 -/
def fields : List String := ["hubbert", "mcconochie", "kepert"]

/-- wind/__init__.py L172-210 (`localWindField`): whether the profile, the pressure and the boundary-layer model
are found for a given choice. What they compute is modelled elsewhere. -/
def windField (name field : String) : Except Err Unit := do
  let args ← profile name
  build args
  pressure name
  if fields.contains field then .ok () else .error .key

end Tcrm.Selection
