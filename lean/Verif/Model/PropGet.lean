import Verif.Model.RefList

/-!
The ways to read a property by its name: `obj.name`, `obj.get(name, default)` (src/avb/core.py:193-213), and the methods
of the dictionary behind it (`AVBPropertyData`, src/avb/core.py:35-50), with the objects that are looked up on the way.
-/
namespace Avb.PropGet

open RefList

/-- The property data of an object, or an attribute set: names and values in order, as stored (src/avb/core.py:35,
src/avb/attributes.py:22).  No name twice. -/
abbrev Data := List (String × PV)

/-- `AVBPropertyData.deref` (src/avb/core.py:37-40) with `AVBObjectRef.value` (src/avb/utils.py:20-27): the ids that are
looked up, and the value or the exception.  `debug_copy_refs` is not set. -/
def deref (env : Env) : PV → List Int × Except Err PV
  | .ref i => if i ≤ 0 then ([], .ok .none) else ([i], (env i).map .obj)
  | v => ([], .ok v)

/-- The stored value (Python's dictionary under src/avb/core.py:35). -/
def find (key : String) : Data → Option PV
  | [] => none
  | p :: d => if p.1 = key then some p.2 else find key d

/-- `data[key]` (src/avb/core.py:42-43). -/
def getItem (env : Env) (d : Data) (key : String) : List Int × Except Err PV :=
  match find key d with
  | none => ([], .error .key)
  | some v => deref env v

/-- `data.get(key, default)` (src/avb/core.py:49-50); the default goes through `deref` too. -/
def dataGet (env : Env) (d : Data) (key : String) (default : PV) : List Int × Except Err PV :=
  deref env ((find key d).getD default)

/-- `list(data.items())` up to an exception (src/avb/core.py:45-47): the ids that are looked up, what was given, and the
exception. -/
def items (env : Env) : Data → List Int × List (String × PV) × Option Err
  | [] => ([], [], none)
  | p :: d =>
    match deref env p.2 with
    | (ids, .error e) => (ids, [], some e)
    | (ids, .ok x) =>
      let r := items env d
      (ids ++ r.1, (p.1, x) :: r.2.1, r.2.2)

/-- `obj.get(key, default)` (src/avb/core.py:193-197): a loop over `items`. -/
def objGet (env : Env) (key : String) (default : PV) : Data → List Int × Except Err PV
  | [] => ([], .ok default)
  | p :: d =>
    match deref env p.2 with
    | (ids, .error e) => (ids, .error e)
    | (ids, .ok x) =>
      if p.1 = key then (ids, .ok x)
      else
        let r := objGet env key default d
        (ids ++ r.1, r.2)

/-- `obj.name` for a name that is no attribute of the class (src/avb/core.py:208-213); those that are, are in
Model/Attrs. -/
def getAttr (env : Env) (d : Data) (name : String) : List Int × Except Err PV :=
  match find name d with
  | none => ([], .error .attribute)
  | some v => deref env v

/-- `hasattr(obj, name)` for such a name (src/avb/core.py:208-213; Python takes `AttributeError` as no). -/
def hasAttr (env : Env) (d : Data) (name : String) : Except Err Bool :=
  match (getAttr env d name).2 with
  | .ok _ => .ok true
  | .error .attribute => .ok false
  | .error e => .error e

end Avb.PropGet
