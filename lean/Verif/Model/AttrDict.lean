import Verif.Model.Attributes

/-!
The dictionary operations of `Attributes` (src/avb/attributes.py:21-51, an `OrderedDict` through
`AVBPropertyData`, src/avb/core.py:35-50) on the list of items in order.
-/
namespace Avb.AttrDict

/-- A call on an attribute set.  `pop` has the default if one is given. -/
inductive Op where
  | set (k : Text) (v : AttrVal)
  | del (k : Text)
  | get (k : Text)
  | getD (k : Text) (v : AttrVal)
  | pop (k : Text) (v : Option AttrVal)
  | contains (k : Text)
  | len
  | keys
  | items
  | clear
  deriving DecidableEq

/-- What a call gives back. -/
inductive Res where
  | done
  | val (v : AttrVal)
  | bool (b : Bool)
  | num (n : Nat)
  | keys (ks : List Text)
  | items (l : List (Text × AttrVal))
  deriving DecidableEq

/-- Looking a key up (`OrderedDict.__getitem__` under src/avb/core.py:42-43).  Object values are named
by their reference, so the dereferencing there is not visible. -/
def find (l : List (Text × AttrVal)) (k : Text) : Option AttrVal :=
  match l with
  | [] => none
  | p :: l => if p.1 = k then some p.2 else find l k

/-- Removing a key (`OrderedDict.__delitem__` under src/avb/attributes.py:40-42). -/
def remove (l : List (Text × AttrVal)) (k : Text) : List (Text × AttrVal) :=
  match l with
  | [] => []
  | p :: l => if p.1 = k then l else p :: remove l k

/-- The calls: `__setitem__`, `__delitem__`, `clear`, `pop` (src/avb/attributes.py:36-51), and
`__getitem__`, `get`, `items` (src/avb/core.py:42-50); `in`, `len` and `keys` are inherited.
A missing key raises `KeyError` and changes nothing. -/
def step (l : List (Text × AttrVal)) : Op → Except Err (List (Text × AttrVal) × Res)
  | .set k v => .ok (dictSet l k v, .done)
  | .del k => if (find l k).isSome then .ok (remove l k, .done) else .error .key
  | .get k =>
    match find l k with
    | some v => .ok (l, .val v)
    | none => .error .key
  | .getD k d => .ok (l, .val ((find l k).getD d))
  | .pop k d =>
    match find l k, d with
    | some v, _ => .ok (remove l k, .val v)
    | none, some v => .ok (l, .val v)
    | none, none => .error .key
  | .contains k => .ok (l, .bool (find l k).isSome)
  | .len => .ok (l, .num l.length)
  | .keys => .ok (l, .keys (l.map (·.1)))
  | .items => .ok (l, .items l)
  | .clear => .ok ([], .done)

/-- A sequence of calls (src/avb/attributes.py:36-51); a call that raises leaves the set as it was. -/
def run (l : List (Text × AttrVal)) : List Op → List (Text × AttrVal) × List (Except Err Res)
  | [] => (l, [])
  | op :: ops =>
    match step l op with
    | .ok (l1, r) => ((run l1 ops).1, .ok r :: (run l1 ops).2)
    | .error e => ((run l ops).1, .error e :: (run l ops).2)

end Avb.AttrDict
