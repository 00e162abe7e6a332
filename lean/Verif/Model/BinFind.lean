import Verif.Model.TrackGroups

/-!
Looking mobs up in a bin and listing them (src/avb/bin.py:372-409), and the properties of mobs used for
that (src/avb/trackgroups.py:1147-1157).
-/
namespace Avb

/-- `Composition.mob_type` (src/avb/trackgroups.py:1147-1157). -/
def Composition.mobType (m : Composition) : Except Err Text :=
  if m.mob_type_id = 1 then .ok "CompositionMob".toList
  else if m.mob_type_id = 2 then .ok "MasterMob".toList
  else if m.mob_type_id = 3 then .ok "SourceMob".toList
  else .error .value

end Avb

namespace Avb.BinFind

/-- A bin as far as lookups are concerned: for every item the mob it refers to, if any
(src/avb/bin.py:177; mobs are named by numbers), the dictionary `_mob_dict` (src/avb/bin.py:235 and 259)
as its entries in order, and the mobs with their present properties.  Items that refer to objects other
than mobs are not modelled; for mob ids that are changed in place while they are keys of the
dictionary see `Model/SharedIds.lean`. -/
structure St where
  items : List (Option Nat)
  dict : List (MobID × Nat)
  mobs : Nat → Composition

/-- Assignment to a dictionary entry, as in `self._mob_dict[mob.mob_id] = mob` (src/avb/bin.py:377);
mob ids are compared by their bytes (src/avb/mobid.py:332-335). -/
def put (k : MobID) (m : Nat) : List (MobID × Nat) → List (MobID × Nat)
  | [] => [(k, m)]
  | p :: l => if p.1 = k then (k, m) :: l else p :: put k m l

/-- `self._mob_dict.get(mob_id, None)` (src/avb/bin.py:379). -/
def get (k : MobID) : List (MobID × Nat) → Option Nat
  | [] => none
  | p :: l => if p.1 = k then some p.2 else get k l

/-- `mob.mob_id` where `mob` may be `None` and the mob may have no mob id (src/avb/bin.py:377; the
property has no default, src/avb/trackgroups.py:1034). -/
def mobId (mobs : Nat → Composition) (m : Option Nat) : Except Err (MobID × Nat) :=
  match m with
  | none => .error .attribute
  | some m =>
    match (mobs m).mob_id with
    | none => .error .attribute
    | some i => .ok (i, m)

/-- The loop that fills the dictionary (src/avb/bin.py:375-377).  If it raises, the entries made so far
stay. -/
def fill (mobs : Nat → Composition) : List (Option Nat) → List (MobID × Nat) →
    List (MobID × Nat) × Option Err
  | [], d => (d, none)
  | m :: ms, d =>
    match mobId mobs m with
    | .error e => (d, some e)
    | .ok (i, m) => fill mobs ms (put i m d)

/-- `Bin.find_by_mob_id` (src/avb/bin.py:372-379).  An empty dictionary is filled again. -/
def find (s : St) (i : MobID) : Except Err (Option Nat) × St :=
  if s.dict = [] then
    match fill s.mobs s.items [] with
    | (d, some e) => (.error e, { s with dict := d })
    | (d, none) => (.ok (get i d), { s with dict := d })
  else (.ok (get i s.dict), s)

/-- `Bin.add_mob` (src/avb/bin.py:381-389).  The item is appended before the mob id is looked at. -/
def addMob (s : St) (m : Option Nat) : Except Err Unit × St :=
  if s.dict = [] then (.ok (), { s with items := s.items ++ [m] })
  else
    match mobId s.mobs m with
    | .error e => (.error e, { s with items := s.items ++ [m] })
    | .ok (i, n) => (.ok (), { s with items := s.items ++ [m], dict := put i n s.dict })

/-- Calls on a bin. -/
inductive Op where
  | find (i : MobID)
  | add (m : Option Nat)

/-- One call; the results are dropped (src/avb/bin.py:372-389). -/
def step (s : St) : Op → St
  | .find i => (find s i).2
  | .add m => (addMob s m).2

/-- A sequence of calls (src/avb/bin.py:372-389). -/
def run (s : St) (ops : List Op) : St := ops.foldl step s

/-- `Bin.mobs` (src/avb/bin.py:391-394): also `None` for an item without mob. -/
def listMobs (s : St) : List (Option Nat) := s.items

/-- `mob.mob_type` where `mob` may be `None` (src/avb/bin.py:398, 403, 408). -/
def mobType (mobs : Nat → Composition) (m : Option Nat) : Except Err (Text × Nat) :=
  match m with
  | none => .error .attribute
  | some m =>
    match (mobs m).mobType with
    | .error e => .error e
    | .ok t => .ok (t, m)

/-- The common loop of `toplevel`, `compositionmobs` and `mastermobs` (src/avb/bin.py:396-409): what is
produced, and the error that ends it, if any. -/
def listing (mobs : Nat → Composition) (p : Text → Nat → Bool) : List (Option Nat) → List Nat × Option Err
  | [] => ([], none)
  | m :: ms =>
    match mobType mobs m with
    | .error e => ([], some e)
    | .ok (t, m) =>
      ((if p t m then [m] else []) ++ (listing mobs p ms).1, (listing mobs p ms).2)

/-- `Bin.toplevel` (src/avb/bin.py:396-399). -/
def toplevel (s : St) : List Nat × Option Err :=
  listing s.mobs (fun t m => t == "CompositionMob".toList && (s.mobs m).usage_code == 0) (listMobs s)

/-- `Bin.compositionmobs` (src/avb/bin.py:401-404). -/
def compositionmobs (s : St) : List Nat × Option Err :=
  listing s.mobs (fun t _ => t == "CompositionMob".toList) (listMobs s)

/-- `Bin.mastermobs` (src/avb/bin.py:406-409). -/
def mastermobs (s : St) : List Nat × Option Err :=
  listing s.mobs (fun t _ => t == "MasterMob".toList) (listMobs s)

end Avb.BinFind
