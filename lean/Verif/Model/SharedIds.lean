import Verif.Model.BinFind

/-!
Mob ids as objects: `MobID` is mutable (src/avb/mobid.py:176-189), so a mob id can be changed in place,
by all who hold the same object, also while it is a key of the dictionary of a bin (src/avb/bin.py:372-389).
`Model/BinFind.lean` is the same without such changes.
-/
namespace Avb.SharedIds

/-- An entry of a dictionary with mob ids as keys (src/avb/bin.py:377): the hash that the key had when it
was entered, as Python keeps it, the key object and the mob. -/
structure Entry where
  hash : Int
  key : Nat
  val : Nat
  deriving DecidableEq

/-- The `MobID` objects by number with their present bytes (src/avb/mobid.py:177-189) and the number of the
next one, the object in the property `mob_id` of every mob or clip, if it has one
(src/avb/trackgroups.py:1034, src/avb/components.py:264), the mobs of the items of a bin and its
`_mob_dict` (src/avb/bin.py:219).  A new object never gets the number of an earlier one. -/
structure St where
  cells : Nat → MobID
  next : Nat
  ids : Nat → Option Nat
  items : List (Option Nat)
  dict : List Entry

/-- The present mob id of a mob or clip (src/avb/trackgroups.py:1034, src/avb/components.py:264). -/
def idOf (s : St) (m : Nat) : Option MobID := (s.ids m).map s.cells

/-- `d[k] = m` for a dictionary and the mob id object `k` (src/avb/bin.py:377 and 387): an entry with the
same hash and an equal key (src/avb/mobid.py:332-335 and 362-363) gets the value and keeps its key object.
`H` stands for Python's `hash` of byte strings.  Not modelled: CPython takes an entry of the very
same key object also if its hash is another one, should their places in the hash table agree; that matters
only for an object added again, or searched for itself, after it was changed as a key. -/
def put (H : MobID → Int) (cells : Nat → MobID) (k m : Nat) : List Entry → List Entry
  | [] => [⟨H (cells k), k, m⟩]
  | e :: d => if e.hash = H (cells k) ∧ cells e.key = cells k then { e with val := m } :: d
    else e :: put H cells k m d

/-- `d.get(i, None)` (src/avb/bin.py:379): the entry with the hash of `i` whose key is equal to `i` now.
`i` is an object other than the keys (see `put`). -/
def get (H : MobID → Int) (cells : Nat → MobID) (i : MobID) : List Entry → Option Nat
  | [] => none
  | e :: d => if e.hash = H i ∧ cells e.key = i then some e.val else get H cells i d

/-- `mob.mob_id` where `mob` may be `None` and the mob may have no mob id (src/avb/bin.py:377). -/
def idObject (ids : Nat → Option Nat) (m : Option Nat) : Except Err (Nat × Nat) :=
  match m with
  | none => .error .attribute
  | some m =>
    match ids m with
    | none => .error .attribute
    | some c => .ok (c, m)

/-- The loop that fills the dictionary (src/avb/bin.py:375-377). -/
def fill (H : MobID → Int) (cells : Nat → MobID) (ids : Nat → Option Nat) : List (Option Nat) → List Entry →
    List Entry × Option Err
  | [], d => (d, none)
  | m :: ms, d =>
    match idObject ids m with
    | .error e => (d, some e)
    | .ok (c, m) => fill H cells ids ms (put H cells c m d)

/-- `Bin.find_by_mob_id` (src/avb/bin.py:372-379). -/
def find (H : MobID → Int) (s : St) (i : MobID) : Except Err (Option Nat) × St :=
  if s.dict = [] then
    match fill H s.cells s.ids s.items [] with
    | (d, some e) => (.error e, { s with dict := d })
    | (d, none) => (.ok (get H s.cells i d), { s with dict := d })
  else (.ok (get H s.cells i s.dict), s)

/-- `Bin.add_mob` (src/avb/bin.py:381-389). -/
def addMob (H : MobID → Int) (s : St) (m : Option Nat) : Except Err Unit × St :=
  if s.dict = [] then (.ok (), { s with items := s.items ++ [m] })
  else
    match idObject s.ids m with
    | .error e => (.error e, { s with items := s.items ++ [m] })
    | .ok (c, n) => (.ok (), { s with items := s.items ++ [m], dict := put H s.cells c n s.dict })

/-- `m.mob_id = i` with a new object: an id from `MobID.new()` (src/avb/trackgroups.py:1053), read from a
file (src/avb/ioctx.py:231-252) or made by the user. -/
def assignNew (s : St) (m : Nat) (i : MobID) : St :=
  { s with
    cells := fun c => if c = s.next then i else s.cells c
    next := s.next + 1
    ids := fun x => if x = m then some s.next else s.ids x }

/-- `m.mob_id = n.mob_id`, and what happens to the id when `m` is made as the copy of `n`
(src/avb/core.py:240-241): the same object.  Nothing if `n` has no id. -/
def share (s : St) (m n : Nat) : St :=
  match s.ids n with
  | none => s
  | some c => { s with ids := fun x => if x = m then some c else s.ids x }

/-- A change of the object `m.mob_id`, by assignment to one of its fields (src/avb/mobid.py:205-327), after
which its bytes are those of `i`.  Nothing if `m` has no id. -/
def change (s : St) (m : Nat) (i : MobID) : St :=
  match s.ids m with
  | none => s
  | some c => { s with cells := fun x => if x = c then i else s.cells x }

/-- What a program does (src/avb/bin.py:372-389, src/avb/core.py:199-206 and 221-243,
src/avb/mobid.py:205-327). -/
inductive Op where
  | find (i : MobID)
  | add (m : Option Nat)
  | new (m : Nat) (i : MobID)
  | share (m n : Nat)
  | change (m : Nat) (i : MobID)

/-- One action; the results are dropped (see `Op`). -/
def step (H : MobID → Int) (s : St) : Op → St
  | .find i => (find H s i).2
  | .add m => (addMob H s m).2
  | .new m i => assignNew s m i
  | .share m n => share s m n
  | .change m i => change s m i

/-- A sequence of actions (see `Op`). -/
def run (H : MobID → Int) (s : St) (ops : List Op) : St := ops.foldl (step H) s

end Avb.SharedIds
