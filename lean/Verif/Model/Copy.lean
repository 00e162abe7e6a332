import Verif.Model.Attributes

/-!
Copying objects: `AVBObject.copy` (src/avb/core.py:221-242), `AVBRefList.copy` (src/avb/core.py:74-78)
and `Attributes.copy` (src/avb/attributes.py:53-66), on a heap of Python objects.

Objects are named by locations (what `is` compares).  References held as `AVBObjectRef` or raw ids are
taken to be looked up already, so a stored reference is the object itself; that lookups find the same
object every time is C18.  The object copied and the file that receives the copy (`root`) may belong to
different files: only `next` and `modified` are those of `root`.
-/
namespace Avb.Copy

/-- A Python value other than a plain list, as `copy` distinguishes them (src/avb/core.py:224-240,
src/avb/attributes.py:56-65): `None`, immutable data, a `bytearray` and another mutable value (a mob id,
a dictionary, a list within a list) whose contents are in a cell, or an object. -/
inductive Atom where
  | none
  | int (n : Int)
  | text (t : Text)
  | bytes (b : Bytes)
  | buf (m : Nat)
  | cell (m : Nat)
  | obj (l : Nat)
  deriving DecidableEq

/-- The value of a property (src/avb/core.py:223): also a plain list. -/
inductive Val where
  | atom (a : Atom)
  | list (xs : List Atom)
  deriving DecidableEq

/-- A Python object: an `AVBObject` with its class, its `instance_id` if it has one, and its
`property_data` (src/avb/core.py:166-176); an `AVBRefList` with its `parent` (src/avb/core.py:53-61); an
`Attributes` dictionary (src/avb/attributes.py:22-30).  Classes are numbers. -/
inductive Node where
  | avb (cls : Nat) (iid : Option Nat) (props : List (Text × Val))
  | refs (cls : Nat) (iid : Option Nat) (parent : Option Nat) (items : List Atom)
  | attrs (iid : Option Nat) (items : List (Text × Atom))
  deriving DecidableEq

/-- The Python heap, and of the receiving file `next_object_id` and `modified_objects`
(src/avb/file.py:110-112).  Locations and cells from `fresh` and `freshCell` on are unused.  The contents
of a cell are represented by a number. -/
structure St where
  nodes : Nat → Node
  fresh : Nat
  cells : Nat → Int
  freshCell : Nat
  next : Nat
  modified : Nat → Option Nat

/-- A computation that may raise; what it did before is kept. -/
def M (α : Type) : Type := St → Except Err α × St

variable {α β : Type}

/-- Return a value. -/
protected def M.pure (a : α) : M α := fun s => (.ok a, s)

/-- One statement after the other. -/
protected def M.bind (f : M α) (k : α → M β) : M β := fun s =>
  match f s with
  | (.ok a, s') => k a s'
  | (.error e, s') => (.error e, s')

instance : Monad M where
  pure := M.pure
  bind := M.bind

/-- `raise` -/
def fail (e : Err) : M α := fun s => (.error e, s)

/-- The object at a location. -/
def node (l : Nat) : M Node := fun s => (.ok (s.nodes l), s)

/-- Change the object at a location. -/
def setNode (l : Nat) (nd : Node) : M Unit := fun s =>
  (.ok (), { s with nodes := fun m => if m = l then nd else s.nodes m })

/-- The classes: which ones have a class id (src/avb/file.py:76), and what `__init__` without arguments
stores in the properties of a new object; it may create further objects. -/
structure Classes where
  hasId : Nat → Bool
  init : Nat → M (List (Text × Val))

/-- `classobj.__new__` and the registration in `AVBFactory.from_name` (src/avb/file.py:74-81). -/
def alloc (hasId : Bool) (nd : Option Nat → Node) : M Nat := fun s =>
  if hasId = true then
    (.ok s.fresh, { s with
      nodes := fun m => if m = s.fresh then nd (some (s.next + 1)) else s.nodes m
      fresh := s.fresh + 1
      next := s.next + 1
      modified := fun i => if i = s.next + 1 then some s.fresh else s.modified i })
  else
    (.ok s.fresh, { s with
      nodes := fun m => if m = s.fresh then nd none else s.nodes m
      fresh := s.fresh + 1 })

/-- Set all properties (by `__init__`, src/avb/core.py:178-182). -/
def setProps (l : Nat) (ps : List (Text × Val)) : M Unit := do
  match (← node l) with
  | .avb c i _ => setNode l (.avb c i ps)
  | _ => pure ()

/-- `obj.property_data[key] = value` (src/avb/core.py:225-240). -/
def setProp (l : Nat) (k : Text) (v : Val) : M Unit := do
  match (← node l) with
  | .avb c i ps => setNode l (.avb c i (dictSet ps k v))
  | _ => pure ()

/-- The items of a new list (`obj.append`, src/avb/core.py:77), all at once. -/
def setItems (l : Nat) (xs : List Atom) : M Unit := do
  match (← node l) with
  | .refs c i p _ => setNode l (.refs c i p xs)
  | _ => pure ()

/-- The entries of a new attribute set (`obj[key] = …`, src/avb/attributes.py:57-65), all at once. -/
def setEntries (l : Nat) (ps : List (Text × Atom)) : M Unit := do
  match (← node l) with
  | .attrs i _ => setNode l (.attrs i ps)
  | _ => pure ()

/-- `root.create.from_name(name)` for a subclass of `AVBObject` (src/avb/file.py:67-85). -/
def createAvb (C : Classes) (c : Nat) : M Nat := do
  let l ← alloc (C.hasId c) (fun i => .avb c i [])
  let ps ← C.init c
  setProps l ps
  return l

/-- `value[:]` of a `bytearray` (src/avb/attributes.py:61). -/
def dupBuf (m : Nat) : M Nat := fun s =>
  (.ok s.freshCell, { s with
    cells := fun c => if c = s.freshCell then s.cells m else s.cells c
    freshCell := s.freshCell + 1 })

/-- How objects within an object are copied: the object that will own the copy, if it becomes the value
of a property, and the object. -/
abbrev Rec := Option Nat → Nat → M Nat

/-- The items of a plain list (src/avb/core.py:232-238): only `AVBObject`s are copied. -/
def copyList (rec : Rec) : List Atom → M (List Atom)
  | [] => pure []
  | .obj m :: xs => do
    match (← node m) with
    | .avb _ _ _ => do
      let m' ← rec none m
      let ys ← copyList rec xs
      return .obj m' :: ys
    | _ => do
      let ys ← copyList rec xs
      return .obj m :: ys
  | a :: xs => do
    let ys ← copyList rec xs
    return a :: ys

/-- One value of a property (src/avb/core.py:224-240) of the copy at `l'`. -/
def copyVal (rec : Rec) (l' : Nat) : Val → M Val
  | .list xs => do
    let ys ← copyList rec xs
    return .list ys
  | .atom (.obj m) => do
    let m' ← rec (some l') m
    return .atom (.obj m')
  | .atom a => return .atom a

/-- The loop of `AVBObject.copy` (src/avb/core.py:223-240). -/
def copyProps (rec : Rec) (l' : Nat) : List (Text × Val) → M Unit
  | [] => pure ()
  | (k, v) :: ps => do
    let v' ← copyVal rec l' v
    setProp l' k v'
    copyProps rec l' ps

/-- The loop of `AVBRefList.copy` (src/avb/core.py:76-77): items that are not objects have no method
`copy` (for a list or a dictionary the exception is a `TypeError` instead). -/
def copyItems (rec : Rec) : List Atom → M (List Atom)
  | [] => pure []
  | .obj m :: xs => do
    let m' ← rec none m
    let ys ← copyItems rec xs
    return .obj m' :: ys
  | _ :: _ => fail .attribute

/-- One value of an attribute set (src/avb/attributes.py:56-65). -/
def copyEntry (rec : Rec) : Atom → M Atom
  | .int n => return .int n
  | .text t => return .text t
  | .buf m => do
    let m' ← dupBuf m
    return .buf m'
  | .bytes _ => fail .value
  | .obj m => do
    let m' ← rec none m
    return .obj m'
  | _ => fail .attribute

/-- The loop of `Attributes.copy` (src/avb/attributes.py:55-65). -/
def copyEntries (rec : Rec) : List (Text × Atom) → M (List (Text × Atom))
  | [] => pure []
  | (k, a) :: ps => do
    let a' ← copyEntry rec a
    let qs ← copyEntries rec ps
    return (k, a') :: qs

/-- `obj.copy(root)`: `AVBObject.copy` (src/avb/core.py:221-242), `AVBRefList.copy`
(src/avb/core.py:74-78) and `Attributes.copy` (src/avb/attributes.py:53-66), with at most this depth of
calls.  The `parent` of a list that becomes the value of a property, which is set afterwards
(src/avb/core.py:228-229), is set at once.  New lists and attribute sets are filled when all their items
have been copied, so what a copy that raises leaves behind is not exact. -/
def copy (C : Classes) : Nat → Rec
  | 0, _, _ => fail .recursion
  | n + 1, owner, l => do
    match (← node l) with
    | .avb c _ ps => do
      let l' ← createAvb C c
      copyProps (copy C n) l' ps
      return l'
    | .refs c _ parent xs => do
      let l' ← alloc (C.hasId c) (fun i => .refs c i (if parent.isSome then owner else none) [])
      let ys ← copyItems (copy C n) xs
      setItems l' ys
      return l'
    | .attrs _ ps => do
      let l' ← alloc true (fun i => .attrs i [])
      let qs ← copyEntries (copy C n) ps
      setEntries l' qs
      return l'

end Avb.Copy
