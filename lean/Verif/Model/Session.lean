import Verif.Model.Basic

/-!
An open file as a running program sees it: the weak cache of objects read so far, the strong table
of modified objects, object creation, attribute and list edits, and the garbage collector.

Python objects are named by locations, natural numbers written `l` below (what `is` compares; not the
object ids of the file, which are written `i`).  What an object stores is kept abstract: integers, references
by id (`AVBObjectRef` or a raw integer in a list) and direct references to other Python objects.
-/
namespace Avb.Session

/-- A property value (src/avb/core.py:35-50, 199-213): plain data, an `AVBObjectRef` (a number looked
up on access, it does not keep the object alive), or a Python object stored directly.  Plain data of
all types is represented by a number. -/
inductive Val where
  | num (n : Int)
  | ref (i : Nat)
  | obj (l : Nat)
  deriving DecidableEq

/-- A Python object: `AVBObject` (src/avb/core.py:166-176) with its `instance_id` if it has one
(objects with a class id; helper objects such as tracks have none), its plain properties, and its
list-valued properties.  `parented` tells for each list if it is an `AVBRefList`
(src/avb/core.py:53-61) that knows the object it belongs to (`parent=self`, e.g.
src/avb/components.py:161), or not: the lists made by the accelerated readers
(src/avb/_ext.pyx:184) and plain Python lists (the tracks, src/avb/trackgroups.py:102, 115).  An
object that is itself a list or dictionary with a class id (parameter lists, attributes) is an object
with one list and `parented = true`: it reports itself (src/avb/core.py:66-72,
src/avb/attributes.py:32-34). -/
structure Rec where
  iid : Option Nat
  fields : Nat → Option Val
  lists : Nat → List Val
  parented : Nat → Bool

/-- A value in a freshly built object (src/avb/core.py:199-204): direct references go to the `n` helper
objects that were built with it. -/
inductive TVal (n : Nat) where
  | num (v : Int)
  | ref (i : Nat)
  | helper (o : Fin n)

/-- The contents of one of the freshly built objects (its `property_data`, src/avb/core.py:175). -/
structure TRec (n : Nat) where
  fields : Nat → Option (TVal n)
  lists : Nat → List (TVal n)
  parented : Nat → Bool

/-- What `read` (or `__init__`) of one object builds: the object and `n` helper objects
(e.g. the tracks of a track group, src/avb/trackgroups.py:151-206). -/
structure Template where
  n : Nat
  main : TRec n
  helpers : Fin n → TRec n

/-- The file behind the session: `len(object_positions)` (src/avb/file.py:172) and what reading the
chunk at an index gives: the class lookup, the reader and its checks (src/avb/file.py:270-323). -/
structure FileView where
  size : Nat
  parse : Nat → Except Err Template

/-- Something the program keeps a reference to: an object, or one of its list-valued properties (the
user's side; there is no code in /repo for this). -/
inductive Tok where
  | obj (l : Nat)
  | lst (l k : Nat)
  deriving DecidableEq

/-- The state of the program: `object_cache`, `modified_objects`, `next_object_id`
(src/avb/file.py:110-112), the Python heap (`recs`; locations from `fresh` on are unused, those in
`gone` have been collected) and the references held by the program.  `content`
(src/avb/file.py:182) is one of the held references.
The flag `reading` (src/avb/file.py:107, 288, 316) is false between operations, so it is not part of
the state; the objects built inside `read_object` are built without marking. -/
structure St where
  cache : Nat → Option Nat
  modified : Nat → Option Nat
  next : Nat
  recs : Nat → Rec
  fresh : Nat
  gone : List Nat
  held : List Tok

/-- Instantiate a value of a freshly built object (src/avb/file.py:74, 290) whose block of locations
starts at `base`. -/
def TVal.place {n : Nat} (base : Nat) : TVal n → Val
  | .num v => .num v
  | .ref i => .ref i
  | .helper o => .obj (base + 1 + o.val)

/-- `classobj.__new__` (src/avb/file.py:74, 290) and what `read`/`__init__` store. -/
def TRec.place {n : Nat} (base : Nat) (iid : Option Nat) (t : TRec n) : Rec where
  iid := iid
  fields := fun k => (t.fields k).map (TVal.place base)
  lists := fun k => (t.lists k).map (TVal.place base)
  parented := t.parented

/-- Allocate an object with its helpers at `base = s.fresh`: `instance_id` is set on the object
(src/avb/file.py:78, 306), helpers have none. -/
def alloc (s : St) (t : Template) (iid : Option Nat) : St :=
  { s with
    recs := fun l =>
      if l = s.fresh then t.main.place s.fresh iid
      else if h : s.fresh < l ∧ l < s.fresh + 1 + t.n then
        (t.helpers ⟨l - s.fresh - 1, by omega⟩).place s.fresh none
      else s.recs l
    fresh := s.fresh + 1 + t.n }

/-- `read_object` (src/avb/file.py:262-323).  Index 0 is the null reference; then the cache; then the
file.  `object_positions[index]` raises `IndexError` from `size` on.  On an error nothing is stored.
(For a file that was created empty there is no `object_positions`; the model has `size = 0`, so the
error is an `IndexError` instead of an `AttributeError`.) -/
def readObject (F : FileView) (s : St) (i : Nat) : Except Err (Option Nat) × St :=
  if i = 0 then (.ok none, s)
  else
    match s.cache i with
    | some l => (.ok (some l), s)
    | none =>
      if F.size ≤ i then (.error .index, s)
      else
        match F.parse i with
        | .error e => (.error e, s)
        | .ok t =>
          let s1 := alloc s t (some i)
          (.ok (some s.fresh), { s1 with cache := fun j => if j = i then some s.fresh else s1.cache j })

/-- `add_modified` (src/avb/file.py:195-196) on an object with an `instance_id`. -/
def addModified (s : St) (i : Nat) (l : Nat) : St :=
  { s with modified := fun j => if j = i then some l else s.modified j }

/-- `AVBFactory.from_name` (src/avb/file.py:67-85) for a class with a class id. -/
def create (s : St) (t : Template) : St :=
  let id := s.next + 1
  let s1 := addModified { s with next := id } id s.fresh
  let s2 := { s1 with cache := fun j => if j = id then some s.fresh else s1.cache j }
  alloc s2 t (some id)

/-- `AVBFactory.from_name` (src/avb/file.py:67-85) for a helper class (no class id). -/
def createHelper (s : St) (t : Template) : St := alloc s t none

/-- `AVBObject.__setattr__` on a property (src/avb/core.py:199-204) with `mark_modified`
(src/avb/core.py:184-186). -/
def setAttr (s : St) (l k : Nat) (v : Val) : St :=
  let r := s.recs l
  let s1 := { s with recs := fun l' => if l' = l then
    { r with fields := fun k' => if k' = k then some v else r.fields k' } else s.recs l' }
  match r.iid with
  | some i => addModified s1 i l
  | none => s1

/-- Any edit of a list-valued property that leaves the contents `vs`, with `AVBRefList.mark_modified`
(src/avb/core.py:66-72, 80-111, 124-130).  A list with no parent marks nothing.  (A parent without
`instance_id` would raise `AttributeError` after the edit; the state is the same as marking
nothing.) -/
def setList (s : St) (l k : Nat) (vs : List Val) : St :=
  let r := s.recs l
  let s1 := { s with recs := fun l' => if l' = l then
    { r with lists := fun k' => if k' = k then vs else r.lists k' } else s.recs l' }
  if r.parented k then
    match r.iid with
    | some i => addModified s1 i l
    | none => s1
  else s1

/-- The object at `l` stores a direct reference to the object at `l'` (in its `property_data` or in a
list there, src/avb/core.py:35-61). -/
def Link (s : St) (l l' : Nat) : Prop :=
  (∃ k, (s.recs l).fields k = some (.obj l')) ∨ ∃ k, Val.obj l' ∈ (s.recs l).lists k

/-- What a Python reference chain keeps alive: the held references, `modified_objects`
(src/avb/file.py:111), the `parent` of a held list (src/avb/core.py:60), the items of a held list,
and everything stored directly in a live object.  `AVBObjectRef`s and the cache
(a `WeakValueDictionary`, src/avb/file.py:110) keep nothing alive. -/
inductive Live (s : St) : Nat → Prop
  | held {l} : Tok.obj l ∈ s.held → Live s l
  | parent {l k} : Tok.lst l k ∈ s.held → (s.recs l).parented k = true → Live s l
  | heldItem {l k l'} : Tok.lst l k ∈ s.held → Val.obj l' ∈ (s.recs l).lists k → Live s l'
  | modified {i l} : s.modified i = some l → Live s l
  | link {l l'} : Live s l → Link s l l' → Live s l'

/-- The object has been made and not been collected (it may be garbage already); Python's memory
management, not code in /repo. -/
def Exists (s : St) (l : Nat) : Prop := l < s.fresh ∧ l ∉ s.gone

/-- The garbage collector may remove a set of objects when the program cannot get at them and no
object that remains refers to them (Python's memory management, not code in /repo). -/
def Garbage (s : St) (g : List Nat) : Prop :=
  (∀ l ∈ g, Exists s l ∧ ¬ Live s l) ∧ ∀ l l', Exists s l → l ∉ g → Link s l l' → l' ∉ g

/-- Removing objects: their entries in the cache, a `WeakValueDictionary` (src/avb/file.py:110),
disappear. -/
def collect (s : St) (g : List Nat) : St :=
  { s with
    gone := g ++ s.gone
    cache := fun i => match s.cache i with
      | some l => if l ∈ g then none else some l
      | none => none }

/-- The program keeps a reference (the user's side). -/
def St.hold (s : St) (t : Tok) : St := { s with held := t :: s.held }

/-- The program forgets its references to an object or a list (the user's side). -/
def St.drop (s : St) (t : Tok) : St := { s with held := s.held.filter (fun t' => decide (t' ≠ t)) }

/-- One step of a program using an open file.  The events carry what an observer sees. -/
inductive Event where
  /-- `f.read_object(i)`, also what every access through a reference does. -/
  | look (i : Nat) (res : Except Err (Option Nat))
  /-- A new object with this id; `ok` is false if `__init__` raised. -/
  | new (id : Nat) (ok : Bool)
  | newHelper
  | set (l k : Nat) (v : Val)
  | edit (l k : Nat) (vs : List Val)
  | hold (t : Tok)
  | drop (t : Tok)
  /-- The garbage collector removes these objects. -/
  | collect (g : List Nat)

/-- Only objects that the program can get at can be stored somewhere (the user's side). -/
def Available (s : St) (v : Val) : Prop := ∀ l, v = .obj l → Live s l

/-- The steps of a program (see `Event`), each one call of a function above.  The program can only
operate on objects and lists it can get at. -/
inductive Step (F : FileView) : St → Event → St → Prop
  | look (s : St) (i : Nat) : Step F s (.look i (readObject F s i).1)
      (match readObject F s i with
        | (.ok (some l), s') => s'.hold (.obj l)
        | (_, s') => s')
  | new (s : St) (t : Template) (ok : Bool) : Step F s (.new (s.next + 1) ok)
      (let s' := create s t
       if ok then s'.hold (.obj s.fresh) else s')
  | newHelper (s : St) (t : Template) : Step F s .newHelper
      ((createHelper s t).hold (.obj s.fresh))
  | set (s : St) (l k : Nat) (v : Val) : Live s l → Available s v →
      Step F s (.set l k v) (setAttr s l k v)
  | edit (s : St) (l k : Nat) (vs : List Val) : (Live s l ∨ .lst l k ∈ s.held) →
      (∀ v ∈ vs, Available s v) → Step F s (.edit l k vs) (setList s l k vs)
  | holdObj (s : St) (l : Nat) : Live s l →
      Step F s (.hold (.obj l)) (s.hold (.obj l))
  | holdList (s : St) (l k : Nat) : Live s l →
      Step F s (.hold (.lst l k)) (s.hold (.lst l k))
  | drop (s : St) (t : Tok) : Step F s (.drop t) (s.drop t)
  | collect (s : St) (g : List Nat) : Garbage s g → Step F s (.collect g) (Session.collect s g)

/-- A history of a program: the events in order. -/
inductive Run (F : FileView) : St → List Event → St → Prop
  | nil (s : St) : Run F s [] s
  | cons {s s1 s2 : St} {e : Event} {es : List Event} :
      Step F s e s1 → Run F s1 es s2 → Run F s (e :: es) s2

/-- `AVBFile.__init__` (src/avb/file.py:105-173; 184-190 with `size = 0`): empty tables,
`next_object_id = len(object_positions)`.  Reading the root object (line 182) or creating the first
bin (line 188) is the first step of the history. -/
def start (F : FileView) : St where
  cache := fun _ => none
  modified := fun _ => none
  next := F.size
  recs := fun _ => ⟨none, fun _ => none, fun _ => [], fun _ => false⟩
  fresh := 0
  gone := []
  held := []

end Avb.Session
