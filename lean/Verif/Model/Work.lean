import Verif.Model.File

/-!
Working on an opened file, with the contents of the objects: lookups through the cache, creation,
edits that are reported (`mark_modified`), garbage collection and finally a save.  `Verif.Model.Session`
has the references between the Python objects in more detail and leaves the contents abstract; here the
contents are those that are written.
-/
namespace Avb.Work

/-- The state: `object_cache`, `modified_objects`, `next_object_id` (src/avb/file.py:110-112), the
Python objects with their `instance_id` and content (locations from `fresh` on are unused; those in
`gone` have been collected). -/
structure St where
  cache : Nat → Option Nat
  modified : Nat → Option Nat
  next : Nat
  objs : Nat → Nat × Obj
  fresh : Nat
  gone : List Nat

/-- The object has been made and has not been collected (Python's memory management, not code in
/repo). -/
def Exists (s : St) (l : Nat) : Prop := l < s.fresh ∧ l ∉ s.gone

/-- A new Python object (src/avb/file.py:74, 290). -/
def alloc (s : St) (i : Nat) (o : Obj) : St :=
  { s with objs := fun l => if l = s.fresh then (i, o) else s.objs l, fresh := s.fresh + 1 }

/-- Update of a dictionary (`object_cache`, `modified_objects`; src/avb/file.py:80-81, 195-196,
305). -/
def put (t : Nat → Option Nat) (i l : Nat) : Nat → Option Nat := fun j => if j = i then some l else t j

/-- `read_object` (src/avb/file.py:262-323): index 0, then the cache, then the file. -/
def look (f : AvbFile) (s : St) (i : Nat) : Except Err (Option Nat) × St :=
  if i = 0 then (.ok none, s)
  else
    match s.cache i with
    | some l => (.ok (some l), s)
    | none =>
      match readObject f i with
      | .error e => (.error e, s)
      | .ok none => (.ok none, s)
      | .ok (some o) => (.ok (some s.fresh), { alloc s i o with cache := put s.cache i s.fresh })

/-- `AVBFactory.from_name` (src/avb/file.py:67-85).  The content is that of the object after `__init__`;
an object that lacks a property its writer needs is not covered. -/
def create (s : St) (o : Obj) : St :=
  { alloc s (s.next + 1) o with
    next := s.next + 1
    modified := put s.modified (s.next + 1) s.fresh
    cache := put s.cache (s.next + 1) s.fresh }

/-- An edit of an object that is reported by `mark_modified`: assignment of a property
(src/avb/core.py:184-186, 199-204), edits of reference lists with a parent (src/avb/core.py:66-72),
of parameter lists and of attributes (src/avb/attributes.py:32-34).  `o` is the content afterwards. -/
def edit (s : St) (l : Nat) (o : Obj) : St :=
  { s with
    objs := fun l' => if l' = l then ((s.objs l).1, o) else s.objs l'
    modified := put s.modified (s.objs l).1 l }

/-- The garbage collector removes objects (the cache is a `WeakValueDictionary`,
src/avb/file.py:110). -/
def collect (s : St) (g : List Nat) : St :=
  { s with
    gone := g ++ s.gone
    cache := fun i => match s.cache i with
      | some l => if l ∈ g then none else some l
      | none => none }

/-- What happens, as far as the contents are concerned (the user's side). -/
inductive Event where
  | look (i : Nat)
  | new (i : Nat) (o : Obj)
  | edit (i : Nat) (o : Obj)
  | collect

/-- The steps of a program, each one call of a function above.  The collector may remove any objects
that are not in `modified_objects` (src/avb/file.py:111); Python's removes fewer. -/
inductive Step (f : AvbFile) : St → Event → St → Prop
  | look (s : St) (i : Nat) : Step f s (.look i) (look f s i).2
  | new (s : St) (o : Obj) : Step f s (.new (s.next + 1) o) (create s o)
  | edit (s : St) (l : Nat) (o : Obj) : Exists s l → Step f s (.edit (s.objs l).1 o) (edit s l o)
  | collect (s : St) (g : List Nat) : (∀ l ∈ g, Exists s l ∧ ∀ i, s.modified i ≠ some l) →
      Step f s .collect (collect s g)

/-- A history (the user's side). -/
inductive Run (f : AvbFile) : St → List Event → St → Prop
  | nil (s : St) : Run f s [] s
  | snoc {s s1 s2 : St} {e : Event} {es : List Event} :
      Run f s es s1 → Step f s1 e s2 → Run f s (es ++ [e]) s2

/-- The state after opening (src/avb/file.py:105-173).  `o` fills the locations not in use, which are
never looked at. -/
def start (f : AvbFile) (o : Obj) : St where
  cache := fun _ => none
  modified := fun _ => none
  next := f.positions.length
  objs := fun _ => (0, o)
  fresh := 0
  gone := []

/-- What a save sees of each object: references are followed with `read_object`
(src/avb/core.py:43-50, src/avb/file.py:262-323; the objects so read are not changed).  `order` is the
order in which the references of an edited or created object are met, which depends on the order in which
its properties were set (src/avb/core.py:35, 288-306). -/
def heap (f : AvbFile) (order : Nat → Obj → List Visit) (s : St) : Heap := fun r =>
  match s.cache r with
  | some l =>
    .ok ⟨r, true, (s.objs l).2, if s.modified r = none then (s.objs l).2.visits else order r (s.objs l).2⟩
  | none =>
    match readObject f r with
    | .error e => .error e
    | .ok none => .error .attribute
    | .ok (some o) => .ok ⟨r, true, o, o.visits⟩

end Avb.Work
