import Verif.Model.FastSave
import Verif.Model.Work

/-!
Working on a file that was opened with the accelerated readers: as `Verif.Model.Work`, but an object that is
not in memory is loaded by the accelerated reader of its class, so that its content and the order of its
references are those of the dictionary the reader made.
-/
namespace Avb.FastWork

open Work (Event)

/-- The state: `object_cache`, `modified_objects`, `next_object_id` (src/avb/file.py:110-112), the
Python objects, each with its `instance_id`, content and the order of its references (locations from `fresh`
on are unused; those in `gone` have been collected). -/
structure St where
  cache : Nat → Option Nat
  modified : Nat → Option Nat
  next : Nat
  objs : Nat → Entry
  fresh : Nat
  gone : List Nat

/-- The object has been made and has not been collected (Python's memory management, not code in
/repo). -/
def Exists (s : St) (l : Nat) : Prop := l < s.fresh ∧ l ∉ s.gone

/-- A new Python object (src/avb/file.py:74, 290). -/
def alloc (s : St) (e : Entry) : St :=
  { s with objs := fun l => if l = s.fresh then e else s.objs l, fresh := s.fresh + 1 }

/-- `read_object` (src/avb/file.py:262-323): index 0, then the cache, then the file, with the reader that is
registered for the class (src/avb/utils.py:21-28, src/avb/_ext.pyx:722-734).  As in `Loaded.entry` an object
that lacks a property its writer needs raises here already. -/
def look (f : AvbFile) (s : St) (i : Nat) : Except Err (Option Nat) × St :=
  if i = 0 then (.ok none, s)
  else
    match s.cache i with
    | some l => (.ok (some l), s)
    | none =>
      match Fast.fileHeap f i with
      | .error e => (.error e, s)
      | .ok e => (.ok (some s.fresh), { alloc s e with cache := Work.put s.cache i s.fresh })

/-- `AVBFactory.from_name` (src/avb/file.py:67-85).  The content is that of the object after `__init__`. -/
def create (s : St) (o : Obj) : St :=
  { alloc s ⟨s.next + 1, true, o, o.visits⟩ with
    next := s.next + 1
    modified := Work.put s.modified (s.next + 1) s.fresh
    cache := Work.put s.cache (s.next + 1) s.fresh }

/-- An edit of an object that is reported by `mark_modified`: assignment of a property
(src/avb/core.py:184-186, 199-204).  Reference lists that an accelerated reader made have no parent
(src/avb/_ext.pyx:179-186), so that edits of those in place are not reported (see `Verif.Model.Session`).  `o`
is the content afterwards. -/
def edit (s : St) (l : Nat) (o : Obj) : St :=
  { s with
    objs := fun l' => if l' = l then { s.objs l with obj := o } else s.objs l'
    modified := Work.put s.modified (s.objs l).iid l }

/-- The garbage collector removes objects (the cache is a `WeakValueDictionary`,
src/avb/file.py:110). -/
def collect (s : St) (g : List Nat) : St :=
  { s with
    gone := g ++ s.gone
    cache := fun i => match s.cache i with
      | some l => if l ∈ g then none else some l
      | none => none }

/-- The steps of a program, each one call of a function above.  The collector may remove any objects
that are not in `modified_objects` (src/avb/file.py:111); Python's removes fewer. -/
inductive Step (f : AvbFile) : St → Event → St → Prop
  | look (s : St) (i : Nat) : Step f s (.look i) (look f s i).2
  | new (s : St) (o : Obj) : Step f s (.new (s.next + 1) o) (create s o)
  | edit (s : St) (l : Nat) (o : Obj) : Exists s l → Step f s (.edit (s.objs l).iid o) (edit s l o)
  | collect (s : St) (g : List Nat) : (∀ l ∈ g, Exists s l ∧ ∀ i, s.modified i ≠ some l) →
      Step f s .collect (collect s g)

/-- A history (the user's side). -/
inductive Run (f : AvbFile) : St → List Event → St → Prop
  | nil (s : St) : Run f s [] s
  | snoc {s s1 s2 : St} {e : Event} {es : List Event} :
      Run f s es s1 → Step f s1 e s2 → Run f s (es ++ [e]) s2

/-- The state after opening (src/avb/file.py:105-173).  `e` fills the locations not in use, which are
never looked at. -/
def start (f : AvbFile) (e : Entry) : St where
  cache := fun _ => none
  modified := fun _ => none
  next := f.positions.length
  objs := fun _ => e
  fresh := 0
  gone := []

/-- What a save sees of each object: references are followed with `read_object`
(src/avb/core.py:43-50, src/avb/file.py:262-323; the objects so read are not changed).  `order` is the
order in which the references of an edited or created object are met (src/avb/core.py:35, 288-306); an
object that was not edited has its references in the order of the dictionary the reader made. -/
def heap (f : AvbFile) (order : Nat → Obj → List Visit) (s : St) : Heap := fun r =>
  match s.cache r with
  | some l =>
    .ok ⟨r, true, (s.objs l).obj,
      if s.modified r = none then (s.objs l).visits else order r (s.objs l).obj⟩
  | none => Fast.fileHeap f r

end Avb.FastWork
