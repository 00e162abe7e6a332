import Verif.Model.Work

/-!
An `AVBFile` after `close()`, or after the `with` block in which it was opened.
-/
namespace Avb.Work

/-- `read_object` without the cache when `self.f` has been closed (src/avb/file.py:262-273, 381-386): the
position is looked up first, then `seek` of the closed file raises `ValueError` (as all file objects of `io`
do). -/
def readClosed (f : AvbFile) (index : Nat) : Except Err (Option Obj) :=
  if index = 0 then .ok none
  else
    match f.positions[index]? with
    | none => .error .index
    | some _ => .error .value

/-- `read_chunk` when `self.f` has been closed (src/avb/file.py:243-250, 381-386). -/
def readChunkClosed (f : AvbFile) (index : Nat) : Except Err ChunkInfo :=
  if index = 0 then .ok ⟨cc 'O' 'B' 'J' 'D', 8, f.headerEnd - 8⟩
  else
    match f.positions[index]? with
    | none => .error .index
    | some _ => .error .value

/-- `read_object` after `close` (src/avb/file.py:262-273). -/
def lookClosed (f : AvbFile) (s : St) (i : Nat) : Except Err (Option Nat) × St :=
  if i = 0 then (.ok none, s)
  else
    match s.cache i with
    | some l => (.ok (some l), s)
    | none =>
      match readClosed f i with
      | .error e => (.error e, s)
      | .ok _ => (.ok none, s)

/-- The steps of a program after `close` (src/avb/file.py:381-386): as before, but for lookups.  A second
`close` does nothing. -/
inductive ClosedStep (f : AvbFile) : St → Event → St → Prop
  | look (s : St) (i : Nat) : ClosedStep f s (.look i) (lookClosed f s i).2
  | new (s : St) (o : Obj) : ClosedStep f s (.new (s.next + 1) o) (create s o)
  | edit (s : St) (l : Nat) (o : Obj) : Exists s l → ClosedStep f s (.edit (s.objs l).1 o) (edit s l o)
  | collect (s : St) (g : List Nat) : (∀ l ∈ g, Exists s l ∧ ∀ i, s.modified i ≠ some l) →
      ClosedStep f s .collect (collect s g)

/-- A history after `close` (the user's side). -/
inductive ClosedRun (f : AvbFile) : St → List Event → St → Prop
  | nil (s : St) : ClosedRun f s [] s
  | snoc {s s1 s2 : St} {e : Event} {es : List Event} :
      ClosedRun f s es s1 → ClosedStep f s1 e s2 → ClosedRun f s (es ++ [e]) s2

/-- What a save after `close` sees of each object (src/avb/core.py:43-50, src/avb/file.py:262-273). -/
def heapClosed (f : AvbFile) (order : Nat → Obj → List Visit) (s : St) : Heap := fun r =>
  match s.cache r with
  | some l =>
    .ok ⟨r, true, (s.objs l).2, if s.modified r = none then (s.objs l).2.visits else order r (s.objs l).2⟩
  | none =>
    match readClosed f r with
    | .error e => .error e
    | .ok _ => .error .attribute

end Avb.Work
