import Verif.Model.Work

/-!
A file with `check_refs = False`: references are not compared with the table of the file.
-/
namespace Avb

/-- `read_object_ref` when `check_refs` is `False` (src/avb/ioctx.py:176-181, src/avb/file.py:105). -/
def rRefFree (bo : BO) : Rd Ref := do
  let i ← rInt bo .u32
  return i.toNat

/-- What a reader can see of its file when `check_refs` is `False` (src/avb/ioctx.py:179).  Every index that can be read is
below 2 ^ 32, so a table of this size stands for no check (`C87_ref`). -/
def RCtx.free (bo : BO) : RCtx := ⟨bo, 2 ^ 32⟩

/-- `read_object` without the cache when `check_refs` is `False` (src/avb/file.py:262-323), with the portable readers. -/
def readObjectFree (f : AvbFile) (index : Nat) : Except Err (Option Obj) :=
  if index = 0 then .ok none
  else
    match f.positions[index]? with
    | none => .error .index
    | some pos =>
      match (rFourcc f.bo >>= fun id => rInt f.bo .u32 >>= fun size => pure (id, size))
          (f.data.drop pos) with
      | .error e => .error e
      | .ok ((id, size), rest) =>
        if (rest.take size.toNat).length ≠ size.toNat then .error .assertion
        else
          match Cls.ofId id with
          | none => .error .notImplemented
          | some k =>
            match Obj.readAs (.free f.bo) k (rest.take size.toNat) with
            | .error e => .error e
            | .ok (o, left) => if left = [] then .ok (some o) else .error .assertion

/-- `AVBObjectRef.class_id` (src/avb/utils.py:29-41): `None` for an index beyond the table. -/
def refClassId (f : AvbFile) (check_refs : Bool) (index : Nat) : Except Err (Option Bytes) :=
  if ¬ check_refs then .ok (some (cc 'N' 'U' 'L' 'L'))
  else if index ≥ f.positions.length then .ok none
  else
    match readChunk f index with
    | .error e => .error e
    | .ok chunk => .ok (some chunk.class_id)

/-- `read_object` when `check_refs` is `False` (src/avb/file.py:262-273), as `Work.look`. -/
def Work.lookFree (f : AvbFile) (s : St) (i : Nat) : Except Err (Option Nat) × St :=
  if i = 0 then (.ok none, s)
  else
    match s.cache i with
    | some l => (.ok (some l), s)
    | none =>
      match readObjectFree f i with
      | .error e => (.error e, s)
      | .ok none => (.ok none, s)
      | .ok (some o) => (.ok (some s.fresh), { alloc s i o with cache := put s.cache i s.fresh })

/-- What a save sees of each object when `check_refs` is `False` (src/avb/core.py:43-50, src/avb/file.py:262-323), as
`Work.heap`. -/
def Work.heapFree (f : AvbFile) (order : Nat → Obj → List Visit) (s : St) : Heap := fun r =>
  match s.cache r with
  | some l =>
    .ok ⟨r, true, (s.objs l).2, if s.modified r = none then (s.objs l).2.visits else order r (s.objs l).2⟩
  | none =>
    match readObjectFree f r with
    | .error e => .error e
    | .ok none => .error .attribute
    | .ok (some o) => .ok ⟨r, true, o, o.visits⟩

end Avb
