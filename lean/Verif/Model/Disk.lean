import Verif.Model.Work

/-!
A program that opens a file, works on it and saves, any number of times: the files on disk, and what
`AVBFile.write` leaves behind in the `AVBFile`.
-/
namespace Avb.Disk

open Work

/-- The files on disk by path (paths are numbers; two names of one file are one path), the objects in
memory, and the attributes of the `AVBFile` that `write` uses (src/avb/file.py:349-352). -/
structure World where
  disk : Nat → Option Bytes
  mem : St
  next_chunk_id : Nat
  ref_mapping : Nat → Option Nat
  octx : Option BO

/-- The opened file as its handle `self.f` sees it: the bytes that are at the path `src` now
(src/avb/file.py:125-130, 272-283).  The read buffer of the handle, which can still have some bytes that
are no longer on disk, is not modelled. -/
def handle (f : AvbFile) (src : Nat) (disk : Nat → Option Bytes) : AvbFile :=
  { f with data := (disk src).getD [] }

/-- Another content of a file (src/avb/file.py:354). -/
def setFile (disk : Nat → Option Bytes) (path : Nat) (b : Bytes) : Nat → Option Bytes :=
  fun p => if p = path then some b else disk p

/-- `AVBFile.write` (src/avb/file.py:348-370): `io.open(path, 'wb')` empties the file first, the bytes get
there when the file is closed (a large save writes some of them before).  The result is the exception that
leaves `write`, if any; `finally` is run in all cases. -/
def write (f : AvbFile) (src : Nat) (order : Nat → Obj → List Visit) (fuel : Nat) (w : World) (path : Nat)
    (bo : BO) (hd : HeaderInfo) (content : Ref) : World × Option Err :=
  let w := { w with
    next_chunk_id := 0, ref_mapping := fun _ => none, octx := some bo, disk := setFile w.disk path [] }
  match (writeHeaderPre bo hd).bytes, (writeCounts bo 0 0).bytes, (writeHeaderPost bo hd).bytes with
  | .ok pre, .ok zero, .ok post =>
    let h := heap (handle f src w.disk) order w.mem
    let walk := walkObj h fuel content
    let (s, er) := saveLoop h bo walk.out ⟨w.next_chunk_id, w.ref_mapping, []⟩
    let bytes := pre ++ zero ++ post ++ s.out
    let w := { w with
      next_chunk_id := s.next, ref_mapping := s.map, disk := setFile w.disk path bytes, octx := none }
    match er, walk.err with
    | some e, _ => (w, some e)
    | none, some e => (w, some e)
    | none, none =>
      match (writeCounts bo w.next_chunk_id w.next_chunk_id).bytes with
      | .ok counts => ({ w with disk := setFile w.disk path (patch bytes pre.length counts) }, none)
      | .error e => (w, some e)
  | .error e, _, _ => ({ w with octx := none }, some e)
  | _, .error e, _ => ({ w with octx := none }, some e)
  | _, _, .error e => ({ w with octx := none }, some e)

/-- The objects looked up by a save are in the cache afterwards (src/avb/core.py:147-148,
src/avb/ioctx.py:183-191, src/avb/file.py:305). -/
def looks (f : AvbFile) (s : St) (rs : List Ref) : St := rs.foldl (fun s r => (look f s r).2) s

/-- What happens: work on the objects, or a save (the user's side). -/
inductive Event where
  | work (e : Work.Event)
  | save (path : Nat) (bo : BO) (hd : HeaderInfo) (content : Ref) (fuel : Nat)

/-- The steps of a program; saves go to other paths than the one that was opened.  Which objects `rs` a
save looks up is left open. -/
inductive Step (f : AvbFile) (src : Nat) (order : Nat → Obj → List Visit) : World → Event → World → Prop
  | work (w : World) (e : Work.Event) (s : St) : Work.Step (handle f src w.disk) w.mem e s →
      Step f src order w (.work e) { w with mem := s }
  | save (w : World) (path : Nat) (bo : BO) (hd : HeaderInfo) (content : Ref) (fuel : Nat)
      (rs : List Ref) : path ≠ src →
      Step f src order w (.save path bo hd content fuel)
        { (write f src order fuel w path bo hd content).1 with
          mem := looks (handle f src w.disk) w.mem rs }

/-- A history (the user's side). -/
inductive Run (f : AvbFile) (src : Nat) (order : Nat → Obj → List Visit) :
    World → List Event → World → Prop
  | nil (w : World) : Run f src order w [] w
  | snoc {w w1 w2 : World} {e : Event} {es : List Event} :
      Run f src order w es w1 → Step f src order w1 e w2 → Run f src order w (es ++ [e]) w2

/-- The state after opening (src/avb/file.py:105-182). -/
def start (f : AvbFile) (src : Nat) (disk : Nat → Option Bytes) (o : Obj) : World where
  disk := setFile disk src f.data
  mem := Work.start f o
  next_chunk_id := 0
  ref_mapping := fun _ => none
  octx := none

end Avb.Disk
