import Verif.Model.Work

/-! Listing the objects of a file by class id. -/

namespace Avb.Work

/-- The loop of `iter_class_ids` over the chunks with the given indices (src/avb/file.py:372-379), run to
its end: what was yielded (`None` for index 0), the exception that ended it, the state afterwards. -/
def iterFrom (f : AvbFile) (class_id_list : List Bytes) :
    List Nat → St → (List (Option Nat) × Option Err) × St
  | [], s => (([], none), s)
  | i :: is, s =>
    match readChunk f i with
    | .error e => (([], some e), s)
    | .ok chunk =>
      if chunk.class_id ∈ class_id_list then
        match look f s i with
        | (.error e, s) => (([], some e), s)
        | (.ok x, s) =>
          let r := iterFrom f class_id_list is s
          ((x :: r.1.1, r.1.2), r.2)
      else iterFrom f class_id_list is s

/-- `list(f.iter_class_ids(class_id_list))` (src/avb/file.py:376-379). -/
def iterClassIds (f : AvbFile) (class_id_list : List Bytes) (s : St) :
    (List (Option Nat) × Option Err) × St :=
  iterFrom f class_id_list (List.range f.positions.length) s

/-- What a step of the generator gives: its end, an exception, or an object and the chunk numbers still to
come (src/avb/file.py:376-379). -/
inductive Next where
  | stop
  | raised (e : Err)
  | yielded (x : Option Nat) (rest : List Nat)

/-- `next` of the generator `iter_class_ids` with the given chunk numbers still to come
(src/avb/file.py:372-379). -/
def iterNext (f : AvbFile) (class_id_list : List Bytes) : List Nat → St → Next × St
  | [], s => (.stop, s)
  | i :: is, s =>
    match readChunk f i with
    | .error e => (.raised e, s)
    | .ok chunk =>
      if chunk.class_id ∈ class_id_list then
        match look f s i with
        | (.error e, s) => (.raised e, s)
        | (.ok x, s) => (.yielded x is, s)
      else iterNext f class_id_list is s

end Avb.Work
