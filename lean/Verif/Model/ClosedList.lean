import Verif.Model.Closed
import Verif.Model.Listing

/-!
Listing by class id when the file has been closed.
-/
namespace Avb.Work

/-- `next` of the generator `iter_class_ids` with the given chunk numbers still to come, when the file has been closed
(src/avb/file.py:243-250, 262-273, 372-386): the header of every chunk is read from the file, also those of objects that
are in memory. -/
def iterNextClosed (f : AvbFile) (class_id_list : List Bytes) : List Nat → St → Next × St
  | [], s => (.stop, s)
  | i :: is, s =>
    match readChunkClosed f i with
    | .error e => (.raised e, s)
    | .ok chunk =>
      if chunk.class_id ∈ class_id_list then
        match lookClosed f s i with
        | (.error e, s) => (.raised e, s)
        | (.ok x, s) => (.yielded x is, s)
      else iterNextClosed f class_id_list is s

end Avb.Work
