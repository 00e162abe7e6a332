import Verif
open Avb
instance : Inhabited Err := ⟨.index⟩
def wo (bo : BO) (o : Obj) : Except Err Bytes :=
  match Obj.write { bo := bo, refMap := some } o with
  | .error e => .error e
  | .ok (_, b) => .ok b
def err (e : Err) : String := match e with
  | .index => "index" | .value => "value" | .assertion => "assertion" | .notImplemented => "NI" | .struct => "struct" | _ => "other"
def checkChunk (p : System.FilePath) : IO Unit := do
  let ba ← IO.FS.readBinFile p
  let bs : Bytes := ba.toList
  match (rFourcc .little >>= fun id => rInt .little .u32 >>= fun size => pure (id, size)) bs with
  | .error _ => IO.println s!"{p}: header"
  | .ok ((id, size), rest) =>
    let body := rest.take size.toNat
    match Cls.ofId id with
    | none => IO.println s!"{p}: class"
    | some k =>
      match Obj.readAs {bo := .little, nobj := 1000000000} k body with
      | .error e => IO.println s!"{p}: read err {err e}"
      | .ok (o, left) =>
        if left ≠ [] then IO.println s!"{p}: left {left.length}"
        match wo .little o with
        | .error e => IO.println s!"{p}: write err {err e}"
        | .ok b =>
          if b ≠ rest.take size.toNat then IO.println s!"{p}: differs"
          match wo .big o with
          | .error e => IO.println s!"{p}: write big err {err e}"
          | .ok bb =>
            match Obj.readAs {bo := .big, nobj := 1000000000} k bb with
            | .error e => IO.println s!"{p}: read big err {err e}"
            | .ok (o2, l2) =>
              match wo .little o2 with
              | .ok b2 => if b2 ≠ body ∨ l2 ≠ [] then IO.println s!"{p}: big differs" else IO.println s!"{p}: ok"
              | .error e => IO.println s!"{p}: rewrite {err e}"
def checkFile (p : System.FilePath) : IO Unit := do
  let ba ← IO.FS.readBinFile p
  let bs : Bytes := ba.toList
  match openTable bs with
  | .error e => IO.println s!"{p}: open {err e}"
  | .ok f =>
    let mut ok := 0
    let mut bad := 0
    for i in [1:f.positions.length] do
      match readObject f i, readChunk f i with
      | .ok (some o), .ok ck =>
        match wo .little o with
        | .ok b => if b = ck.read f then ok := ok + 1 else
            bad := bad + 1
            IO.println s!"{p} {i} {ck.class_id.map fun x => Char.ofNat x.toNat} differs"
        | .error e => bad := bad + 1; IO.println s!"{p} {i} {ck.class_id.map fun x => Char.ofNat x.toNat} write {err e}"
      | .error e, .ok ck => bad := bad + 1; IO.println s!"{p} {i} {ck.class_id.map fun x => Char.ofNat x.toNat} read {err e}"
      | _, _ => bad := bad + 1; IO.println s!"{p} {i} other"
    IO.println s!"{p}: {ok} ok {bad} bad"
def main (args : List String) : IO Unit := do
  for a in args do
    if a.endsWith ".chunk" then checkChunk a else checkFile a
