import Verif
open Avb
def port (f : AvbFile) : Heap := fun r => match readObject f r with
  | .ok (some o) => .ok ⟨r, true, o, o.visits⟩
  | .ok none => .error .index
  | .error e => .error e
def err (e : Err) : String := match e with
  | .index => "index" | .value => "value" | .assertion => "assertion" | .notImplemented => "NI" | .struct => "struct" | _ => "other"
def checkFile (p : System.FilePath) : IO Unit := do
  let ba ← IO.FS.readBinFile p
  let bs : Bytes := ba.toList
  match openTable bs with
  | .error e => IO.println s!"{p}: open {err e}"
  | .ok f =>
    let hd : HeaderInfo := { last_save_str := "2020/01/01 00:00:00".toList, last_save := f.header.last_save, creator_version := f.header.creator_version }
    let mut n := 0
    for i in [1:f.positions.length] do
      match port f i, Fast.fileHeap f i with
      | .ok a, .ok b =>
        match Obj.write ⟨.little, some⟩ a.obj, Obj.write ⟨.little, some⟩ b.obj with
        | .ok (_, x), .ok (_, y) =>
          if x = y then n := n + 1 else IO.println s!"{p} {i} fast differs {x.length} {y.length}"
          if (a.obj.visits.map Visit.ref).mergeSort ≠ (b.visits.map Visit.ref).mergeSort then IO.println s!"visits {i} {a.visits.map Visit.ref} {b.visits.map Visit.ref}"
        | _, _ => IO.println s!"{p} {i} fast write"
      | .error e, _ => IO.println s!"{p} {i} port err {err e}"
      | _, .error e => IO.println s!"{p} {i} fast err {err e}"
    IO.println s!"{p}: {n} of {f.positions.length - 1} same fast"
    if f.positions.length < 500 then
     for (nm, h) in [("port", port f), ("fast", Fast.fileHeap f)] do
      match save h 1000 .little hd f.header.root_index with
      | .error e => IO.println s!"{p}: {nm} save {err e}"
      | .ok out =>
        match openTable out with
        | .error e => IO.println s!"{p}: {nm} reopen {err e}"
        | .ok g =>
          IO.println s!"{p}: {nm} saved {out.length} (was {bs.length}), objects {g.positions.length} was {f.positions.length}, same bytes {(out = bs : Bool)}, root {g.header.root_index} {f.header.root_index}"
          let d := (out.zip bs).zipIdx.filter (fun x => x.1.1 ≠ x.1.2)
          IO.println s!"differing positions: {d.length} {(d.take 40).map (·.2)}"
def main (args : List String) : IO Unit := do
  for a in args do checkFile a
