import Verif.Model.File
import Verif.Model.Repr
import Verif.Model.BinFind

/-
`TrackGroup.dependant_mobs` (src/avb/trackgroups.py:228-254) over the objects themselves, with the walk over the
references of each mob, the lookup in the bin, and the exceptions of both.  Model/Depends.lean takes walk and lookup
as given and raises nothing.
-/

namespace Avb.FileDeps

/-- What the iteration looks at: the objects, the number of nested calls the interpreter allows in
`walk_references`, and the content of the file (src/avb/components.py:315-319, src/avb/core.py:136-163). -/
structure World where
  heap : Heap
  fuel : Nat
  content : Ref

/-- `mob.mob_id` for what is referred to as mob (src/avb/bin.py:377, src/avb/trackgroups.py:245, 251): any object, or
`None`, which has none. -/
def idOf (h : Heap) (r : Ref) : Except Err MobID :=
  if r = 0 then .error .attribute
  else
    match h r with
    | .error e => .error e
    | .ok e =>
      match (Print.shown e.obj).mob_id with
      | none => .error .attribute
      | some i => .ok i

/-- The loop that fills the dictionary (src/avb/bin.py:376-377, 391-394). -/
def fill (h : Heap) : List Ref → List (MobID × Ref) → Except Err (List (MobID × Ref))
  | [], d => .ok d
  | r :: rs, d =>
    match idOf h r with
    | .error e => .error e
    | .ok i => fill h rs (BinFind.put i r d)

/-- The mobs of the content, if it is a bin (src/avb/bin.py:391-394); other objects have no `find_by_mob_id`
(src/avb/core.py:208-213). -/
def binMobs : Obj → Option (List Ref)
  | .ABIN b => some (b.items.map BinItem.mob)
  | .BINF b => some (b.items.map BinItem.mob)
  | _ => none

/-- `self.root.content.find_by_mob_id(mob_id)` (src/avb/components.py:319, src/avb/bin.py:372-379), the dictionary being
empty before the first lookup.  It is the same for all lookups of one iteration: it changes only by an exception, with
which the iteration ends, and by edits of the bin. -/
def find (w : World) (i : MobID) : Except Err (Option Ref) :=
  match w.heap w.content with
  | .error e => .error e
  | .ok e =>
    match binMobs e.obj with
    | none => .error .attribute
    | some rs =>
      match fill w.heap rs [] with
      | .error e => .error e
      | .ok d => .ok (BinFind.get i d)

/-- The loop over what `walk_references` yields (src/avb/trackgroups.py:240-247): the mobs pushed, and the exception,
if any. -/
def scan (w : World) (visited : List MobID) : List Ref → List Ref × Option Err
  | [] => ([], none)
  | r :: rs =>
    match w.heap r with
    | .error e => ([], some e)
    | .ok e =>
      match e.obj with
      | .SCLP c =>
        match c.mob_id with
        | none => scan w visited rs
        | some i =>
          match find w i with
          | .error e => ([], some e)
          | .ok none => scan w visited rs
          | .ok (some m) =>
            match idOf w.heap m with
            | .error e => ([], some e)
            | .ok j =>
              if j ∈ visited then scan w visited rs
              else (m :: (scan w visited rs).1, (scan w visited rs).2)
      | _ => scan w visited rs

/-- The variables of the loop, the top of the stack first; what was yielded; and the exception that has ended it, if
any (src/avb/trackgroups.py:233-254). -/
structure St where
  visited : List MobID
  stack : List Ref
  out : List Ref
  err : Option Err

/-- One round of the `while` loop (src/avb/trackgroups.py:236-254). -/
def step (w : World) (self : Ref) (s : St) : St :=
  match s.err with
  | some _ => s
  | none =>
    match s.stack with
    | [] => s
    | m :: rest =>
      match (scan w s.visited (walkObj w.heap w.fuel m).out).2 with
      | some e => { s with err := some e }
      | none =>
        match (walkObj w.heap w.fuel m).err with
        | some e => { s with err := some e }
        | none =>
          if (scan w s.visited (walkObj w.heap w.fuel m).out).1 = [] then
            match idOf w.heap m with
            | .error e => { s with err := some e }
            | .ok i =>
              if i ∈ s.visited then { s with stack := rest }
              else ⟨i :: s.visited, rest, if m = self then s.out else s.out ++ [m], none⟩
          else { s with stack := (scan w s.visited (walkObj w.heap w.fuel m).out).1.reverse ++ m :: rest }

/-- `n` rounds (src/avb/trackgroups.py:236). -/
def rounds (w : World) (self : Ref) : Nat → St → St
  | 0, s => s
  | n + 1, s => rounds w self n (step w self s)

/-- The beginning (src/avb/trackgroups.py:233-234). -/
def start (self : Ref) : St := ⟨[], [self], [], none⟩

end Avb.FileDeps
