import Verif.Model.Obj

/-!
`TrackGroup.dependant_mobs` (src/avb/trackgroups.py:228-254) as a loop over its stack.
-/
namespace Avb.Depends

/-- The mobs of a bin, named by numbers, as the loop sees them: the objects `walk_references` produces
for a mob (src/avb/core.py:136-163), its mob id, and `find_by_mob_id` of the bin
(src/avb/bin.py:372-379).  Mobs without mob id, lookups that raise and walks that raise are in
Model/FileDeps.lean. -/
structure Graph where
  walk : Nat → List Obj
  idOf : Nat → MobID
  find : MobID → Option Nat

/-- `SourceClip.mob` for the source clips among the objects (src/avb/components.py:314-319). -/
def clipMob (g : Graph) : Obj → Option Nat
  | .SCLP c =>
    match c.mob_id with
    | some i => g.find i
    | none => none
  | _ => none

/-- The mobs the loop over `walk_references(mob)` pushes, in order (src/avb/trackgroups.py:240-247). -/
def pushed (g : Graph) (visited : List MobID) (m : Nat) : List Nat :=
  ((g.walk m).filterMap (clipMob g)).filter fun r => g.idOf r ∉ visited

/-- The variables of the loop; the top of the stack comes first, and `out` is what has been produced so
far (src/avb/trackgroups.py:233-234 and 254). -/
structure St where
  visited : List MobID
  stack : List Nat
  out : List Nat

/-- One round of the `while` loop (src/avb/trackgroups.py:236-254); nothing happens once the stack is
empty. -/
def step (g : Graph) (self : Nat) (s : St) : St :=
  match s.stack with
  | [] => s
  | m :: rest =>
    if pushed g s.visited m = [] then
      if g.idOf m ∈ s.visited then { s with stack := rest }
      else ⟨g.idOf m :: s.visited, rest, if m = self then s.out else s.out ++ [m]⟩
    else { s with stack := (pushed g s.visited m).reverse ++ m :: rest }

/-- `n` rounds (src/avb/trackgroups.py:236). -/
def rounds (g : Graph) (self : Nat) : Nat → St → St
  | 0, s => s
  | n + 1, s => rounds g self n (step g self s)

/-- The beginning (src/avb/trackgroups.py:233-234). -/
def start (self : Nat) : St := ⟨[], [self], []⟩

end Avb.Depends
