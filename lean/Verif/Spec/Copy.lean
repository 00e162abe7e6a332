import Verif.Model.Copy

/-!
What copies are compared by: what a program sees when it follows property names, attribute names and
list positions from an object; and the conditions under which that makes sense.
-/
namespace Avb.Copy

variable {α : Type}

/-- The value under a name. -/
def find (l : List (Text × α)) (k : Text) : Option α := (l.find? (fun p => p.1 = k)).map (·.2)

/-- From a value to one of its parts. -/
inductive Step where
  | name (k : Text)
  | item (i : Nat)
  deriving DecidableEq

/-- The part of a value. -/
def part (s : St) : Val → Step → Option Val
  | .atom (.obj l), .name k =>
    match s.nodes l with
    | .avb _ _ ps => find ps k
    | .attrs _ ps => (find ps k).map .atom
    | .refs _ _ _ _ => none
  | .atom (.obj l), .item i =>
    match s.nodes l with
    | .refs _ _ _ xs => xs[i]?.map .atom
    | _ => none
  | .list xs, .item i => xs[i]?.map .atom
  | _, _ => none

/-- Follow a path. -/
def follow (s : St) : Val → List Step → Option Val
  | v, [] => some v
  | v, st :: p =>
    match part s v st with
    | none => none
    | some w => follow s w p

/-- What can be seen of a value without following it further: data, contents of mutable values, the
class of an object, the number of items of a list, and the names of an attribute set. -/
inductive Seen where
  | none
  | int (n : Int)
  | text (t : Text)
  | bytes (b : Bytes)
  | buf (contents : Int)
  | cell (contents : Int)
  | list (length : Nat)
  | avb (cls : Nat)
  | refs (cls : Nat) (length : Nat)
  | attrs (names : List Text)
  deriving DecidableEq

/-- What is seen of a value. -/
def seen (s : St) : Val → Seen
  | .atom .none => .none
  | .atom (.int n) => .int n
  | .atom (.text t) => .text t
  | .atom (.bytes b) => .bytes b
  | .atom (.buf m) => .buf (s.cells m)
  | .atom (.cell m) => .cell (s.cells m)
  | .atom (.obj l) =>
    match s.nodes l with
    | .avb c _ _ => .avb c
    | .refs c _ _ xs => .refs c xs.length
    | .attrs _ ps => .attrs (ps.map (·.1))
  | .list xs => .list xs.length

/-- The values other than lists within a value. -/
def Val.atoms : Val → List Atom
  | .atom a => [a]
  | .list xs => xs

/-- The values other than lists stored in an object. -/
def Node.atoms : Node → List Atom
  | .avb _ _ ps => ps.flatMap (·.2.atoms)
  | .refs _ _ _ xs => xs
  | .attrs _ ps => ps.map (·.2)

/-- The value uses only objects from `lo` to `hi` and cells below `c`. -/
def Atom.In (lo hi c : Nat) : Atom → Prop
  | .obj l => lo ≤ l ∧ l < hi
  | .buf m => m < c
  | .cell m => m < c
  | _ => True

/-- An object of a subclass of `AVBObject`. -/
def Node.IsAvb : Node → Prop
  | .avb _ _ _ => True
  | _ => False

/-- Plain lists of properties contain no reference lists and no attribute sets.  (`copy` would not copy
them.) -/
def ListsOK (s : St) (ps : List (Text × Val)) : Prop :=
  ∀ p ∈ ps, ∀ xs, p.2 = .list xs → ∀ m, Atom.obj m ∈ xs → (s.nodes m).IsAvb

/-- Names occur once. -/
def Node.Names : Node → Prop
  | .avb _ _ ps => (ps.map (·.1)).Nodup
  | .attrs _ ps => (ps.map (·.1)).Nodup
  | .refs _ _ _ _ => True

/-- The plain lists of an object. -/
def Node.Lists (s : St) : Node → Prop
  | .avb _ _ ps => ListsOK s ps
  | _ => True

/-- A heap as Python programs make it: objects refer to objects and cells that exist, and dictionaries
have every name once. -/
structure WF (s : St) : Prop where
  within : ∀ l < s.fresh, ∀ a ∈ (s.nodes l).atoms, a.In 0 s.fresh s.freshCell
  names : ∀ l < s.fresh, (s.nodes l).Names
  lists : ∀ l < s.fresh, (s.nodes l).Lists s

/-- `instance_id` -/
def Node.iid : Node → Option Nat
  | .avb _ i _ => i
  | .refs _ i _ _ => i
  | .attrs i _ => i

/-- The class of the object has a class id. -/
def Node.hasId (C : Classes) : Node → Bool
  | .avb c _ _ => C.hasId c
  | .refs c _ _ _ => C.hasId c
  | .attrs _ _ => true

/-- Only new things have been added: whatever existed is as it was; new objects have an id if their
class has one, a new one, under which they are registered. -/
structure Ext (C : Classes) (s s' : St) : Prop where
  fresh : s.fresh ≤ s'.fresh
  freshCell : s.freshCell ≤ s'.freshCell
  next : s.next ≤ s'.next
  nodes : ∀ l < s.fresh, s'.nodes l = s.nodes l
  cells : ∀ m < s.freshCell, s'.cells m = s.cells m
  modified : ∀ i ≤ s.next, s'.modified i = s.modified i
  hasId : ∀ l, s.fresh ≤ l → l < s'.fresh → (s'.nodes l).iid.isSome = (s'.nodes l).hasId C
  ids : ∀ l, s.fresh ≤ l → l < s'.fresh → ∀ i, (s'.nodes l).iid = some i →
    s.next < i ∧ i ≤ s'.next ∧ s'.modified i = some l

/-- The objects from `lo` on refer to no object before. -/
def Closed (lo : Nat) (s : St) : Prop :=
  ∀ l, lo ≤ l → l < s.fresh → ∀ a ∈ (s.nodes l).atoms, a.In lo s.fresh s.freshCell

/-- What is assumed of the constructors (`__init__` without arguments): they only add new things, the
properties they set use these only (and any cells: default values may be shared), and whether they raise
depends on the class only. -/
structure Classes.Behaves (C : Classes) : Prop where
  ext : ∀ {c s r s'}, WF s → C.init c s = (r, s') → Ext C s s' ∧ WF s'
  props : ∀ {c s ps s'}, WF s → C.init c s = (.ok ps, s') →
    Closed s.fresh s' ∧ (∀ p ∈ ps, ∀ a ∈ p.2.atoms, a.In s.fresh s'.fresh s'.freshCell) ∧
      (ps.map (·.1)).Nodup ∧ ListsOK s' ps
  same : ∀ c, (∀ s, ∃ ps s', C.init c s = (.ok ps, s')) ∨ (∀ s, ∃ e s', C.init c s = (.error e, s'))

/-- The objects before `a` have all properties that the constructors of their classes set. -/
def Full (C : Classes) (a : Nat) (s : St) : Prop :=
  ∀ l < a, ∀ {c i ps}, s.nodes l = .avb c i ps → ∀ {s1 qs s2}, C.init c s1 = (.ok qs, s2) →
    ∀ k, find qs k ≠ none → find ps k ≠ none

/-- A value an attribute set with which can be copied. -/
def Atom.Entry : Atom → Prop
  | .int _ | .text _ | .buf _ | .obj _ => True
  | _ => False

/-- An object that can be copied: constructors need no arguments, reference lists have no null
references, attribute sets have values of the right types; and so for all objects within it, to a finite
depth. -/
inductive Copyable (C : Classes) (s : St) : Nat → Prop
  | avb {l c i ps} : s.nodes l = .avb c i ps → (∀ s, ∃ qs s', C.init c s = (.ok qs, s')) →
      (∀ m, Atom.obj m ∈ (s.nodes l).atoms → Copyable C s m) → Copyable C s l
  | refs {l c i q xs} : s.nodes l = .refs c i q xs → (∀ a ∈ xs, ∃ m, a = .obj m) →
      (∀ m, Atom.obj m ∈ (s.nodes l).atoms → Copyable C s m) → Copyable C s l
  | attrs {l i ps} : s.nodes l = .attrs i ps → (∀ p ∈ ps, p.2.Entry) →
      (∀ m, Atom.obj m ∈ (s.nodes l).atoms → Copyable C s m) → Copyable C s l

end Avb.Copy
