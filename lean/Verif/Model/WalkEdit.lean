import Verif.Model.Basic

/-!
`walk_references` (src/avb/core.py:136-163) as the generator it is: a stack of loops, between whose steps the caller may
change the objects.  Model/Walk gives what it yields when nothing changes.
-/
namespace Avb.WalkEdit

/-- The value of a property as `walk_references` sees it (src/avb/core.py:147-160): something without references, an
object (through a reference or directly; 0 is `None`), or a list, named by its identity. -/
inductive Val where
  | plain (x : Int)
  | obj (r : Nat)
  | items (l : Nat)
  deriving DecidableEq

/-- What is walked (src/avb/core.py:138-145): the values of a dictionary in order (the property data of an object, or an
attribute set), or a list.  The dictionary is an `OrderedDict` (src/avb/core.py:35), or a plain one if the object was read
by the accelerated readers (src/avb/_ext.pyx:157); `stamp` is another number after each time a key was added or
deleted. -/
inductive Body where
  | dict (ordered : Bool) (stamp : Nat) (props : List (String × Val))
  | list (l : Nat)

/-- An object; `yields` if it has a class id (src/avb/core.py:158, 162), which tracks and other helpers have not. -/
structure Node where
  yields : Bool
  body : Body

/-- The objects and the lists at a moment (src/avb/core.py:136-163).  Every object can be loaded. -/
structure Heap where
  node : Nat → Node
  list : Nat → List Nat

/-- One loop of the generators that are running (src/avb/core.py:147, 154, 155, 159): not yet begun; at a position of a
dictionary that had `n` entries and the stamp `t` when the loop began; at a position of a list, with the object that is yielded
afterwards, if it is the list object itself that is walked. -/
inductive Frame where
  | enter (r : Nat)
  | dict (r k n t : Nat)
  | list (l k : Nat) (r : Option Nat)
  deriving DecidableEq

/-- What a step does (src/avb/core.py:147-163): nothing visible, a `yield`, `RuntimeError`, or something that depends on
how Python lays out a dictionary. -/
inductive Out where
  | silent
  | yielded (r : Nat)
  | raised
  | unknown
  deriving DecidableEq

/-- The loops that a value starts (src/avb/core.py:148-160): a list of items (also if it has a class id), then the object
itself if it has a class id. -/
def push (h : Heap) : Val → List Frame
  | .plain _ => []
  | .obj r => (match (h.node r).body with | .list l => [.list l 0 none] | .dict .. => []) ++
      (if (h.node r).yields then [.enter r] else [])
  | .items l => [.list l 0 none]

/-- The end of a loop over an object (src/avb/core.py:162-163). -/
def finish (h : Heap) (r : Nat) : Out := if (h.node r).yields then .yielded r else .silent

/-- One step of the innermost loop (src/avb/core.py:147-163).  Python's iterator of an `OrderedDict` raises if keys were
added or deleted since its beginning, but does not look if it has given all entries there were; that of a plain
dictionary compares the number of entries, also at the end (what it does if as many were added as deleted is left open);
that of a list compares with the present length.  The items of a list that is a value are walked whatever they are
(154-156), those of a list that is walked itself are taken as values (147-160).  An exception ends all the generators. -/
def step (h : Heap) : List Frame → List Frame × Out
  | [] => ([], .silent)
  | .enter r :: fs =>
    match (h.node r).body with
    | .dict _ t ps => (.dict r 0 ps.length t :: fs, .silent)
    | .list l => (.list l 0 (some r) :: fs, .silent)
  | .dict r k n t :: fs =>
    match (h.node r).body with
    | .list _ => ([], .raised)
    | .dict o t' ps =>
      if o ∧ n ≤ k then (fs, finish h r)
      else if o ∧ t' ≠ t then ([], .raised)
      else if ¬ o ∧ ps.length ≠ n then ([], .raised)
      else if ¬ o ∧ t' ≠ t then ([], .unknown)
      else
        match ps[k]? with
        | none => (fs, finish h r)
        | some p => (push h p.2 ++ .dict r (k + 1) n t :: fs, .silent)
  | .list l k o :: fs =>
    match (h.list l)[k]? with
    | none => (fs, match o with | some r => finish h r | none => .silent)
    | some r =>
      ((match o with | none => [.enter r] | some _ => push h (.obj r)) ++ .list l (k + 1) o :: fs, .silent)

/-- How the walk stands: going on or at its end, ended by an exception, or in a state that is left open
(src/avb/core.py:136-163). -/
inductive Status where
  | fine
  | raised
  | unknown
  deriving DecidableEq

/-- A number of steps with nothing changed: what was yielded, the loops left and how it stands
(src/avb/core.py:136-163). -/
def steps (h : Heap) : Nat → List Frame → List Nat × List Frame × Status
  | 0, fs => ([], fs, .fine)
  | n + 1, fs =>
    match step h fs with
    | (_, .raised) => ([], [], .raised)
    | (_, .unknown) => ([], [], .unknown)
    | (fs, .yielded r) => (r :: (steps h n fs).1, (steps h n fs).2)
    | (fs, .silent) => steps h n fs

end Avb.WalkEdit
