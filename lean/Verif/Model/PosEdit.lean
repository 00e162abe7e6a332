import Verif.Model.Basic

/-!
`Sequence.positions` (src/avb/components.py:223-232) as the generator it is: the caller may change lengths and components
between its steps.  Model/Nested gives what it yields when nothing changes.
-/
namespace Avb.PosEdit

/-- A sequence at a moment: its components (`none` is a null reference), and the length of each component as an attribute
access gives it (`none` if that raises `AttributeError`) (src/avb/components.py:148, 225-232).  All references can be
loaded. -/
structure Seq where
  items : List (Option Nat)
  len : Nat → Option Int

/-- The generator at a `yield` (src/avb/components.py:224-232): the position of its iterator, which is also the next index,
its variable `length`, and the component whose length is added when it goes on (line 232). -/
structure Gen where
  k : Nat
  length : Int
  pending : Option Nat
  deriving DecidableEq

/-- What `next` gives (src/avb/components.py:229, 231): index, position and component, `AttributeError`, or
`StopIteration`. -/
inductive Out where
  | at (index : Nat) (position : Int) (component : Nat)
  | raised
  | stop
  deriving DecidableEq

/-- The generator before its first step (src/avb/components.py:224). -/
def start : Option Gen := some ⟨0, 0, none⟩

/-- The statement after the `yield` of a component that is no transition (src/avb/components.py:232). -/
def resume (s : Seq) (g : Gen) : Option Int :=
  match g.pending with
  | none => some g.length
  | some c => (s.len c).map (g.length + ·)

/-- `next` on the generator (src/avb/components.py:223-232); `trans` says which components are of class `TNFX`, which
never changes.  A generator that returned or raised stays ended (`none`). -/
def next (trans : Nat → Bool) (s : Seq) : Option Gen → Option Gen × Out
  | none => (none, .stop)
  | some g =>
    match resume s g with
    | none => (none, .raised)
    | some length =>
      match s.items[g.k]? with
      | none => (none, .stop)
      | some none => (none, .raised)
      | some (some c) =>
        if trans c then
          match s.len c with
          | none => (none, .raised)
          | some l => (some ⟨g.k + 1, length - l, none⟩, .at g.k (length - l) c)
        else (some ⟨g.k + 1, length, some c⟩, .at g.k length c)

/-- The generator after a number of steps, where `st n` is the sequence when it is asked for the n-th time, from 0
(src/avb/components.py:223-232). -/
def after (trans : Nat → Bool) (st : Nat → Seq) : Nat → Option Gen
  | 0 => start
  | n + 1 => (next trans (st n) (after trans st n)).1

/-- What it gives when it is asked for the n-th time (src/avb/components.py:223-232). -/
def out (trans : Nat → Bool) (st : Nat → Seq) (n : Nat) : Out := (next trans (st n) (after trans st n)).2

/-- `for index, position, component in sequence.positions():` (src/avb/components.py:223-232) with a body that may set the
length of the component (`none`: leaves it), looked at for a number of rounds: the sequence, what was given, and whether
the loop ended without an exception. -/
def loop (trans : Nat → Bool) (set : Nat → Int → Nat → Option Int) : Nat → Seq → Option Gen → Seq × List Out × Bool
  | 0, s, _ => (s, [], false)
  | n + 1, s, g =>
    match next trans s g with
    | (_, .stop) => (s, [], true)
    | (_, .raised) => (s, [], false)
    | (g, .at i p c) =>
      let s1 : Seq := match set i p c with
        | none => s
        | some l => { s with len := fun d => if d = c then some l else s.len d }
      let r := loop trans set n s1 g
      (r.1, .at i p c :: r.2.1, r.2.2)

end Avb.PosEdit
