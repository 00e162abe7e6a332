import Verif.Model.Basic

/-
Positions in a `Sequence` (src/avb/components.py:181-232).
-/

namespace Avb

/-- What the position methods look at of a component: whether its class id is `TNFX`, and its `length`
(src/avb/components.py:184-188, 204-207, 227-232).  Null components and
components without length, on which they raise, are in Model/Nested.lean. -/
structure SeqItem where
  transition : Bool
  length : Int
  deriving DecidableEq, Repr

/-- `Sequence.length` (src/avb/components.py:181-189); `length` is the value of the local variable. -/
def seqLengthFrom (length : Int) : List SeqItem → Int
  | [] => length
  | c :: cs =>
    if c.transition = true then seqLengthFrom (length - c.length) cs
    else seqLengthFrom (length + c.length) cs

/-- `Sequence.length` (src/avb/components.py:181-189). -/
def seqLength (cs : List SeqItem) : Int := seqLengthFrom 0 cs

/-- One item yielded by `positions`: index, position, component. -/
structure SeqPos where
  index : Nat
  pos : Int
  comp : SeqItem
  deriving DecidableEq, Repr

/-- The loop of `Sequence.positions` (src/avb/components.py:223-232). -/
def seqPositionsFrom (index : Nat) (length : Int) : List SeqItem → List SeqPos
  | [] => []
  | c :: cs =>
    if c.transition = true then
      ⟨index, length - c.length, c⟩ :: seqPositionsFrom (index + 1) (length - c.length) cs
    else
      ⟨index, length, c⟩ :: seqPositionsFrom (index + 1) (length + c.length) cs

/-- `Sequence.positions` (src/avb/components.py:223-232). -/
def seqPositions (cs : List SeqItem) : List SeqPos := seqPositionsFrom 0 0 cs

/-- The loop of `nearest_index_at_time` (src/avb/components.py:203-221).  `last` is `none` while
`last_component` is `None`; component objects are always true.  The time is any rational, i.e. any
Python integer or finite float. -/
def nearestFrom (t : Rat) (last : Option SeqPos) : List SeqPos → Option SeqPos
  | [] => last
  | e :: es =>
    if e.comp.length = 0 then nearestFrom t last es
    else if e.comp.transition = true ∧ (e.pos : Rat) ≤ t ∧ t < ((e.pos + e.comp.length : Int) : Rat) then some e
    else if last.isSome = true ∧ t ≤ (e.pos : Rat) then last
    else nearestFrom t (some e) es

/-- `Sequence.nearest_index_at_time` (src/avb/components.py:196-221). -/
def nearestIndexAtTime (cs : List SeqItem) (t : Rat) : Nat × Int :=
  match nearestFrom t none (seqPositions cs) with
  | none => (0, 0)
  | some e => (e.index, e.pos)

/-- `Sequence.nearest_component_at_time` (src/avb/components.py:191-194); `IndexError` when there are no
components. -/
def nearestComponentAtTime (cs : List SeqItem) (t : Rat) : Except Err (SeqItem × Int) :=
  match cs[(nearestIndexAtTime cs t).1]? with
  | none => .error .index
  | some c => .ok (c, (nearestIndexAtTime cs t).2)

end Avb
