import Verif.Model.Repr
import Verif.Model.Timeline

/-
Lengths and positions in a `Sequence` over the objects themselves (src/avb/components.py:181-232): components
that are sequences again, that are null, that cannot be loaded or that have no length.  Model/Timeline.lean takes the
components as pairs of a flag and a length.
-/

namespace Avb.Nested

/-- How the components are looked up: an object, `None`, or an exception (src/avb/core.py:94-134,
src/avb/utils.py:21-41). -/
abbrev Get := Ref → Except Err (Option Obj)

/-- The loop of `Sequence.length` (src/avb/components.py:183-189); `rec` is `component.length`.  `None` has no
`class_id`.  As `length` is a property, an `AttributeError` in it makes Python call `__getattr__`
(src/avb/core.py:208-213), which raises `AttributeError` again. -/
def lengthLoop (get : Get) (rec : Obj → Except Err Int) : Int → List Ref → Except Err Int
  | length, [] => .ok length
  | length, r :: rs =>
    match get r with
    | .error e => .error e
    | .ok none => .error .attribute
    | .ok (some o) =>
      match rec o with
      | .error e => .error e
      | .ok l => if o.cls = .TNFX then lengthLoop get rec (length - l) rs else lengthLoop get rec (length + l) rs

/-- `component.length`: of a sequence the property (src/avb/components.py:181-189), of any other object the value
read from the file, if its class has one (src/avb/core.py:208-213).  The number is that of the nested calls the
interpreter still allows. -/
def length (get : Get) : Nat → Obj → Except Err Int
  | 0, _ => .error .recursion
  | n + 1, .SEQU x => lengthLoop get (length get n) 0 x.components
  | _ + 1, o =>
    match (Print.shown o).length with
    | some l => .ok l
    | none => .error .attribute

/-- One item of `positions` (src/avb/components.py:229, 231). -/
structure At where
  index : Nat
  pos : Int
  comp : Obj

/-- `Sequence.positions` (src/avb/components.py:223-232), a generator: what it yields, and the exception it ends
with, if any.  The length of a component that is no transition is asked for after it was yielded. -/
def positionsFrom (get : Get) (rec : Obj → Except Err Int) : Nat → Int → List Ref → List At × Option Err
  | _, _, [] => ([], none)
  | index, length, r :: rs =>
    match get r with
    | .error e => ([], some e)
    | .ok none => ([], some .attribute)
    | .ok (some o) =>
      match rec o with
      | .error e => (if o.cls = .TNFX then [] else [⟨index, length, o⟩], some e)
      | .ok l =>
        if o.cls = .TNFX then
          let p := positionsFrom get rec (index + 1) (length - l) rs
          (⟨index, length - l, o⟩ :: p.1, p.2)
        else
          let p := positionsFrom get rec (index + 1) (length + l) rs
          (⟨index, length, o⟩ :: p.1, p.2)

/-- `list(x.positions())`, up to the exception (src/avb/components.py:223-232). -/
def positions (get : Get) (n : Nat) (x : Sequence) : List At × Option Err :=
  positionsFrom get (length get n) 0 0 x.components

/-- The loop of `nearest_index_at_time` (src/avb/components.py:203-221) over a generator that ends with `e`. -/
def nearestFrom (rec : Obj → Except Err Int) (t : Rat) (e : Option Err) : Option At → List At → Except Err (Option At)
  | last, [] =>
    match e with
    | none => .ok last
    | some e => .error e
  | last, a :: es =>
    match rec a.comp with
    | .error e => .error e
    | .ok l =>
      if l = 0 then nearestFrom rec t e last es
      else if a.comp.cls = .TNFX ∧ (a.pos : Rat) ≤ t ∧ t < ((a.pos + l : Int) : Rat) then .ok (some a)
      else if last.isSome = true ∧ t ≤ (a.pos : Rat) then .ok last
      else nearestFrom rec t e (some a) es

/-- `Sequence.nearest_index_at_time` (src/avb/components.py:196-221). -/
def nearestIndex (get : Get) (n : Nat) (x : Sequence) (t : Rat) : Except Err (Nat × Int) :=
  match nearestFrom (length get n) t (positions get n x).2 none (positions get n x).1 with
  | .error e => .error e
  | .ok none => .ok (0, 0)
  | .ok (some a) => .ok (a.index, a.pos)

/-- `Sequence.nearest_component_at_time` (src/avb/components.py:191-194): the object is looked up a second time. -/
def nearestComponent (get : Get) (n : Nat) (x : Sequence) (t : Rat) : Except Err (Option Obj × Int) :=
  match nearestIndex get n x t with
  | .error e => .error e
  | .ok (i, p) =>
    match x.components[i]? with
    | none => .error .index
    | some r =>
      match get r with
      | .error e => .error e
      | .ok o => .ok (o, p)

end Avb.Nested
