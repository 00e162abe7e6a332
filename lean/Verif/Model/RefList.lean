import Verif.Model.Basic

/-!
Lists of object references (`AVBRefList`, src/avb/core.py:52-134) on top of Python's `list`.
-/
namespace Avb.RefList

/-- A Python value as far as it matters in a reference list: `None`, an integer (the accelerated and
portable readers store raw ids), an `AVBObjectRef` (src/avb/utils.py:14-18), or an object, named by
its identity. -/
inductive PV where
  | none
  | int (n : Int)
  | ref (i : Int)
  | obj (o : Nat)
  deriving DecidableEq

/-- `AVBFile.read_object` as seen from a list: the object with an id, or the exception. -/
abbrev Env := Int → Except Err Nat

/-- The methods of a list.  Slices have no step.  `iadd` is the operator `+=` on the list itself; `sort` has
no key. -/
inductive Op (α : Type) where
  | append (x : α)
  | extend (xs : List α)
  | insert (i : Int) (x : α)
  | setItem (i : Int) (x : α)
  | delItem (i : Int)
  | pop (i : Int)
  | getItem (i : Int)
  | getSlice (a b : Option Int)
  | len
  | iter
  | remove (x : α)
  | contains (x : α)
  | clear
  | reverse
  | sort
  | setSlice (a b : Option Int) (xs : List α)
  | delSlice (a b : Option Int)
  | index (x : α)
  | count (x : α)
  | reversed
  | iadd (xs : List α)
  deriving DecidableEq

/-- What a call gives back. -/
inductive Res (α : Type) where
  | done
  | val (x : α)
  | vals (xs : List α)
  | num (n : Nat)
  | bool (b : Bool)
  deriving DecidableEq

/-! ### Python's list -/

/-- A Python index into a list of length `n`: negative ones count from the end (the base class of
src/avb/core.py:53, Python's `list`). -/
def index (n : Nat) (i : Int) : Except Err Nat :=
  let j := if i < 0 then i + n else i
  if 0 ≤ j ∧ j < n then .ok j.toNat else .error .index

/-- The position of `insert` and the ends of slices are moved into the list (Python's `list`, the base
class of src/avb/core.py:53). -/
def clamp (n : Nat) (i : Int) : Nat := min (if i < 0 then i + n else i).toNat n

/-- Where a slice begins and ends (Python's `list`, the base class of src/avb/core.py:53). -/
def ends (n : Nat) (a b : Option Int) : Nat × Nat :=
  ((a.map (clamp n)).getD 0, (b.map (clamp n)).getD n)

/-- Python's `list` (the base class of src/avb/core.py:53).  An exception leaves the list as it was.  The
items of a list that is sorted are objects, which have no order: with two of them `TypeError`. -/
def list {α : Type} [DecidableEq α] (l : List α) : Op α → Except Err (List α × Res α)
  | .append x => .ok (l ++ [x], .done)
  | .extend xs => .ok (l ++ xs, .done)
  | .insert i x => .ok (l.insertIdx (clamp l.length i) x, .done)
  | .setItem i x => do
    let j ← index l.length i
    return (l.set j x, .done)
  | .delItem i => do
    let j ← index l.length i
    return (l.eraseIdx j, .done)
  | .pop i => do
    let j ← index l.length i
    match l[j]? with
    | some x => return (l.eraseIdx j, .val x)
    | none => .error .index
  | .getItem i => do
    let j ← index l.length i
    match l[j]? with
    | some x => return (l, .val x)
    | none => .error .index
  | .getSlice a b => .ok (l, .vals ((l.take (ends l.length a b).2).drop (ends l.length a b).1))
  | .len => .ok (l, .num l.length)
  | .iter => .ok (l, .vals l)
  | .remove x => if x ∈ l then .ok (l.erase x, .done) else .error .value
  | .contains x => .ok (l, .bool (decide (x ∈ l)))
  | .clear => .ok ([], .done)
  | .reverse => .ok (l.reverse, .done)
  | .sort => if l.length < 2 then .ok (l, .done) else .error .type
  | .setSlice a b xs =>
    let (s, e) := ends l.length a b
    .ok (l.take s ++ xs ++ l.drop (max s e), .done)
  | .delSlice a b =>
    let (s, e) := ends l.length a b
    .ok (l.take s ++ l.drop (max s e), .done)
  | .index x => if x ∈ l then .ok (l, .num (l.idxOf x)) else .error .value
  | .count x => .ok (l, .num (l.count x))
  | .reversed => .ok (l, .vals l.reverse)
  | .iadd xs => .ok (l ++ xs, .done)

/-! ### The reference list -/

/-- `AVBObjectRef.value` (src/avb/utils.py:20-27) for an index. -/
def refValue (env : Env) (i : Int) : Except Err PV :=
  if i ≤ 0 then .ok .none else (env i).map .obj

/-- `AVBRefList.deref` (src/avb/core.py:113-119). -/
def deref (env : Env) : PV → Except Err PV
  | .int n => refValue env n
  | .ref i => refValue env i
  | v => .ok v

/-- A reference list: the raw items and whether `mark_modified` (src/avb/core.py:66-72) was called. -/
structure RL where
  items : List PV
  marked : Bool

/-- The methods of `AVBRefList` (src/avb/core.py:80-134).  `super()` calls are `list`.  The result is
the list afterwards and the value or exception.  `clear`, `sort` and `reverse` make a `super` object
and call nothing (101-111).  `len`, `in`, `index`, `count`, `reversed` and `+=` are inherited, so `+=`
does not call `mark_modified`.  An `iter` that raises has already given out the items before. -/
def step (env : Env) (s : RL) (op : Op PV) : RL × Except Err (Res PV) :=
  match op with
  | .clear => ({ s with marked := true }, .ok .done)
  | .reverse => ({ s with marked := true }, .ok .done)
  | .sort => ({ s with marked := true }, .ok .done)
  | .append _ | .extend _ | .insert _ _ | .setItem _ _ | .delItem _ | .remove _ | .setSlice _ _ _
  | .delSlice _ _ =>
    match list s.items op with
    | .ok (l, r) => (⟨l, true⟩, .ok r)
    | .error e => (s, .error e)
  | .pop i =>
    match list s.items (.pop i) with
    | .ok (l, .val x) =>
      match deref env x with
      | .ok v => (⟨l, true⟩, .ok (.val v))
      | .error e => (⟨l, s.marked⟩, .error e)
    | .ok (l, r) => (⟨l, true⟩, .ok r)
    | .error e => (s, .error e)
  | .getItem i =>
    match list s.items (.getItem i) with
    | .ok (_, .val x) => (s, (deref env x).map .val)
    | .ok (_, r) => (s, .ok r)
    | .error e => (s, .error e)
  | .getSlice a b =>
    match list s.items (.getSlice a b) with
    | .ok (_, r) => (s, .ok r)
    | .error e => (s, .error e)
  | .len => (s, .ok (.num s.items.length))
  | .iter => (s, (s.items.mapM (deref env)).map .vals)
  | .contains x => (s, .ok (.bool (decide (x ∈ s.items))))
  | .index _ | .count _ | .reversed | .iadd _ =>
    match list s.items op with
    | .ok (l, r) => (⟨l, s.marked⟩, .ok r)
    | .error e => (s, .error e)

/-- A sequence of calls, each on the list the call before left; the results in order. -/
def run (env : Env) (s : RL) : List (Op PV) → RL × List (Except Err (Res PV))
  | [] => (s, [])
  | op :: ops =>
    let (s1, r) := step env s op
    let (s2, rs) := run env s1 ops
    (s2, r :: rs)

/-- The same on a plain Python list (src/avb/core.py:53, the base class). -/
def listRun {α : Type} [DecidableEq α] (l : List α) : List (Op α) → List α × List (Except Err (Res α))
  | [] => (l, [])
  | op :: ops =>
    match list l op with
    | .ok (l1, r) =>
      let (l2, rs) := listRun l1 ops
      (l2, .ok r :: rs)
    | .error e =>
      let (l2, rs) := listRun l ops
      (l2, .error e :: rs)

end Avb.RefList
