import Verif.Model.RefList
import Verif.Model.BinFind

/-!
Loops over a list that is changed meanwhile: iterators over reference lists (`AVBRefList.__iter__`,
src/avb/core.py:132-134) and over the mobs of a bin (`Bin.mobs`, src/avb/bin.py:391-394).
-/
namespace Avb.IterEdit

open RefList

/-- What `next` on an iterator does: an item, an exception, or `StopIteration` (src/avb/core.py:132-134). -/
inductive Out (β : Type) where
  | item (x : β)
  | raised (e : Err)
  | stop
  deriving DecidableEq

/-- An iterator: how many items of the list it has passed, or that it has ended (src/avb/core.py:133, the iterator
of Python's `list`; a generator that returned or raised stays ended). -/
abbrev It := Option Nat

/-- `next` on the generator (src/avb/core.py:133-134): the iterator of the list looks at the list as it is now; `get` is
what the loop does with the item before the `yield`. -/
def next {α β : Type} (get : α → Except Err β) (items : List α) : It → It × Out β
  | none => (none, .stop)
  | some k =>
    match items[k]? with
    | none => (none, .stop)
    | some v =>
      match get v with
      | .ok x => (some (k + 1), .item x)
      | .error e => (none, .raised e)

/-- What a caller does: call a method of the list, or ask the iterator for the next item
(src/avb/core.py:80-134). -/
inductive Act where
  | call (op : Op PV)
  | next

/-- A reference list and one iterator over it (src/avb/core.py:53, 132-134). -/
structure St where
  list : RL
  it : It

/-- One action and what the iterator gives, if it was asked (src/avb/core.py:80-134); results of calls
are in `RefList.step`. -/
def act (env : Env) (s : St) : Act → St × Option (Out PV)
  | .call op => ({ s with list := (step env s.list op).1 }, none)
  | .next =>
    let (it, o) := next (deref env) s.list.items s.it
    ({ s with it := it }, some o)

/-- Any sequence of actions, and what the iterator gave (src/avb/core.py:80-134). -/
def acts (env : Env) (s : St) : List Act → St × List (Out PV)
  | [] => (s, [])
  | a :: as =>
    let (s1, o) := act env s a
    let (s2, os) := acts env s1 as
    (s2, o.toList ++ os)

/-- The body of a loop: calls in order, up to the first exception (src/avb/core.py:80-134). -/
def body (env : Env) (s : RL) : List (Op PV) → RL × Option Err
  | [] => (s, none)
  | op :: ops =>
    match step env s op with
    | (s1, .ok _) => body env s1 ops
    | (s1, .error e) => (s1, some e)

/-- How a loop stands: it has ended, an exception left it, or it is still running after the number of rounds looked
at (src/avb/core.py:132-134). -/
inductive End where
  | done
  | raised (e : Err)
  | running
  deriving DecidableEq

/-- `for i, x in enumerate(l): …` over a reference list (src/avb/core.py:132-134), looked at for a number of rounds:
the list, the values of `x` and how the loop stands.  `ops i x` are the calls in the body. -/
def loop (env : Env) (ops : Nat → PV → List (Op PV)) : Nat → Nat → RL → It → RL × List PV × End
  | 0, _, s, _ => (s, [], .running)
  | n + 1, i, s, it =>
    match next (deref env) s.items it with
    | (_, .stop) => (s, [], .done)
    | (_, .raised e) => (s, [], .raised e)
    | (it, .item x) =>
      match body env s (ops i x) with
      | (s, some e) => (s, [x], .raised e)
      | (s, none) =>
        let r := loop env ops n (i + 1) s it
        (r.1, x :: r.2.1, r.2.2)

/-- Several calls of `add_mob` (src/avb/bin.py:381-389), up to the first exception. -/
def addAll (s : BinFind.St) : List (Option Nat) → BinFind.St × Option Err
  | [] => (s, none)
  | m :: ms =>
    match BinFind.addMob s m with
    | (.ok _, s) => addAll s ms
    | (.error e, s) => (s, some e)

/-- `for mob in bin.mobs: …` (src/avb/bin.py:391-394) with calls of `add_mob` in the body, looked at for a number of
rounds.  `items` is a plain list; `item.mob` is `None` or a mob. -/
def mobsLoop (add : Option Nat → List (Option Nat)) : Nat → BinFind.St → It →
    BinFind.St × List (Option Nat) × End
  | 0, s, _ => (s, [], .running)
  | n + 1, s, it =>
    match next (fun m => .ok m) s.items it with
    | (_, .stop) => (s, [], .done)
    | (_, .raised e) => (s, [], .raised e)
    | (it, .item m) =>
      match addAll s (add m) with
      | (s, some e) => (s, [m], .raised e)
      | (s, none) =>
        let r := mobsLoop add n s it
        (r.1, m :: r.2.1, r.2.2)

end Avb.IterEdit
