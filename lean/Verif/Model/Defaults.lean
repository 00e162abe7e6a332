import Verif.Model.NewFile

/-!
Lists and dictionaries that the class definitions hold as default values.  `AVBObject.__init__` puts the very
same Python object into every new instance.  The state is that of a whole process, with the objects of all
files in it.
-/
namespace Avb.Defaults

/-- The properties with a mutable default, and the dictionaries in the columns of a bin view
(src/avb/bin.py:55-73, 212-214, src/avb/essence.py:535-536). -/
inductive Slot where
  | home_rect
  | background_color
  | forground_color
  | aspect_ratio
  | line_map
  | column (i : Fin 17)
  deriving DecidableEq

/-- A list of numbers or a column dictionary (src/avb/bin.py:55-73, 212-214, src/avb/essence.py:535-536). -/
inductive Val where
  | ints (l : List Int)
  | column (c : BinColumn)
  deriving DecidableEq

/-- The defaults as they are written in the class definitions (src/avb/bin.py:55-73, 212-214,
src/avb/essence.py:535-536). -/
def Slot.literal : Slot → Val
  | .home_rect => .ints [0, 0, 300, 600]
  | .background_color => .ints [45568, 45568, 45568]
  | .forground_color => .ints [3328, 3328, 3328]
  | .aspect_ratio => .ints [16, 9]
  | .line_map => .ints [42, 0]
  | .column i => .column (Work.default_bin_columns[i.1]'(by simp [Work.default_bin_columns]))

/-- Where the default is in memory: made once, when the modules are imported (src/avb/core.py:18-24). -/
def Slot.cell : Slot → Nat
  | .home_rect => 0
  | .background_color => 1
  | .forground_color => 2
  | .aspect_ratio => 3
  | .line_map => 4
  | .column i => 5 + i

/-- Is it a dictionary in the list of columns?  `copy` makes new lists but keeps the dictionaries
(src/avb/core.py:233-240). -/
def Slot.isColumn : Slot → Bool
  | .column _ => true
  | _ => false

/-- What the constructor of a class fills with defaults (src/avb/core.py:178-182, src/avb/bin.py:83-90,
src/avb/essence.py:523, 988, 1068, 1126, 1187). -/
def Slot.inClass (s : Slot) (k : Cls) : Bool :=
  match s with
  | .home_rect | .background_color | .forground_color => k = .ABIN
  | .aspect_ratio | .line_map => k ∈ [.DIDD, .CDCI, .MPGI, .JPED, .RGBA]
  | .column _ => k = .BVst

/-- The memory: values by address, and for each object, numbered as they were made, its class and the
addresses of its values (`property_data`, src/avb/core.py:166-176). -/
structure Mem where
  cells : Nat → Val
  fresh : Nat
  count : Nat
  cls : Nat → Cls
  attrs : Nat → Slot → Option Nat

/-- After the import of the modules (src/avb/core.py:18-24). -/
def start : Mem where
  cells := fun c => if c = 0 then Slot.home_rect.literal else if c = 1 then Slot.background_color.literal
    else if c = 2 then Slot.forground_color.literal else if c = 3 then Slot.aspect_ratio.literal
    else if c = 4 then Slot.line_map.literal
    else if h : c - 5 < 17 then (Slot.column ⟨c - 5, h⟩).literal else .ints []
  fresh := 22
  count := 0
  cls := fun _ => .ATTR
  attrs := fun _ _ => none

/-- `create.N()` (src/avb/file.py:67-85, src/avb/core.py:178-182). -/
def make (m : Mem) (k : Cls) : Mem :=
  { m with
    count := m.count + 1
    cls := fun a => if a = m.count then k else m.cls a
    attrs := fun a s => if a = m.count then (if s.inClass k then some s.cell else none) else m.attrs a s }

/-- The start of loading an object, which does not run `__init__` (src/avb/file.py:289-295); what `read` puts
into it are assignments. -/
def load (m : Mem) (k : Cls) : Mem :=
  { m with
    count := m.count + 1
    cls := fun a => if a = m.count then k else m.cls a
    attrs := fun a s => if a = m.count then none else m.attrs a s }

/-- `obj.name = [...]`, `view.columns[i] = {...}` with a new value (src/avb/core.py:199-204; src/avb/bin.py:98-106,
297-300, src/avb/essence.py:590-597). -/
def assign (m : Mem) (a : Nat) (s : Slot) (v : Val) : Mem :=
  { m with
    cells := fun c => if c = m.fresh then v else m.cells c
    fresh := m.fresh + 1
    attrs := fun b t => if b = a ∧ t = s then some m.fresh else m.attrs b t }

/-- `obj.name[j] = x`, `obj.name.append(x)`, `view.columns[i]['type'] = x`: a change in place, `v` is the value
after it (Python; no code of /repo is run but `__getattr__`, src/avb/core.py:206-209, which raises if there
is no value). -/
def edit (m : Mem) (a : Nat) (s : Slot) (v : Val) : Mem :=
  match m.attrs a s with
  | some c => { m with cells := fun d => if d = c then v else m.cells d }
  | none => m

/-- `obj.copy(root)` (src/avb/core.py:217-243): the constructor is run, then every property is replaced: lists
by new lists with the same elements, so dictionaries are kept. -/
def copy (m : Mem) (a : Nat) : Mem :=
  { m with
    count := m.count + 1
    cls := fun b => if b = m.count then m.cls a else m.cls b
    cells := fun d => if m.fresh ≤ d then
      (if d = m.fresh then (m.attrs a .home_rect).elim (m.cells d) m.cells
       else if d = m.fresh + 1 then (m.attrs a .background_color).elim (m.cells d) m.cells
       else if d = m.fresh + 2 then (m.attrs a .forground_color).elim (m.cells d) m.cells
       else if d = m.fresh + 3 then (m.attrs a .aspect_ratio).elim (m.cells d) m.cells
       else if d = m.fresh + 4 then (m.attrs a .line_map).elim (m.cells d) m.cells
       else m.cells d) else m.cells d
    fresh := m.fresh + 5
    attrs := fun b s =>
      if b = m.count then
        (match m.attrs a s with
         | some c => if s.isColumn then some c else some (m.fresh + s.cell)
         | none => if s.isColumn then none else if s.inClass (m.cls a) then some s.cell else none)
      else m.attrs b s }

/-- What happens (the user's side).  Objects are named by the order in which they were made. -/
inductive Event where
  | make (k : Cls)
  | load (k : Cls)
  | assign (a : Nat) (s : Slot) (v : Val)
  | edit (a : Nat) (s : Slot) (v : Val)
  | copy (a : Nat)

/-- One step; objects that were not made cannot be used (the user's side). -/
def step (m : Mem) : Event → Mem
  | .make k => make m k
  | .load k => load m k
  | .assign a s v => if a < m.count then assign m a s v else m
  | .edit a s v => if a < m.count then edit m a s v else m
  | .copy a => if a < m.count then copy m a else m

/-- A history, the last event first (the user's side). -/
def run : List Event → Mem
  | [] => start
  | e :: es => step (run es) e

/-- What the program sees (src/avb/core.py:206-209). -/
def val (m : Mem) (a : Nat) (s : Slot) : Option Val := (m.attrs a s).map m.cells

end Avb.Defaults
