import Verif.Model.Essence

/-
src/avb/attributes.py: attribute dictionaries, parameter lists and time crumb lists.
-/

namespace Avb

/-- A value stored in an `Attributes` dictionary, by the type tests of `Attributes.write`
(src/avb/attributes.py:105-115).  `bool` values are `int`s; `None` is the reference `0`. -/
inductive AttrVal where
  /-- `int` -/
  | int (v : Int)
  /-- `str` -/
  | str (v : Text)
  /-- an object, or `None` -/
  | obj (v : Ref)
  /-- `bytearray` -/
  | bob (v : Bytes)
  /-- `bytes`, which cannot be written -/
  | raw (v : Bytes)
  deriving DecidableEq

/-- `d[key] = value` on an `OrderedDict`: an existing key keeps its place, a new key goes to the
end (src/avb/attributes.py:36-38). -/
def dictSet {α : Type} (l : List (Text × α)) (k : Text) (v : α) : List (Text × α) :=
  match l with
  | [] => [(k, v)]
  | p :: l => if p.1 = k then (k, v) :: l else p :: dictSet l k v

/-- `Attributes` (src/avb/attributes.py:22-25): the items of the dictionary in order. -/
structure Attributes where
  items : List (Text × AttrVal)
  deriving DecidableEq

/-- One attribute of `Attributes.read` (src/avb/attributes.py:77-90). -/
def Attributes.readItem (d : RCtx) : Rd (Text × AttrVal) := do
  let attr_type ← rInt d.bo .u32
  let attr_name ← rStr d.bo .macroman
  if attr_type = 1 then do
    let v ← rInt d.bo .s32
    return (attr_name, .int v)
  else if attr_type = 2 then do
    let v ← rStr d.bo .macroman
    return (attr_name, .str v)
  else if attr_type = 3 then do
    let v ← rRef d
    return (attr_name, .obj v)
  else if attr_type = 4 then do
    let size ← rInt d.bo .u32
    let v ← fread size
    return (attr_name, .bob v)
  else Rd.fail .exception

/-- `Attributes.read` (src/avb/attributes.py:68-94). -/
def Attributes.read (d : RCtx) : Rd Attributes := do
  rTag 0x02
  rTag 0x01
  let count ← rInt d.bo .u32
  let items ← readN count.toNat (Attributes.readItem d)
  rTag 0x03
  return { items := items.foldl (fun l p => dictSet l p.1 p.2) [] }

/-- One attribute of `Attributes.write` (src/avb/attributes.py:103-128). -/
def Attributes.writeItem (c : WCtx) (p : Text × AttrVal) : Wr Unit :=
  match p.2 with
  | .int v => do
    wInt c.bo .u32 1
    wStr c.bo .macroman p.1
    wInt c.bo .s32 v
  | .str v => do
    wInt c.bo .u32 2
    wStr c.bo .macroman p.1
    wStr c.bo .macroman v
  | .obj v => do
    wInt c.bo .u32 3
    wStr c.bo .macroman p.1
    wRef c v
  | .bob v => do
    wInt c.bo .u32 4
    wStr c.bo .macroman p.1
    wInt c.bo .u32 v.length
    Wr.emit v
  | .raw _ => Wr.fail .value

/-- `Attributes.write` (src/avb/attributes.py:96-130). -/
def Attributes.write (c : WCtx) (x : Attributes) : Wr Unit := do
  wU8 0x02
  wU8 0x01
  wInt c.bo .u32 x.items.length
  forW x.items (Attributes.writeItem c)
  wU8 0x03

/-- `ParameterList` (src/avb/attributes.py:133-135). -/
structure ParameterList where
  items : List Ref
  deriving DecidableEq

/-- `ParameterList.read` (src/avb/attributes.py:136-146). -/
def ParameterList.read (d : RCtx) : Rd ParameterList := do
  rTag 0x02
  rTag 0x01
  let count ← rInt d.bo .s32
  let items ← readN count.toNat (rRef d)
  rTag 0x03
  return { items }

/-- `ParameterList.write` (src/avb/attributes.py:148-157). -/
def ParameterList.write (c : WCtx) (x : ParameterList) : Wr Unit := do
  wU8 0x02
  wU8 0x01
  wInt c.bo .s32 x.items.length
  forW x.items (wRef c)
  wU8 0x03

/-- `TimeCrumbList` (src/avb/attributes.py:160-162). -/
structure TimeCrumbList where
  items : List Ref
  deriving DecidableEq

/-- `TimeCrumbList.read` (src/avb/attributes.py:164-174). -/
def TimeCrumbList.read (d : RCtx) : Rd TimeCrumbList := do
  rTag 0x02
  rTag 0x01
  let count ← rInt d.bo .s16
  let items ← readN count.toNat (rRef d)
  rTag 0x03
  return { items }

/-- `TimeCrumbList.write` (src/avb/attributes.py:176-185). -/
def TimeCrumbList.write (c : WCtx) (x : TimeCrumbList) : Wr Unit := do
  wU8 0x02
  wU8 0x01
  wInt c.bo .s16 x.items.length
  forW x.items (wRef c)
  wU8 0x03

end Avb
