import Verif.Model.MobID

/-
Mob ids as the `bytearray` they are: of any size, and with what an assignment that fails leaves behind.
Model/MobID.lean has the ids of 32 bytes and assignments that succeed.
-/

namespace Avb.Raw

/-- `int_from_bytes` (src/avb/utils.py:51-64) in either byte order.  (Another word for the byte order raises
`ValueError`.) -/
def intFromBytes (bo : BO) (data : Bytes) : Nat :=
  match bo with
  | .little => (data.zipIdx.map fun p => p.1.toNat <<< (p.2 * 8)).sum
  | .big => (data.zipIdx.map fun p => p.1.toNat <<< ((data.length - 1 - p.2) * 8)).sum

/-- `bytes_from_int` (src/avb/utils.py:66-73) in either byte order. -/
def bytesFromInt (bo : BO) (num : Int) (length : Nat) : Bytes :=
  match bo with
  | .little => (List.range length).map fun i => UInt8.ofNat (num / 2 ^ (i * 8) % 256).toNat
  | .big => (List.range length).map fun i => UInt8.ofNat (num / 2 ^ ((length - 1 - i) * 8) % 256).toNat

/-- The methods work on `self.bytes_le`; what they did before an exception stays. -/
abbrev Mut := EStateM Err Bytes

/-- Assignment to one item of a `bytearray` (src/avb/mobid.py:221-247): the value is looked at before the
index. -/
def setByte (i : Nat) (value : Int) : Mut Unit := fun s =>
  if 0 ≤ value ∧ value < 256 then
    if i < s.length then .ok () (s.set i (UInt8.ofNat value.toNat)) else .error .index s
  else .error .value s

/-- Bytes put over others. -/
def overwrite (s : Bytes) (off : Nat) (v : Bytes) : Bytes := s.take off ++ v ++ s.drop (off + v.length)

/-- `struct.pack_into('nB', self.bytes_le, off, *value)` (src/avb/mobid.py:215, 279) as CPython has it: the number
of values and the room are looked at first; then the place is filled with zeros and the values are stored one
after the other, up to one that is no byte. -/
def packBytes (off n : Nat) (value : List Int) : Mut Unit := fun s =>
  if value.length ≠ n then .error .struct s
  else if s.length < off + n then .error .struct s
  else
    let good := value.takeWhile fun v => decide (0 ≤ v ∧ v < 256)
    let s' := overwrite s off (good.map (fun v => UInt8.ofNat v.toNat) ++ List.replicate (n - good.length) 0)
    if good.length = n then .ok () s' else .error .struct s'

/-- `struct.pack_into('<H' or '<I', self.bytes_le, off, value)` (src/avb/mobid.py:255, 263, 271), `n` bytes, in the
same way. -/
def packWord (off n : Nat) (value : Int) : Mut Unit := fun s =>
  if s.length < off + n then .error .struct s
  else if 0 ≤ value ∧ value < 256 ^ n then .ok () (overwrite s off (leBytes n value.toNat))
  else .error .struct (overwrite s off (List.replicate n 0))

/-- Assignment to `SMPTELabel` (src/avb/mobid.py:213-215). -/
def setLabel (value : List Int) : Mut Unit := packBytes 0 12 value
/-- Assignment to `length` (src/avb/mobid.py:221-223). -/
def setLength (value : Int) : Mut Unit := setByte 12 value
/-- Assignment to `instanceHigh` (src/avb/mobid.py:229-231). -/
def setInstanceHigh (value : Int) : Mut Unit := setByte 13 value
/-- Assignment to `instanceMid` (src/avb/mobid.py:237-239). -/
def setInstanceMid (value : Int) : Mut Unit := setByte 14 value
/-- Assignment to `instanceLow` (src/avb/mobid.py:245-247). -/
def setInstanceLow (value : Int) : Mut Unit := setByte 15 value
/-- Assignment to `Data1` (src/avb/mobid.py:253-255). -/
def setData1 (value : Int) : Mut Unit := packWord 16 4 value
/-- Assignment to `Data2` (src/avb/mobid.py:261-263). -/
def setData2 (value : Int) : Mut Unit := packWord 20 2 value
/-- Assignment to `Data3` (src/avb/mobid.py:269-271). -/
def setData3 (value : Int) : Mut Unit := packWord 22 2 value
/-- Assignment to `Data4` (src/avb/mobid.py:277-279). -/
def setData4 (value : List Int) : Mut Unit := packBytes 24 8 value
/-- Assignment to `material` (src/avb/mobid.py:205-207): a slice, which takes the size of what is assigned. -/
def setMaterial (value : UUID) : Mut Unit := fun s => .ok () (s.take 16 ++ value.bytesLE)
/-- Assignment to `int` (src/avb/mobid.py:324-327): a new `bytearray`. -/
def setInt (value : Int) : Mut Unit := fun _ => .ok () (bytesFromInt .big value 32)

/-- `MobID.from_dict` (src/avb/mobid.py:281-297). -/
def fromDict (d : MobDict) : Mut Unit := do
  setLength (d.length.getD 0)
  setInstanceHigh (d.instanceHigh.getD 0)
  setInstanceMid (d.instanceMid.getD 0)
  setInstanceLow (d.instanceLow.getD 0)
  let material := d.material.getD ⟨some 0, some 0, some 0, some (List.replicate 8 0)⟩
  setData1 (material.Data1.getD 0)
  setData2 (material.Data2.getD 0)
  setData3 (material.Data3.getD 0)
  setData4 (material.Data4.getD (List.replicate 8 0))
  setLabel (d.SMPTELabel.getD (List.replicate 12 0))

/-- `MobID.__init__` (src/avb/mobid.py:178-190): `bytes_le` that are not empty are taken as they are, and then
nothing else is looked at. -/
def make (mobid : Option Text) (bytes_le : Option Bytes) (int : Option Int) : Except Err Bytes :=
  match bytes_le with
  | some (b :: bs) => .ok (b :: bs)
  | _ => do
    let m ← match mobid with
      | none => Except.ok MobID.zero.bytes
      | some t => (MobID.ofUrn t).map MobID.bytes
    match int with
    | none => return m
    | some n => return bytesFromInt .big n 32

/-- `self.bytes_le[i]` -/
def byteAt (s : Bytes) (i : Nat) : Except Err Nat :=
  match s[i]? with
  | some b => .ok b.toNat
  | none => .error .index

/-- `unpack_u16le_from` (src/avb/utils.py:84-87) -/
def u16At (s : Bytes) (i : Nat) : Except Err Nat := do
  let a ← byteAt s i
  let b ← byteAt s (i + 1)
  return a + b <<< 8

/-- `unpack_u32le_from` (src/avb/utils.py:89-94) -/
def u32At (s : Bytes) (i : Nat) : Except Err Nat := do
  let a ← byteAt s i
  let b ← byteAt s (i + 1)
  let c ← byteAt s (i + 2)
  let d ← byteAt s (i + 3)
  return a + b <<< 8 + c <<< 16 + d <<< 24

/-- `MobID.SMPTELabel` (src/avb/mobid.py:209-211) -/
def label (s : Bytes) : Bytes := s.take 12
/-- `MobID.Data4` (src/avb/mobid.py:273-275) -/
def data4 (s : Bytes) : Bytes := (s.drop 24).take 8
/-- `MobID.material` (src/avb/mobid.py:199-203): `ValueError` unless there are 16 bytes. -/
def material (s : Bytes) : Except Err UUID :=
  match uuidOfBytesLE (s.drop 16) with
  | some u => .ok u
  | none => .error .value

/-- `MobID.to_dict` (src/avb/mobid.py:299-316). -/
def toDict (s : Bytes) : Except Err MobDict := do
  let d1 ← u32At s 16
  let d2 ← u16At s 20
  let d3 ← u16At s 22
  let l ← byteAt s 12
  let h ← byteAt s 13
  let m ← byteAt s 14
  let lo ← byteAt s 15
  return { material := some { Data1 := some d1, Data2 := some d2, Data3 := some d3,
                              Data4 := some ((data4 s).map fun b => (b.toNat : Int)) }
           length := some l
           instanceHigh := some h
           instanceMid := some m
           instanceLow := some lo
           SMPTELabel := some ((label s).map fun b => (b.toNat : Int)) }

/-- `and` of tests of bytes: stops at the first that fails (src/avb/mobid.py:376-379). -/
def allBytes (s : Bytes) : List (Nat × Nat) → Except Err Bool
  | [] => .ok true
  | (i, v) :: l => do
    let b ← byteAt s i
    if b = v then allBytes s l else return false

/-- `%02x` of the bytes of a part of the id (src/avb/mobid.py:389-395, 403-411). -/
def hexBytes (s : Bytes) (start n : Nat) : Except Err (List Text) :=
  (List.range n).mapM fun i => (byteAt s (start + i)).map (fmtHex 2)

/-- `MobID.urn` (src/avb/mobid.py:364-411), and `__repr__` (src/avb/mobid.py:473-474).  `SMPTELabel` and `Data4` are
slices; an index behind their end raises as one behind the end of the id would. -/
def urn (s : Bytes) : Except Err Text := do
  let half ← allBytes s [(11, 0x00), (24, 0x06), (25, 0x0E), (26, 0x2B), (27, 0x34), (28, 0x7F), (29, 0x7F)]
  let l ← hexBytes s 0 12
  let n ← hexBytes s 12 4
  let head := urnPrefix ++ (l.take 4).flatten ++ ['.'] ++ ((l.drop 4).take 4).flatten ++ ['.'] ++
    (l.drop 8).flatten ++ ['.'] ++ n.flatten ++ ['.']
  if half then do
    let d4 ← hexBytes s 24 8
    let d1 ← u32At s 16
    let d2 ← u16At s 20
    let d3 ← u16At s 22
    return head ++ (d4.take 4).flatten ++ ['.'] ++ (d4.drop 4).flatten ++ ['.'] ++
      fmtHex 8 d1 ++ ['.'] ++ fmtHex 4 d2 ++ fmtHex 4 d3
  else do
    let d1 ← u32At s 16
    let d2 ← u16At s 20
    let d3 ← u16At s 22
    let d4 ← hexBytes s 24 8
    return head ++ fmtHex 8 d1 ++ ['.'] ++ fmtHex 4 d2 ++ fmtHex 4 d3 ++ ['.'] ++
      (d4.take 4).flatten ++ ['.'] ++ (d4.drop 4).flatten

/-- `MobID.int` and `__int__` (src/avb/mobid.py:317-330) -/
def int (s : Bytes) : Nat := intFromBytes .big s
/-- `MobID.__eq__` (src/avb/mobid.py:332-335); `__hash__` (src/avb/mobid.py:362-363) is that of the bytes. -/
def eq (a b : Bytes) : Bool := a == b
/-- `MobID.__lt__` (src/avb/mobid.py:342-345). -/
def lt (a b : Bytes) : Bool := decide (int a < int b)
/-- `MobID.__le__` (src/avb/mobid.py:347-350). -/
def le (a b : Bytes) : Bool := decide (int a ≤ int b)

/-- Something that may raise, in a writer. -/
def get {α : Type} (x : Except Err α) : Wr α :=
  match x with
  | .ok a => .ok (a, [])
  | .error e => .error e

/-- `write_mob_id` (src/avb/ioctx.py:254-273). -/
def write (bo : BO) (s : Bytes) : Wr Unit := do
  wU8 65
  wInt bo .s32 12
  forW (label s) (fun b => wU8 b.toNat)
  wU8 68
  let l ← get (byteAt s 12)
  wU8 l
  wU8 68
  let h ← get (byteAt s 13)
  wU8 h
  wU8 68
  let m ← get (byteAt s 14)
  wU8 m
  wU8 68
  let lo ← get (byteAt s 15)
  wU8 lo
  let u ← get (material s)
  wUuid bo u

end Avb.Raw
