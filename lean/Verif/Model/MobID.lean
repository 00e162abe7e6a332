import Verif.Model.IOCtx

/-
Mob ids as values: fields, integers, dictionaries and URN texts (src/avb/mobid.py).  `MobID` itself, its
32 bytes, is in Model/IOCtx.lean; the constructor accepts `bytes_le` of another length without a test
(src/avb/mobid.py:181-182); such ids, and what a refused assignment leaves behind, are in Model/RawID.lean.
-/

namespace Avb

/-- `int_from_bytes(data, byte_order='big')` (src/avb/utils.py:58-62). -/
def intFromBytes (data : Bytes) : Nat :=
  (data.zipIdx.map fun p => p.1.toNat <<< ((data.length - 1 - p.2) * 8)).sum

/-- `bytes_from_int(num, length, byte_order='big')` (src/avb/utils.py:69-71).  The integer is shifted
and masked for every byte: higher bits are dropped, and a negative integer gives the bytes of its two's
complement. -/
def bytesFromInt (num : Int) (length : Nat) : Bytes :=
  (List.range length).map fun i => UInt8.ofNat (num / 2 ^ ((length - 1 - i) * 8) % 256).toNat

/-- `MobID.int` (src/avb/mobid.py:317-322). -/
def MobID.int (m : MobID) : Nat := intFromBytes m.bytes

/-- Assignment to `MobID.int` (src/avb/mobid.py:324-327). -/
def MobID.ofInt (value : Int) : MobID := ⟨bytesFromInt value 32, by simp [bytesFromInt]⟩

/-- `MobID.__eq__` (src/avb/mobid.py:332-335); comparison with anything but a mob id is not modelled. -/
def MobID.eq (a b : MobID) : Bool := a.bytes == b.bytes
/-- `MobID.__ne__` (src/avb/mobid.py:337-340). -/
def MobID.ne (a b : MobID) : Bool := a.bytes != b.bytes
/-- `MobID.__lt__` (src/avb/mobid.py:342-345). -/
def MobID.lt (a b : MobID) : Bool := decide (a.int < b.int)
/-- `MobID.__le__` (src/avb/mobid.py:347-350). -/
def MobID.le (a b : MobID) : Bool := decide (a.int ≤ b.int)
/-- `MobID.__gt__` (src/avb/mobid.py:352-355). -/
def MobID.gt (a b : MobID) : Bool := decide (a.int > b.int)
/-- `MobID.__ge__` (src/avb/mobid.py:357-360). -/
def MobID.ge (a b : MobID) : Bool := decide (a.int ≥ b.int)

/-- The id with the bytes from `off` replaced by `v`: item and slice assignment of a `bytearray`, and
`struct.pack_into` (src/avb/mobid.py:205-279). -/
def MobID.put (m : MobID) (off : Nat) (v : Bytes) : MobID :=
  ⟨(List.range 32).map fun i => if off ≤ i ∧ i < off + v.length then v.getD (i - off) 0 else m.byteAt i,
    by simp⟩

/-- Assignment to one item of a `bytearray`, as in the setters of `length`, `instanceHigh`,
`instanceMid` and `instanceLow` (src/avb/mobid.py:221-247): `ValueError` if the value is no byte. -/
def MobID.setByte (i : Nat) (value : Int) (m : MobID) : Except Err MobID :=
  if 0 ≤ value ∧ value < 256 then .ok (m.put i [UInt8.ofNat value.toNat]) else .error .value

/-- The length field (src/avb/mobid.py:217-223). -/
def MobID.length (m : MobID) : Nat := (m.byteAt 12).toNat
/-- The high instance byte (src/avb/mobid.py:225-231). -/
def MobID.instanceHigh (m : MobID) : Nat := (m.byteAt 13).toNat
/-- The middle instance byte (src/avb/mobid.py:233-239). -/
def MobID.instanceMid (m : MobID) : Nat := (m.byteAt 14).toNat
/-- The low instance byte (src/avb/mobid.py:241-247). -/
def MobID.instanceLow (m : MobID) : Nat := (m.byteAt 15).toNat

/-- Assignment to `length` (src/avb/mobid.py:221-223). -/
def MobID.setLength (value : Int) (m : MobID) : Except Err MobID := m.setByte 12 value
/-- Assignment to `instanceHigh` (src/avb/mobid.py:229-231). -/
def MobID.setInstanceHigh (value : Int) (m : MobID) : Except Err MobID := m.setByte 13 value
/-- Assignment to `instanceMid` (src/avb/mobid.py:237-239). -/
def MobID.setInstanceMid (value : Int) (m : MobID) : Except Err MobID := m.setByte 14 value
/-- Assignment to `instanceLow` (src/avb/mobid.py:245-247). -/
def MobID.setInstanceLow (value : Int) (m : MobID) : Except Err MobID := m.setByte 15 value

/-- `struct.pack_into('nB', self.bytes_le, off, *value)` (src/avb/mobid.py:215, 279): `struct.error`
unless there are exactly `n` values that are bytes.  That a failing `pack_into` may already have
overwritten some bytes is not modelled. -/
def MobID.packBytes (off n : Nat) (value : List Int) (m : MobID) : Except Err MobID :=
  if value.length = n ∧ ∀ v ∈ value, 0 ≤ v ∧ v < 256 then
    .ok (m.put off (value.map fun v => UInt8.ofNat v.toNat))
  else .error .struct

/-- Assignment to `SMPTELabel` (src/avb/mobid.py:213-215). -/
def MobID.setLabel (value : List Int) (m : MobID) : Except Err MobID := m.packBytes 0 12 value

/-- `MobID.Data1` (src/avb/mobid.py:249-251, src/avb/utils.py:89-94). -/
def MobID.data1 (m : MobID) : Nat :=
  (m.byteAt 16).toNat + (m.byteAt 17).toNat <<< 8 + (m.byteAt 18).toNat <<< 16 + (m.byteAt 19).toNat <<< 24
/-- `MobID.Data2` (src/avb/mobid.py:257-259, src/avb/utils.py:84-87). -/
def MobID.data2 (m : MobID) : Nat := (m.byteAt 20).toNat + (m.byteAt 21).toNat <<< 8
/-- `MobID.Data3` (src/avb/mobid.py:265-267, src/avb/utils.py:84-87). -/
def MobID.data3 (m : MobID) : Nat := (m.byteAt 22).toNat + (m.byteAt 23).toNat <<< 8
/-- `MobID.Data4` (src/avb/mobid.py:273-275). -/
def MobID.data4 (m : MobID) : Bytes := (m.bytes.drop 24).take 8

/-- Assignment to `Data1` (src/avb/mobid.py:253-255). -/
def MobID.setData1 (value : Int) (m : MobID) : Except Err MobID :=
  if 0 ≤ value ∧ value < 2 ^ 32 then .ok (m.put 16 (leBytes 4 value.toNat)) else .error .struct
/-- Assignment to `Data2` (src/avb/mobid.py:261-263). -/
def MobID.setData2 (value : Int) (m : MobID) : Except Err MobID :=
  if 0 ≤ value ∧ value < 2 ^ 16 then .ok (m.put 20 (leBytes 2 value.toNat)) else .error .struct
/-- Assignment to `Data3` (src/avb/mobid.py:269-271). -/
def MobID.setData3 (value : Int) (m : MobID) : Except Err MobID :=
  if 0 ≤ value ∧ value < 2 ^ 16 then .ok (m.put 22 (leBytes 2 value.toNat)) else .error .struct
/-- Assignment to `Data4` (src/avb/mobid.py:277-279). -/
def MobID.setData4 (value : List Int) (m : MobID) : Except Err MobID := m.packBytes 24 8 value

/-- Assignment to `material` (src/avb/mobid.py:205-207). -/
def MobID.setMaterial (value : UUID) (m : MobID) : MobID := m.put 16 value.bytesLE

/-- The `material` entry of a mob id dictionary; a missing key is `none`. -/
structure MaterialDict where
  Data1 : Option Int
  Data2 : Option Int
  Data3 : Option Int
  Data4 : Option (List Int)
  deriving DecidableEq

/-- A mob id dictionary (src/avb/mobid.py:281-316); a missing key is `none`, other keys are not looked
at. -/
structure MobDict where
  material : Option MaterialDict
  length : Option Int
  instanceHigh : Option Int
  instanceMid : Option Int
  instanceLow : Option Int
  SMPTELabel : Option (List Int)
  deriving DecidableEq

/-- Method body steps on `self`: when one raises, the earlier assignments stay. -/
abbrev MobID.Mut := EStateM Err MobID

/-- One assignment statement to a field of `self`. -/
def MobID.assign (f : MobID → Except Err MobID) : MobID.Mut Unit := fun m =>
  match f m with
  | .ok m' => .ok () m'
  | .error e => .error e m

/-- `MobID.from_dict` (src/avb/mobid.py:281-297). -/
def MobID.fromDict (d : MobDict) : MobID.Mut Unit := do
  MobID.assign (MobID.setLength (d.length.getD 0))
  MobID.assign (MobID.setInstanceHigh (d.instanceHigh.getD 0))
  MobID.assign (MobID.setInstanceMid (d.instanceMid.getD 0))
  MobID.assign (MobID.setInstanceLow (d.instanceLow.getD 0))
  let material := d.material.getD ⟨some 0, some 0, some 0, some (List.replicate 8 0)⟩
  MobID.assign (MobID.setData1 (material.Data1.getD 0))
  MobID.assign (MobID.setData2 (material.Data2.getD 0))
  MobID.assign (MobID.setData3 (material.Data3.getD 0))
  MobID.assign (MobID.setData4 (material.Data4.getD (List.replicate 8 0)))
  MobID.assign (MobID.setLabel (d.SMPTELabel.getD (List.replicate 12 0)))

/-- `MobID.to_dict` (src/avb/mobid.py:299-316). -/
def MobID.toDict (m : MobID) : MobDict :=
  { material := some { Data1 := some m.data1, Data2 := some m.data2, Data3 := some m.data3,
                       Data4 := some (m.data4.map fun b => (b.toNat : Int)) }
    length := some m.length
    instanceHigh := some m.instanceHigh
    instanceMid := some m.instanceMid
    instanceLow := some m.instanceLow
    SMPTELabel := some (m.label.map fun b => (b.toNat : Int)) }

/-- `UniqueMobID`, i.e. `MobID.new()`, when `uuid.uuid4()` gives `u` (src/avb/mobid.py:154-174). -/
def MobID.new (u : UUID) : Except Err MobID := do
  let m ← MobID.zero.setLabel [0x06, 0x0a, 0x2b, 0x34, 0x01, 0x01, 0x01, 0x05, 0x01, 0x01, 0x0f, 0x20]
  let m ← m.setLength 0x13
  let m ← m.setInstanceHigh 0x00
  let m ← m.setInstanceMid 0x00
  let m ← m.setInstanceLow 0x00
  return m.setMaterial u

/-- The character of a hexadecimal digit in `%x` formatting. -/
def hexChar (n : Nat) : Char :=
  if n < 10 then Char.ofNat (48 + n) else Char.ofNat (87 + n)

/-- `'%x' % n`. -/
def hexDigits (n : Nat) : Text :=
  if n < 16 then [hexChar n] else hexDigits (n / 16) ++ [hexChar (n % 16)]

/-- `'%0wx' % n`. -/
def fmtHex (w n : Nat) : Text :=
  List.replicate (w - (hexDigits n).length) '0' ++ hexDigits n

/-- `"urn:smpte:umid:"` -/
def urnPrefix : Text := "urn:smpte:umid:".toList

/-- The test for a half swapped material number (src/avb/mobid.py:376-379). -/
def MobID.halfSwapped (m : MobID) : Bool :=
  (m.byteAt 11).toNat == 0x00 && (m.byteAt 24).toNat == 0x06 && (m.byteAt 25).toNat == 0x0E &&
    (m.byteAt 26).toNat == 0x2B && (m.byteAt 27).toNat == 0x34 && (m.byteAt 28).toNat == 0x7F &&
    (m.byteAt 29).toNat == 0x7F

/-- The part of a URN in common (src/avb/mobid.py:382-384, 388-392). -/
def MobID.urnHead (m : MobID) : Text :=
  let l := fun i => fmtHex 2 (m.byteAt i).toNat
  urnPrefix ++ l 0 ++ l 1 ++ l 2 ++ l 3 ++ ['.'] ++ l 4 ++ l 5 ++ l 6 ++ l 7 ++ ['.'] ++
    l 8 ++ l 9 ++ l 10 ++ l 11 ++ ['.'] ++ fmtHex 2 m.length ++ fmtHex 2 m.instanceHigh ++
    fmtHex 2 m.instanceMid ++ fmtHex 2 m.instanceLow ++ ['.']

/-- `MobID.urn` (src/avb/mobid.py:365-411). -/
def MobID.urn (m : MobID) : Text :=
  let l := fun i => fmtHex 2 (m.byteAt (24 + i)).toNat
  if m.halfSwapped then
    m.urnHead ++ l 0 ++ l 1 ++ l 2 ++ l 3 ++ ['.'] ++ l 4 ++ l 5 ++ l 6 ++ l 7 ++ ['.'] ++
      fmtHex 8 m.data1 ++ ['.'] ++ fmtHex 4 m.data2 ++ fmtHex 4 m.data3
  else
    m.urnHead ++ fmtHex 8 m.data1 ++ ['.'] ++ fmtHex 4 m.data2 ++ fmtHex 4 m.data3 ++ ['.'] ++
      l 0 ++ l 1 ++ l 2 ++ l 3 ++ ['.'] ++ l 4 ++ l 5 ++ l 6 ++ l 7

/-- `s.replace(pat, '')` for a pattern that is not empty (src/avb/mobid.py:415-416). -/
def removeAll (pat s : Text) : Text :=
  match s with
  | [] => []
  | c :: cs =>
    if pat.isPrefixOf (c :: cs) ∧ pat ≠ [] then removeAll pat ((c :: cs).drop pat.length)
    else c :: removeAll pat cs
  termination_by s.length
  decreasing_by
    · rename_i h
      have : 0 < pat.length := List.length_pos_iff.2 h.2
      simp only [List.length_drop, List.length_cons]; omega
    · simp

/-- The value of a hexadecimal digit. -/
def hexVal (c : Char) : Option Nat :=
  if '0' ≤ c ∧ c ≤ '9' then some (c.toNat - 48)
  else if 'a' ≤ c ∧ c ≤ 'f' then some (c.toNat - 87)
  else if 'A' ≤ c ∧ c ≤ 'F' then some (c.toNat - 55)
  else none

/-- White space skipped by `int`. -/
def isSpaceC (c : Char) : Bool := c == ' ' || ('\t' ≤ c && c ≤ '\r')

/-- Digits with single underscores between them, after a value `n`; `us` tells that the last character
was an underscore. -/
def hexRun (n : Nat) (us : Bool) : Text → Option Nat
  | [] => if us then none else some n
  | c :: cs =>
    if c = '_' then (if us then none else hexRun n true cs)
    else match hexVal c with
      | some v => hexRun (n * 16 + v) false cs
      | none => none

/-- The digits of a number, which must not be missing or begin with an underscore. -/
def hexNumber : Text → Option Nat
  | [] => none
  | c :: cs => match hexVal c with
    | some v => hexRun v false cs
    | none => none

/-- The digits after the sign, with an optional `0x` that may be followed by an underscore. -/
def hexLiteral (s : Text) : Option Nat :=
  match s with
  | '0' :: 'x' :: '_' :: cs => hexNumber cs
  | '0' :: 'x' :: cs => hexNumber cs
  | '0' :: 'X' :: '_' :: cs => hexNumber cs
  | '0' :: 'X' :: cs => hexNumber cs
  | cs => hexNumber cs

/-- `int(v, 16)` for a text without `-` (src/avb/mobid.py:423-470), `ValueError` if it is not a number.
White space around it, a plus sign, a prefix `0x` and underscores between digits are accepted as CPython
does.  Characters outside ASCII are refused here; CPython also accepts the decimal digits and white
space of other scripts. -/
def pyIntHex (v : Text) : Except Err Nat :=
  let v := ((v.dropWhile isSpaceC).reverse.dropWhile isSpaceC).reverse
  let r := match v with
    | '+' :: cs => hexLiteral cs
    | cs => hexLiteral cs
  match r with
  | some n => .ok n
  | none => .error .value

/-- `s[a:b]` -/
def sliceT (s : Text) (a b : Nat) : Text := (s.drop a).take (b - a)

/-- A local computation that may raise. -/
def MobID.lift {α : Type} (x : Except Err α) : MobID.Mut α := fun m =>
  match x with
  | .ok a => .ok a m
  | .error e => .error e m

/-- `n` two digit numbers from position `start` on (src/avb/mobid.py:419-425, 433-438, 446-451,
464-469). -/
def MobID.hexPairs (s : Text) (start : Nat) : Nat → Except Err (List Nat)
  | 0 => .ok []
  | n + 1 => do
    let v ← pyIntHex (sliceT s start (start + 2))
    let vs ← MobID.hexPairs s (start + 2) n
    return v :: vs

/-- The text with everything but the digits removed (src/avb/mobid.py:414-416).  `lower` is modelled for
ASCII. -/
def urnClean (value : Text) : Text :=
  let s := value.map Char.toLower
  let s := removeAll urnPrefix s
  let s := removeAll ['.'] s
  let s := removeAll ['-'] s
  removeAll ['0', 'x'] s

/-- Assignment to `MobID.urn` (src/avb/mobid.py:413-471); `int` results are given to the setters. -/
def MobID.setUrn (value : Text) : MobID.Mut Unit := do
  let s := urnClean value
  MobID.lift (if s.length = 64 then .ok () else .error .assertion)
  let label ← MobID.lift (MobID.hexPairs s 0 12)
  MobID.assign (MobID.setLabel (label.map Int.ofNat))
  let v ← MobID.lift (pyIntHex (sliceT s 24 26))
  MobID.assign (MobID.setLength v)
  let v ← MobID.lift (pyIntHex (sliceT s 26 28))
  MobID.assign (MobID.setInstanceHigh v)
  let v ← MobID.lift (pyIntHex (sliceT s 28 30))
  MobID.assign (MobID.setInstanceMid v)
  let v ← MobID.lift (pyIntHex (sliceT s 30 32))
  MobID.assign (MobID.setInstanceLow v)
  let data ← MobID.lift (MobID.hexPairs s 32 6)
  if label[11]? = some 0 ∧ data = [0x06, 0x0E, 0x2B, 0x34, 0x7F, 0x7F] then
    let data4 ← MobID.lift (MobID.hexPairs s 32 8)
    MobID.assign (MobID.setData4 (data4.map Int.ofNat))
    let v ← MobID.lift (pyIntHex (sliceT s 48 56))
    MobID.assign (MobID.setData1 v)
    let v ← MobID.lift (pyIntHex (sliceT s 56 60))
    MobID.assign (MobID.setData2 v)
    let v ← MobID.lift (pyIntHex (sliceT s 60 64))
    MobID.assign (MobID.setData3 v)
  else
    let v ← MobID.lift (pyIntHex (sliceT s 32 40))
    MobID.assign (MobID.setData1 v)
    let v ← MobID.lift (pyIntHex (sliceT s 40 44))
    MobID.assign (MobID.setData2 v)
    let v ← MobID.lift (pyIntHex (sliceT s 44 48))
    MobID.assign (MobID.setData3 v)
    let data4 ← MobID.lift (MobID.hexPairs s 48 8)
    MobID.assign (MobID.setData4 (data4.map Int.ofNat))

/-- `MobID(text)` (src/avb/mobid.py:178-186). -/
def MobID.ofUrn (value : Text) : Except Err MobID :=
  match MobID.setUrn value MobID.zero with
  | .ok _ m => .ok m
  | .error e _ => .error e

end Avb
