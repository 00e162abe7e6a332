import Verif.Model.Text
import Verif.Model.Rate

/-
The remaining field kinds of `AVBIOContext`: references, identifiers, timestamps, rectangles,
colours, doubles, four character codes.
-/

namespace Avb

/-- An object reference: the instance id of the referenced object, `0` for `None`
(src/avb/utils.py:14-49, src/avb/ioctx.py:176-193). -/
abbrev Ref := Nat

/-- What a writer can see of its file: `octx.byte_order` and `ref_mapping`
(src/avb/file.py:348-362).  `debug_copy_refs` is `False` (its default, src/avb/file.py:106). -/
structure WCtx where
  bo : BO
  refMap : Nat → Option Nat

/-- What a reader can see of its file: `ictx.byte_order` and `len(object_positions)`
(src/avb/file.py:172, src/avb/utils.py:37-41).  `check_refs` is `True` (its default,
src/avb/file.py:105). -/
structure RCtx where
  bo : BO
  nobj : Nat

/-- `write_object_ref` (src/avb/ioctx.py:183-193). -/
def wRef (c : WCtx) (r : Ref) : Wr Unit :=
  if r = 0 then wInt c.bo .u32 0
  else
    match c.refMap r with
    | none => Wr.fail .exception
    | some k => wInt c.bo .u32 k

/-- `self.x` for a property that may be absent: `AttributeError` when it is
(src/avb/core.py:208-213). -/
def Wr.get {α : Type} (o : Option α) : Wr α :=
  match o with
  | some a => Wr.pure a
  | none => Wr.fail .attribute

/-- `read_string(f) or None` (src/avb/components.py:49-50). -/
def orNone (t : Text) : Option Text := if t = [] then none else some t

/-- `read_object_ref` (src/avb/ioctx.py:176-181) with `AVBObjectRef.valid` (src/avb/utils.py:37-41). -/
def rRef (c : RCtx) : Rd Ref := do
  let i ← rInt c.bo .u32
  Rd.guard (i.toNat < c.nobj) .value
  return i.toNat

/-- A Python float stored by `struct.pack('<d')`: its 64 bits, not interpreted. -/
structure F64 where
  bits : UInt64
  deriving DecidableEq, Repr

/-- `write_double_le` / `write_double_be` (src/avb/ioctx.py:380-386, 451-457); both use the format
`<d`, so the byte order of the context is ignored. -/
def wDouble (d : F64) : Wr Unit := wInt .little .u64 d.bits.toNat

/-- `read_double_le` / `read_double_be` (src/avb/ioctx.py:380-386, 451-457), both `<d`. -/
def rDouble : Rd F64 := do
  let n ← rInt .little .u64
  return ⟨UInt64.ofNat n.toNat⟩

/-- The bits of the double nearest to a natural number, of two equally near ones that with the even mantissa
(CPython `PyLong_AsDouble`); numbers that are too large give the bits of infinity or more. -/
def roundBits (n : Nat) : Nat :=
  if n = 0 then 0
  else if n.log2 ≤ 52 then (n.log2 + 1022) * 2 ^ 52 + n * 2 ^ (52 - n.log2)
  else
    let s := n.log2 - 52
    let q := n / 2 ^ s
    let r := n % 2 ^ s
    (n.log2 + 1022) * 2 ^ 52 + if 2 ^ s < 2 * r ∨ (2 * r = 2 ^ s ∧ q % 2 = 1) then q + 1 else q

/-- `float(v)` of an int; nothing where it raises `OverflowError`. -/
def F64.ofInt (v : Int) : Option F64 :=
  if roundBits v.natAbs < 2047 * 2 ^ 52 then
    some ⟨UInt64.ofNat (roundBits v.natAbs + if v < 0 then 2 ^ 63 else 0)⟩
  else none

/-- `write_double` of an int (src/avb/ioctx.py:380-386, 451-457): `struct.pack('<d', v)` converts it, and
raises `struct.error` if it is too large. -/
def wDoubleInt (v : Int) : Wr Unit :=
  match F64.ofInt v with
  | some d => wDouble d
  | none => Wr.fail .struct

/-- `uuid.UUID`: the 16 bytes of `UUID.bytes`. -/
structure UUID where
  bytes : Bytes
  len : bytes.length = 16
  deriving DecidableEq

instance : Repr UUID := ⟨fun u n => reprPrec u.bytes n⟩

/-- Reverse the first three fields (4, 2 and 2 bytes) of a UUID: converts `UUID.bytes` to
`UUID.bytes_le` and back (CPython `uuid.UUID.bytes_le`). -/
def swapUuid (b : Bytes) : Bytes :=
  (b.take 4).reverse ++ ((b.drop 4).take 2).reverse ++ ((b.drop 6).take 2).reverse ++ b.drop 8

/-- `UUID(bytes=data)`: `ValueError` unless there are 16 bytes. -/
def uuidOfBytes (data : Bytes) : Option UUID :=
  if h : data.length = 16 then some ⟨data, h⟩ else none

/-- `UUID(bytes_le=data)`: `ValueError` unless there are 16 bytes. -/
def uuidOfBytesLE (data : Bytes) : Option UUID :=
  if data.length = 16 then uuidOfBytes (swapUuid data) else none

/-- `UUID.bytes_le` -/
def UUID.bytesLE (u : UUID) : Bytes := swapUuid u.bytes

/-- `UUID.time_low` -/
def UUID.timeLow (u : UUID) : Nat := unpackNat .big (u.bytes.take 4)
/-- `UUID.time_mid` -/
def UUID.timeMid (u : UUID) : Nat := unpackNat .big ((u.bytes.drop 4).take 2)
/-- `UUID.time_hi_version` -/
def UUID.timeHi (u : UUID) : Nat := unpackNat .big ((u.bytes.drop 6).take 2)

/-- Lift `None` results of constructors to a raised exception. -/
def Rd.ofOption {α : Type} (o : Option α) (e : Err) : Rd α :=
  match o with
  | some a => Rd.pure a
  | none => Rd.fail e

/-- `UUID(bytes_le=..)` or `UUID(bytes=..)` depending on the byte order
(src/avb/ioctx.py:211-214, 276-279). -/
def uuidOf (bo : BO) (data : Bytes) : Option UUID :=
  match bo with
  | .little => uuidOfBytesLE data
  | .big => uuidOfBytes data

/-- `read_uuid` (src/avb/ioctx.py:195-214). -/
def rUuid (bo : BO) : Rd UUID := do
  rTag 72
  let d1 ← fread 4
  rTag 70
  let d2 ← fread 2
  rTag 70
  let d3 ← fread 2
  rTag 65
  let n ← rInt bo .s32
  Rd.guard (n = 8) .assertion
  let d4 ← fread 8
  Rd.ofOption (uuidOf bo (d1 ++ d2 ++ d3 ++ d4)) .value

/-- `write_uuid` (src/avb/ioctx.py:216-229). -/
def wUuid (bo : BO) (u : UUID) : Wr Unit := do
  wU8 72
  wInt bo .u32 u.timeLow
  wU8 70
  wInt bo .u16 u.timeMid
  wU8 70
  wInt bo .u16 u.timeHi
  wU8 65
  wInt bo .s32 8
  match bo with
  | .little => Wr.emit (u.bytesLE.drop 8)
  | .big => Wr.emit (u.bytes.drop 8)

/-- `read_raw_uuid` (src/avb/ioctx.py:275-279). -/
def rRawUuid (bo : BO) : Rd UUID := do
  let d ← fread 16
  Rd.ofOption (uuidOf bo d) .value

/-- `write_raw_uuid` (src/avb/ioctx.py:281-285). -/
def wRawUuid (bo : BO) (u : UUID) : Wr Unit :=
  match bo with
  | .little => Wr.emit u.bytesLE
  | .big => Wr.emit u.bytes

/-- `MobID`: its 32 bytes `bytes_le` (src/avb/mobid.py:176-189). -/
structure MobID where
  bytes : Bytes
  len : bytes.length = 32
  deriving DecidableEq

instance : Repr MobID := ⟨fun u n => reprPrec u.bytes n⟩

/-- `MobID()`: 32 zero bytes (src/avb/mobid.py:183). -/
def MobID.zero : MobID := ⟨List.replicate 32 0, rfl⟩

instance : Inhabited MobID := ⟨MobID.zero⟩

/-- `MobID.SMPTELabel` (src/avb/mobid.py:210-211). -/
def MobID.label (m : MobID) : Bytes := m.bytes.take 12
/-- The byte at offset `i` (src/avb/mobid.py:217-247: length 12, instanceHigh 13, instanceMid 14,
instanceLow 15). -/
def MobID.byteAt (m : MobID) (i : Nat) : UInt8 := m.bytes.getD i 0

/-- `MobID.material` (src/avb/mobid.py:199-203). -/
def MobID.material (m : MobID) : UUID :=
  ⟨swapUuid (m.bytes.drop 16), by
    simp [swapUuid, m.len]⟩

/-- The mob id with the given label, length, instance bytes and material: the field assignments of
`read_mob_id` on a fresh `MobID` (src/avb/ioctx.py:232-252). -/
def MobID.mk' (label : List UInt8) (l h m lo : UInt8) (u : UUID) : Option MobID :=
  let b := label ++ [l, h, m, lo] ++ u.bytesLE
  if hb : b.length = 32 then some ⟨b, hb⟩ else none

/-- `read_u8` as a byte. -/
def rByte : Rd UInt8 := do
  let v ← rU8
  return UInt8.ofNat v.toNat

/-- `read_mob_id` (src/avb/ioctx.py:231-252). -/
def rMobId (bo : BO) : Rd MobID := do
  rTag 65
  let n ← rInt bo .s32
  Rd.guard (n = 12) .assertion
  let label ← readN 12 rByte
  rTag 68
  let l ← rByte
  rTag 68
  let h ← rByte
  rTag 68
  let m ← rByte
  rTag 68
  let lo ← rByte
  let u ← rUuid bo
  Rd.ofOption (MobID.mk' label l h m lo u) .struct

/-- `write_mob_id` (src/avb/ioctx.py:254-273). -/
def wMobId (bo : BO) (m : MobID) : Wr Unit := do
  wU8 65
  wInt bo .s32 12
  forW m.label (fun b => wU8 b.toNat)
  wU8 68
  wU8 (m.byteAt 12).toNat
  wU8 68
  wU8 (m.byteAt 13).toNat
  wU8 68
  wU8 (m.byteAt 14).toNat
  wU8 68
  wU8 (m.byteAt 15).toNat
  wUuid bo m.material

/-- The two 32 bit halves written next to a mob id for old readers (src/avb/components.py:298-299 and
every other `write` that stores a mob id). -/
def MobID.lo (m : MobID) : Int := (m.material.timeLow : Int)
/-- see `MobID.lo` -/
def MobID.hi (m : MobID) : Int := (m.material.timeMid : Int) + ((m.material.timeHi * 65536 : Nat) : Int)

/-- `read_datetime` (src/avb/ioctx.py:287-288).  Date values are modelled by their Unix timestamp;
the local-time conversions `fromtimestamp`/`mktime` (src/avb/ioctx.py:93-95) are not modelled. -/
def rDate (bo : BO) : Rd Int := rInt bo .u32
/-- `write_datetime` (src/avb/ioctx.py:290-291). -/
def wDate (bo : BO) (t : Int) : Wr Unit := wInt bo .u32 t

/-- Four 16 bit rectangle coordinates. -/
structure Rect where
  a : Int
  b : Int
  c : Int
  d : Int
  deriving DecidableEq, Repr

/-- `read_rect` (src/avb/ioctx.py:293-302). -/
def rRect (bo : BO) : Rd Rect := do
  let version ← rInt bo .s16
  Rd.guard (version = 1) .assertion
  let a ← rInt bo .s16
  let b ← rInt bo .s16
  let c ← rInt bo .s16
  let d ← rInt bo .s16
  return ⟨a, b, c, d⟩

/-- `write_rect` (src/avb/ioctx.py:304-309). -/
def wRect (bo : BO) (v : Rect) : Wr Unit := do
  wInt bo .s16 1
  wInt bo .s16 v.a
  wInt bo .s16 v.b
  wInt bo .s16 v.c
  wInt bo .s16 v.d

/-- Three 16 bit colour components. -/
structure RGB where
  r : Int
  g : Int
  b : Int
  deriving DecidableEq, Repr

/-- `read_rgb_color` (src/avb/ioctx.py:311-318). -/
def rRgb (bo : BO) : Rd RGB := do
  let version ← rInt bo .s16
  Rd.guard (version = 1) .assertion
  let r ← rInt bo .u16
  let g ← rInt bo .u16
  let b ← rInt bo .u16
  return ⟨r, g, b⟩

/-- `write_rgb_color` (src/avb/ioctx.py:320-324). -/
def wRgb (bo : BO) (v : RGB) : Wr Unit := do
  wInt bo .s16 1
  wInt bo .u16 v.r
  wInt bo .u16 v.g
  wInt bo .u16 v.b

/-- `read_fourcc_le` / `read_fourcc_be` (src/avb/ioctx.py:388-395, 459-466). -/
def rFourcc (bo : BO) : Rd Bytes := do
  let d ← fread 4
  match bo with
  | .little => return d.reverse
  | .big => return d

/-- `write_fourcc_le` / `write_fourcc_be` (src/avb/ioctx.py:388-395, 459-466). -/
def wFourcc (bo : BO) (s : Bytes) : Wr Unit := do
  Wr.guard (s.length = 4) .assertion
  match bo with
  | .little => Wr.emit s.reverse
  | .big => Wr.emit s

end Avb
