import Verif.Model.Basic

/-
Fixed width integers (`struct.pack` / `struct.unpack`), tags, booleans.
-/

namespace Avb

/-- The `struct` integer formats used: `B b H h I i Q q` (src/avb/ioctx.py:98-113, 328-466). -/
inductive IntTy where
  | u8 | s8 | u16 | s16 | u32 | s32 | u64 | s64
  deriving DecidableEq, Repr

namespace IntTy

/-- Field width in bytes (`struct.calcsize`). -/
def width : IntTy → Nat
  | u8 | s8 => 1
  | u16 | s16 => 2
  | u32 | s32 => 4
  | u64 | s64 => 8

/-- Lower case `struct` format letters are signed. -/
def signed : IntTy → Bool
  | u8 | u16 | u32 | u64 => false
  | s8 | s16 | s32 | s64 => true

/-- Smallest value `struct.pack` accepts. -/
def lo (t : IntTy) : Int := if t.signed then -(2 ^ (8 * t.width - 1) : Int) else 0

/-- Largest value `struct.pack` accepts. -/
def hi (t : IntTy) : Int :=
  if t.signed then (2 ^ (8 * t.width - 1) : Int) - 1 else (2 ^ (8 * t.width) : Int) - 1

end IntTy

/-- `n` bytes, least significant first (`struct.pack('<..')`). -/
def leBytes : Nat → Nat → Bytes
  | 0, _ => []
  | n + 1, v => UInt8.ofNat (v % 256) :: leBytes n (v / 256)

/-- Value of bytes, least significant first (`struct.unpack('<..')`). -/
def leVal : Bytes → Nat
  | [] => 0
  | b :: bs => b.toNat + 256 * leVal bs

/-- `struct.pack` byte layout for an unsigned value: `<` or `>`. -/
def packNat (bo : BO) (n v : Nat) : Bytes :=
  match bo with
  | .little => leBytes n v
  | .big => (leBytes n v).reverse

/-- `struct.unpack` for an unsigned value: `<` or `>`. -/
def unpackNat (bo : BO) (bs : Bytes) : Nat :=
  match bo with
  | .little => leVal bs
  | .big => leVal bs.reverse

/-- `write_u8` … `write_s64be` (src/avb/ioctx.py:103-104, 112-113, 328-466): `struct.pack` raises
`struct.error` when the value does not fit; negative values are stored in two's complement. -/
def wInt (bo : BO) (t : IntTy) (v : Int) : Wr Unit :=
  if t.lo ≤ v ∧ v ≤ t.hi then
    Wr.emit (packNat bo t.width (v % (2 ^ (8 * t.width) : Int)).toNat)
  else Wr.fail .struct

/-- `read_u8` … `read_s64be` (src/avb/ioctx.py:98-100, 107-109, 328-466): `f.read(width)` followed by
`struct.unpack`, which raises `struct.error` on a short read. -/
def rInt (bo : BO) (t : IntTy) : Rd Int := fun bs =>
  if bs.length < t.width then .error .struct
  else
    let n := unpackNat bo (bs.take t.width)
    let v : Int := if t.signed = true ∧ 2 ^ (8 * t.width - 1) ≤ n then
        (n : Int) - (2 ^ (8 * t.width) : Int) else (n : Int)
    .ok (v, bs.drop t.width)

/-- `write_u8` with a literal or UInt8 value (src/avb/ioctx.py:102-104). -/
abbrev wU8 (v : Int) : Wr Unit := wInt .little .u8 v
/-- `read_u8` (src/avb/ioctx.py:97-100). -/
abbrev rU8 : Rd Int := rInt .little .u8
/-- `write_s8` (src/avb/ioctx.py:111-113). -/
abbrev wS8 (v : Int) : Wr Unit := wInt .little .s8 v
/-- `read_s8` (src/avb/ioctx.py:106-109). -/
abbrev rS8 : Rd Int := rInt .little .s8

/-- `read_bool` (src/avb/ioctx.py:115-117). -/
def rBool : Rd Bool := do
  let v ← rU8
  return v == 1

/-- `write_bool` (src/avb/ioctx.py:119-124). -/
def wBool (b : Bool) : Wr Unit := if b then wU8 1 else wU8 0

/-- `read_assert_tag` (src/avb/ioctx.py:66-70). -/
def rTag (t : Int) : Rd Unit := do
  let v ← rU8
  Rd.guard (v = t) .assertion

/-- `iter_ext` (src/avb/ioctx.py:72-82) together with the `for tag in ctx.iter_ext(f):` loop around
it.  `body tag s` is the loop body updating the loop state `s`.  The Python loop consumes two bytes
per iteration before the body runs; the body can only move the cursor forward, which the guard
`rest.length ≤ bs2.length` records (the error branch is unreachable for bodies that only read
forward, which all modelled bodies do). -/
def iterExt {σ : Type} (body : Int → σ → Rd σ) (s : σ) : Rd σ := fun bs =>
  match bs with
  | [] => .error .struct
  | b :: bs1 =>
    if b ≠ 1 then .ok (s, b :: bs1)
    else
      match bs1 with
      | [] => .error .struct
      | tag :: bs2 =>
        match body tag.toNat s bs2 with
        | .error e => .error e
        | .ok (s', rest) =>
          if rest.length ≤ bs2.length then iterExt body s' rest
          else .error .exception
  termination_by bs => bs.length
  decreasing_by simp_all; omega

end Avb
