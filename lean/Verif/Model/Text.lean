import Verif.Model.Prim

/-
Text: Mac Roman and UTF-8 codecs and the length prefixed string fields.
-/

namespace Avb

/-- A Python `str` (surrogate code points, which neither codec can encode, are left out). -/
abbrev Text := List Char

/-- Upper half of the Mac Roman code page, dumped from CPython's `mac_roman` codec
(used by src/avb/ioctx.py:153, 162 under the alias `macroman`). -/
def macHigh : List Nat :=
  [0x00C4, 0x00C5, 0x00C7, 0x00C9, 0x00D1, 0x00D6, 0x00DC, 0x00E1, 0x00E0, 0x00E2, 0x00E4, 0x00E3,
   0x00E5, 0x00E7, 0x00E9, 0x00E8, 0x00EA, 0x00EB, 0x00ED, 0x00EC, 0x00EE, 0x00EF, 0x00F1, 0x00F3,
   0x00F2, 0x00F4, 0x00F6, 0x00F5, 0x00FA, 0x00F9, 0x00FB, 0x00FC, 0x2020, 0x00B0, 0x00A2, 0x00A3,
   0x00A7, 0x2022, 0x00B6, 0x00DF, 0x00AE, 0x00A9, 0x2122, 0x00B4, 0x00A8, 0x2260, 0x00C6, 0x00D8,
   0x221E, 0x00B1, 0x2264, 0x2265, 0x00A5, 0x00B5, 0x2202, 0x2211, 0x220F, 0x03C0, 0x222B, 0x00AA,
   0x00BA, 0x03A9, 0x00E6, 0x00F8, 0x00BF, 0x00A1, 0x00AC, 0x221A, 0x0192, 0x2248, 0x2206, 0x00AB,
   0x00BB, 0x2026, 0x00A0, 0x00C0, 0x00C3, 0x00D5, 0x0152, 0x0153, 0x2013, 0x2014, 0x201C, 0x201D,
   0x2018, 0x2019, 0x00F7, 0x25CA, 0x00FF, 0x0178, 0x2044, 0x20AC, 0x2039, 0x203A, 0xFB01, 0xFB02,
   0x2021, 0x00B7, 0x201A, 0x201E, 0x2030, 0x00C2, 0x00CA, 0x00C1, 0x00CB, 0x00C8, 0x00CD, 0x00CE,
   0x00CF, 0x00CC, 0x00D3, 0x00D4, 0xF8FF, 0x00D2, 0x00DA, 0x00DB, 0x00D9, 0x0131, 0x02C6, 0x02DC,
   0x00AF, 0x02D8, 0x02D9, 0x02DA, 0x00B8, 0x02DD, 0x02DB, 0x02C7]

/-- Decode one Mac Roman byte (`bytes.decode('macroman')`, src/avb/ioctx.py:160). -/
def macDecodeByte (b : UInt8) : Char :=
  if b.toNat < 128 then Char.ofNat b.toNat else Char.ofNat (macHigh.getD (b.toNat - 128) 0)

/-- Encode one character in Mac Roman; `none` when the code page lacks it
(`str.encode('macroman')`, src/avb/ioctx.py:168). -/
def macEncodeChar (c : Char) : Option UInt8 :=
  if c.toNat < 128 then some (UInt8.ofNat c.toNat)
  else (macHigh.idxOf? c.toNat).map (fun i => UInt8.ofNat (i + 128))

/-- `s.encode('macroman')` (src/avb/ioctx.py:168): fails on the first character not in the table. -/
def macEncode : Text → Option Bytes
  | [] => some []
  | c :: cs =>
    match macEncodeChar c, macEncode cs with
    | some b, some bs => some (b :: bs)
    | _, _ => none

/-- The two encodings passed to `read_string`/`write_string` (src/avb/ioctx.py:153, 162). -/
inductive Enc where
  | macroman
  | utf8
  deriving DecidableEq, Repr

/-- `s.encode(encoding)` (src/avb/ioctx.py:168); `none` is `UnicodeEncodeError`. -/
def encodeText (e : Enc) (t : Text) : Option Bytes :=
  match e with
  | .macroman => macEncode t
  | .utf8 => some (t.flatMap String.utf8EncodeChar)

/-- `s.decode(encoding)` (src/avb/ioctx.py:160); `none` is `UnicodeDecodeError`.  UTF-8 decoding
is Lean's strict decoder, which like CPython's rejects overlong forms and surrogates. -/
def decodeText (e : Enc) (bs : Bytes) : Option Text :=
  match e with
  | .macroman => some (bs.map macDecodeByte)
  | .utf8 => (bs.toByteArray.utf8Decode?).map Array.toList

/-- `s.strip(b'\x00')` (src/avb/ioctx.py:159). -/
def stripNul (bs : Bytes) : Bytes :=
  ((bs.dropWhile (· == 0)).reverse.dropWhile (· == 0)).reverse

/-- `read_string` (src/avb/ioctx.py:153-160). -/
def rStr (bo : BO) (e : Enc) : Rd Text := do
  let size ← rInt bo .u16
  if size ≥ 65535 then return []
  else
    let s ← fread size
    match decodeText e (stripNul s) with
    | some t => return t
    | none => Rd.fail .unicode

/-- `write_string` (src/avb/ioctx.py:162-174).  `None` and the empty string are both `[]`. -/
def wStr (bo : BO) (e : Enc) (s : Text) : Wr Unit :=
  if s = [] then wInt bo .u16 0
  else
    match encodeText e s with
    | none => Wr.fail .unicode
    | some d => do
      let data := if e = .utf8 then [0, 0] ++ d else d
      wInt bo .u16 data.length
      Wr.emit data

end Avb
