import Verif.Model.Fast

/-
Opening a file object that does not stand at the beginning of its bytes (an AVB file inside another
file), with explicit positions, and the hex dump of a chunk.
-/

namespace Avb

/-- The loop that finds the chunks (src/avb/file.py:175-180) over a file object: `pos` is what `f.tell()`
gives.  Reading behind the end gives nothing, seeking there is allowed. -/
def scanAt (bo : BO) (data : Bytes) : Nat → Nat → Except Err (List Nat)
  | 0, _ => .ok []
  | n + 1, pos =>
    match (fread 4 >>= fun _ => rInt bo .u32) (data.drop pos) with
    | .error e => .error e
    | .ok (size, _) =>
      match scanAt bo data n (pos + 8 + size.toNat) with
      | .error e => .error e
      | .ok ps => .ok (pos :: ps)

/-- `AVBFile.__init__` without reading the content (src/avb/file.py:121-180), for a file object
(`is_fileobject_like`, src/avb/file.py:94-100) with the bytes `data` that stands at position `start`:
everything is read from there on, nothing seeks to the beginning.  `data.length - rest.length` is `f.tell()`
behind the header. -/
def openTableAt (data : Bytes) (start : Nat) : Except Err AvbFile :=
  let go (bo : BO) : Except Err AvbFile :=
    if (data.drop (start + 2)).take 6 ≠ magic then .error .value
    else
      match readHeader bo (data.drop (start + 8)) with
      | .error e => .error e
      | .ok (hdr, rest) =>
        match scanAt bo data hdr.num_objects (data.length - rest.length) with
        | .error e => .error e
        | .ok ps => .ok ⟨bo, hdr, 0 :: ps, data, data.length - rest.length⟩
  if (data.drop start).take 2 = byteOrderMark .little then go .little
  else if (data.drop start).take 2 = byteOrderMark .big then go .big
  else .error .value

/-- `AVBFile.__init__` (src/avb/file.py:121-182) for a file object at position `start`: the opened file and
its content. -/
def openFileAt (data : Bytes) (start : Nat) : Except Err (AvbFile × Option Obj) :=
  match openTableAt data start with
  | .error e => .error e
  | .ok f =>
    match readObject f f.header.root_index with
    | .error e => .error e
    | .ok content => .ok (f, content)

/-- `AVBFile.read_chunk` (src/avb/file.py:243-260) of a file opened at `start`: the root chunk begins behind
byte order and magic (src/avb/file.py:146, 170). -/
def readChunkAt (start : Nat) (f : AvbFile) (index : Nat) : Except Err ChunkInfo :=
  if index = 0 then .ok ⟨cc 'O' 'B' 'J' 'D', start + 8, f.headerEnd - (start + 8)⟩
  else readChunk f index

/-- The function `read_chunk` (src/avb/file.py:49-55): the chunk at the present position `pos` of the file. -/
def readChunkHere (f : AvbFile) (pos : Nat) : Except Err ChunkInfo :=
  match (rFourcc f.bo >>= fun id => rInt f.bo .u32 >>= fun size => pure (id, size)) (f.data.drop pos) with
  | .error e => .error e
  | .ok ((id, size), _) => .ok ⟨id, pos + 8, size.toNat⟩

/-- A digit of `binascii.hexlify`. -/
def hexDigit (n : Nat) : UInt8 := if n < 10 then UInt8.ofNat (48 + n) else UInt8.ofNat (87 + n)

/-- `binascii.hexlify` (src/avb/file.py:47) -/
def hexlify (bs : Bytes) : Bytes := bs.flatMap fun b => [hexDigit (b.toNat / 16), hexDigit (b.toNat % 16)]

/-- `AVBIOContext.reverse_str` (src/avb/ioctx.py:84-91) -/
def reverseStr (s : Bytes) : Bytes := (List.range s.length).map fun i => s.getD (s.length - 1 - i) 0

/-- `AVBChunk.hex` (src/avb/file.py:41-47): class id reversed and size little endian in files of either byte
order.  The size of a chunk is below 2^32 (it was read from four bytes; the header is shorter), so
`struct.pack` does not raise. -/
def ChunkInfo.hex (f : AvbFile) (ck : ChunkInfo) : Bytes :=
  hexlify (reverseStr ck.class_id ++ packNat .little 4 ck.size ++ ck.read f)

end Avb
