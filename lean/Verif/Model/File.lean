import Verif.Model.Obj

/-
src/avb/file.py and src/avb/core.py: walking the object graph, saving a file, opening a file,
looking objects up in an opened file.
-/

namespace Avb

/-! ### objects in memory -/

/-- An object in memory.  `iid` is its `instance_id`; `own` tells whether `obj.root` is the file being
saved (src/avb/file.py:327); `visits` are the references in its properties in insertion order
(for objects read from a file the order of `Obj.visits`; for objects made by the factory and edited
some other order). -/
structure Entry where
  iid : Nat
  own : Bool
  obj : Obj
  visits : List Visit

/-- Dereferencing: the object at an address, or the exception raised by loading it
(src/avb/utils.py:21-28, src/avb/file.py:262-323).  Address 0 is `None`. -/
abbrev Heap := Ref → Except Err Entry

/-! ### walk_references -/

/-- A generator run to its end: what it yielded, and the exception that stopped it, if any. -/
structure Walk where
  out : List Ref
  err : Option Err

/-- A generator that yields nothing. -/
def Walk.nil : Walk := ⟨[], none⟩

/-- `for x in a: yield x` followed by `for x in b: yield x`. -/
def Walk.andThen (a b : Walk) : Walk :=
  match a.err with
  | some e => ⟨a.out, some e⟩
  | none => ⟨a.out ++ b.out, b.err⟩

/-- `for item in v: for sub_v in walk_references(item): yield sub_v` (src/avb/core.py:153-156). -/
def walkItems (f : Ref → Walk) : List Ref → Walk
  | [] => Walk.nil
  | r :: rs => (f r).andThen (walkItems f rs)

/-- The loop over the property values of one object (src/avb/core.py:147-160), helper objects inside
lists flattened; `f` is the recursive call. -/
def walkVisits (h : Heap) (f : Ref → Walk) : List Visit → Walk
  | [] => Walk.nil
  | .item r :: vs => (f r).andThen (walkVisits h f vs)
  | .prop r :: vs =>
    if r = 0 then walkVisits h f vs
    else
      match h r with
      | .error e => ⟨[], some e⟩
      | .ok e => (walkItems f e.obj.listItems).andThen ((f r).andThen (walkVisits h f vs))

/-- `walk_references` (src/avb/core.py:136-163).  The first argument is the number of nested calls
the interpreter still allows; when it is used up a `RecursionError` is raised.  Calls for helper
objects inside lists are not counted. -/
def walkObj (h : Heap) : Nat → Ref → Walk
  | 0, _ => ⟨[], some .recursion⟩
  | n + 1, r =>
    if r = 0 then Walk.nil
    else
      match h r with
      | .error e => ⟨[], some e⟩
      | .ok e => (walkVisits h (walkObj h n) e.visits).andThen ⟨[r], none⟩

/-! ### saving -/

/-- `buffer.getvalue()` after `obj.write(buffer)` (src/avb/file.py:326-330). -/
def payloadOf (w : Wr Unit) : Wr Bytes :=
  match w with
  | .ok ((), bs) => Wr.pure bs
  | .error e => Wr.fail e

/-- `AVBFile.write_object` (src/avb/file.py:325-336). -/
def writeObject (c : WCtx) (e : Entry) : Wr Unit := do
  Wr.guard (e.own = true) .value
  let data ← payloadOf (e.obj.write c)
  Wr.guard (data.getLast? = some 3) .assertion
  wFourcc c.bo e.obj.cls.id
  wInt c.bo .u32 data.length
  Wr.emit data

/-- `next_chunk_id`, `ref_mapping` and the bytes appended to the file so far
(src/avb/file.py:349-350, 354-362). -/
structure SaveSt where
  next : Nat
  map : Nat → Option Nat
  out : Bytes

/-- `self.ref_mapping[k] = v` (src/avb/file.py:361). -/
def mapSet (m : Nat → Option Nat) (k v : Nat) : Nat → Option Nat :=
  fun i => if i = k then some v else m i

/-- `root.ref_mapping[value.instance_id]` for the object at an address (src/avb/ioctx.py:188-191). -/
def refMapOf (h : Heap) (m : Nat → Option Nat) (r : Ref) : Option Nat :=
  match h r with
  | .ok e => m e.iid
  | .error _ => none

/-- The loop of `AVBFile.write` over the objects met (src/avb/file.py:356-362). -/
def saveLoop (h : Heap) (bo : BO) : List Ref → SaveSt → SaveSt × Option Err
  | [], s => (s, none)
  | r :: rs, s =>
    match h r with
    | .error er => (s, some er)
    | .ok e =>
      if (s.map e.iid).isSome then saveLoop h bo rs s
      else
        let next := s.next + 1
        let map := mapSet s.map e.iid next
        match writeObject ⟨bo, refMapOf h map⟩ e with
        | .ok (_, bs) => saveLoop h bo rs ⟨next, map, s.out ++ bs⟩
        | .error er => (⟨next, map, s.out⟩, some er)

/-- What the header stores besides counts: the time of saving as Unix timestamp and as formatted by
`strftime` (not modelled), and the creator string (src/avb/file.py:210, 224, 231). -/
structure HeaderInfo where
  last_save : Int
  last_save_str : Text
  creator_version : Text

/-- `MAGIC` (src/avb/file.py:92) -/
def magic : Bytes := [0x44, 0x6F, 0x6D, 0x61, 0x69, 0x6E]

/-- `LE_BYTE_ORDER`, `BE_BYTE_ORDER` (src/avb/file.py:90-91) -/
def byteOrderMark : BO → Bytes
  | .little => [0x06, 0x00]
  | .big => [0x00, 0x06]

/-- `u'AObjDoc'` (src/avb/file.py:208) -/
def objDoc : Text := ['A', 'O', 'b', 'j', 'D', 'o', 'c']

/-- The number telling the byte order a second time (src/avb/file.py:219-222). -/
def orderWord : BO → Int
  | .little => 0x49494949
  | .big => 0x4D4D4D4D

/-- `write_header` up to the two counts (src/avb/file.py:198-212). -/
def writeHeaderPre (bo : BO) (hd : HeaderInfo) : Wr Unit := do
  Wr.emit (byteOrderMark bo)
  Wr.emit magic
  wFourcc bo (cc 'O' 'B' 'J' 'D')
  wStr bo .macroman objDoc
  wU8 0x04
  wStr bo .macroman hd.last_save_str

/-- The two counts (src/avb/file.py:215-216, 366-367). -/
def writeCounts (bo : BO) (count root : Nat) : Wr Unit := do
  wInt bo .u32 count
  wInt bo .u32 root

/-- The stored form of the creator string: encoded, cut to 30 bytes (src/avb/file.py:232-233) and
padded with spaces (src/avb/file.py:237-239). -/
def creatorBytes (d : Bytes) : Bytes := d.take 30 ++ List.replicate (30 - (d.take 30).length) 0x20

/-- `write_header` after the two counts (src/avb/file.py:218-241). -/
def writeHeaderPost (bo : BO) (hd : HeaderInfo) : Wr Unit := do
  wInt bo .u32 (orderWord bo)
  wDate bo hd.last_save
  wInt bo .u32 0
  wFourcc bo (cc 'A' 'T' 'o' 'b')
  wFourcc bo (cc 'A' 'T' 'v' 'e')
  match encodeText .macroman hd.creator_version with
  | none => Wr.fail .unicode
  | some d => do
    wInt bo .u16 30
    Wr.emit (creatorBytes d)
    Wr.emit (List.replicate 16 0)

/-- Overwrite part of a file: `f.seek(pos); f.write(new)`. -/
def patch (bs : Bytes) (pos : Nat) (new : Bytes) : Bytes :=
  bs.take pos ++ new ++ bs.drop (pos + new.length)

/-- What `AVBFile.write` does to the file: the bytes appended in order, then possibly an overwrite of
the two counts at an offset, and the exception raised, if any. -/
structure SaveRun where
  appended : Bytes
  patched : Option (Nat × Bytes)
  err : Option Err

/-- The bytes of a writer that may have failed half way; only whole headers matter here: a header
that cannot be written leaves nothing the model keeps. -/
def Wr.bytes (w : Wr Unit) : Except Err Bytes :=
  match w with
  | .ok (_, bs) => .ok bs
  | .error e => .error e

/-- `AVBFile.write` (src/avb/file.py:348-370) with recursion budget `fuel`.  A failure while the header
is written is reported with an empty file. -/
def saveRun (h : Heap) (fuel : Nat) (bo : BO) (hd : HeaderInfo) (content : Ref) : SaveRun :=
  match (writeHeaderPre bo hd).bytes, (writeCounts bo 0 0).bytes, (writeHeaderPost bo hd).bytes with
  | .ok pre, .ok zero, .ok post =>
    let w := walkObj h fuel content
    let (s, er) := saveLoop h bo w.out ⟨0, fun _ => none, []⟩
    let appended := pre ++ zero ++ post ++ s.out
    match er, w.err with
    | some e, _ => ⟨appended, none, some e⟩
    | none, some e => ⟨appended, none, some e⟩
    | none, none =>
      match (writeCounts bo s.next s.next).bytes with
      | .ok counts => ⟨appended, some (pre.length, counts), none⟩
      | .error e => ⟨appended, none, some e⟩
  | .error e, _, _ => ⟨[], none, some e⟩
  | _, .error e, _ => ⟨[], none, some e⟩
  | _, _, .error e => ⟨[], none, some e⟩

/-- The file on disk after a save that ran to its end. -/
def SaveRun.disk (s : SaveRun) : Bytes :=
  match s.patched with
  | none => s.appended
  | some (pos, new) => patch s.appended pos new

/-- A save without exception and the file it leaves. -/
def save (h : Heap) (fuel : Nat) (bo : BO) (hd : HeaderInfo) (content : Ref) : Except Err Bytes :=
  let s := saveRun h fuel bo hd content
  match s.err with
  | some e => .error e
  | none => .ok s.disk

/-! ### opening -/

/-- The header as `AVBFile.__init__` reads it. -/
structure Header where
  num_objects : Nat
  root_index : Nat
  last_save : Int
  creator_version : Text

/-- `AVBFile.__init__` after the byte order and magic, up to the chunk table
(src/avb/file.py:144-169). -/
def readHeader (bo : BO) : Rd Header := do
  let t1 ← rFourcc bo
  Rd.guard (t1 = cc 'O' 'B' 'J' 'D') .assertion
  let doc ← rStr bo .macroman
  Rd.guard (doc = objDoc) .assertion
  let four ← rU8
  Rd.guard (four = 0x04) .assertion
  let _last_save_str ← rStr bo .macroman
  let num_objects ← rInt bo .u32
  let root_index ← rInt bo .u32
  let v ← rInt bo .u32
  Rd.guard (v = 0x49494949 ∨ v = 0x4D4D4D4D) .assertion
  let last_save ← rDate bo
  let _ ← fread 4
  let t2 ← rFourcc bo
  Rd.guard (t2 = cc 'A' 'T' 'o' 'b') .assertion
  let t3 ← rFourcc bo
  Rd.guard (t3 = cc 'A' 'T' 'v' 'e') .assertion
  let creator_version ← rStr bo .macroman
  let _ ← fread 16
  return { num_objects := num_objects.toNat, root_index := root_index.toNat, last_save,
           creator_version }

/-- The loop that finds the chunks (src/avb/file.py:175-180): `pos` is the file position, `bs` the
bytes from there on.  Seeking beyond the end of the file is allowed; reading there gives nothing. -/
def scanChunks (bo : BO) : Nat → Nat → Bytes → Except Err (List Nat)
  | 0, _, _ => .ok []
  | n + 1, pos, bs =>
    match (fread 4 >>= fun _ => rInt bo .u32) bs with
    | .error e => .error e
    | .ok (size, rest) =>
      match scanChunks bo n (pos + 8 + size.toNat) (rest.drop size.toNat) with
      | .error e => .error e
      | .ok ps => .ok (pos :: ps)

/-- An opened file: `ictx.byte_order`, the header, `object_positions` (entry 0 unused), the
underlying file and where its header ends (src/avb/file.py:103-182). -/
structure AvbFile where
  bo : BO
  header : Header
  positions : List Nat
  data : Bytes
  headerEnd : Nat

/-- What readers see of an opened file. -/
def AvbFile.ctx (f : AvbFile) : RCtx := { bo := f.bo, nobj := f.positions.length }

/-- `AVBFile.read_object` for an object that is not in the cache (src/avb/file.py:262-323), with the
Python readers (no accelerated readers). -/
def readObject (f : AvbFile) (index : Nat) : Except Err (Option Obj) :=
  if index = 0 then .ok none
  else
    match f.positions[index]? with
    | none => .error .index
    | some pos =>
      match (rFourcc f.bo >>= fun id => rInt f.bo .u32 >>= fun size => pure (id, size))
          (f.data.drop pos) with
      | .error e => .error e
      | .ok ((id, size), rest) =>
        if (rest.take size.toNat).length ≠ size.toNat then .error .assertion
        else
          match Cls.ofId id with
          | none => .error .notImplemented
          | some k =>
            match Obj.readAs f.ctx k (rest.take size.toNat) with
            | .error e => .error e
            | .ok (o, left) => if left = [] then .ok (some o) else .error .assertion

/-- `AVBChunk` (src/avb/file.py:29-35) -/
structure ChunkInfo where
  class_id : Bytes
  pos : Nat
  size : Nat
  deriving DecidableEq

/-- `AVBFile.read_chunk` (src/avb/file.py:243-260), index 0 being `root_chunk`
(src/avb/file.py:170). -/
def readChunk (f : AvbFile) (index : Nat) : Except Err ChunkInfo :=
  if index = 0 then .ok ⟨cc 'O' 'B' 'J' 'D', 8, f.headerEnd - 8⟩
  else
    match f.positions[index]? with
    | none => .error .index
    | some pos =>
      match (rFourcc f.bo >>= fun id => rInt f.bo .u32 >>= fun size => pure (id, size))
          (f.data.drop pos) with
      | .error e => .error e
      | .ok ((id, size), _) => .ok ⟨id, pos + 8, size.toNat⟩

/-- `AVBChunk.read` (src/avb/file.py:37-39) -/
def ChunkInfo.read (f : AvbFile) (ck : ChunkInfo) : Bytes := (f.data.drop ck.pos).take ck.size

/-- `list(self.chunks())` (src/avb/file.py:372-374) -/
def chunks (f : AvbFile) : Except Err (List ChunkInfo) :=
  (List.range f.positions.length).mapM (readChunk f)

/-- `AVBFile.__init__` without reading the content (src/avb/file.py:125-180). -/
def openTable (bs : Bytes) : Except Err AvbFile :=
  let go (bo : BO) : Except Err AvbFile :=
    if (bs.drop 2).take 6 ≠ magic then .error .value
    else
      match readHeader bo (bs.drop 8) with
      | .error e => .error e
      | .ok (hdr, rest) =>
        match scanChunks bo hdr.num_objects (bs.length - rest.length) rest with
        | .error e => .error e
        | .ok ps => .ok ⟨bo, hdr, 0 :: ps, bs, bs.length - rest.length⟩
  if bs.take 2 = byteOrderMark .little then go .little
  else if bs.take 2 = byteOrderMark .big then go .big
  else .error .value

/-- `AVBFile.__init__` on an existing file (src/avb/file.py:125-182): the opened file and its content,
`None` when the root index is 0. -/
def openFile (bs : Bytes) : Except Err (AvbFile × Option Obj) :=
  match openTable bs with
  | .error e => .error e
  | .ok f =>
    match readObject f f.header.root_index with
    | .error e => .error e
    | .ok content => .ok (f, content)

end Avb
