import Verif.Model.File

/-
The layout of a file, byte by byte: what a save is meant to leave and what can be opened.  Written down
without the readers and writers of the model.
-/

namespace Avb.Layout

/-- A number in `n` bytes: digit `i` of base 256 stands at place `i`, from the front or from the back. -/
def word (bo : BO) (n v : Nat) : Bytes :=
  let digits := (List.range n).map fun i => UInt8.ofNat (v / 256 ^ i % 256)
  match bo with
  | .little => digits
  | .big => digits.reverse

/-- Plain letters. -/
def ascii (s : String) : Bytes := s.toList.map fun c => UInt8.ofNat c.toNat

/-- Four letters, stored backwards in little endian files. -/
def tag (bo : BO) (id : Bytes) : Bytes :=
  match bo with
  | .little => id.reverse
  | .big => id

/-- The word that repeats the byte order, in letters. -/
def order : BO → Bytes
  | .little => ascii "IIII"
  | .big => ascii "MMMM"

/-- The creator string: 30 bytes, filled up with blanks. -/
def creator (b : Bytes) : Bytes := (b ++ ascii "                              ").take 30

/-- The header of a saved file, of which `date` and `maker` are the texts of date and creator. -/
def header (bo : BO) (date : Bytes) (count root time : Nat) (maker : Bytes) : Bytes :=
  word bo 2 6 ++ ascii "Domain" ++ tag bo (ascii "OBJD") ++ word bo 2 7 ++ ascii "AObjDoc" ++ [4] ++
  word bo 2 date.length ++ date ++ word bo 4 count ++ word bo 4 root ++ order bo ++ word bo 4 time ++
  [0, 0, 0, 0] ++ tag bo (ascii "ATob") ++ tag bo (ascii "ATve") ++ word bo 2 30 ++ creator maker ++
  [0, 0, 0, 0, 0, 0, 0, 0, 0, 0, 0, 0, 0, 0, 0, 0]

/-- A chunk. -/
def chunk (bo : BO) (id payload : Bytes) : Bytes := tag bo id ++ word bo 4 payload.length ++ payload

/-- A format descriptor of a bin view: column, size, size plus two, two zeros, text. -/
def descriptor (bo : BO) (column : Nat) (text : Bytes) : Bytes :=
  [69] ++ word bo 2 column ++ [71] ++ word bo 4 text.length ++ [76] ++ word bo 2 (text.length + 2) ++ [0, 0] ++ text

/-- A text field of a header: a size and that many bytes, of which outer NULs are dropped.  The size 65535
stands for no text. -/
def Field (bo : BO) (p : Bytes) (t : Text) : Prop :=
  (p = word bo 2 65535 ∧ t = []) ∨
  ∃ b : Bytes, b.length < 65535 ∧ p = word bo 2 b.length ++ b ∧ t = (stripNul b).map macDecodeByte

/-- A text field that the end of the file cuts off. -/
def CutField (bo : BO) (p : Bytes) (t : Text) : Prop :=
  ∃ (n : Nat) (b : Bytes), b.length < n ∧ n < 65535 ∧ p = word bo 2 n ++ b ∧ t = (stripNul b).map macDecodeByte

/-- The end of a header: the creator and 16 bytes of any content.  At the end of the file it may be cut off
at any place behind the size of the creator text. -/
def Tail (bo : BO) (p : Bytes) (t : Text) (body : Bytes) : Prop :=
  (∃ a reserved : Bytes, p = a ++ reserved ∧ Field bo a t ∧
    (reserved.length = 16 ∨ reserved.length < 16 ∧ body = [])) ∨
  (CutField bo p t ∧ body = [])

/-- The positions of `n` chunks that follow each other from position `pos` on, in `body`.  Only the headers
of the chunks have to be there. -/
inductive Chunks (bo : BO) : Nat → Nat → Bytes → List Nat → Prop
  | zero (pos : Nat) (body : Bytes) : Chunks bo 0 pos body []
  | succ {n pos size : Nat} {id rest : Bytes} {ps : List Nat} : id.length = 4 → size < 2 ^ 32 →
      Chunks bo n (pos + 8 + size) (rest.drop size) ps →
      Chunks bo (n + 1) pos (id ++ word bo 4 size ++ rest) (pos :: ps)

/-- The files that can be opened, and what is known of them then. -/
structure Opens (bs : Bytes) (f : AvbFile) : Prop where
  parts : ∃ (doc date mark skipped last body : Bytes) (dateText : Text) (ps : List Nat) (time : Nat),
    bs = word f.bo 2 6 ++ ascii "Domain" ++ tag f.bo (ascii "OBJD") ++ doc ++ [4] ++ date ++
      word f.bo 4 f.header.num_objects ++ word f.bo 4 f.header.root_index ++ mark ++ word f.bo 4 time ++
      skipped ++ tag f.bo (ascii "ATob") ++ tag f.bo (ascii "ATve") ++ last ++ body ∧
    Field f.bo doc ['A', 'O', 'b', 'j', 'D', 'o', 'c'] ∧ Field f.bo date dateText ∧
    f.header.num_objects < 2 ^ 32 ∧ f.header.root_index < 2 ^ 32 ∧ time < 2 ^ 32 ∧
    (mark = ascii "IIII" ∨ mark = ascii "MMMM") ∧ skipped.length = 4 ∧
    Tail f.bo last f.header.creator_version body ∧
    f.header.last_save = time ∧ f.headerEnd + body.length = bs.length ∧
    Chunks f.bo f.header.num_objects f.headerEnd body ps ∧ f.positions = 0 :: ps
  data : f.data = bs

end Avb.Layout
