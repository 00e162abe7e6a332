/-
Basic vocabulary of the model: errors, byte strings, readers and writers.

A *reader* mirrors a Python `read` method working on an `io.BytesIO` cursor: it takes the bytes
that have not been read yet and returns a value together with the bytes still unread, or an
exception.  A *writer* mirrors a `write` method working on an initially empty `io.BytesIO`: it
returns the bytes it appended, or an exception.
-/

namespace Avb

/-- Python exceptions raised by the modelled code (the exception class only, no message). -/
inductive Err where
  /-- `struct.error` (src/avb/ioctx.py:98-124, 328-466: `pack`/`unpack`) -/
  | struct
  /-- `AssertionError` (src/avb/ioctx.py:67-70 and every `assert`) -/
  | assertion
  /-- `ValueError` -/
  | value
  /-- `AttributeError` (src/avb/core.py:208-213) -/
  | attribute
  /-- `UnicodeEncodeError` / `UnicodeDecodeError` (src/avb/ioctx.py:160, 168) -/
  | unicode
  /-- `IndexError` -/
  | index
  /-- `KeyError` -/
  | key
  /-- `OverflowError` -/
  | overflow
  /-- `TypeError` -/
  | type
  /-- a bare `Exception(...)` (src/avb/ioctx.py:189, src/avb/attributes.py:90) -/
  | exception
  /-- `RecursionError` -/
  | recursion
  /-- `NotImplementedError` (src/avb/file.py:323) -/
  | notImplemented
  /-- `NameError` / `UnboundLocalError` (src/avb/interpolation.py:155, 300) -/
  | name
  /-- `ZeroDivisionError` -/
  | zeroDivision
  /-- no exception: undefined behaviour of the C++ code, an access outside of allocated memory
  (src/avb/_ext_core.cpp:268, src/avb/_ext.pyx:339-342) -/
  | undefined
  deriving DecidableEq, Repr

/-- A Python `bytes` object. -/
abbrev Bytes := List UInt8

/-- Byte order of an `AVBIOContext` (src/avb/ioctx.py:21-64). -/
inductive BO where
  | little
  | big
  deriving DecidableEq, Repr

/-- A reader: unread bytes in, value and remaining unread bytes out. -/
def Rd (α : Type) : Type := Bytes → Except Err (α × Bytes)

namespace Rd
variable {α β : Type}

/-- Return a value without touching the cursor. -/
protected def pure (a : α) : Rd α := fun bs => .ok (a, bs)

/-- Sequencing: the second reader continues at the cursor of the first. -/
protected def bind (r : Rd α) (k : α → Rd β) : Rd β := fun bs =>
  match r bs with
  | .ok (a, rest) => k a rest
  | .error e => .error e

/-- `raise e` -/
def fail (e : Err) : Rd α := fun _ => .error e

instance : Monad Rd where
  pure := Rd.pure
  bind := Rd.bind

/-- `if not c: raise e` -/
def guard (c : Prop) [Decidable c] (e : Err) : Rd Unit := fun bs =>
  if c then .ok ((), bs) else .error e

end Rd

/-- A writer: the bytes appended, or an exception. -/
def Wr (α : Type) : Type := Except Err (α × Bytes)

namespace Wr
variable {α β : Type}

/-- Write nothing. -/
protected def pure (a : α) : Wr α := .ok (a, [])

/-- Sequencing: output of the second is appended to the output of the first. -/
protected def bind (w : Wr α) (k : α → Wr β) : Wr β :=
  match w with
  | .ok (a, bs) =>
    match k a with
    | .ok (b, bs') => .ok (b, bs ++ bs')
    | .error e => .error e
  | .error e => .error e

/-- `raise e` -/
def fail (e : Err) : Wr α := .error e

instance : Monad Wr where
  pure := Wr.pure
  bind := Wr.bind

/-- `if not c: raise e` -/
def guard (c : Prop) [Decidable c] (e : Err) : Wr Unit :=
  if c then Wr.pure () else Wr.fail e

/-- `f.write(bs)` -/
def emit (bs : Bytes) : Wr Unit := .ok ((), bs)

/-- `if c: w` -/
def when (c : Prop) [Decidable c] (w : Wr Unit) : Wr Unit :=
  if c then w else Wr.pure ()

/-- `if hasattr(self, 'x'): w(self.x)` for an optional property. -/
def ifHas (o : Option α) (w : α → Wr Unit) : Wr Unit :=
  match o with
  | some a => w a
  | none => Wr.pure ()

end Wr

/-- `for x in xs: w(x)` -/
def forW {α : Type} : List α → (α → Wr Unit) → Wr Unit
  | [], _ => pure ()
  | x :: xs, w => do
    w x
    forW xs w

/-- `[r() for i in range(n)]` -/
def readN {α : Type} : Nat → Rd α → Rd (List α)
  | 0, _ => pure []
  | n + 1, r => do
    let x ← r
    let xs ← readN n r
    return x :: xs

/-- `if c: x = r()` for a property that stays absent otherwise. -/
def Rd.opt {α : Type} (c : Bool) (r : Rd α) : Rd (Option α) :=
  if c then do
    let a ← r
    return some a
  else pure none

/-- `f.read(n)` on an `io.BytesIO`: at most `n` bytes, possibly fewer at the end of the data,
and everything that is left when `n` is negative. -/
def fread (n : Int) : Rd Bytes := fun bs =>
  if n < 0 then .ok (bs, []) else .ok (bs.take n.toNat, bs.drop n.toNat)

end Avb
