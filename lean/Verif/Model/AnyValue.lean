import Verif.Model.Unset
import Verif.Model.Rate

/-!
Objects with any Python values in their properties.  Assigning a property does not look at the value
(src/avb/core.py:199-204); only the writers do.  The writers here are those of the other files of the model with
the values of properties given as Python values.  That covers every property that is passed as it is to one of
the functions of `AVBIOContext` for integers, booleans, texts, references, edit rates, colours and rectangles,
also in helper objects; other properties (lists, data, ids, dates, values of parameters and the codes that tell
their type) have the values of the model.
-/

namespace Avb

open Unset

/-- Python values.  Floats as in `Rate`.  Lists and tuples are `seq`.  `surrogates` is a
text with code points between D800 and DFFF, as `os.listdir` gives for names that are not UTF-8; no codec encodes it
(src/avb/ioctx.py:168).  `obj` is an object of the file, with its
truth value (empty lists and attribute sets are false; src/avb/core.py:52, src/avb/attributes.py:17).  `other` is
any other value, by its truth value; it is taken to have none of the methods `__index__`, `__float__`, `__int__`,
`encode`, `__getitem__` and no `instance_id` (src/avb/core.py:199-204). -/
inductive Py where
  | none
  | bool (b : Bool)
  | int (z : Int)
  | float (r : Rate)
  | str (t : Text)
  | bytes (bs : Bytes)
  | seq (xs : List Py)
  | obj (r : Ref) (truth : Bool)
  | surrogates
  | other (truth : Bool)

namespace Py

/-- `bool(v)` (src/avb/ioctx.py:121, 165, src/avb/components.py:75, 80). -/
def truth : Py → Bool
  | .none => false
  | .bool b => b
  | .int z => z != 0
  | .float (.fin q) => q != 0
  | .float _ => true
  | .str t => !t.isEmpty
  | .bytes bs => !bs.isEmpty
  | .seq xs => !xs.isEmpty
  | .obj _ b => b
  | .surrogates => true
  | .other b => b

/-- The argument of `struct.pack` for an integer format: a bool is 0 or 1, what is no integer raises `struct.error`
(src/avb/ioctx.py:103-104, 112-113, 328-466). -/
def asInt : Py → Except Err Int
  | .bool b => .ok (if b then 1 else 0)
  | .int z => .ok z
  | _ => .error .struct

/-- The test of `write_bool` (src/avb/ioctx.py:119-124). -/
def asBool (v : Py) : Except Err Bool := .ok v.truth

/-- The text that `write_string` writes: `s or b""`, then `s.encode` (src/avb/ioctx.py:164-170). -/
def asText (v : Py) : Except Err Text :=
  if v.truth then
    match v with
    | .str t => .ok t
    | .surrogates => .error .unicode
    | _ => .error .attribute
  else .ok []

/-- The name that `if self.name: ctx.write_string(f, self.name)` writes (src/avb/components.py:75-83). -/
def asName (v : Py) : Except Err (Option Text) :=
  if v.truth then
    match v with
    | .str t => .ok (some t)
    | .surrogates => .error .unicode
    | _ => .error .attribute
  else .ok Option.none

/-- The object that `write_object_ref` refers to: `None`, or what has an `instance_id`
(src/avb/ioctx.py:186-194). -/
def asRef : Py → Except Err Ref
  | .none => .ok 0
  | .obj r _ => .ok r
  | _ => .error .attribute

/-- The number that `write_exp10_encoded_float` works with (src/avb/ioctx.py:134-150): an integer is not multiplied,
`int(value) != value` being false.  Of other values `int(value)` or `abs(value * 10)` raises `TypeError`, or
`ValueError` for a text that is no number; the model has `TypeError` for both. -/
def asRate : Py → Except Err Rate
  | .bool b => .ok (.fin (if b then 1 else 0))
  | .int z => .ok (.fin z)
  | .float r => .ok r
  | _ => .error .type

/-- The first `n` entries as integers (src/avb/ioctx.py:304-309, 320-324): `v[i]`, then `struct.pack`. -/
def ints : Nat → List Py → Except Err (List Int)
  | 0, _ => .ok []
  | _ + 1, [] => .error .index
  | n + 1, x :: xs => do
    let z ← x.asInt
    let zs ← ints n xs
    return z :: zs

/-- `v[0]` to `v[n - 1]`, packed as integers (src/avb/ioctx.py:304-309, 320-324): entries of a list or tuple, or
bytes.  Which of `struct.error`, `IndexError` and `TypeError` is raised for other values is simplified. -/
def asInts (n : Nat) : Py → Except Err (List Int)
  | .seq xs => ints n xs
  | .bytes bs => if n ≤ bs.length then .ok ((bs.take n).map fun b => (b.toNat : Int)) else .error .index
  | .str _ => .error .struct
  | .surrogates => .error .struct
  | _ => .error .type

/-- The coordinates that `write_rect` writes (src/avb/ioctx.py:304-309). -/
def asRect (v : Py) : Except Err Rect :=
  match v.asInts 4 with
  | .ok [a, b, c, d] => .ok ⟨a, b, c, d⟩
  | .ok _ => .error .index
  | .error e => .error e

/-- The components that `write_rgb_color` writes (src/avb/ioctx.py:320-324). -/
def asRgb (v : Py) : Except Err RGB :=
  match v.asInts 3 with
  | .ok [r, g, b] => .ok ⟨r, g, b⟩
  | .ok _ => .error .index
  | .error e => .error e

end Py

/-- The properties that were assigned some Python value (src/avb/core.py:199-204); the others have the values of the
model. -/
abbrev Given := Slot → Option Py

/-- The value of a property: one of the model, or any (src/avb/core.py:206-209). -/
inductive Val (α : Type) where
  | typed (a : α)
  | any (v : Py)

/-- The values given to the helper object at a position of a list (src/avb/core.py:166-176). -/
def Given.at (g : Given) (list : String) (i : Nat) : Given := fun s => g ((list, i) :: s.1, s.2)

/-- `self.name` (src/avb/core.py:206-209). -/
def Given.val {α : Type} (g : Given) (name : String) (a : α) : Val α :=
  match g ([], name) with
  | some v => .any v
  | Option.none => .typed a

/-- `hasattr(self, name)` and `self.name` (src/avb/core.py:206-211): a property that was assigned a value, `None`
included, is there. -/
def Given.opt {α : Type} (g : Given) (name : String) (a : Option α) : Option (Val α) :=
  match g ([], name) with
  | some v => some (.any v)
  | Option.none => a.map .typed

/-- Writing the value of a property, `conv` being what the function of `AVBIOContext` makes of any Python value
(src/avb/ioctx.py:103-324). -/
def pLeaf {α : Type} (w : α → Wr Unit) (conv : Py → Except Err α) : Val α → Wr Unit
  | .typed a => w a
  | .any v =>
    match conv v with
    | .ok a => w a
    | .error e => Wr.fail e

/-- `write_u8` … `write_s64` of a property (src/avb/ioctx.py:103-104, 112-113, 328-466). -/
def pInt (bo : BO) (t : IntTy) : Val Int → Wr Unit := pLeaf (wInt bo t) Py.asInt
/-- `write_bool` of a property (src/avb/ioctx.py:119-124). -/
def pBool : Val Bool → Wr Unit := pLeaf wBool Py.asBool
/-- `write_string` of a property (src/avb/ioctx.py:164-177). -/
def pStr (bo : BO) (e : Enc) : Val Text → Wr Unit := pLeaf (wStr bo e) Py.asText
/-- `write_string` or 0xFFFF, depending on a property (src/avb/components.py:75-83). -/
def pName (c : WCtx) : Val (Option Text) → Wr Unit := pLeaf (wName c) Py.asName
/-- `write_object_ref` of a property (src/avb/ioctx.py:186-196). -/
def pRef (c : WCtx) : Val Ref → Wr Unit := pLeaf (wRef c) Py.asRef
/-- `write_exp10_encoded_float` of a property (src/avb/ioctx.py:134-150). -/
def pRate (bo : BO) : Val Rate → Wr Unit := pLeaf (wRate bo) Py.asRate
/-- `write_rect` of a property (src/avb/ioctx.py:304-309). -/
def pRect (bo : BO) : Val Rect → Wr Unit := pLeaf (wRect bo) Py.asRect
/-- `write_rgb_color` of a property (src/avb/ioctx.py:320-324). -/
def pRgb (bo : BO) : Val RGB → Wr Unit := pLeaf (wRgb bo) Py.asRgb

/-- `Setting.write` with any values in the properties (src/avb/bin.py:38-51). -/
def Setting.writeG (g : Given) (c : WCtx) (x : Setting) : Wr Unit := do
  wU8 0x02
  wU8 0x06
  pStr c.bo .macroman (g.val "name" x.name)
  pStr c.bo .macroman (g.val "kind" x.kind)
  pInt c.bo .s16 (g.val "attr_count" x.attr_count)
  pInt c.bo .s16 (g.val "attr_type" x.attr_type)
  pRef c (g.val "attributes" x.attributes)

/-- `BinViewSetting.write` with any values in the properties (src/avb/bin.py:137-171). -/
def BinViewSetting.writeG (g : Given) (c : WCtx) (x : BinViewSetting) : Wr Unit := do
  x.toSetting.writeG g c
  wU8 0x02
  wU8 10
  wInt c.bo .u16 x.columns.length
  forW x.columns (BinColumn.write c)
  Wr.ifHas x.format_descriptors fun v => do
    wU8 0x01
    wU8 0x01
    wU8 69
    wInt c.bo .u16 v.length
    forW v (FormatDescriptor.write c)
  wU8 0x03

/-- `BinItem.write` with any values in the properties (src/avb/bin.py:333-337). -/
def BinItem.writeG (g : Given) (c : WCtx) (b : BinItem) : Wr Unit := do
  pRef c (g.val "mob" b.mob)
  pInt c.bo .s16 (g.val "x" b.x)
  pInt c.bo .s16 (g.val "y" b.y)
  pInt c.bo .s32 (g.val "keyframe" b.keyframe)
  wU8 (if b.user_placed then 1 else 0)

/-- `SiftItem.write` with any values in the properties (src/avb/bin.py:344-347). -/
def SiftItem.writeG (g : Given) (c : WCtx) (x : SiftItem) : Wr Unit := do
  pInt c.bo .s16 (g.val "method" x.method)
  pStr c.bo .macroman (g.val "string" x.string)
  pStr c.bo .macroman (g.val "column" x.column)

/-- `Bin.writeBody` with any values in the properties (src/avb/bin.py:310-367). -/
def Bin.writeBodyG (g : Given) (c : WCtx) (x : Bin) : Wr Unit := do
  wU8 0x02
  wU8 (if x.isLarge then 0x0f else 0x0e)
  pRef c (g.val "view_setting" x.view_setting)
  pInt c.bo .u64 (g.val "uid" x.uid)
  x.writeCount c
  forWi x.items fun i e => e.writeG (g.at "items" i) c
  pInt c.bo .s32 (g.val "display_mask" x.display_mask)
  pInt c.bo .s16 (g.val "display_mode" x.display_mode)
  pBool (g.val "sifted" x.sifted)
  forW (List.range' 0 6) fun i => do
    let s ← Wr.nth x.sifted_settings i
    s.writeG (g.at "sifted_settings" i) c
  wInt c.bo .s16 x.sort_columns.length
  forW x.sort_columns (wSortColumn c)
  pInt c.bo .s16 (g.val "mac_font" x.mac_font)
  pInt c.bo .s16 (g.val "mac_font_size" x.mac_font_size)
  pInt c.bo .s16 (g.val "mac_image_scale" x.mac_image_scale)
  pRect c.bo (g.val "home_rect" x.home_rect)
  pRgb c.bo (g.val "background_color" x.background_color)
  pRgb c.bo (g.val "forground_color" x.forground_color)
  pInt c.bo .s16 (g.val "ql_image_scale" x.ql_image_scale)
  pRef c (g.val "attributes" x.attributes)
  pBool (g.val "was_iconic" x.was_iconic)

/-- `Bin.write` with any values in the properties (src/avb/bin.py:310-370). -/
def Bin.writeG (g : Given) (c : WCtx) (x : Bin) : Wr Unit := do
  x.writeBodyG g c
  wU8 0x03

/-- `BinFirst.write` with any values in the properties (src/avb/bin.py:431-440). -/
def BinFirst.writeG (g : Given) (c : WCtx) (x : BinFirst) : Wr Unit := do
  x.toBin.writeBodyG g c
  wU8 0x02
  wU8 0x01
  pInt c.bo .s32 (g.val "unknown_s32" x.unknown_s32)
  wU8 0x03

/-- `Component.write` with any values in the properties (src/avb/components.py:65-93). -/
def Component.writeG (g : Given) (c : WCtx) (x : Component) : Wr Unit := do
  wU8 0x02
  wU8 0x03
  pRef c (g.val "left_bob" x.left_bob)
  pRef c (g.val "right_bob" x.right_bob)
  pInt c.bo .s16 (g.val "media_kind_id" x.media_kind_id)
  pRate c.bo (g.val "edit_rate" x.edit_rate)
  pName c (g.val "name" x.name)
  pName c (g.val "effect_id" x.effect_id)
  pRef c (g.val "attributes" x.attributes)
  pRef c (g.val "session_attrs" x.session_attrs)
  pRef c (g.val "precomputed" x.precomputed)
  Wr.ifHas (g.opt "param_list" x.param_list) fun r => do
    wU8 0x01
    wU8 0x01
    wU8 72
    pRef c r

/-- `Sequence.write` with any values in the properties (src/avb/components.py:169-179). -/
def Sequence.writeG (g : Given) (c : WCtx) (x : Sequence) : Wr Unit := do
  x.toComponent.writeG g c
  wU8 0x02
  wU8 0x03
  wInt c.bo .u32 x.components.length
  forW x.components (wRef c)
  wU8 0x03

/-- `Clip.write` with any values in the properties (src/avb/components.py:250-255). -/
def Clip.writeG (g : Given) (c : WCtx) (x : Clip) : Wr Unit := do
  x.toComponent.writeG g c
  wU8 0x02
  wU8 0x01
  pInt c.bo .u32 (g.val "length" x.length)

/-- `SourceClip.write` with any values in the properties (src/avb/components.py:292-312). -/
def SourceClip.writeG (g : Given) (c : WCtx) (x : SourceClip) : Wr Unit := do
  x.toClip.writeG g c
  wU8 0x02
  wU8 0x03
  let mob_id ← Wr.get x.mob_id
  wInt c.bo .u32 mob_id.lo
  wInt c.bo .u32 mob_id.hi
  pInt c.bo .s16 (g.val "track_id" x.track_id)
  pInt c.bo .s32 (g.val "start_time" x.start_time)
  Wr.ifHas x.mob_id fun m => do
    wU8 0x01
    wU8 0x01
    wMobId c.bo m
  wU8 0x03

/-- `Timecode.write` with any values in the properties (src/avb/components.py:356-367). -/
def Timecode.writeG (g : Given) (c : WCtx) (x : Timecode) : Wr Unit := do
  x.toClip.writeG g c
  wU8 0x02
  wU8 0x01
  pInt c.bo .u32 (g.val "flags" x.flags)
  pInt c.bo .u16 (g.val "fps" x.fps)
  Wr.emit (List.replicate 6 0)
  pInt c.bo .u32 (g.val "start" x.start)
  wU8 0x03

/-- `Edgecode.write` with any values in the properties (src/avb/components.py:398-413). -/
def Edgecode.writeG (g : Given) (c : WCtx) (x : Edgecode) : Wr Unit := do
  x.toClip.writeG g c
  wU8 0x02
  wU8 0x01
  Wr.guard (x.header.length = 8) .assertion
  Wr.emit x.header
  pInt .little .u8 (g.val "film_kind" x.film_kind)
  pInt .little .u8 (g.val "code_format" x.code_format)
  pInt c.bo .u16 (g.val "base_perf" x.base_perf)
  wInt c.bo .u32 0
  pInt c.bo .s32 (g.val "start_ec" x.start_ec)
  wU8 0x03

/-- `TrackRef.write` with any values in the properties (src/avb/components.py:436-445). -/
def TrackRef.writeG (g : Given) (c : WCtx) (x : TrackRef) : Wr Unit := do
  x.toClip.writeG g c
  wU8 0x02
  wU8 0x01
  pInt c.bo .s16 (g.val "relative_scope" x.relative_scope)
  pInt c.bo .s16 (g.val "relative_track" x.relative_track)
  wU8 0x03

/-- `PCPProp.writeValue` with any values in the properties (src/avb/components.py:652-657). -/
def PCPProp.writeValueG (_ : Given) (c : WCtx) (x : PCPProp) : Wr Unit :=
  if x.type = 2 then x.value.wDbl
  else if x.type = 1 then x.value.wS32 c.bo
  else Wr.fail .value

/-- `PCPProp.write` with any values in the properties (src/avb/components.py:648-657). -/
def PCPProp.writeG (g : Given) (c : WCtx) (x : PCPProp) : Wr Unit := do
  pInt c.bo .s16 (g.val "code" x.code)
  wInt c.bo .s16 x.type
  x.writeValueG g c

/-- `PCP.writeValue` with any values in the properties (src/avb/components.py:636-643). -/
def PCP.writeValueG (_ : Given) (c : WCtx) (value_type : Int) (x : PCP) : Wr Unit :=
  if value_type = 1 then x.value.wS32 c.bo
  else if value_type = 2 then x.value.wDbl
  else if value_type = 4 then x.value.wRef c
  else Wr.fail .attribute

/-- `PCP.write` with any values in the properties (src/avb/components.py:631-657). -/
def PCP.writeG (g : Given) (c : WCtx) (value_type : Int) (x : PCP) : Wr Unit := do
  wInt c.bo .s32 x.offset_num
  wInt c.bo .s32 x.offset_den
  pInt c.bo .s32 (g.val "timescale" x.timescale)
  x.writeValueG g c value_type
  wInt c.bo .s16 x.pp.length
  forWi x.pp fun i e => e.writeG (g.at "pp" i) c

/-- `ParamClip.write` with any values in the properties (src/avb/components.py:618-668). -/
def ParamClip.writeG (g : Given) (c : WCtx) (x : ParamClip) : Wr Unit := do
  x.toClip.writeG g c
  wU8 0x02
  wU8 0x01
  pInt c.bo .s32 (g.val "interp_kind" x.interp_kind)
  wInt c.bo .s16 x.value_type
  wInt c.bo .s32 x.control_points.length
  forWi x.control_points fun i e => e.writeG (g.at "control_points" i) c x.value_type
  Wr.ifHas (g.opt "extrap_kind" x.extrap_kind) fun v => do
    wU8 0x01
    wU8 0x01
    wU8 71
    pInt c.bo .s32 v
  Wr.ifHas (g.opt "fields" x.fields) fun v => do
    wU8 0x01
    wU8 0x02
    wU8 71
    pInt c.bo .s32 v
  wU8 0x03

/-- `CPProp.write` with any values in the properties (src/avb/components.py:922-925). -/
def CPProp.writeG (g : Given) (c : WCtx) (x : CPProp) : Wr Unit := do
  pInt c.bo .s16 (g.val "code" x.code)
  wInt c.bo .s32 x.value_a
  wInt c.bo .s32 x.value_b

/-- `CP.write` with any values in the properties (src/avb/components.py:911-925). -/
def CP.writeG (g : Given) (c : WCtx) (x : CP) : Wr Unit := do
  wInt c.bo .s32 x.offset_a
  wInt c.bo .s32 x.offset_b
  pInt c.bo .s32 (g.val "time_scale" x.time_scale)
  wBool true
  wInt c.bo .s32 x.value_a
  wInt c.bo .s32 x.value_b
  wInt c.bo .s16 x.pp.length
  forWi x.pp fun i e => e.writeG (g.at "pp" i) c

/-- `ControlClip.write` with any values in the properties (src/avb/components.py:903-927). -/
def ControlClip.writeG (g : Given) (c : WCtx) (x : ControlClip) : Wr Unit := do
  x.toClip.writeG g c
  wU8 0x02
  wU8 0x03
  pInt c.bo .s32 (g.val "interp_kind" x.interp_kind)
  wInt c.bo .s32 x.control_points.length
  forWi x.control_points fun i e => e.writeG (g.at "control_points" i) c
  wU8 0x03

/-- `Filler.write` with any values in the properties (src/avb/components.py:943-949). -/
def Filler.writeG (g : Given) (c : WCtx) (x : Filler) : Wr Unit := do
  x.toClip.writeG g c
  wU8 0x02
  wU8 0x01
  wU8 0x03

/-- `MediaDescriptor.writeBody` with any values in the properties (src/avb/essence.py:65-94). -/
def MediaDescriptor.writeBodyG (g : Given) (c : WCtx) (x : MediaDescriptor) : Wr Unit := do
  wU8 0x02
  wU8 0x03
  pInt .little .u8 (g.val "mob_kind" x.mob_kind)
  pRef c (g.val "locator" x.locator)
  pBool (g.val "intermediate" x.intermediate)
  pRef c (g.val "physical_media" x.physical_media)
  Wr.ifHas x.uuid fun v => do
    wU8 0x01
    wU8 0x01
    wU8 65
    wInt c.bo .s32 16
    wRawUuid c.bo v
  Wr.ifHas x.wchar fun v => do
    wU8 0x01
    wU8 0x02
    wU8 65
    wInt c.bo .s32 v.length
    Wr.emit v
  Wr.ifHas (g.opt "attributes" x.attributes) fun v => do
    wU8 0x01
    wU8 0x03
    wU8 72
    pRef c v

/-- `MediaDescriptor.write` with any values in the properties (src/avb/essence.py:65-97). -/
def MediaDescriptor.writeG (g : Given) (c : WCtx) (x : MediaDescriptor) : Wr Unit := do
  x.writeBodyG g c
  wU8 0x03

/-- `TapeDescriptor.write` with any values in the properties (src/avb/essence.py:117-124). -/
def TapeDescriptor.writeG (g : Given) (c : WCtx) (x : TapeDescriptor) : Wr Unit := do
  x.toMediaDescriptor.writeBodyG g c
  wU8 0x02
  wU8 0x02
  pInt c.bo .s16 (g.val "cframe" x.cframe)
  wU8 0x03

/-- `FilmDescriptor.write` with any values in the properties (src/avb/essence.py:139-144). -/
def FilmDescriptor.writeG (g : Given) (c : WCtx) (x : FilmDescriptor) : Wr Unit := do
  x.toMediaDescriptor.writeBodyG g c
  wU8 0x02
  wU8 0x01
  wU8 0x03

/-- `NagraDescriptor.write` with any values in the properties (src/avb/essence.py:159-164). -/
def NagraDescriptor.writeG (g : Given) (c : WCtx) (x : NagraDescriptor) : Wr Unit := do
  x.toMediaDescriptor.writeBodyG g c
  wU8 0x02
  wU8 0x01
  wU8 0x03

/-- `MediaFileDescriptor.writeBody` with any values in the properties (src/avb/essence.py:191-200). -/
def MediaFileDescriptor.writeBodyG (g : Given) (c : WCtx) (x : MediaFileDescriptor) : Wr Unit := do
  x.toMediaDescriptor.writeBodyG g c
  wU8 0x02
  wU8 0x03
  pRate c.bo (g.val "edit_rate" x.edit_rate)
  pInt c.bo .s32 (g.val "length" x.length)
  pInt c.bo .s16 (g.val "is_omfi" x.is_omfi)
  pInt c.bo .s32 (g.val "data_offset" x.data_offset)

/-- `MediaFileDescriptor.write` with any values in the properties (src/avb/essence.py:191-203). -/
def MediaFileDescriptor.writeG (g : Given) (c : WCtx) (x : MediaFileDescriptor) : Wr Unit := do
  x.writeBodyG g c
  wU8 0x03

/-- `MultiDescriptor.write` with any values in the properties (src/avb/essence.py:227-238). -/
def MultiDescriptor.writeG (g : Given) (c : WCtx) (x : MultiDescriptor) : Wr Unit := do
  x.toMediaFileDescriptor.writeBodyG g c
  wU8 0x02
  wU8 0x01
  wInt c.bo .s32 x.descriptors.length
  forW x.descriptors (wRef c)
  wU8 0x03

/-- `WaveDescriptor.write` with any values in the properties (src/avb/essence.py:261-270). -/
def WaveDescriptor.writeG (g : Given) (c : WCtx) (x : WaveDescriptor) : Wr Unit := do
  x.toMediaFileDescriptor.writeBodyG g c
  wU8 0x02
  wU8 0x01
  Wr.emit [82, 73, 70, 70]
  wInt .little .u32 x.summary.length
  Wr.emit x.summary
  wU8 0x03

/-- `AIFCDescriptor.write` with any values in the properties (src/avb/essence.py:301-318). -/
def AIFCDescriptor.writeG (g : Given) (c : WCtx) (x : AIFCDescriptor) : Wr Unit := do
  x.toMediaFileDescriptor.writeBodyG g c
  wU8 0x02
  wU8 0x01
  Wr.emit [70, 79, 82, 77]
  wInt .big .u32 x.summary.length
  Wr.emit x.summary
  Wr.ifHas (g.opt "data_pos" x.data_pos) fun v => do
    wU8 0x01
    wU8 0x01
    wU8 71
    pInt c.bo .s32 v
  wU8 0x03

/-- `PCMADescriptor.write` with any values in the properties (src/avb/essence.py:393-436). -/
def PCMADescriptor.writeG (g : Given) (c : WCtx) (x : PCMADescriptor) : Wr Unit := do
  x.toMediaFileDescriptor.writeBodyG g c
  wU8 0x02
  wU8 0x01
  pInt c.bo .u16 (g.val "channels" x.channels)
  pInt c.bo .u16 (g.val "quantization_bits" x.quantization_bits)
  pRate c.bo (g.val "sample_rate" x.sample_rate)
  pBool (g.val "locked" x.locked)
  pInt c.bo .s16 (g.val "audio_ref_level" x.audio_ref_level)
  pInt c.bo .s32 (g.val "electro_spatial_formulation" x.electro_spatial_formulation)
  pInt c.bo .u16 (g.val "dial_norm" x.dial_norm)
  pInt c.bo .u32 (g.val "coding_format" x.coding_format)
  pInt c.bo .u32 (g.val "block_align" x.block_align)
  pInt c.bo .u16 (g.val "sequence_offset" x.sequence_offset)
  pInt c.bo .u32 (g.val "average_bps" x.average_bps)
  pBool (g.val "has_peak_envelope_data" x.has_peak_envelope_data)
  pInt c.bo .s32 (g.val "peak_envelope_version" x.peak_envelope_version)
  pInt c.bo .s32 (g.val "peak_envelope_format" x.peak_envelope_format)
  pInt c.bo .s32 (g.val "points_per_peak_value" x.points_per_peak_value)
  pInt c.bo .s32 (g.val "peak_envelope_block_size" x.peak_envelope_block_size)
  pInt c.bo .s32 (g.val "peak_channel_count" x.peak_channel_count)
  pInt c.bo .s32 (g.val "peak_frame_count" x.peak_frame_count)
  pInt c.bo .u64 (g.val "peak_of_peaks_offset" x.peak_of_peaks_offset)
  pInt c.bo .s32 (g.val "peak_envelope_timestamp" x.peak_envelope_timestamp)
  Wr.ifHas (g.opt "ebu_timestamp" x.ebu_timestamp) fun v => do
    wU8 0x01
    wU8 0x01
    wU8 77
    pInt c.bo .s64 v
  Wr.ifHas (g.opt "timecode_framerate" x.timecode_framerate) fun v => do
    wU8 0x01
    wU8 0x03
    wU8 76
    pStr c.bo .macroman v
  wU8 0x03

/-- `MPGADescriptor.write` with any values in the properties (src/avb/essence.py:487-517). -/
def MPGADescriptor.writeG (g : Given) (c : WCtx) (x : MPGADescriptor) : Wr Unit := do
  x.toMediaFileDescriptor.writeBodyG g c
  wU8 0x02
  wU8 0x01
  pInt c.bo .u16 (g.val "channels" x.channels)
  pInt c.bo .u16 (g.val "quantization_bits" x.quantization_bits)
  pRate c.bo (g.val "sample_rate" x.sample_rate)
  pBool (g.val "locked" x.locked)
  pInt c.bo .s16 (g.val "audio_ref_level" x.audio_ref_level)
  pInt c.bo .s32 (g.val "electro_spatial_formulation" x.electro_spatial_formulation)
  pInt c.bo .u16 (g.val "dial_norm" x.dial_norm)
  pInt c.bo .u32 (g.val "coding_format" x.coding_format)
  pInt c.bo .u32 (g.val "bit_rate" x.bit_rate)
  Wr.ifHas (g.opt "sub_frame_alignment" x.sub_frame_alignment) fun v => do
    wU8 0x01
    wU8 0x01
    wU8 77
    pInt c.bo .s64 v
  Wr.ifHas (g.opt "origin" x.origin) fun v => do
    wU8 0x01
    wU8 0x02
    wU8 77
    pInt c.bo .u64 v
  wU8 0x03

/-- `DIDDescriptor.writeBody` with any values in the properties (src/avb/essence.py:772-980). -/
def DIDDescriptor.writeBodyG (g : Given) (c : WCtx) (x : DIDDescriptor) : Wr Unit := do
  x.toMediaFileDescriptor.writeBodyG g c
  wU8 0x02
  wU8 0x02
  pInt c.bo .s32 (g.val "stored_height" x.stored_height)
  pInt c.bo .s32 (g.val "stored_width" x.stored_width)
  pInt c.bo .s32 (g.val "sampled_height" x.sampled_height)
  pInt c.bo .s32 (g.val "sampled_width" x.sampled_width)
  pInt c.bo .s32 (g.val "sampled_x_offset" x.sampled_x_offset)
  pInt c.bo .s32 (g.val "sampled_y_offset" x.sampled_y_offset)
  pInt c.bo .s32 (g.val "display_height" x.display_height)
  pInt c.bo .s32 (g.val "display_width" x.display_width)
  pInt c.bo .s32 (g.val "display_x_offset" x.display_x_offset)
  pInt c.bo .s32 (g.val "display_y_offset" x.display_y_offset)
  pInt c.bo .s16 (g.val "frame_layout" x.frame_layout)
  wInt c.bo .s32 x.aspect_ratio.1
  wInt c.bo .s32 x.aspect_ratio.2
  wInt c.bo .s32 (x.line_map.length * 4)
  forW x.line_map (wInt c.bo .s32)
  pInt c.bo .s32 (g.val "alpha_transparency" x.alpha_transparency)
  pBool (g.val "uniformness" x.uniformness)
  pInt c.bo .s32 (g.val "did_image_size" x.did_image_size)
  pRef c (g.val "next_did_desc" x.next_did_desc)
  Wr.guard (x.compress_method.length = 4) .assertion
  wFourcc c.bo x.compress_method
  pInt c.bo .s32 (g.val "resolution_id" x.resolution_id)
  pInt c.bo .s32 (g.val "image_alignment_factor" x.image_alignment_factor)
  Wr.ifHas (g.opt "frame_index_byte_order" x.frame_index_byte_order) fun v => do
    wU8 0x01
    wU8 0x01
    wU8 69
    pInt c.bo .s16 v
  Wr.ifHas (g.opt "frame_sample_size" x.frame_sample_size) fun v => do
    wU8 0x01
    wU8 0x02
    wU8 71
    pInt c.bo .s32 v
  Wr.ifHas (g.opt "first_frame_offset" x.first_frame_offset) fun v => do
    wU8 0x01
    wU8 0x03
    wU8 71
    pInt c.bo .s32 v
  Wr.ifHas x.client_fill_start fun v => do
    wU8 0x01
    wU8 0x04
    wU8 71
    wInt c.bo .s32 v
    wU8 71
    let e ← Wr.get x.client_fill_end
    wInt c.bo .s32 e
  Wr.ifHas (g.opt "offset_to_rle_frame_index" x.offset_to_rle_frame_index) fun v => do
    wU8 0x01
    wU8 0x05
    wU8 71
    pInt c.bo .s32 v
  Wr.ifHas (g.opt "frame_start_offset" x.frame_start_offset) fun v => do
    wU8 0x01
    wU8 0x06
    wU8 71
    pInt c.bo .s32 v
  Wr.ifHas (andHas (andHas x.valid_box x.essence_box) x.source_box) fun v => do
    wU8 0x01
    wU8 0x08
    wBox c v.1.1
    wBox c v.1.2
    wBox c v.2
  Wr.ifHas (andHas x.framing_box x.reformatting_option) fun v => do
    wU8 0x01
    wU8 9
    wBox c v.1
    wU8 71
    wInt c.bo .s32 v.2
  Wr.ifHas x.transfer_characteristic fun v => do
    wU8 0x01
    wU8 10
    wU8 80
    wRawUuid c.bo v
  Wr.ifHas (andHas x.color_primaries x.coding_equations) fun v => do
    wU8 0x01
    wU8 11
    wU8 80
    wRawUuid c.bo v.1
    wU8 80
    wRawUuid c.bo v.2
  Wr.ifHas x.essence_compression fun v => do
    wU8 0x01
    wU8 12
    wU8 80
    wRawUuid c.bo v
  Wr.ifHas (g.opt "essence_element_size_kind" x.essence_element_size_kind) fun v => do
    wU8 0x01
    wU8 14
    wU8 68
    pInt .little .u8 v
  Wr.ifHas (g.opt "frame_checked_with_mapper" x.frame_checked_with_mapper) fun v => do
    wU8 0x01
    wU8 15
    wU8 66
    pBool v

/-- `DIDDescriptor.write` with any values in the properties (src/avb/essence.py:772-983). -/
def DIDDescriptor.writeG (g : Given) (c : WCtx) (x : DIDDescriptor) : Wr Unit := do
  x.writeBodyG g c
  wU8 0x03

/-- `CDCIDescriptor.writeBody` with any values in the properties (src/avb/essence.py:1033-1060). -/
def CDCIDescriptor.writeBodyG (g : Given) (c : WCtx) (x : CDCIDescriptor) : Wr Unit := do
  x.toDIDDescriptor.writeBodyG g c
  wU8 0x02
  wU8 0x02
  pInt c.bo .u32 (g.val "horizontal_subsampling" x.horizontal_subsampling)
  pInt c.bo .u32 (g.val "vertical_subsampling" x.vertical_subsampling)
  pInt c.bo .s32 (g.val "component_width" x.component_width)
  pInt c.bo .s16 (g.val "color_sitting" x.color_sitting)
  pInt c.bo .u32 (g.val "black_ref_level" x.black_ref_level)
  pInt c.bo .u32 (g.val "white_ref_level" x.white_ref_level)
  pInt c.bo .u32 (g.val "color_range" x.color_range)
  pInt c.bo .s64 (g.val "frame_index_offset" x.frame_index_offset)
  Wr.ifHas (g.opt "alpha_sampled_width" x.alpha_sampled_width) fun v => do
    wU8 0x01
    wU8 0x01
    wU8 72
    pInt c.bo .u32 v
  Wr.ifHas (g.opt "ignore_bw" x.ignore_bw) fun v => do
    wU8 0x01
    wU8 0x02
    wU8 72
    pInt c.bo .u32 v

/-- `CDCIDescriptor.write` with any values in the properties (src/avb/essence.py:1033-1063). -/
def CDCIDescriptor.writeG (g : Given) (c : WCtx) (x : CDCIDescriptor) : Wr Unit := do
  x.writeBodyG g c
  wU8 0x03

/-- `MPGIDescriptor.write` with any values in the properties (src/avb/essence.py:1103-1121). -/
def MPGIDescriptor.writeG (g : Given) (c : WCtx) (x : MPGIDescriptor) : Wr Unit := do
  x.toCDCIDescriptor.writeBodyG g c
  wU8 0x02
  wU8 0x01
  pInt .little .u8 (g.val "mpeg_version" x.mpeg_version)
  pInt .little .u8 (g.val "profile" x.profile)
  pInt .little .u8 (g.val "gop_structure" x.gop_structure)
  pInt .little .u8 (g.val "stream_type" x.stream_type)
  pBool (g.val "random_access" x.random_access)
  pBool (g.val "leading_discard" x.leading_discard)
  pBool (g.val "trailing_discard" x.trailing_discard)
  pInt c.bo .u16 (g.val "min_gop_length" x.min_gop_length)
  pInt c.bo .u16 (g.val "max_gop_length" x.max_gop_length)
  wInt c.bo .s32 x.sequence_hdr.length
  Wr.emit x.sequence_hdr
  wU8 0x03

/-- `JPEGDescriptor.write` with any values in the properties (src/avb/essence.py:1155-1172). -/
def JPEGDescriptor.writeG (g : Given) (c : WCtx) (x : JPEGDescriptor) : Wr Unit := do
  x.toCDCIDescriptor.writeBodyG g c
  wU8 0x02
  wU8 0x01
  pInt c.bo .s32 (g.val "jpeg_table_id" x.jpeg_table_id)
  pInt c.bo .u64 (g.val "jpeg_frame_index_offset" x.jpeg_frame_index_offset)
  wInt c.bo .s32 x.quantization_tables.length
  Wr.emit x.quantization_tables
  Wr.ifHas (g.opt "image_start_align" x.image_start_align) fun v => do
    wU8 0x01
    wU8 0x01
    wU8 71
    pInt c.bo .s32 v
  wU8 0x03

/-- `RGBADescriptor.write` with any values in the properties (src/avb/essence.py:1260-1313). -/
def RGBADescriptor.writeG (g : Given) (c : WCtx) (x : RGBADescriptor) : Wr Unit := do
  x.toDIDDescriptor.writeBodyG g c
  wU8 0x02
  wU8 0x01
  let enc ← encodePixelLayout x.pixel_layout
  wInt c.bo .u32 enc.1.length
  Wr.emit enc.1
  wInt c.bo .u32 enc.2.length
  Wr.emit enc.2
  wInt c.bo .u32 0
  wInt c.bo .u32 0
  wInt c.bo .u32 0
  Wr.ifHas (g.opt "frame_index_offset" x.frame_index_offset) fun v => do
    wU8 0x01
    wU8 0x01
    wU8 77
    pInt c.bo .u64 v
  Wr.ifHas x.has_comp_min_ref fun v => do
    wU8 0x01
    wU8 0x02
    wU8 66
    wBool v
    wU8 72
    let a ← Wr.get x.comp_min_ref
    wInt c.bo .u32 a
    wU8 66
    let b ← Wr.get x.has_comp_max_ref
    wBool b
    wU8 72
    let e ← Wr.get x.comp_max_ref
    wInt c.bo .u32 e
  Wr.ifHas x.alpha_min_ref fun v => do
    wU8 0x01
    wU8 0x03
    wU8 72
    wInt c.bo .u32 v
    wU8 72
    let a ← Wr.get x.alpha_max_ref
    wInt c.bo .u32 a
  wU8 0x03

/-- `DataDescriptor.write` with any values in the properties (src/avb/essence.py:1340-1350). -/
def DataDescriptor.writeG (g : Given) (c : WCtx) (x : DataDescriptor) : Wr Unit := do
  x.toMediaFileDescriptor.writeBodyG g c
  wU8 0x02
  wU8 0x01
  pBool (g.val "is_offset_to_frame_indexes_valid" x.is_offset_to_frame_indexes_valid)
  pInt c.bo .u64 (g.val "offset_to_frame_indexes" x.offset_to_frame_indexes)
  pInt c.bo .s32 (g.val "first_frame_offset" x.first_frame_offset)
  pInt c.bo .s32 (g.val "min_sample_size" x.min_sample_size)
  pInt c.bo .s32 (g.val "max_sample_size" x.max_sample_size)

/-- `ANCDataDescriptor.write` with any values in the properties (src/avb/essence.py:1371-1379). -/
def ANCDataDescriptor.writeG (g : Given) (c : WCtx) (x : ANCDataDescriptor) : Wr Unit := do
  x.toDataDescriptor.writeG g c
  wU8 0x02
  wU8 0x01
  pInt c.bo .s32 (g.val "manifest_element_count" x.manifest_element_count)
  wU8 0x03

/-- `FileLocator.write` with any values in the properties (src/avb/misc.py:49-75). -/
def FileLocator.writeG (g : Given) (c : WCtx) (x : FileLocator) : Wr Unit := do
  wU8 0x02
  wU8 0x02
  pStr c.bo .macroman (g.val "path" x.path)
  Wr.ifHas (g.opt "path_posix" x.path_posix) fun v => do
    wU8 0x01
    wU8 0x01
    wU8 76
    pStr c.bo .macroman v
  Wr.ifHas (g.opt "path_utf8" x.path_utf8) fun v => do
    wU8 0x01
    wU8 0x02
    wU8 76
    pStr c.bo .utf8 v
  Wr.ifHas (g.opt "path2_utf8" x.path2_utf8) fun v => do
    wU8 0x01
    wU8 0x03
    wU8 76
    pStr c.bo .utf8 v
  wU8 0x03

/-- `GraphicEffect.write` with any values in the properties (src/avb/misc.py:128-137). -/
def GraphicEffect.writeG (_ : Given) (c : WCtx) (x : GraphicEffect) : Wr Unit := do
  wU8 0x02
  wU8 0x01
  wInt c.bo .s32 x.pict_data.length
  Wr.emit x.pict_data
  wU8 0x03

/-- `ShapeList.write` with any values in the properties (src/avb/misc.py:160-169). -/
def ShapeList.writeG (_ : Given) (c : WCtx) (x : ShapeList) : Wr Unit := do
  wU8 0x02
  wU8 0x01
  wInt c.bo .s32 x.shape_data.length
  Wr.emit x.shape_data
  wU8 0x03

/-- `ColorCorrectionEffect.write` with any values in the properties (src/avb/misc.py:193-202). -/
def ColorCorrectionEffect.writeG (_ : Given) (c : WCtx) (x : ColorCorrectionEffect) : Wr Unit := do
  wU8 0x02
  wU8 0x01
  wInt c.bo .s16 x.color_correction.length
  Wr.emit x.color_correction
  wU8 0x03

/-- `EffectParam.write` with any values in the properties (src/avb/misc.py:338-387). -/
def EffectParam.writeG (g : Given) (c : WCtx) (p : EffectParam) : Wr Unit := do
  pInt c.bo .s32 (g.val "percent_time" p.percent_time)
  pInt c.bo .s32 (g.val "level" p.level)
  pInt c.bo .s32 (g.val "pos_x" p.pos_x)
  pInt c.bo .s32 (g.val "floor_x" p.floor_x)
  pInt c.bo .s32 (g.val "ceil_x" p.ceil_x)
  pInt c.bo .s32 (g.val "pos_y" p.pos_y)
  pInt c.bo .s32 (g.val "floor_y" p.floor_y)
  pInt c.bo .s32 (g.val "ceil_y" p.ceil_y)
  pInt c.bo .s32 (g.val "scale_x" p.scale_x)
  pInt c.bo .s32 (g.val "scale_y" p.scale_y)
  pInt c.bo .s32 (g.val "crop_left" p.crop_left)
  pInt c.bo .s32 (g.val "crop_right" p.crop_right)
  pInt c.bo .s32 (g.val "crop_top" p.crop_top)
  pInt c.bo .s32 (g.val "crop_bottom" p.crop_bottom)
  let box0 ← Wr.nth p.box 0
  wInt c.bo .s32 box0
  let box1 ← Wr.nth p.box 1
  wInt c.bo .s32 box1
  let box2 ← Wr.nth p.box 2
  wInt c.bo .s32 box2
  let box3 ← Wr.nth p.box 3
  wInt c.bo .s32 box3
  pBool (g.val "box_xscale" p.box_xscale)
  pBool (g.val "box_yscale" p.box_yscale)
  pBool (g.val "box_xpos" p.box_xpos)
  pBool (g.val "box_ypos" p.box_ypos)
  pInt c.bo .s32 (g.val "border_width" p.border_width)
  pInt c.bo .s32 (g.val "border_soft" p.border_soft)
  pInt c.bo .s16 (g.val "splill_gain2" p.splill_gain2)
  pInt c.bo .s16 (g.val "splill_gain" p.splill_gain)
  pInt c.bo .s16 (g.val "splill_soft2" p.splill_soft2)
  pInt c.bo .s16 (g.val "splill_soft" p.splill_soft)
  pInt .little .s8 (g.val "enable_key_flags" p.enable_key_flags)
  wInt c.bo .s32 p.colors.length
  forW p.colors (wInt c.bo .s32)
  wInt c.bo .s32 p.user_param.length
  Wr.emit p.user_param
  pBool (g.val "selected" p.selected)

/-- `EffectParamList.write` with any values in the properties (src/avb/misc.py:326-389). -/
def EffectParamList.writeG (g : Given) (c : WCtx) (x : EffectParamList) : Wr Unit := do
  wU8 0x02
  wU8 0x12
  pInt c.bo .s32 (g.val "orig_length" x.orig_length)
  pInt c.bo .s32 (g.val "window_offset" x.window_offset)
  wInt c.bo .s32 x.parameters.length
  pInt c.bo .s32 (g.val "keyframe_size" x.keyframe_size)
  forWi x.parameters fun i e => e.writeG (g.at "parameters" i) c
  wU8 0x03

/-- `CFUserParam.write` with any values in the properties (src/avb/misc.py:423-438). -/
def CFUserParam.writeG (_ : Given) (c : WCtx) (x : CFUserParam) : Wr Unit := do
  wU8 0x02
  wU8 0x01
  wInt c.bo .s16 0x4949
  wRawUuid c.bo x.uuid
  wInt c.bo .s32 (x.data.length + 4)
  wInt c.bo .s32 x.data.length
  Wr.emit x.data
  wU8 0x03

/-- `ParameterItem.writeValue` with any values in the properties (src/avb/misc.py:494-501). -/
def ParameterItem.writeValueG (_ : Given) (c : WCtx) (x : ParameterItem) : Wr Unit :=
  if x.value_type = 1 then x.value.wS32 c.bo
  else if x.value_type = 2 then x.value.wDbl
  else if x.value_type = 4 then x.value.wRef c
  else Wr.fail .value

/-- `ParameterItem.write` with any values in the properties (src/avb/misc.py:485-517). -/
def ParameterItem.writeG (g : Given) (c : WCtx) (x : ParameterItem) : Wr Unit := do
  wU8 0x02
  wU8 0x02
  wRawUuid c.bo x.uuid
  wInt c.bo .s16 x.value_type
  x.writeValueG g c
  wName c (some x.name)
  pBool (g.val "enable" x.enable)
  pRef c (g.val "control_track" x.control_track)
  Wr.ifHas (g.opt "contribs_to_sig" x.contribs_to_sig) fun v => do
    wU8 0x01
    wU8 0x01
    wU8 66
    pBool v
  wU8 0x03

/-- `MSMLocator.write` with any values in the properties (src/avb/misc.py:572-602). -/
def MSMLocator.writeG (g : Given) (c : WCtx) (x : MSMLocator) : Wr Unit := do
  wU8 0x02
  wU8 0x02
  let mob_id ← Wr.get x.mob_id
  wInt c.bo .u32 mob_id.lo
  wInt c.bo .u32 mob_id.hi
  pStr c.bo .macroman (g.val "last_known_volume" x.last_known_volume)
  Wr.ifHas (g.opt "domain_type" x.domain_type) fun v => do
    wU8 0x01
    wU8 0x01
    wU8 71
    pInt c.bo .s32 v
  Wr.ifHas x.mob_id fun m => do
    wU8 0x01
    wU8 0x02
    wMobId c.bo m
  Wr.ifHas (g.opt "last_known_volume_utf8" x.last_known_volume_utf8) fun v => do
    wU8 0x01
    wU8 0x03
    wU8 76
    pStr c.bo .utf8 v
  wU8 0x03

/-- `Position.writeBody` with any values in the properties (src/avb/misc.py:631-645). -/
def Position.writeBodyG (_ : Given) (c : WCtx) (x : Position) : Wr Unit := do
  wU8 0x02
  wU8 0x01
  let mob_id ← Wr.get x.mob_id
  wInt c.bo .u32 mob_id.lo
  wInt c.bo .u32 mob_id.hi
  Wr.ifHas x.mob_id fun m => do
    wU8 0x01
    wU8 0x01
    wMobId c.bo m

/-- `Position.write` with any values in the properties (src/avb/misc.py:631-648). -/
def Position.writeG (g : Given) (c : WCtx) (x : Position) : Wr Unit := do
  x.writeBodyG g c
  wU8 0x03

/-- `BOBPosition.writeBody` with any values in the properties (src/avb/misc.py:676-685). -/
def BOBPosition.writeBodyG (g : Given) (c : WCtx) (x : BOBPosition) : Wr Unit := do
  x.toPosition.writeBodyG g c
  wU8 0x02
  wU8 0x01
  pInt c.bo .s32 (g.val "sample_num" x.sample_num)
  pInt c.bo .s32 (g.val "length" x.length)
  pInt c.bo .s16 (g.val "track_type" x.track_type)
  pInt c.bo .s16 (g.val "track_index" x.track_index)

/-- `BOBPosition.write` with any values in the properties (src/avb/misc.py:676-688). -/
def BOBPosition.writeG (g : Given) (c : WCtx) (x : BOBPosition) : Wr Unit := do
  x.writeBodyG g c
  wU8 0x03

/-- `DIDPosition.writeBody` with any values in the properties (src/avb/misc.py:716-725). -/
def DIDPosition.writeBodyG (g : Given) (c : WCtx) (x : DIDPosition) : Wr Unit := do
  x.toBOBPosition.writeBodyG g c
  wU8 0x02
  wU8 0x01
  pInt c.bo .s32 (g.val "strip" x.strip)
  pInt c.bo .u64 (g.val "offset" x.offset)
  pInt c.bo .u64 (g.val "byte_length" x.byte_length)
  pBool (g.val "spos_invalid" x.spos_invalid)

/-- `DIDPosition.write` with any values in the properties (src/avb/misc.py:716-728). -/
def DIDPosition.writeG (g : Given) (c : WCtx) (x : DIDPosition) : Wr Unit := do
  x.writeBodyG g c
  wU8 0x03

/-- `MPGPosition.write` with any values in the properties (src/avb/misc.py:763-781). -/
def MPGPosition.writeG (g : Given) (c : WCtx) (x : MPGPosition) : Wr Unit := do
  x.toDIDPosition.writeBodyG g c
  wU8 0x02
  wU8 0x01
  pInt c.bo .s16 (g.val "trailing_discards" x.trailing_discards)
  pBool (g.val "need_seq_hdr" x.need_seq_hdr)
  MPGPosition.writeFields c x.fields
  wU8 0x03

/-- `BinRef.write` with any values in the properties (src/avb/misc.py:814-829). -/
def BinRef.writeG (g : Given) (c : WCtx) (x : BinRef) : Wr Unit := do
  wU8 0x02
  wU8 0x01
  pInt c.bo .s32 (g.val "uid_high" x.uid_high)
  pInt c.bo .s32 (g.val "uid_low" x.uid_low)
  pStr c.bo .macroman (g.val "name" x.name)
  let name_utf8 ← Wr.get x.name_utf8
  wU8 0x01
  wU8 0x01
  wU8 76
  wStr c.bo .utf8 name_utf8
  wU8 0x03

/-- `MobRef.writeBody` with any values in the properties (src/avb/misc.py:860-876). -/
def MobRef.writeBodyG (g : Given) (c : WCtx) (x : MobRef) : Wr Unit := do
  wU8 0x02
  wU8 0x01
  let mob_id ← Wr.get x.mob_id
  wInt c.bo .u32 mob_id.lo
  wInt c.bo .u32 mob_id.hi
  pInt c.bo .s32 (g.val "position" x.position)
  Wr.ifHas x.mob_id fun m => do
    wU8 0x01
    wU8 0x01
    wMobId c.bo m

/-- `MobRef.write` with any values in the properties (src/avb/misc.py:860-879). -/
def MobRef.writeG (g : Given) (c : WCtx) (x : MobRef) : Wr Unit := do
  x.writeBodyG g c
  wU8 0x03

/-- `Marker.write` with any values in the properties (src/avb/misc.py:922-943). -/
def Marker.writeG (g : Given) (c : WCtx) (x : Marker) : Wr Unit := do
  x.toMobRef.writeBodyG g c
  wU8 0x02
  wU8 0x03
  pInt c.bo .s32 (g.val "comp_offset" x.comp_offset)
  pRef c (g.val "attributes" x.attributes)
  wInt c.bo .s16 1
  forW x.color (wInt c.bo .u16)
  Wr.ifHas (g.opt "handled_codes" x.handled_codes) fun v => do
    wU8 0x01
    wU8 0x01
    wU8 66
    pBool v
  wU8 0x03

/-- `TrackerManager.write` with any values in the properties (src/avb/misc.py:966-975). -/
def TrackerManager.writeG (g : Given) (c : WCtx) (x : TrackerManager) : Wr Unit := do
  wU8 0x02
  wU8 0x01
  pRef c (g.val "data_slots" x.data_slots)
  pRef c (g.val "param_slots" x.param_slots)
  wU8 0x03

/-- `TrackerDataSlot.write` with any values in the properties (src/avb/misc.py:1008-1025). -/
def TrackerDataSlot.writeG (g : Given) (c : WCtx) (x : TrackerDataSlot) : Wr Unit := do
  wU8 0x02
  wU8 0x01
  wInt c.bo .s32 x.tracker_data.length
  forW x.tracker_data (wRef c)
  Wr.ifHas (g.opt "track_fg" x.track_fg) fun v => do
    wU8 0x01
    wU8 0x01
    wU8 66
    pBool v
  wU8 0x03

/-- `TrackerParameterSlot.write` with any values in the properties (src/avb/misc.py:1055-1068). -/
def TrackerParameterSlot.writeG (_ : Given) (c : WCtx) (x : TrackerParameterSlot) : Wr Unit := do
  wU8 0x02
  wU8 0x01
  wInt c.bo .s16 x.settings.length
  Wr.emit x.settings
  wInt c.bo .s32 x.params.length
  forW x.params (wRef c)
  wU8 0x03

/-- `TrackerData.write` with any values in the properties (src/avb/misc.py:1127-1179). -/
def TrackerData.writeG (g : Given) (c : WCtx) (x : TrackerData) : Wr Unit := do
  wU8 0x02
  wU8 0x01
  wInt c.bo .s16 x.settings.length
  Wr.emit x.settings
  pInt c.bo .u32 (g.val "clip_version" x.clip_version)
  wInt c.bo .s16 x.clips.length
  forW x.clips (wRef c)
  Wr.ifHas (g.opt "offset_tracking" x.offset_tracking) fun v => do
    wU8 0x01
    wU8 0x01
    wU8 72
    pInt c.bo .u32 v
  Wr.ifHas (g.opt "smoothing" x.smoothing) fun v => do
    wU8 0x01
    wU8 0x02
    wU8 72
    pInt c.bo .u32 v
  Wr.ifHas (g.opt "jitter_removal" x.jitter_removal) fun v => do
    wU8 0x01
    wU8 0x03
    wU8 72
    pInt c.bo .u32 v
  Wr.ifHas x.filter_amount fun v => do
    wU8 0x01
    wU8 0x04
    wU8 75
    wDouble v
  Wr.ifHas (g.opt "clip5" x.clip5) fun v => do
    wU8 0x01
    wU8 0x05
    wU8 72
    pRef c v
  Wr.ifHas (g.opt "clip6" x.clip6) fun v => do
    wU8 0x01
    wU8 0x06
    wU8 72
    pRef c v
  wU8 0x03

/-- `TrackerParameter.write` with any values in the properties (src/avb/misc.py:1203-1212). -/
def TrackerParameter.writeG (_ : Given) (c : WCtx) (x : TrackerParameter) : Wr Unit := do
  wU8 0x02
  wU8 0x01
  wInt c.bo .s16 x.settings.length
  Wr.emit x.settings
  wU8 0x03

/-- `TrackGroup.write` with any values in the properties (src/avb/trackgroups.py:169-226). -/
def TrackGroup.writeG (g : Given) (c : WCtx) (x : TrackGroup) : Wr Unit := do
  x.toComponent.writeG g c
  wU8 0x02
  wU8 0x08
  pInt .little .u8 (g.val "mc_mode" x.mc_mode)
  pInt c.bo .s32 (g.val "length" x.length)
  pInt c.bo .s32 (g.val "num_scalars" x.num_scalars)
  wInt c.bo .s32 x.tracks.length
  forW x.tracks (Track.write c)
  Wr.when (x.tracks ≠ []) do
    wU8 0x01
    wU8 0x01
    forW x.tracks (wLock c)

/-- `TrackEffect.writeBody` with any values in the properties (src/avb/trackgroups.py:309-337). -/
def TrackEffect.writeBodyG (g : Given) (c : WCtx) (x : TrackEffect) : Wr Unit := do
  x.toTrackGroup.writeG g c
  wU8 0x02
  wU8 0x06
  pInt c.bo .s32 (g.val "left_length" x.left_length)
  pInt c.bo .s32 (g.val "right_length" x.right_length)
  pInt c.bo .s16 (g.val "info_version" x.info_version)
  pInt c.bo .s32 (g.val "info_current" x.info_current)
  pInt c.bo .s32 (g.val "info_smooth" x.info_smooth)
  pInt c.bo .s16 (g.val "info_color_item" x.info_color_item)
  pInt c.bo .s16 (g.val "info_quality" x.info_quality)
  pInt .little .s8 (g.val "info_is_reversed" x.info_is_reversed)
  pBool (g.val "info_aspect_on" x.info_aspect_on)
  pRef c (g.val "keyframes" x.keyframes)
  pBool (g.val "info_force_software" x.info_force_software)
  pBool (g.val "info_never_hardware" x.info_never_hardware)
  Wr.ifHas (g.opt "trackman" x.trackman) fun r => do
    wU8 0x01
    wU8 0x02
    wU8 72
    pRef c r

/-- `TrackEffect.write` with any values in the properties (src/avb/trackgroups.py:309-337). -/
def TrackEffect.writeG (g : Given) (c : WCtx) (x : TrackEffect) : Wr Unit := do
  x.writeBodyG g c
  wU8 0x03

/-- `PanVolumeEffect.write` with any values in the properties (src/avb/trackgroups.py:379-403). -/
def PanVolumeEffect.writeG (g : Given) (c : WCtx) (x : PanVolumeEffect) : Wr Unit := do
  x.toTrackEffect.writeBodyG g c
  wU8 0x02
  wU8 0x05
  pInt c.bo .s32 (g.val "level" x.level)
  pInt c.bo .s32 (g.val "pan" x.pan)
  pBool (g.val "suppress_validation" x.suppress_validation)
  pBool (g.val "level_set" x.level_set)
  pBool (g.val "pan_set" x.pan_set)
  Wr.ifHas (g.opt "supports_seperate_gain" x.supports_seperate_gain) fun v => do
    wU8 0x01
    wU8 0x01
    wU8 71
    pInt c.bo .s32 v
  Wr.ifHas (g.opt "is_trim_gain_effect" x.is_trim_gain_effect) fun v => do
    wU8 0x01
    wU8 0x02
    wU8 71
    pInt c.bo .s32 v
  wU8 0x03

/-- `ASPIPluginChunk.write` with any values in the properties (src/avb/trackgroups.py:556-567). -/
def ASPIPluginChunk.writeG (g : Given) (c : WCtx) (x : ASPIPluginChunk) : Wr Unit := do
  wInt c.bo .s32 x.data.length
  pInt c.bo .s32 (g.val "version" x.version)
  pInt c.bo .u32 (g.val "manufacturer_id" x.manufacturer_id)
  pInt c.bo .u32 (g.val "product_id" x.product_id)
  pInt c.bo .u32 (g.val "plugin_id" x.plugin_id)
  pInt c.bo .u32 (g.val "chunk_id" x.chunk_id)
  pStr c.bo .macroman (g.val "name" x.name)
  Wr.emit x.data

/-- `ASPIPlugin.write` with any values in the properties (src/avb/trackgroups.py:548-567). -/
def ASPIPlugin.writeG (g : Given) (c : WCtx) (x : ASPIPlugin) : Wr Unit := do
  pStr c.bo .macroman (g.val "name" x.name)
  pInt c.bo .u32 (g.val "manufacturer_id" x.manufacturer_id)
  pInt c.bo .u32 (g.val "product_id" x.product_id)
  pInt c.bo .u32 (g.val "plugin_id" x.plugin_id)
  wInt c.bo .s32 x.chunks.length
  forWi x.chunks fun i e => e.writeG (g.at "chunks" i) c

/-- `AudioSuitePluginEffect.write` with any values in the properties (src/avb/trackgroups.py:539-621). -/
def AudioSuitePluginEffect.writeG (g : Given) (c : WCtx) (x : AudioSuitePluginEffect) : Wr Unit := do
  x.toTrackEffect.writeBodyG g c
  wU8 0x02
  wU8 0x01
  wInt c.bo .s32 x.plugins.length
  forWi x.plugins fun i e => e.writeG (g.at "plugins" i) c
  Wr.ifHas x.mob_id fun m => do
    wU8 0x01
    wU8 0x01
    wU8 71
    wInt c.bo .s32 m.lo
    wU8 71
    wInt c.bo .s32 m.hi
  Wr.ifHas x.mob_id fun m => do
    wU8 0x01
    wU8 0x08
    wMobId c.bo m
  Wr.ifHas (g.opt "mark_in" x.mark_in) fun v => do
    wU8 0x01
    wU8 0x02
    wU8 77
    pInt c.bo .s64 v
  Wr.ifHas (g.opt "mark_out" x.mark_out) fun v => do
    wU8 0x01
    wU8 0x03
    wU8 77
    pInt c.bo .s64 v
  Wr.ifHas (g.opt "tracks_to_affect" x.tracks_to_affect) fun v => do
    wU8 0x01
    wU8 0x04
    wU8 72
    pInt c.bo .s32 v
  Wr.ifHas (g.opt "rendering_mode" x.rendering_mode) fun v => do
    wU8 0x01
    wU8 0x05
    wU8 71
    pInt c.bo .s32 v
  Wr.ifHas (g.opt "padding_secs" x.padding_secs) fun v => do
    wU8 0x01
    wU8 0x06
    wU8 71
    pInt c.bo .s32 v
  Wr.ifHas x.preset_path fun v => do
    wU8 0x01
    wU8 0x09
    wU8 72
    wPresetPath c v
  wU8 0x03

/-- `EqualizerBand.write` with any values in the properties (src/avb/trackgroups.py:677-682). -/
def EqualizerBand.writeG (g : Given) (c : WCtx) (x : EqualizerBand) : Wr Unit := do
  pInt c.bo .s32 (g.val "type" x.type)
  pInt c.bo .s32 (g.val "freq" x.freq)
  pInt c.bo .s32 (g.val "gain" x.gain)
  pInt c.bo .s32 (g.val "q" x.q)
  pBool (g.val "enable" x.enable)

/-- `EqualizerMultiBand.write` with any values in the properties (src/avb/trackgroups.py:670-687). -/
def EqualizerMultiBand.writeG (g : Given) (c : WCtx) (x : EqualizerMultiBand) : Wr Unit := do
  x.toTrackEffect.writeBodyG g c
  wU8 0x02
  wU8 0x05
  wInt c.bo .s32 x.bands.length
  forWi x.bands fun i e => e.writeG (g.at "bands" i) c
  pBool (g.val "effect_enable" x.effect_enable)
  pStr c.bo .macroman (g.val "filter_name" x.filter_name)
  wU8 0x03

/-- `TimeWarp.write` with any values in the properties (src/avb/trackgroups.py:704-709). -/
def TimeWarp.writeG (g : Given) (c : WCtx) (x : TimeWarp) : Wr Unit := do
  x.toTrackGroup.writeG g c
  wU8 0x02
  wU8 0x02
  pInt c.bo .s32 (g.val "phase_offset" x.phase_offset)

/-- `CaptureMask.write` with any values in the properties (src/avb/trackgroups.py:732-741). -/
def CaptureMask.writeG (g : Given) (c : WCtx) (x : CaptureMask) : Wr Unit := do
  x.toTimeWarp.writeG g c
  wU8 0x02
  wU8 0x01
  pBool (g.val "is_double" x.is_double)
  pInt c.bo .u32 (g.val "mask_bits" x.mask_bits)
  wU8 0x03

/-- `StrobeEffect.write` with any values in the properties (src/avb/trackgroups.py:760-766). -/
def StrobeEffect.writeG (g : Given) (c : WCtx) (x : StrobeEffect) : Wr Unit := do
  x.toTimeWarp.writeG g c
  wU8 0x02
  wU8 0x01
  pInt c.bo .s32 (g.val "strobe_value" x.strobe_value)
  wU8 0x03

/-- `MotionEffect.write` with any values in the properties (src/avb/trackgroups.py:806-831). -/
def MotionEffect.writeG (g : Given) (c : WCtx) (x : MotionEffect) : Wr Unit := do
  x.toTimeWarp.writeG g c
  wU8 0x02
  wU8 0x03
  wInt c.bo .s32 x.speed_num
  wInt c.bo .s32 x.speed_den
  Wr.ifHas x.offset_adjust fun v => do
    wU8 0x01
    wU8 0x01
    wU8 75
    wDouble v
  Wr.ifHas (g.opt "source_param_list" x.source_param_list) fun v => do
    wU8 0x01
    wU8 0x02
    wU8 72
    pRef c v
  Wr.ifHas (g.opt "new_source_calculation" x.new_source_calculation) fun v => do
    wU8 0x01
    wU8 0x03
    wU8 66
    pBool v
  wU8 0x03

/-- `Repeat.write` with any values in the properties (src/avb/trackgroups.py:847-853). -/
def Repeat.writeG (g : Given) (c : WCtx) (x : Repeat) : Wr Unit := do
  x.toTimeWarp.writeG g c
  wU8 0x02
  wU8 0x01
  wU8 0x03

/-- `EssenceGroup.write` with any values in the properties (src/avb/trackgroups.py:879-891). -/
def EssenceGroup.writeG (g : Given) (c : WCtx) (x : EssenceGroup) : Wr Unit := do
  x.toTrackGroup.writeG g c
  wU8 0x02
  wU8 0x01
  Wr.ifHas (g.opt "rep_set_type" x.rep_set_type) fun v => do
    wU8 0x01
    wU8 0x01
    wU8 71
    pInt c.bo .s32 v
  wU8 0x03

/-- `TransitionEffect.write` with any values in the properties (src/avb/trackgroups.py:951-984). -/
def TransitionEffect.writeG (g : Given) (c : WCtx) (x : TransitionEffect) : Wr Unit := do
  x.toTrackGroup.writeG g c
  wU8 0x02
  wU8 0x01
  pInt c.bo .s32 (g.val "cutpoint" x.cutpoint)
  wU8 0x02
  wU8 0x05
  pInt c.bo .s32 (g.val "left_length" x.left_length)
  pInt c.bo .s32 (g.val "right_length" x.right_length)
  pInt c.bo .s16 (g.val "info_version" x.info_version)
  pInt c.bo .s32 (g.val "info_current" x.info_current)
  pInt c.bo .s32 (g.val "info_smooth" x.info_smooth)
  pInt c.bo .s16 (g.val "info_color_item" x.info_color_item)
  pInt c.bo .s16 (g.val "info_quality" x.info_quality)
  pInt .little .s8 (g.val "info_is_reversed" x.info_is_reversed)
  pBool (g.val "info_aspect_on" x.info_aspect_on)
  pRef c (g.val "keyframes" x.keyframes)
  pBool (g.val "info_force_software" x.info_force_software)
  pBool (g.val "info_never_hardware" x.info_never_hardware)
  Wr.ifHas (g.opt "trackman" x.trackman) fun r => do
    wU8 0x01
    wU8 0x01
    wU8 72
    pRef c r
  wU8 0x03

/-- `Selector.write` with any values in the properties (src/avb/trackgroups.py:1009-1018). -/
def Selector.writeG (g : Given) (c : WCtx) (x : Selector) : Wr Unit := do
  x.toTrackGroup.writeG g c
  wU8 0x02
  wU8 0x01
  pBool (g.val "is_ganged" x.is_ganged)
  pInt c.bo .u16 (g.val "selected" x.selected)
  wU8 0x03

/-- `Composition.write` with any values in the properties (src/avb/trackgroups.py:1084-1111). -/
def Composition.writeG (g : Given) (c : WCtx) (x : Composition) : Wr Unit := do
  x.toTrackGroup.writeG g c
  wU8 0x02
  wU8 0x02
  let mob_id ← Wr.get x.mob_id
  wInt c.bo .u32 mob_id.lo
  wInt c.bo .u32 mob_id.hi
  wDate c.bo x.last_modified
  pInt .little .u8 (g.val "mob_type_id" x.mob_type_id)
  pInt c.bo .s32 (g.val "usage_code" x.usage_code)
  pRef c (g.val "descriptor" x.descriptor)
  Wr.ifHas x.creation_time fun v => do
    wU8 0x01
    wU8 0x01
    wU8 71
    wDate c.bo v
  Wr.ifHas x.mob_id fun m => do
    wU8 0x01
    wU8 0x02
    wMobId c.bo m
  wU8 0x03

/-- `obj.write(buffer)` with any values in the properties (src/avb/file.py:329). -/
def Obj.writeG (g : Given) (c : WCtx) : Obj → Wr Unit
  | .ATTR x => x.write c
  | .PRLS x => x.write c
  | .TMCS x => x.write c
  | .BVst x => x.writeG g c
  | .ABIN x => x.writeG g c
  | .BINF x => x.writeG g c
  | .SEQU x => x.writeG g c
  | .SCLP x => x.writeG g c
  | .TCCP x => x.writeG g c
  | .ECCP x => x.writeG g c
  | .TRKR x => x.writeG g c
  | .PRCL x => x.writeG g c
  | .CTRL x => x.writeG g c
  | .FILL x => x.writeG g c
  | .TRKG x => x.writeG g c
  | .TKFX x => x.writeG g c
  | .PVOL x => x.writeG g c
  | .ASPI x => x.writeG g c
  | .EQMB x => x.writeG g c
  | .MASK x => x.writeG g c
  | .STRB x => x.writeG g c
  | .SPED x => x.writeG g c
  | .REPT x => x.writeG g c
  | .RSET x => x.writeG g c
  | .TNFX x => x.writeG g c
  | .SLCT x => x.writeG g c
  | .CMPO x => x.writeG g c
  | .FILE x => x.writeG g c
  | .WINF x => x.writeG g c
  | .URLL x => x.write c
  | .GRFX x => x.writeG g c
  | .SHLP x => x.writeG g c
  | .CCFX x => x.writeG g c
  | .FXPS x => x.writeG g c
  | .AVUP x => x.writeG g c
  | .PRIT x => x.writeG g c
  | .MSML x => x.writeG g c
  | .APOS x => x.writeG g c
  | .ABOB x => x.writeG g c
  | .DIDP x => x.writeG g c
  | .MPGP x => x.writeG g c
  | .MCBR x => x.writeG g c
  | .MCMR x => x.writeG g c
  | .TMBC x => x.writeG g c
  | .TKMN x => x.writeG g c
  | .TKDS x => x.writeG g c
  | .TKPS x => x.writeG g c
  | .TKDA x => x.writeG g c
  | .TKPA x => x.writeG g c
  | .MDES x => x.writeG g c
  | .MDTP x => x.writeG g c
  | .MDFM x => x.writeG g c
  | .MDNG x => x.writeG g c
  | .MDFL x => x.writeG g c
  | .MULD x => x.writeG g c
  | .WAVE x => x.writeG g c
  | .AIFC x => x.writeG g c
  | .PCMA x => x.writeG g c
  | .MPGA x => x.writeG g c
  | .DIDD x => x.writeG g c
  | .CDCI x => x.writeG g c
  | .MPGI x => x.writeG g c
  | .JPED x => x.writeG g c
  | .RGBA x => x.writeG g c
  | .DATD x => x.writeG g c
  | .ANCD x => x.writeG g c

/-- `AVBFile.write_object` with any values in the properties (src/avb/file.py:325-336). -/
def writeObjectG (g : Given) (c : WCtx) (e : Entry) : Wr Unit := do
  Wr.guard (e.own = true) .value
  let data ← payloadOf (e.obj.writeG g c)
  Wr.guard (data.getLast? = some 3) .assertion
  wFourcc c.bo e.obj.cls.id
  wInt c.bo .u32 data.length
  Wr.emit data

/-- The loop of `AVBFile.write` over the objects met, `gs` telling the values given to the object at an address
(src/avb/file.py:356-362). -/
def saveLoopG (h : Heap) (gs : Ref → Given) (bo : BO) : List Ref → SaveSt → SaveSt × Option Err
  | [], s => (s, Option.none)
  | r :: rs, s =>
    match h r with
    | .error er => (s, some er)
    | .ok e =>
      if (s.map e.iid).isSome then saveLoopG h gs bo rs s
      else
        let next := s.next + 1
        let map := mapSet s.map e.iid next
        match writeObjectG (gs r) ⟨bo, refMapOf h map⟩ e with
        | .ok (_, bs) => saveLoopG h gs bo rs ⟨next, map, s.out ++ bs⟩
        | .error er => (⟨next, map, s.out⟩, some er)

/-- `AVBFile.write` with any values in the properties (src/avb/file.py:348-370), see `saveRun`.  The `visits` of an
entry are the references among the values that the properties have (src/avb/core.py:131-161). -/
def saveRunG (h : Heap) (gs : Ref → Given) (fuel : Nat) (bo : BO) (hd : HeaderInfo) (content : Ref) : SaveRun :=
  match (writeHeaderPre bo hd).bytes, (writeCounts bo 0 0).bytes, (writeHeaderPost bo hd).bytes with
  | .ok pre, .ok zero, .ok post =>
    let w := walkObj h fuel content
    let (s, er) := saveLoopG h gs bo w.out ⟨0, fun _ => Option.none, []⟩
    let appended := pre ++ zero ++ post ++ s.out
    match er, w.err with
    | some e, _ => ⟨appended, Option.none, some e⟩
    | Option.none, some e => ⟨appended, Option.none, some e⟩
    | Option.none, Option.none =>
      match (writeCounts bo s.next s.next).bytes with
      | .ok counts => ⟨appended, some (pre.length, counts), Option.none⟩
      | .error e => ⟨appended, Option.none, some e⟩
  | .error e, _, _ => ⟨[], Option.none, some e⟩
  | _, .error e, _ => ⟨[], Option.none, some e⟩
  | _, _, .error e => ⟨[], Option.none, some e⟩

/-- A save without exception, with any values in the properties, and the file it leaves (src/avb/file.py:348-370). -/
def saveG (h : Heap) (gs : Ref → Given) (fuel : Nat) (bo : BO) (hd : HeaderInfo) (content : Ref) :
    Except Err Bytes :=
  let s := saveRunG h gs fuel bo hd content
  match s.err with
  | some e => .error e
  | Option.none => .ok s.disk

end Avb
