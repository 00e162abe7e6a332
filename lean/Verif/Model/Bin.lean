import Verif.Model.Attributes

/-
src/avb/bin.py: bins and their view settings.
-/

namespace Avb

/-- `Setting` (src/avb/bin.py:13-23). -/
structure Setting where
  name : Text
  kind : Text
  attr_count : Int
  attr_type : Int
  attributes : Ref
  deriving DecidableEq

/-- `Setting.read` (src/avb/bin.py:25-36). -/
def Setting.read (d : RCtx) : Rd Setting := do
  rTag 0x02
  rTag 0x06
  let name ← rStr d.bo .macroman
  let kind ← rStr d.bo .macroman
  let attr_count ← rInt d.bo .s16
  let attr_type ← rInt d.bo .s16
  let attributes ← rRef d
  return { name, kind, attr_count, attr_type, attributes }

/-- `Setting.write` (src/avb/bin.py:38-51). -/
def Setting.write (c : WCtx) (x : Setting) : Wr Unit := do
  wU8 0x02
  wU8 0x06
  wStr c.bo .macroman x.name
  wStr c.bo .macroman x.kind
  wInt c.bo .s16 x.attr_count
  wInt c.bo .s16 x.attr_type
  wRef c x.attributes

/-- One entry of `columns` (src/avb/bin.py:101-107), a dict in Python. -/
structure BinColumn where
  title : Text
  format : Int
  type : Int
  hidden : Bool
  deriving DecidableEq

/-- One column of `BinViewSetting.read` (src/avb/bin.py:102-106). -/
def BinColumn.read (d : RCtx) : Rd BinColumn := do
  let title ← rStr d.bo .macroman
  let format ← rInt d.bo .s16
  let type ← rInt d.bo .s16
  let hidden ← rBool
  return { title, format, type, hidden }

/-- One column of `BinViewSetting.write` (src/avb/bin.py:146-149). -/
def BinColumn.write (c : WCtx) (x : BinColumn) : Wr Unit := do
  wStr c.bo .macroman x.title
  wInt c.bo .s16 x.format
  wInt c.bo .s16 x.type
  wBool x.hidden

/-- One entry of `format_descriptors` (src/avb/bin.py:115-131), a dict in Python. -/
structure FormatDescriptor where
  vcid_free_column_id : Int
  format_descriptor : Text
  deriving DecidableEq

/-- One format descriptor of `BinViewSetting.read` (src/avb/bin.py:118-130). -/
def FormatDescriptor.read (d : RCtx) : Rd FormatDescriptor := do
  rTag 69
  let vcid_free_column_id ← rInt d.bo .s16
  rTag 71
  let format_descriptor_size ← rInt d.bo .s32
  rTag 76
  let _nulls ← rInt d.bo .s32
  let data ← fread format_descriptor_size
  let format_descriptor ← Rd.ofOption (decodeText .utf8 data) .unicode
  return { vcid_free_column_id, format_descriptor }

/-- `s.encode(encoding)` (src/avb/bin.py:161): `UnicodeEncodeError` when it cannot be. -/
def Wr.encode (e : Enc) (t : Text) : Wr Bytes :=
  match encodeText e t with
  | some b => Wr.pure b
  | none => Wr.fail .unicode

/-- One format descriptor of `BinViewSetting.write` (src/avb/bin.py:158-169). -/
def FormatDescriptor.write (c : WCtx) (x : FormatDescriptor) : Wr Unit := do
  wU8 69
  wInt c.bo .s16 x.vcid_free_column_id
  let format_data ← Wr.encode .utf8 x.format_descriptor
  wU8 71
  wInt c.bo .s32 format_data.length
  wU8 76
  wInt c.bo .s16 (format_data.length + 2)
  wInt c.bo .s16 0
  Wr.emit format_data

/-- `BinViewSetting` (src/avb/bin.py:74-81). -/
structure BinViewSetting extends Setting where
  columns : List BinColumn
  format_descriptors : Option (List FormatDescriptor)
  deriving DecidableEq

/-- The `iter_ext` body of `BinViewSetting.read` (src/avb/bin.py:109-133). -/
def BinViewSetting.ext (d : RCtx) (tag : Int) (s : BinViewSetting) : Rd BinViewSetting :=
  if tag = 0x01 then do
    rTag 69
    let num_vcid_free_columns ← rInt d.bo .s16
    Rd.guard (num_vcid_free_columns ≥ 0) .assertion
    let v ← readN num_vcid_free_columns.toNat (FormatDescriptor.read d)
    return { s with format_descriptors := some v }
  else Rd.fail .value

/-- `BinViewSetting.read` (src/avb/bin.py:92-135). -/
def BinViewSetting.read (d : RCtx) : Rd BinViewSetting := do
  let base ← Setting.read d
  rTag 0x02
  rTag 10
  let column_count ← rInt d.bo .u16
  let columns ← readN column_count.toNat (BinColumn.read d)
  let s ← iterExt (BinViewSetting.ext d)
    { toSetting := base, columns, format_descriptors := none }
  rTag 0x03
  return s

/-- `BinViewSetting.write` (src/avb/bin.py:137-171); the number of format descriptors is written
unsigned though it is read signed. -/
def BinViewSetting.write (c : WCtx) (x : BinViewSetting) : Wr Unit := do
  x.toSetting.write c
  wU8 0x02
  wU8 10
  wInt c.bo .u16 x.columns.length
  forW x.columns (BinColumn.write c)
  Wr.ifHas x.format_descriptors fun v => do
    wU8 0x01
    wU8 0x01
    wU8 69
    wInt c.bo .u16 v.length
    forW v (FormatDescriptor.write c)
  wU8 0x03

/-- `BinItem` (src/avb/bin.py:174-183). -/
structure BinItem where
  mob : Ref
  x : Int
  y : Int
  keyframe : Int
  user_placed : Bool
  deriving DecidableEq

/-- One item of `Bin.read` (src/avb/bin.py:262-267). -/
def BinItem.read (d : RCtx) : Rd BinItem := do
  let mob ← rRef d
  let x ← rInt d.bo .s16
  let y ← rInt d.bo .s16
  let keyframe ← rInt d.bo .s32
  let user_placed ← rBool
  return { mob, x, y, keyframe, user_placed }

/-- One item of `Bin.write` (src/avb/bin.py:333-337). -/
def BinItem.write (c : WCtx) (b : BinItem) : Wr Unit := do
  wRef c b.mob
  wInt c.bo .s16 b.x
  wInt c.bo .s16 b.y
  wInt c.bo .s32 b.keyframe
  wU8 (if b.user_placed then 1 else 0)

/-- `SiftItem` (src/avb/bin.py:186-193). -/
structure SiftItem where
  method : Int
  string : Text
  column : Text
  deriving DecidableEq

/-- One sift setting of `Bin.read` (src/avb/bin.py:279-282). -/
def SiftItem.read (d : RCtx) : Rd SiftItem := do
  let method ← rInt d.bo .s16
  let string ← rStr d.bo .macroman
  let column ← rStr d.bo .macroman
  return { method, string, column }

/-- One sift setting of `Bin.write` (src/avb/bin.py:344-347). -/
def SiftItem.write (c : WCtx) (x : SiftItem) : Wr Unit := do
  wInt c.bo .s16 x.method
  wStr c.bo .macroman x.string
  wStr c.bo .macroman x.column

/-- One sort column of `Bin.read` (src/avb/bin.py:288-290), a two element list in Python. -/
def rSortColumn (d : RCtx) : Rd (Int × Text) := do
  let direction ← rU8
  let col ← rStr d.bo .macroman
  return (direction, col)

/-- One sort column of `Bin.write` (src/avb/bin.py:353-354). -/
def wSortColumn (c : WCtx) (p : Int × Text) : Wr Unit := do
  wU8 p.1
  wStr c.bo .macroman p.2

/-- `Bin` (src/avb/bin.py:196-219). -/
structure Bin where
  large_bin : Bool
  view_setting : Ref
  uid : Int
  items : List BinItem
  display_mask : Int
  display_mode : Int
  sifted : Bool
  sifted_settings : List SiftItem
  sort_columns : List (Int × Text)
  mac_font : Int
  mac_font_size : Int
  mac_image_scale : Int
  home_rect : Rect
  background_color : RGB
  forground_color : RGB
  ql_image_scale : Int
  attributes : Ref
  was_iconic : Bool
  deriving DecidableEq

/-- The item count of `Bin.read` (src/avb/bin.py:252-256). -/
def Bin.readCount (d : RCtx) (version : Int) : Rd Int :=
  if version = 0x0e then rInt d.bo .u16 else rInt d.bo .u32

/-- `Bin.read` up to the class id test (src/avb/bin.py:237-305). -/
def Bin.readBody (d : RCtx) : Rd Bin := do
  rTag 0x02
  let version ← rU8
  Rd.guard (version = 0x0e ∨ version = 0x0f) .assertion
  let view_setting ← rRef d
  let uid ← rInt d.bo .u64
  let object_count ← Bin.readCount d version
  let items ← readN object_count.toNat (BinItem.read d)
  let display_mask ← rInt d.bo .s32
  let display_mode ← rInt d.bo .s16
  let sifted ← rBool
  let sifted_settings ← readN 6 (SiftItem.read d)
  let sort_column_count ← rInt d.bo .s16
  let sort_columns ← readN sort_column_count.toNat (rSortColumn d)
  let mac_font ← rInt d.bo .s16
  let mac_font_size ← rInt d.bo .s16
  let mac_image_scale ← rInt d.bo .s16
  let home_rect ← rRect d.bo
  let background_color ← rRgb d.bo
  let forground_color ← rRgb d.bo
  let ql_image_scale ← rInt d.bo .s16
  let attributes ← rRef d
  let was_iconic ← rBool
  return { large_bin := version = 0x0f, view_setting, uid, items, display_mask, display_mode,
           sifted, sifted_settings, sort_columns, mac_font, mac_font_size, mac_image_scale,
           home_rect, background_color, forground_color, ql_image_scale, attributes, was_iconic }

/-- `Bin.read` of an ABIN chunk (src/avb/bin.py:237-308). -/
def Bin.read (d : RCtx) : Rd Bin := do
  let s ← Bin.readBody d
  rTag 0x03
  return s

/-- The test for the large form (src/avb/bin.py:318, 327). -/
def Bin.isLarge (x : Bin) : Bool := x.large_bin || decide (x.items.length > 0xffff)

/-- The item count of `Bin.write` (src/avb/bin.py:326-330). -/
def Bin.writeCount (c : WCtx) (x : Bin) : Wr Unit :=
  if x.isLarge then wInt c.bo .u32 x.items.length else wInt c.bo .u16 x.items.length

/-- `Bin.write` up to the class id test (src/avb/bin.py:310-367). -/
def Bin.writeBody (c : WCtx) (x : Bin) : Wr Unit := do
  wU8 0x02
  wU8 (if x.isLarge then 0x0f else 0x0e)
  wRef c x.view_setting
  wInt c.bo .u64 x.uid
  x.writeCount c
  forW x.items (BinItem.write c)
  wInt c.bo .s32 x.display_mask
  wInt c.bo .s16 x.display_mode
  wBool x.sifted
  forW (List.range' 0 6) fun i => do
    let s ← Wr.nth x.sifted_settings i
    s.write c
  wInt c.bo .s16 x.sort_columns.length
  forW x.sort_columns (wSortColumn c)
  wInt c.bo .s16 x.mac_font
  wInt c.bo .s16 x.mac_font_size
  wInt c.bo .s16 x.mac_image_scale
  wRect c.bo x.home_rect
  wRgb c.bo x.background_color
  wRgb c.bo x.forground_color
  wInt c.bo .s16 x.ql_image_scale
  wRef c x.attributes
  wBool x.was_iconic

/-- `Bin.write` of an ABIN object (src/avb/bin.py:310-370). -/
def Bin.write (c : WCtx) (x : Bin) : Wr Unit := do
  x.writeBody c
  wU8 0x03

/-- `BinFirst` (src/avb/bin.py:413-419). -/
structure BinFirst extends Bin where
  unknown_s32 : Int
  deriving DecidableEq

/-- `BinFirst.read` (src/avb/bin.py:421-429). -/
def BinFirst.read (d : RCtx) : Rd BinFirst := do
  let base ← Bin.readBody d
  rTag 0x02
  rTag 0x01
  let unknown_s32 ← rInt d.bo .s32
  rTag 0x03
  return { toBin := base, unknown_s32 }

/-- `BinFirst.write` (src/avb/bin.py:431-440). -/
def BinFirst.write (c : WCtx) (x : BinFirst) : Wr Unit := do
  x.toBin.writeBody c
  wU8 0x02
  wU8 0x01
  wInt c.bo .s32 x.unknown_s32
  wU8 0x03

end Avb
