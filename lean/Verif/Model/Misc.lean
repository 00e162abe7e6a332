import Verif.Model.Components

/-
src/avb/misc.py: locators, effect parameters, positions, markers, trackers.

Conventions as in Verif/Model/Components.lean.  A class whose `read`/`write` closes the chunk only
when `self.class_id` is its own gets a `readBody`/`writeBody` pair without the closing tag, used by
its subclasses, and a `read`/`write` pair with it.
-/

namespace Avb

/-- `xs[i]` on a Python list, `IndexError` when it is too short. -/
def Wr.nth {α : Type} (xs : List α) (i : Nat) : Wr α :=
  match xs[i]? with
  | some a => Wr.pure a
  | none => Wr.fail .index

/-- `FileLocator` with its subclasses `MacFileLocator` (FILE) and `WinFileLocator` (WINF), which add
nothing but the class id (src/avb/misc.py:15-24, 77-87). -/
structure FileLocator where
  path : Text
  path_posix : Option Text
  path_utf8 : Option Text
  path2_utf8 : Option Text
  deriving DecidableEq

/-- The `iter_ext` body of `FileLocator.read` (src/avb/misc.py:34-45). -/
def FileLocator.ext (d : RCtx) (tag : Int) (s : FileLocator) : Rd FileLocator :=
  if tag = 0x01 then do
    rTag 76
    let v ← rStr d.bo .macroman
    return { s with path_posix := some v }
  else if tag = 0x02 then do
    rTag 76
    let v ← rStr d.bo .utf8
    return { s with path_utf8 := some v }
  else if tag = 0x03 then do
    rTag 76
    let v ← rStr d.bo .utf8
    return { s with path2_utf8 := some v }
  else Rd.fail .value

/-- `FileLocator.read` (src/avb/misc.py:26-47). -/
def FileLocator.read (d : RCtx) : Rd FileLocator := do
  rTag 0x02
  rTag 0x02
  let path ← rStr d.bo .macroman
  let s ← iterExt (FileLocator.ext d)
    { path, path_posix := none, path_utf8 := none, path2_utf8 := none }
  rTag 0x03
  return s

/-- `FileLocator.write` (src/avb/misc.py:49-75). -/
def FileLocator.write (c : WCtx) (x : FileLocator) : Wr Unit := do
  wU8 0x02
  wU8 0x02
  wStr c.bo .macroman x.path
  Wr.ifHas x.path_posix fun v => do
    wU8 0x01
    wU8 0x01
    wU8 76
    wStr c.bo .macroman v
  Wr.ifHas x.path_utf8 fun v => do
    wU8 0x01
    wU8 0x02
    wU8 76
    wStr c.bo .utf8 v
  Wr.ifHas x.path2_utf8 fun v => do
    wU8 0x01
    wU8 0x03
    wU8 76
    wStr c.bo .utf8 v
  wU8 0x03

/-- `URLLocator` (src/avb/misc.py:90-93); no properties. -/
structure URLLocator where
  deriving DecidableEq

/-- `URLLocator.read` (src/avb/misc.py:95-98). -/
def URLLocator.read (_d : RCtx) : Rd URLLocator := do
  rTag 0x03
  return {}

/-- `URLLocator.write` (src/avb/misc.py:100-103). -/
def URLLocator.write (_c : WCtx) (_x : URLLocator) : Wr Unit := do
  wU8 0x03

/-- `GraphicEffect` (src/avb/misc.py:106-112). -/
structure GraphicEffect where
  pict_data : Bytes
  deriving DecidableEq

/-- `GraphicEffect.read` (src/avb/misc.py:114-126). -/
def GraphicEffect.read (d : RCtx) : Rd GraphicEffect := do
  rTag 0x02
  rTag 0x01
  let pict_size ← rInt d.bo .s32
  Rd.guard (pict_size ≥ 0) .assertion
  let pict_data ← fread pict_size
  Rd.guard ((pict_data.length : Int) = pict_size) .assertion
  rTag 0x03
  return { pict_data }

/-- `GraphicEffect.write` (src/avb/misc.py:128-137). -/
def GraphicEffect.write (c : WCtx) (x : GraphicEffect) : Wr Unit := do
  wU8 0x02
  wU8 0x01
  wInt c.bo .s32 x.pict_data.length
  Wr.emit x.pict_data
  wU8 0x03

/-- `ShapeList` (src/avb/misc.py:140-145). -/
structure ShapeList where
  shape_data : Bytes
  deriving DecidableEq

/-- `ShapeList.read` (src/avb/misc.py:147-158). -/
def ShapeList.read (d : RCtx) : Rd ShapeList := do
  rTag 0x02
  rTag 0x01
  let data_size ← rInt d.bo .s32
  Rd.guard (data_size ≥ 0) .assertion
  let shape_data ← fread data_size
  Rd.guard ((shape_data.length : Int) = data_size) .assertion
  rTag 0x03
  return { shape_data }

/-- `ShapeList.write` (src/avb/misc.py:160-169). -/
def ShapeList.write (c : WCtx) (x : ShapeList) : Wr Unit := do
  wU8 0x02
  wU8 0x01
  wInt c.bo .s32 x.shape_data.length
  Wr.emit x.shape_data
  wU8 0x03

/-- `ColorCorrectionEffect` (src/avb/misc.py:172-178). -/
structure ColorCorrectionEffect where
  color_correction : Bytes
  deriving DecidableEq

/-- `ColorCorrectionEffect.read` (src/avb/misc.py:180-191). -/
def ColorCorrectionEffect.read (d : RCtx) : Rd ColorCorrectionEffect := do
  rTag 0x02
  rTag 0x01
  let data_size ← rInt d.bo .s16
  Rd.guard (data_size ≥ 0) .assertion
  let color_correction ← fread data_size
  Rd.guard ((color_correction.length : Int) = data_size) .assertion
  rTag 0x03
  return { color_correction }

/-- `ColorCorrectionEffect.write` (src/avb/misc.py:193-202). -/
def ColorCorrectionEffect.write (c : WCtx) (x : ColorCorrectionEffect) : Wr Unit := do
  wU8 0x02
  wU8 0x01
  wInt c.bo .s16 x.color_correction.length
  Wr.emit x.color_correction
  wU8 0x03

/-- `EffectParam` (src/avb/misc.py:205-238). -/
structure EffectParam where
  percent_time : Int
  level : Int
  pos_x : Int
  floor_x : Int
  ceil_x : Int
  pos_y : Int
  floor_y : Int
  ceil_y : Int
  scale_x : Int
  scale_y : Int
  crop_left : Int
  crop_right : Int
  crop_top : Int
  crop_bottom : Int
  box : List Int
  box_xscale : Bool
  box_yscale : Bool
  box_xpos : Bool
  box_ypos : Bool
  border_width : Int
  border_soft : Int
  splill_gain2 : Int
  splill_gain : Int
  splill_soft2 : Int
  splill_soft : Int
  enable_key_flags : Int
  colors : List Int
  user_param : Bytes
  selected : Bool
  deriving DecidableEq

/-- `EffectParamList` (src/avb/misc.py:241-250). -/
structure EffectParamList where
  orig_length : Int
  window_offset : Int
  keyframe_size : Int
  parameters : List EffectParam
  deriving DecidableEq

/-- One effect parameter (src/avb/misc.py:265-322). -/
def EffectParam.read (d : RCtx) : Rd EffectParam := do
  let percent_time ← rInt d.bo .s32
  let level ← rInt d.bo .s32
  let pos_x ← rInt d.bo .s32
  let floor_x ← rInt d.bo .s32
  let ceil_x ← rInt d.bo .s32
  let pos_y ← rInt d.bo .s32
  let floor_y ← rInt d.bo .s32
  let ceil_y ← rInt d.bo .s32
  let scale_x ← rInt d.bo .s32
  let scale_y ← rInt d.bo .s32
  let crop_left ← rInt d.bo .s32
  let crop_right ← rInt d.bo .s32
  let crop_top ← rInt d.bo .s32
  let crop_bottom ← rInt d.bo .s32
  let box0 ← rInt d.bo .s32
  let box1 ← rInt d.bo .s32
  let box2 ← rInt d.bo .s32
  let box3 ← rInt d.bo .s32
  let box_xscale ← rBool
  let box_yscale ← rBool
  let box_xpos ← rBool
  let box_ypos ← rBool
  let border_width ← rInt d.bo .s32
  let border_soft ← rInt d.bo .s32
  let splill_gain2 ← rInt d.bo .s16
  let splill_gain ← rInt d.bo .s16
  let splill_soft2 ← rInt d.bo .s16
  let splill_soft ← rInt d.bo .s16
  let enable_key_flags ← rS8
  let color_count ← rInt d.bo .s32
  Rd.guard (color_count ≥ 0) .assertion
  let colors ← readN color_count.toNat (rInt d.bo .s32)
  let param_size ← rInt d.bo .s32
  Rd.guard (param_size ≥ 0) .assertion
  let user_param ← fread param_size
  let selected ← rBool
  return { percent_time, level, pos_x, floor_x, ceil_x, pos_y, floor_y, ceil_y, scale_x, scale_y,
           crop_left, crop_right, crop_top, crop_bottom, box := [box0, box1, box2, box3],
           box_xscale, box_yscale, box_xpos, box_ypos, border_width, border_soft, splill_gain2,
           splill_gain, splill_soft2, splill_soft, enable_key_flags, colors, user_param, selected }

/-- `EffectParamList.read` (src/avb/misc.py:252-324). -/
def EffectParamList.read (d : RCtx) : Rd EffectParamList := do
  rTag 0x02
  rTag 0x12
  let orig_length ← rInt d.bo .s32
  let window_offset ← rInt d.bo .s32
  let count ← rInt d.bo .s32
  let keyframe_size ← rInt d.bo .s32
  let parameters ← readN count.toNat (EffectParam.read d)
  rTag 0x03
  return { orig_length, window_offset, keyframe_size, parameters }

/-- One effect parameter (src/avb/misc.py:338-387). -/
def EffectParam.write (c : WCtx) (p : EffectParam) : Wr Unit := do
  wInt c.bo .s32 p.percent_time
  wInt c.bo .s32 p.level
  wInt c.bo .s32 p.pos_x
  wInt c.bo .s32 p.floor_x
  wInt c.bo .s32 p.ceil_x
  wInt c.bo .s32 p.pos_y
  wInt c.bo .s32 p.floor_y
  wInt c.bo .s32 p.ceil_y
  wInt c.bo .s32 p.scale_x
  wInt c.bo .s32 p.scale_y
  wInt c.bo .s32 p.crop_left
  wInt c.bo .s32 p.crop_right
  wInt c.bo .s32 p.crop_top
  wInt c.bo .s32 p.crop_bottom
  let box0 ← Wr.nth p.box 0
  wInt c.bo .s32 box0
  let box1 ← Wr.nth p.box 1
  wInt c.bo .s32 box1
  let box2 ← Wr.nth p.box 2
  wInt c.bo .s32 box2
  let box3 ← Wr.nth p.box 3
  wInt c.bo .s32 box3
  wBool p.box_xscale
  wBool p.box_yscale
  wBool p.box_xpos
  wBool p.box_ypos
  wInt c.bo .s32 p.border_width
  wInt c.bo .s32 p.border_soft
  wInt c.bo .s16 p.splill_gain2
  wInt c.bo .s16 p.splill_gain
  wInt c.bo .s16 p.splill_soft2
  wInt c.bo .s16 p.splill_soft
  wS8 p.enable_key_flags
  wInt c.bo .s32 p.colors.length
  forW p.colors (wInt c.bo .s32)
  wInt c.bo .s32 p.user_param.length
  Wr.emit p.user_param
  wBool p.selected

/-- `EffectParamList.write` (src/avb/misc.py:326-389). -/
def EffectParamList.write (c : WCtx) (x : EffectParamList) : Wr Unit := do
  wU8 0x02
  wU8 0x12
  wInt c.bo .s32 x.orig_length
  wInt c.bo .s32 x.window_offset
  wInt c.bo .s32 x.parameters.length
  wInt c.bo .s32 x.keyframe_size
  forW x.parameters (EffectParam.write c)
  wU8 0x03

/-- `CFUserParam` (src/avb/misc.py:392-400). -/
structure CFUserParam where
  byte_order : Int
  uuid : UUID
  data : Bytes
  deriving DecidableEq

/-- `CFUserParam.read` (src/avb/misc.py:402-421).  `f.read(value_size2)` with a negative size reads
everything that is left. -/
def CFUserParam.read (d : RCtx) : Rd CFUserParam := do
  rTag 0x02
  rTag 0x01
  let byte_order ← rInt d.bo .s16
  Rd.guard (byte_order = 0x4949) .assertion
  let uuid ← rRawUuid d.bo
  let value_size1 ← rInt d.bo .s32
  let value_size2 ← rInt d.bo .s32
  Rd.guard (value_size2 = value_size1 - 4) .assertion
  let data ← fread value_size2
  rTag 0x03
  return { byte_order, uuid, data }

/-- `CFUserParam.write` (src/avb/misc.py:423-438): the byte order property itself is not used. -/
def CFUserParam.write (c : WCtx) (x : CFUserParam) : Wr Unit := do
  wU8 0x02
  wU8 0x01
  wInt c.bo .s16 0x4949
  wRawUuid c.bo x.uuid
  wInt c.bo .s32 (x.data.length + 4)
  wInt c.bo .s32 x.data.length
  Wr.emit x.data
  wU8 0x03

/-- `ParameterItem` (src/avb/misc.py:441-453). -/
structure ParameterItem where
  uuid : UUID
  value_type : Int
  value : PVal
  name : Text
  enable : Bool
  control_track : Ref
  contribs_to_sig : Option Bool
  deriving DecidableEq

/-- The value by its type code (src/avb/misc.py:463-470). -/
def ParameterItem.readValue (d : RCtx) (value_type : Int) : Rd PVal :=
  if value_type = 1 then do
    let v ← rInt d.bo .s32
    return .int v
  else if value_type = 2 then do
    let v ← rDouble
    return .dbl v
  else if value_type = 4 then do
    let v ← rRef d
    return .ref v
  else Rd.fail .value

/-- The `iter_ext` body of `ParameterItem.read` (src/avb/misc.py:476-481). -/
def ParameterItem.ext (_d : RCtx) (tag : Int) (s : ParameterItem) : Rd ParameterItem :=
  if tag = 0x01 then do
    rTag 66
    let v ← rBool
    return { s with contribs_to_sig := some v }
  else Rd.fail .value

/-- `ParameterItem.read` (src/avb/misc.py:455-483). -/
def ParameterItem.read (d : RCtx) : Rd ParameterItem := do
  rTag 0x02
  rTag 0x02
  let uuid ← rRawUuid d.bo
  let value_type ← rInt d.bo .s16
  let value ← ParameterItem.readValue d value_type
  let name ← rStr d.bo .macroman
  let enable ← rBool
  let control_track ← rRef d
  let s ← iterExt (ParameterItem.ext d)
    { uuid, value_type, value, name, enable, control_track, contribs_to_sig := none }
  rTag 0x03
  return s

/-- The value by its type code (src/avb/misc.py:494-501). -/
def ParameterItem.writeValue (c : WCtx) (x : ParameterItem) : Wr Unit :=
  if x.value_type = 1 then x.value.wS32 c.bo
  else if x.value_type = 2 then x.value.wDbl
  else if x.value_type = 4 then x.value.wRef c
  else Wr.fail .value

/-- `ParameterItem.write` (src/avb/misc.py:485-517). -/
def ParameterItem.write (c : WCtx) (x : ParameterItem) : Wr Unit := do
  wU8 0x02
  wU8 0x02
  wRawUuid c.bo x.uuid
  wInt c.bo .s16 x.value_type
  x.writeValue c
  wName c (some x.name)
  wBool x.enable
  wRef c x.control_track
  Wr.ifHas x.contribs_to_sig fun v => do
    wU8 0x01
    wU8 0x01
    wU8 66
    wBool v
  wU8 0x03

/-- `MSMLocator` (src/avb/misc.py:535-544). -/
structure MSMLocator where
  last_known_volume : Text
  domain_type : Option Int
  mob_id : Option MobID
  last_known_volume_utf8 : Option Text
  deriving DecidableEq

/-- The `iter_ext` body of `MSMLocator.read` (src/avb/misc.py:557-568). -/
def MSMLocator.ext (d : RCtx) (tag : Int) (s : MSMLocator) : Rd MSMLocator :=
  if tag = 0x01 then do
    rTag 71
    let v ← rInt d.bo .s32
    return { s with domain_type := some v }
  else if tag = 0x02 then do
    let v ← rMobId d.bo
    return { s with mob_id := some v }
  else if tag = 0x03 then do
    rTag 76
    let v ← rStr d.bo .utf8
    return { s with last_known_volume_utf8 := some v }
  else Rd.fail .value

/-- `MSMLocator.read` (src/avb/misc.py:546-570). -/
def MSMLocator.read (d : RCtx) : Rd MSMLocator := do
  rTag 0x02
  rTag 0x02
  let _mob_id_hi ← rInt d.bo .u32
  let _mob_id_lo ← rInt d.bo .u32
  let last_known_volume ← rStr d.bo .macroman
  let s ← iterExt (MSMLocator.ext d)
    { last_known_volume, domain_type := none, mob_id := none, last_known_volume_utf8 := none }
  rTag 0x03
  return s

/-- `MSMLocator.write` (src/avb/misc.py:572-602). -/
def MSMLocator.write (c : WCtx) (x : MSMLocator) : Wr Unit := do
  wU8 0x02
  wU8 0x02
  let mob_id ← Wr.get x.mob_id
  wInt c.bo .u32 mob_id.lo
  wInt c.bo .u32 mob_id.hi
  wStr c.bo .macroman x.last_known_volume
  Wr.ifHas x.domain_type fun v => do
    wU8 0x01
    wU8 0x01
    wU8 71
    wInt c.bo .s32 v
  Wr.ifHas x.mob_id fun m => do
    wU8 0x01
    wU8 0x02
    wMobId c.bo m
  Wr.ifHas x.last_known_volume_utf8 fun v => do
    wU8 0x01
    wU8 0x03
    wU8 76
    wStr c.bo .utf8 v
  wU8 0x03

/-- `Position` (src/avb/misc.py:605-611). -/
structure Position where
  mob_id : Option MobID
  deriving DecidableEq

/-- The `iter_ext` body of `Position.read` (src/avb/misc.py:622-626). -/
def Position.ext (d : RCtx) (tag : Int) (s : Position) : Rd Position :=
  if tag = 0x01 then do
    let v ← rMobId d.bo
    return { s with mob_id := some v }
  else Rd.fail .value

/-- `Position.read` up to the class id test (src/avb/misc.py:613-626). -/
def Position.readBody (d : RCtx) : Rd Position := do
  rTag 0x02
  rTag 0x01
  let _mob_id_hi ← rInt d.bo .u32
  let _mob_id_lo ← rInt d.bo .u32
  iterExt (Position.ext d) { mob_id := none }

/-- `Position.read` of an APOS chunk (src/avb/misc.py:613-629). -/
def Position.read (d : RCtx) : Rd Position := do
  let s ← Position.readBody d
  rTag 0x03
  return s

/-- `Position.write` up to the class id test (src/avb/misc.py:631-645). -/
def Position.writeBody (c : WCtx) (x : Position) : Wr Unit := do
  wU8 0x02
  wU8 0x01
  let mob_id ← Wr.get x.mob_id
  wInt c.bo .u32 mob_id.lo
  wInt c.bo .u32 mob_id.hi
  Wr.ifHas x.mob_id fun m => do
    wU8 0x01
    wU8 0x01
    wMobId c.bo m

/-- `Position.write` of an APOS object (src/avb/misc.py:631-648). -/
def Position.write (c : WCtx) (x : Position) : Wr Unit := do
  x.writeBody c
  wU8 0x03

/-- `BOBPosition` (src/avb/misc.py:651-660). -/
structure BOBPosition extends Position where
  sample_num : Int
  length : Int
  track_type : Int
  track_index : Int
  deriving DecidableEq

/-- `BOBPosition.read` up to the class id test (src/avb/misc.py:662-671). -/
def BOBPosition.readBody (d : RCtx) : Rd BOBPosition := do
  let base ← Position.readBody d
  rTag 0x02
  rTag 0x01
  let sample_num ← rInt d.bo .s32
  let length ← rInt d.bo .s32
  let track_type ← rInt d.bo .s16
  let track_index ← rInt d.bo .s16
  return { toPosition := base, sample_num, length, track_type, track_index }

/-- `BOBPosition.read` of an ABOB chunk (src/avb/misc.py:662-674). -/
def BOBPosition.read (d : RCtx) : Rd BOBPosition := do
  let s ← BOBPosition.readBody d
  rTag 0x03
  return s

/-- `BOBPosition.write` up to the class id test (src/avb/misc.py:676-685). -/
def BOBPosition.writeBody (c : WCtx) (x : BOBPosition) : Wr Unit := do
  x.toPosition.writeBody c
  wU8 0x02
  wU8 0x01
  wInt c.bo .s32 x.sample_num
  wInt c.bo .s32 x.length
  wInt c.bo .s16 x.track_type
  wInt c.bo .s16 x.track_index

/-- `BOBPosition.write` of an ABOB object (src/avb/misc.py:676-688). -/
def BOBPosition.write (c : WCtx) (x : BOBPosition) : Wr Unit := do
  x.writeBody c
  wU8 0x03

/-- `DIDPosition` (src/avb/misc.py:691-700). -/
structure DIDPosition extends BOBPosition where
  strip : Int
  offset : Int
  byte_length : Int
  spos_invalid : Bool
  deriving DecidableEq

/-- `DIDPosition.read` up to the class id test (src/avb/misc.py:702-711). -/
def DIDPosition.readBody (d : RCtx) : Rd DIDPosition := do
  let base ← BOBPosition.readBody d
  rTag 0x02
  rTag 0x01
  let strip ← rInt d.bo .s32
  let offset ← rInt d.bo .u64
  let byte_length ← rInt d.bo .u64
  let spos_invalid ← rBool
  return { toBOBPosition := base, strip, offset, byte_length, spos_invalid }

/-- `DIDPosition.read` of a DIDP chunk (src/avb/misc.py:702-714). -/
def DIDPosition.read (d : RCtx) : Rd DIDPosition := do
  let s ← DIDPosition.readBody d
  rTag 0x03
  return s

/-- `DIDPosition.write` up to the class id test (src/avb/misc.py:716-725). -/
def DIDPosition.writeBody (c : WCtx) (x : DIDPosition) : Wr Unit := do
  x.toBOBPosition.writeBody c
  wU8 0x02
  wU8 0x01
  wInt c.bo .s32 x.strip
  wInt c.bo .u64 x.offset
  wInt c.bo .u64 x.byte_length
  wBool x.spos_invalid

/-- `DIDPosition.write` of a DIDP object (src/avb/misc.py:716-728). -/
def DIDPosition.write (c : WCtx) (x : DIDPosition) : Wr Unit := do
  x.writeBody c
  wU8 0x03

/-- `MPGPosition` (src/avb/misc.py:731-740); `leader_length` is declared but never assigned. -/
structure MPGPosition extends DIDPosition where
  trailing_discards : Int
  need_seq_hdr : Bool
  fields : List (Int × Int)
  deriving DecidableEq

/-- One entry of `fields` (src/avb/misc.py:756-759). -/
def MPGPosition.readField (d : RCtx) : Rd (Int × Int) := do
  let picture_type ← rU8
  let length ← rInt d.bo .u32
  return (picture_type, length)

/-- The list of fields (src/avb/misc.py:750-759). -/
def MPGPosition.readFields (d : RCtx) : Rd (List (Int × Int)) := do
  let leader_length ← rInt d.bo .s16
  if leader_length > 0 then do
    let _leading_discard_fields ← rInt d.bo .s16
    readN leader_length.toNat (MPGPosition.readField d)
  else pure []

/-- `MPGPosition.read` (src/avb/misc.py:742-761). -/
def MPGPosition.read (d : RCtx) : Rd MPGPosition := do
  let base ← DIDPosition.readBody d
  rTag 0x02
  rTag 0x01
  let trailing_discards ← rInt d.bo .s16
  let need_seq_hdr ← rBool
  let fields ← MPGPosition.readFields d
  rTag 0x03
  return { toDIDPosition := base, trailing_discards, need_seq_hdr, fields }

/-- One entry of `fields` (src/avb/misc.py:777-779). -/
def MPGPosition.writeField (c : WCtx) (p : Int × Int) : Wr Unit := do
  wU8 p.1
  wInt c.bo .u32 p.2

/-- The list of fields (src/avb/misc.py:772-779). -/
def MPGPosition.writeFields (c : WCtx) (fields : List (Int × Int)) : Wr Unit := do
  wInt c.bo .s16 fields.length
  Wr.when (fields.length > 0) do
    wInt c.bo .s16 (fields.length * 2)
    forW fields (MPGPosition.writeField c)

/-- `MPGPosition.write` (src/avb/misc.py:763-781). -/
def MPGPosition.write (c : WCtx) (x : MPGPosition) : Wr Unit := do
  x.toDIDPosition.writeBody c
  wU8 0x02
  wU8 0x01
  wInt c.bo .s16 x.trailing_discards
  wBool x.need_seq_hdr
  MPGPosition.writeFields c x.fields
  wU8 0x03

/-- `BinRef` (src/avb/misc.py:784-793). -/
structure BinRef where
  uid_high : Int
  uid_low : Int
  name : Text
  name_utf8 : Option Text
  deriving DecidableEq

/-- The `iter_ext` body of `BinRef.read` (src/avb/misc.py:805-810). -/
def BinRef.ext (d : RCtx) (tag : Int) (s : BinRef) : Rd BinRef :=
  if tag = 0x01 then do
    rTag 76
    let v ← rStr d.bo .utf8
    return { s with name_utf8 := some v }
  else Rd.fail .value

/-- `BinRef.read` (src/avb/misc.py:795-812). -/
def BinRef.read (d : RCtx) : Rd BinRef := do
  rTag 0x02
  rTag 0x01
  let uid_high ← rInt d.bo .s32
  let uid_low ← rInt d.bo .s32
  let name ← rStr d.bo .macroman
  let s ← iterExt (BinRef.ext d) { uid_high, uid_low, name, name_utf8 := none }
  rTag 0x03
  return s

/-- `BinRef.write` (src/avb/misc.py:814-829): the UTF-8 name is written unconditionally.  The
property is looked up before the three tag bytes, which cannot fail, instead of after them. -/
def BinRef.write (c : WCtx) (x : BinRef) : Wr Unit := do
  wU8 0x02
  wU8 0x01
  wInt c.bo .s32 x.uid_high
  wInt c.bo .s32 x.uid_low
  wStr c.bo .macroman x.name
  let name_utf8 ← Wr.get x.name_utf8
  wU8 0x01
  wU8 0x01
  wU8 76
  wStr c.bo .utf8 name_utf8
  wU8 0x03

/-- `MobRef` (src/avb/misc.py:832-839). -/
structure MobRef where
  position : Int
  mob_id : Option MobID
  deriving DecidableEq

/-- The `iter_ext` body of `MobRef.read` (src/avb/misc.py:851-855). -/
def MobRef.ext (d : RCtx) (tag : Int) (s : MobRef) : Rd MobRef :=
  if tag = 0x01 then do
    let v ← rMobId d.bo
    return { s with mob_id := some v }
  else Rd.fail .value

/-- `MobRef.read` up to the class id test (src/avb/misc.py:841-855). -/
def MobRef.readBody (d : RCtx) : Rd MobRef := do
  rTag 0x02
  rTag 0x01
  let _mob_hi ← rInt d.bo .u32
  let _mob_lo ← rInt d.bo .u32
  let position ← rInt d.bo .s32
  iterExt (MobRef.ext d) { position, mob_id := none }

/-- `MobRef.read` of an MCMR chunk (src/avb/misc.py:841-858). -/
def MobRef.read (d : RCtx) : Rd MobRef := do
  let s ← MobRef.readBody d
  rTag 0x03
  return s

/-- `MobRef.write` up to the class id test (src/avb/misc.py:860-876). -/
def MobRef.writeBody (c : WCtx) (x : MobRef) : Wr Unit := do
  wU8 0x02
  wU8 0x01
  let mob_id ← Wr.get x.mob_id
  wInt c.bo .u32 mob_id.lo
  wInt c.bo .u32 mob_id.hi
  wInt c.bo .s32 x.position
  Wr.ifHas x.mob_id fun m => do
    wU8 0x01
    wU8 0x01
    wMobId c.bo m

/-- `MobRef.write` of an MCMR object (src/avb/misc.py:860-879). -/
def MobRef.write (c : WCtx) (x : MobRef) : Wr Unit := do
  x.writeBody c
  wU8 0x03

/-- `Marker` (src/avb/misc.py:883-892). -/
structure Marker extends MobRef where
  comp_offset : Int
  attributes : Ref
  color : List Int
  handled_codes : Option Bool
  deriving DecidableEq

/-- The `iter_ext` body of `Marker.read` (src/avb/misc.py:912-918). -/
def Marker.ext (_d : RCtx) (tag : Int) (s : Marker) : Rd Marker :=
  if tag = 0x01 then do
    rTag 66
    let v ← rBool
    return { s with handled_codes := some v }
  else Rd.fail .value

/-- `Marker.read` (src/avb/misc.py:894-920). -/
def Marker.read (d : RCtx) : Rd Marker := do
  let base ← MobRef.readBody d
  rTag 0x02
  rTag 0x03
  let comp_offset ← rInt d.bo .s32
  let attributes ← rRef d
  let version ← rInt d.bo .s16
  Rd.guard (version = 1) .assertion
  let color ← readN 3 (rInt d.bo .u16)
  let s ← iterExt (Marker.ext d)
    { toMobRef := base, comp_offset, attributes, color, handled_codes := none }
  rTag 0x03
  return s

/-- `Marker.write` (src/avb/misc.py:922-943). -/
def Marker.write (c : WCtx) (x : Marker) : Wr Unit := do
  x.toMobRef.writeBody c
  wU8 0x02
  wU8 0x03
  wInt c.bo .s32 x.comp_offset
  wRef c x.attributes
  wInt c.bo .s16 1
  forW x.color (wInt c.bo .u16)
  Wr.ifHas x.handled_codes fun v => do
    wU8 0x01
    wU8 0x01
    wU8 66
    wBool v
  wU8 0x03

/-- `TrackerManager` (src/avb/misc.py:946-953). -/
structure TrackerManager where
  data_slots : Ref
  param_slots : Ref
  deriving DecidableEq

/-- `TrackerManager.read` (src/avb/misc.py:955-964). -/
def TrackerManager.read (d : RCtx) : Rd TrackerManager := do
  rTag 0x02
  rTag 0x01
  let data_slots ← rRef d
  let param_slots ← rRef d
  rTag 0x03
  return { data_slots, param_slots }

/-- `TrackerManager.write` (src/avb/misc.py:966-975). -/
def TrackerManager.write (c : WCtx) (x : TrackerManager) : Wr Unit := do
  wU8 0x02
  wU8 0x01
  wRef c x.data_slots
  wRef c x.param_slots
  wU8 0x03

/-- `TrackerDataSlot` (src/avb/misc.py:978-985). -/
structure TrackerDataSlot where
  tracker_data : List Ref
  track_fg : Option Bool
  deriving DecidableEq

/-- The `iter_ext` body of `TrackerDataSlot.read` (src/avb/misc.py:999-1004). -/
def TrackerDataSlot.ext (_d : RCtx) (tag : Int) (s : TrackerDataSlot) : Rd TrackerDataSlot :=
  if tag = 0x01 then do
    rTag 66
    let v ← rBool
    return { s with track_fg := some v }
  else Rd.fail .value

/-- `TrackerDataSlot.read` (src/avb/misc.py:987-1006). -/
def TrackerDataSlot.read (d : RCtx) : Rd TrackerDataSlot := do
  rTag 0x02
  rTag 0x01
  let count ← rInt d.bo .s32
  let tracker_data ← readN count.toNat (rRef d)
  let s ← iterExt (TrackerDataSlot.ext d) { tracker_data, track_fg := none }
  rTag 0x03
  return s

/-- `TrackerDataSlot.write` (src/avb/misc.py:1008-1025). -/
def TrackerDataSlot.write (c : WCtx) (x : TrackerDataSlot) : Wr Unit := do
  wU8 0x02
  wU8 0x01
  wInt c.bo .s32 x.tracker_data.length
  forW x.tracker_data (wRef c)
  Wr.ifHas x.track_fg fun v => do
    wU8 0x01
    wU8 0x01
    wU8 66
    wBool v
  wU8 0x03

/-- `TrackerParameterSlot` (src/avb/misc.py:1028-1035). -/
structure TrackerParameterSlot where
  settings : Bytes
  params : List Ref
  deriving DecidableEq

/-- `TrackerParameterSlot.read` (src/avb/misc.py:1037-1053). -/
def TrackerParameterSlot.read (d : RCtx) : Rd TrackerParameterSlot := do
  rTag 0x02
  rTag 0x01
  let size ← rInt d.bo .s16
  Rd.guard (size ≥ 0) .assertion
  let settings ← fread size
  let count ← rInt d.bo .s32
  Rd.guard (count ≥ 0) .assertion
  let params ← readN count.toNat (rRef d)
  rTag 0x03
  return { settings, params }

/-- `TrackerParameterSlot.write` (src/avb/misc.py:1055-1068). -/
def TrackerParameterSlot.write (c : WCtx) (x : TrackerParameterSlot) : Wr Unit := do
  wU8 0x02
  wU8 0x01
  wInt c.bo .s16 x.settings.length
  Wr.emit x.settings
  wInt c.bo .s32 x.params.length
  forW x.params (wRef c)
  wU8 0x03

/-- `TrackerData` (src/avb/misc.py:1071-1085). -/
structure TrackerData where
  settings : Bytes
  clip_version : Int
  clips : List Ref
  offset_tracking : Option Int
  smoothing : Option Int
  jitter_removal : Option Int
  filter_amount : Option F64
  clip5 : Option Ref
  clip6 : Option Ref
  deriving DecidableEq

/-- The `iter_ext` body of `TrackerData.read` (src/avb/misc.py:1103-1123). -/
def TrackerData.ext (d : RCtx) (tag : Int) (s : TrackerData) : Rd TrackerData :=
  if tag = 0x01 then do
    rTag 72
    let v ← rInt d.bo .u32
    return { s with offset_tracking := some v }
  else if tag = 0x02 then do
    rTag 72
    let v ← rInt d.bo .u32
    return { s with smoothing := some v }
  else if tag = 0x03 then do
    rTag 72
    let v ← rInt d.bo .u32
    return { s with jitter_removal := some v }
  else if tag = 0x04 then do
    rTag 75
    let v ← rDouble
    return { s with filter_amount := some v }
  else if tag = 0x05 then do
    rTag 72
    let v ← rRef d
    return { s with clip5 := some v }
  else if tag = 0x06 then do
    rTag 72
    let v ← rRef d
    return { s with clip6 := some v }
  else Rd.fail .value

/-- `TrackerData.read` (src/avb/misc.py:1087-1125). -/
def TrackerData.read (d : RCtx) : Rd TrackerData := do
  rTag 0x02
  rTag 0x01
  let setting_size ← rInt d.bo .s16
  let settings ← fread setting_size
  let clip_version ← rInt d.bo .u32
  let count ← rInt d.bo .s16
  let clips ← readN count.toNat (rRef d)
  let s ← iterExt (TrackerData.ext d)
    { settings, clip_version, clips, offset_tracking := none, smoothing := none,
      jitter_removal := none, filter_amount := none, clip5 := none, clip6 := none }
  rTag 0x03
  return s

/-- `TrackerData.write` (src/avb/misc.py:1127-1179). -/
def TrackerData.write (c : WCtx) (x : TrackerData) : Wr Unit := do
  wU8 0x02
  wU8 0x01
  wInt c.bo .s16 x.settings.length
  Wr.emit x.settings
  wInt c.bo .u32 x.clip_version
  wInt c.bo .s16 x.clips.length
  forW x.clips (wRef c)
  Wr.ifHas x.offset_tracking fun v => do
    wU8 0x01
    wU8 0x01
    wU8 72
    wInt c.bo .u32 v
  Wr.ifHas x.smoothing fun v => do
    wU8 0x01
    wU8 0x02
    wU8 72
    wInt c.bo .u32 v
  Wr.ifHas x.jitter_removal fun v => do
    wU8 0x01
    wU8 0x03
    wU8 72
    wInt c.bo .u32 v
  Wr.ifHas x.filter_amount fun v => do
    wU8 0x01
    wU8 0x04
    wU8 75
    wDouble v
  Wr.ifHas x.clip5 fun v => do
    wU8 0x01
    wU8 0x05
    wU8 72
    wRef c v
  Wr.ifHas x.clip6 fun v => do
    wU8 0x01
    wU8 0x06
    wU8 72
    wRef c v
  wU8 0x03

/-- `TrackerParameter` (src/avb/misc.py:1183-1189). -/
structure TrackerParameter where
  settings : Bytes
  deriving DecidableEq

/-- `TrackerParameter.read` (src/avb/misc.py:1191-1200). -/
def TrackerParameter.read (d : RCtx) : Rd TrackerParameter := do
  rTag 0x02
  rTag 0x01
  let size ← rInt d.bo .s16
  Rd.guard (size ≥ 0) .assertion
  let settings ← fread size
  rTag 0x03
  return { settings }

/-- `TrackerParameter.write` (src/avb/misc.py:1203-1212). -/
def TrackerParameter.write (c : WCtx) (x : TrackerParameter) : Wr Unit := do
  wU8 0x02
  wU8 0x01
  wInt c.bo .s16 x.settings.length
  Wr.emit x.settings
  wU8 0x03

end Avb
