import Verif.Model.IOCtx

/-
src/avb/components.py: components and clips.

Every class becomes a structure whose fields carry the Python property names.  A property that may
be absent (`hasattr`) is an `Option`.  `read` and `write` follow the Python methods statement by
statement.  A property that is always assigned by `read` and by the constructor defaults is a plain
field; deleting it by hand, or storing a value of another Python type in it, is not modelled.
-/

namespace Avb

/-- `Component` (src/avb/components.py:15-30); a reference property holds an instance id. -/
structure Component where
  left_bob : Ref
  right_bob : Ref
  media_kind_id : Int
  edit_rate : Rate
  name : Option Text
  effect_id : Option Text
  attributes : Ref
  session_attrs : Ref
  precomputed : Ref
  param_list : Option Ref
  deriving DecidableEq

/-- The `iter_ext` body of `Component.read` (src/avb/components.py:57-63). -/
def Component.ext (d : RCtx) (tag : Int) (s : Component) : Rd Component :=
  if tag = 0x01 then do
    rTag 72
    let param_list ← rRef d
    return { s with param_list := some param_list }
  else Rd.fail .value

/-- `Component.read` (src/avb/components.py:38-63). -/
def Component.read (d : RCtx) : Rd Component := do
  rTag 0x02
  rTag 0x03
  let left_bob ← rRef d
  let right_bob ← rRef d
  let media_kind_id ← rInt d.bo .s16
  let edit_rate ← rRate d.bo
  let name ← rStr d.bo .macroman
  let effect_id ← rStr d.bo .macroman
  let attributes ← rRef d
  let session_attrs ← rRef d
  let precomputed ← rRef d
  iterExt (Component.ext d)
    { left_bob, right_bob, media_kind_id, edit_rate, name := orNone name,
      effect_id := orNone effect_id, attributes, session_attrs, precomputed, param_list := none }

/-- The optional name fields: `if self.name: write_string(..) else: write_u16(f, 0xFFFF)`
(src/avb/components.py:75-83); `None` and `""` are both false. -/
def wName (c : WCtx) (name : Option Text) : Wr Unit :=
  if name.getD [] ≠ [] then wStr c.bo .macroman (name.getD [])
  else wInt c.bo .u16 0xFFFF

/-- `Component.write` (src/avb/components.py:65-93). -/
def Component.write (c : WCtx) (x : Component) : Wr Unit := do
  wU8 0x02
  wU8 0x03
  wRef c x.left_bob
  wRef c x.right_bob
  wInt c.bo .s16 x.media_kind_id
  wRate c.bo x.edit_rate
  wName c x.name
  wName c x.effect_id
  wRef c x.attributes
  wRef c x.session_attrs
  wRef c x.precomputed
  Wr.ifHas x.param_list fun r => do
    wU8 0x01
    wU8 0x01
    wU8 72
    wRef c r

/-- `Sequence` (src/avb/components.py:142-148). -/
structure Sequence extends Component where
  components : List Ref
  deriving DecidableEq

/-- `Sequence.read` (src/avb/components.py:154-167). -/
def Sequence.read (d : RCtx) : Rd Sequence := do
  let base ← Component.read d
  rTag 0x02
  rTag 0x03
  let count ← rInt d.bo .u32
  let components ← readN count.toNat (rRef d)
  rTag 0x03
  return { toComponent := base, components }

/-- `Sequence.write` (src/avb/components.py:169-179). -/
def Sequence.write (c : WCtx) (x : Sequence) : Wr Unit := do
  x.toComponent.write c
  wU8 0x02
  wU8 0x03
  wInt c.bo .u32 x.components.length
  forW x.components (wRef c)
  wU8 0x03

/-- `Clip` (src/avb/components.py:235-241). -/
structure Clip extends Component where
  length : Int
  deriving DecidableEq

/-- `Clip.read` (src/avb/components.py:243-248). -/
def Clip.read (d : RCtx) : Rd Clip := do
  let base ← Component.read d
  rTag 0x02
  rTag 0x01
  let length ← rInt d.bo .u32
  return { toComponent := base, length }

/-- `Clip.write` (src/avb/components.py:250-255). -/
def Clip.write (c : WCtx) (x : Clip) : Wr Unit := do
  x.toComponent.write c
  wU8 0x02
  wU8 0x01
  wInt c.bo .u32 x.length

/-- `SourceClip` (src/avb/components.py:258-266). -/
structure SourceClip extends Clip where
  track_id : Int
  start_time : Int
  mob_id : Option MobID
  deriving DecidableEq

/-- The `iter_ext` body of `SourceClip.read` (src/avb/components.py:284-288). -/
def SourceClip.ext (d : RCtx) (tag : Int) (s : SourceClip) : Rd SourceClip :=
  if tag = 0x01 then do
    let mob_id ← rMobId d.bo
    return { s with mob_id := some mob_id }
  else Rd.fail .value

/-- `SourceClip.read` (src/avb/components.py:272-290). -/
def SourceClip.read (d : RCtx) : Rd SourceClip := do
  let base ← Clip.read d
  rTag 0x02
  rTag 0x03
  let _mob_id_hi ← rInt d.bo .u32
  let _mob_id_lo ← rInt d.bo .u32
  let track_id ← rInt d.bo .s16
  let start_time ← rInt d.bo .s32
  let s ← iterExt (SourceClip.ext d) { toClip := base, track_id, start_time, mob_id := none }
  rTag 0x03
  return s

/-- `SourceClip.write` (src/avb/components.py:292-312).  The mob id is needed for the two legacy
words, so an object without one cannot be written. -/
def SourceClip.write (c : WCtx) (x : SourceClip) : Wr Unit := do
  x.toClip.write c
  wU8 0x02
  wU8 0x03
  let mob_id ← Wr.get x.mob_id
  wInt c.bo .u32 mob_id.lo
  wInt c.bo .u32 mob_id.hi
  wInt c.bo .s16 x.track_id
  wInt c.bo .s32 x.start_time
  Wr.ifHas x.mob_id fun m => do
    wU8 0x01
    wU8 0x01
    wMobId c.bo m
  wU8 0x03

/-- `Timecode` (src/avb/components.py:330-338). -/
structure Timecode extends Clip where
  flags : Int
  fps : Int
  start : Int
  deriving DecidableEq

/-- `Timecode.read` (src/avb/components.py:340-354). -/
def Timecode.read (d : RCtx) : Rd Timecode := do
  let base ← Clip.read d
  rTag 0x02
  rTag 0x01
  let flags ← rInt d.bo .u32
  let fps ← rInt d.bo .u16
  let _ ← fread 6
  let start ← rInt d.bo .u32
  rTag 0x03
  return { toClip := base, flags, fps, start }

/-- `Timecode.write` (src/avb/components.py:356-367). -/
def Timecode.write (c : WCtx) (x : Timecode) : Wr Unit := do
  x.toClip.write c
  wU8 0x02
  wU8 0x01
  wInt c.bo .u32 x.flags
  wInt c.bo .u16 x.fps
  Wr.emit (List.replicate 6 0)
  wInt c.bo .u32 x.start
  wU8 0x03

/-- `Edgecode` (src/avb/components.py:370-380). -/
structure Edgecode extends Clip where
  header : Bytes
  film_kind : Int
  code_format : Int
  base_perf : Int
  start_ec : Int
  deriving DecidableEq

/-- `Edgecode.read` (src/avb/components.py:382-396). -/
def Edgecode.read (d : RCtx) : Rd Edgecode := do
  let base ← Clip.read d
  rTag 0x02
  rTag 0x01
  let header ← fread 8
  let film_kind ← rU8
  let code_format ← rU8
  let base_perf ← rInt d.bo .u16
  let _unused_a ← rInt d.bo .u32
  let start_ec ← rInt d.bo .s32
  rTag 0x03
  return { toClip := base, header, film_kind, code_format, base_perf, start_ec }

/-- `Edgecode.write` (src/avb/components.py:398-413). -/
def Edgecode.write (c : WCtx) (x : Edgecode) : Wr Unit := do
  x.toClip.write c
  wU8 0x02
  wU8 0x01
  Wr.guard (x.header.length = 8) .assertion
  Wr.emit x.header
  wU8 x.film_kind
  wU8 x.code_format
  wInt c.bo .u16 x.base_perf
  wInt c.bo .u32 0
  wInt c.bo .s32 x.start_ec
  wU8 0x03

/-- `TrackRef` (src/avb/components.py:416-423). -/
structure TrackRef extends Clip where
  relative_scope : Int
  relative_track : Int
  deriving DecidableEq

/-- `TrackRef.read` (src/avb/components.py:425-434). -/
def TrackRef.read (d : RCtx) : Rd TrackRef := do
  let base ← Clip.read d
  rTag 0x02
  rTag 0x01
  let relative_scope ← rInt d.bo .s16
  let relative_track ← rInt d.bo .s16
  rTag 0x03
  return { toClip := base, relative_scope, relative_track }

/-- `TrackRef.write` (src/avb/components.py:436-445). -/
def TrackRef.write (c : WCtx) (x : TrackRef) : Wr Unit := do
  x.toClip.write c
  wU8 0x02
  wU8 0x01
  wInt c.bo .s16 x.relative_scope
  wInt c.bo .s16 x.relative_track
  wU8 0x03

/-- The value of a control point or point property: an int, a double or an object reference
(src/avb/components.py:448-450, 475, 523).  Numbers are kept apart by Python type. -/
inductive PVal where
  | int (v : Int)
  | dbl (v : F64)
  | ref (v : Ref)
  deriving DecidableEq

/-- `ctx.write_s32(f, cp.value)` (src/avb/components.py:637, 655). -/
def PVal.wS32 (bo : BO) : PVal → Wr Unit
  | .int v => wInt bo .s32 v
  | .dbl _ => Wr.fail .struct
  | .ref _ => Wr.fail .struct

/-- `ctx.write_double(f, cp.value)` (src/avb/components.py:639, 653). -/
def PVal.wDbl : PVal → Wr Unit
  | .dbl v => wDouble v
  | .int v => wDoubleInt v
  | .ref _ => Wr.fail .struct

/-- `ctx.write_object_ref(self.root, f, cp.value)` (src/avb/components.py:641). -/
def PVal.wRef (c : WCtx) : PVal → Wr Unit
  | .ref v => Avb.wRef c v
  | .int _ => Wr.fail .attribute
  | .dbl _ => Wr.fail .attribute

/-- `ParamControlPointProperty` (src/avb/components.py:518-525). -/
structure PCPProp where
  code : Int
  type : Int
  value : PVal
  deriving DecidableEq

/-- `ParamControlPoint` (src/avb/components.py:469-477). -/
structure PCP where
  offset_num : Int
  offset_den : Int
  timescale : Int
  value : PVal
  pp : List PCPProp
  deriving DecidableEq

/-- `ParamClip` (src/avb/components.py:544-554). -/
structure ParamClip extends Clip where
  interp_kind : Int
  value_type : Int
  extrap_kind : Option Int
  control_points : List PCP
  fields : Option Int
  deriving DecidableEq

/-- The value of a point property by its type code (src/avb/components.py:596-601). -/
def PCPProp.readValue (d : RCtx) (type : Int) : Rd PVal :=
  if type = 2 then do
    let v ← rDouble
    return .dbl v
  else if type = 1 then do
    let v ← rInt d.bo .s32
    return .int v
  else Rd.fail .value

/-- One point property (src/avb/components.py:591-603). -/
def PCPProp.read (d : RCtx) : Rd PCPProp := do
  let code ← rInt d.bo .s16
  let type ← rInt d.bo .s16
  let value ← PCPProp.readValue d type
  return { code, type, value }

/-- The value of a control point by `value_type` (src/avb/components.py:579-586). -/
def PCP.readValue (d : RCtx) (value_type : Int) : Rd PVal :=
  if value_type = 1 then do
    let v ← rInt d.bo .s32
    return .int v
  else if value_type = 2 then do
    let v ← rDouble
    return .dbl v
  else if value_type = 4 then do
    let v ← rRef d
    return .ref v
  else Rd.fail .value

/-- One control point (src/avb/components.py:572-605). -/
def PCP.read (d : RCtx) (value_type : Int) : Rd PCP := do
  let offset_num ← rInt d.bo .s32
  let offset_den ← rInt d.bo .s32
  let timescale ← rInt d.bo .s32
  let value ← PCP.readValue d value_type
  let pp_count ← rInt d.bo .s16
  Rd.guard (pp_count ≥ 0) .assertion
  let pp ← readN pp_count.toNat (PCPProp.read d)
  return { offset_num, offset_den, timescale, value, pp }

/-- The `iter_ext` body of `ParamClip.read` (src/avb/components.py:606-614). -/
def ParamClip.ext (d : RCtx) (tag : Int) (s : ParamClip) : Rd ParamClip :=
  if tag = 0x01 then do
    rTag 71
    let v ← rInt d.bo .s32
    return { s with extrap_kind := some v }
  else if tag = 0x02 then do
    rTag 71
    let v ← rInt d.bo .s32
    return { s with fields := some v }
  else Rd.fail .value

/-- `ParamClip.read` (src/avb/components.py:556-616). -/
def ParamClip.read (d : RCtx) : Rd ParamClip := do
  let base ← Clip.read d
  rTag 0x02
  rTag 0x01
  let interp_kind ← rInt d.bo .s32
  let value_type ← rInt d.bo .s16
  Rd.guard (value_type = 1 ∨ value_type = 2 ∨ value_type = 4) .assertion
  let point_count ← rInt d.bo .s32
  Rd.guard (point_count ≥ 0) .assertion
  let control_points ← readN point_count.toNat (PCP.read d value_type)
  let s ← iterExt (ParamClip.ext d)
    { toClip := base, interp_kind, value_type, extrap_kind := none, control_points, fields := none }
  rTag 0x03
  return s

/-- The value of a point property (src/avb/components.py:652-657). -/
def PCPProp.writeValue (c : WCtx) (x : PCPProp) : Wr Unit :=
  if x.type = 2 then x.value.wDbl
  else if x.type = 1 then x.value.wS32 c.bo
  else Wr.fail .value

/-- One point property (src/avb/components.py:648-657). -/
def PCPProp.write (c : WCtx) (x : PCPProp) : Wr Unit := do
  wInt c.bo .s16 x.code
  wInt c.bo .s16 x.type
  x.writeValue c

/-- The value of a control point (src/avb/components.py:636-643).  The error message of the last
branch itself fails with `AttributeError` (`cp.value_type`). -/
def PCP.writeValue (c : WCtx) (value_type : Int) (x : PCP) : Wr Unit :=
  if value_type = 1 then x.value.wS32 c.bo
  else if value_type = 2 then x.value.wDbl
  else if value_type = 4 then x.value.wRef c
  else Wr.fail .attribute

/-- One control point (src/avb/components.py:631-657). -/
def PCP.write (c : WCtx) (value_type : Int) (x : PCP) : Wr Unit := do
  wInt c.bo .s32 x.offset_num
  wInt c.bo .s32 x.offset_den
  wInt c.bo .s32 x.timescale
  x.writeValue c value_type
  wInt c.bo .s16 x.pp.length
  forW x.pp (PCPProp.write c)

/-- `ParamClip.write` (src/avb/components.py:618-668). -/
def ParamClip.write (c : WCtx) (x : ParamClip) : Wr Unit := do
  x.toClip.write c
  wU8 0x02
  wU8 0x01
  wInt c.bo .s32 x.interp_kind
  wInt c.bo .s16 x.value_type
  wInt c.bo .s32 x.control_points.length
  forW x.control_points (PCP.write c x.value_type)
  Wr.ifHas x.extrap_kind fun v => do
    wU8 0x01
    wU8 0x01
    wU8 71
    wInt c.bo .s32 v
  Wr.ifHas x.fields fun v => do
    wU8 0x01
    wU8 0x02
    wU8 71
    wInt c.bo .s32 v
  wU8 0x03

/-- `ControlPointProperty` (src/avb/components.py:842-848). -/
structure CPProp where
  code : Int
  value_a : Int
  value_b : Int
  deriving DecidableEq

/-- `ControlPoint` (src/avb/components.py:831-839). -/
structure CP where
  offset_a : Int
  offset_b : Int
  time_scale : Int
  value_a : Int
  value_b : Int
  pp : List CPProp
  deriving DecidableEq

/-- `ControlClip` (src/avb/components.py:852-859). -/
structure ControlClip extends Clip where
  interp_kind : Int
  control_points : List CP
  deriving DecidableEq

/-- One control point property (src/avb/components.py:890-895). -/
def CPProp.read (d : RCtx) : Rd CPProp := do
  let code ← rInt d.bo .s16
  let value_a ← rInt d.bo .s32
  let value_b ← rInt d.bo .s32
  return { code, value_a, value_b }

/-- One control point (src/avb/components.py:873-897). -/
def CP.read (d : RCtx) : Rd CP := do
  let offset_a ← rInt d.bo .s32
  let offset_b ← rInt d.bo .s32
  let time_scale ← rInt d.bo .s32
  let has_value ← rBool
  Rd.guard (has_value = true) .assertion
  let value_a ← rInt d.bo .s32
  let value_b ← rInt d.bo .s32
  let pp_count ← rInt d.bo .s16
  Rd.guard (pp_count ≥ 0) .assertion
  let pp ← readN pp_count.toNat (CPProp.read d)
  return { offset_a, offset_b, time_scale, value_a, value_b, pp }

/-- `ControlClip.read` (src/avb/components.py:861-901). -/
def ControlClip.read (d : RCtx) : Rd ControlClip := do
  let base ← Clip.read d
  rTag 0x02
  rTag 0x03
  let interp_kind ← rInt d.bo .s32
  let count ← rInt d.bo .s32
  let control_points ← readN count.toNat (CP.read d)
  rTag 0x03
  return { toClip := base, interp_kind, control_points }

/-- One control point property (src/avb/components.py:922-925). -/
def CPProp.write (c : WCtx) (x : CPProp) : Wr Unit := do
  wInt c.bo .s16 x.code
  wInt c.bo .s32 x.value_a
  wInt c.bo .s32 x.value_b

/-- One control point (src/avb/components.py:911-925). -/
def CP.write (c : WCtx) (x : CP) : Wr Unit := do
  wInt c.bo .s32 x.offset_a
  wInt c.bo .s32 x.offset_b
  wInt c.bo .s32 x.time_scale
  wBool true
  wInt c.bo .s32 x.value_a
  wInt c.bo .s32 x.value_b
  wInt c.bo .s16 x.pp.length
  forW x.pp (CPProp.write c)

/-- `ControlClip.write` (src/avb/components.py:903-927). -/
def ControlClip.write (c : WCtx) (x : ControlClip) : Wr Unit := do
  x.toClip.write c
  wU8 0x02
  wU8 0x03
  wInt c.bo .s32 x.interp_kind
  wInt c.bo .s32 x.control_points.length
  forW x.control_points (CP.write c)
  wU8 0x03

/-- `Filler` (src/avb/components.py:930-933); it has no properties of its own. -/
structure Filler extends Clip where
  deriving DecidableEq

/-- `Filler.read` (src/avb/components.py:935-941). -/
def Filler.read (d : RCtx) : Rd Filler := do
  let base ← Clip.read d
  rTag 0x02
  rTag 0x01
  rTag 0x03
  return { toClip := base }

/-- `Filler.write` (src/avb/components.py:943-949). -/
def Filler.write (c : WCtx) (x : Filler) : Wr Unit := do
  x.toClip.write c
  wU8 0x02
  wU8 0x01
  wU8 0x03

end Avb
