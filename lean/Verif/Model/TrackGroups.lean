import Verif.Model.Components

/-
src/avb/trackgroups.py: track groups, effects, selectors and mobs (compositions).
-/

namespace Avb

/-- `Track` (src/avb/trackgroups.py:30-45). -/
structure Track where
  index : Option Int
  attributes : Option Ref
  session_attr : Option Ref
  component : Option Ref
  filler_proxy : Option Ref
  bob_data : Option Ref
  control_code : Option Int
  control_sub_code : Option Int
  start_pos : Option Int
  read_only : Option Bool
  lock_number : Option Int
  deriving DecidableEq

/-- `if name in self.property_data: flags |= 1 << i` (src/avb/trackgroups.py:55-83). -/
def flagBit {α : Type} (o : Option α) (i : Nat) : Nat := if o.isSome then 1 <<< i else 0

/-- `Track.flags` (src/avb/trackgroups.py:53-85). -/
def Track.flags (t : Track) : Nat :=
  flagBit t.index 0 ||| flagBit t.attributes 1 ||| flagBit t.session_attr 9 |||
  flagBit t.component 2 ||| flagBit t.filler_proxy 3 ||| flagBit t.bob_data 4 |||
  flagBit t.control_code 5 ||| flagBit t.control_sub_code 6 ||| flagBit t.start_pos 7 |||
  flagBit t.read_only 8

/-- `TrackGroup` (src/avb/trackgroups.py:89-98). -/
structure TrackGroup extends Component where
  mc_mode : Int
  length : Int
  num_scalars : Int
  tracks : List Track
  deriving DecidableEq

/-- One track (src/avb/trackgroups.py:121-158). -/
def Track.read (d : RCtx) : Rd Track := do
  let flags ← rInt d.bo .u16
  let fl := flags.toNat
  let index ← Rd.opt (fl.testBit 0) (rInt d.bo .s16)
  let attributes ← Rd.opt (fl.testBit 1) (rRef d)
  let session_attr ← Rd.opt (fl.testBit 9) (rRef d)
  let component ← Rd.opt (fl.testBit 2) (rRef d)
  let filler_proxy ← Rd.opt (fl.testBit 3) (rRef d)
  let bob_data ← Rd.opt (fl.testBit 4) (rRef d)
  let control_code ← Rd.opt (fl.testBit 5) (rInt d.bo .s16)
  let control_sub_code ← Rd.opt (fl.testBit 6) (rInt d.bo .s16)
  let start_pos ← Rd.opt (fl.testBit 7) (rInt d.bo .s32)
  let read_only ← Rd.opt (fl.testBit 8) rBool
  Rd.guard (fl &&& 0xFC00 = 0) .value
  let track : Track :=
    { index, attributes, session_attr, component, filler_proxy, bob_data, control_code,
      control_sub_code, start_pos, read_only, lock_number := none }
  Rd.guard (track.flags = fl) .assertion
  return track

/-- One lock number of extension 1 (src/avb/trackgroups.py:163-165). -/
def rLock (d : RCtx) : Rd Int := do
  rTag 69
  rInt d.bo .s16

/-- The `iter_ext` body of `TrackGroup.read` (src/avb/trackgroups.py:161-167); the loop runs over
all tracks read before. -/
def TrackGroup.ext (d : RCtx) (tag : Int) (s : TrackGroup) : Rd TrackGroup :=
  if tag = 0x01 then do
    let locks ← readN s.tracks.length (rLock d)
    return { s with
      tracks := s.tracks.zipWith (fun (t : Track) l => { t with lock_number := some l }) locks }
  else Rd.fail .value

/-- `TrackGroup.read` (src/avb/trackgroups.py:104-167). -/
def TrackGroup.read (d : RCtx) : Rd TrackGroup := do
  let base ← Component.read d
  rTag 0x02
  rTag 0x08
  let mc_mode ← rU8
  let length ← rInt d.bo .s32
  let num_scalars ← rInt d.bo .s32
  let track_count ← rInt d.bo .s32
  let tracks ← readN track_count.toNat (Track.read d)
  iterExt (TrackGroup.ext d) { toComponent := base, mc_mode, length, num_scalars, tracks }

/-- `if flags & FLAG: write(track.x)` (src/avb/trackgroups.py:187-215). -/
def wFlagged {α : Type} (c : Bool) (o : Option α) (w : α → Wr Unit) : Wr Unit :=
  if c then do
    let a ← Wr.get o
    w a
  else Wr.pure ()

/-- One track (src/avb/trackgroups.py:181-215). -/
def Track.write (c : WCtx) (x : Track) : Wr Unit := do
  Wr.guard (x.flags &&& 0xFC00 = 0) .value
  wInt c.bo .u16 x.flags
  wFlagged (x.flags.testBit 0) x.index (wInt c.bo .s16)
  wFlagged (x.flags.testBit 1) x.attributes (wRef c)
  wFlagged (x.flags.testBit 9) x.session_attr (wRef c)
  wFlagged (x.flags.testBit 2) x.component (wRef c)
  wFlagged (x.flags.testBit 3) x.filler_proxy (wRef c)
  wFlagged (x.flags.testBit 4) x.bob_data (wRef c)
  wFlagged (x.flags.testBit 5) x.control_code (wInt c.bo .s16)
  wFlagged (x.flags.testBit 6) x.control_sub_code (wInt c.bo .s16)
  wFlagged (x.flags.testBit 7) x.start_pos (wInt c.bo .s32)
  wFlagged (x.flags.testBit 8) x.read_only wBool

/-- One lock number, 0 when the track has none (src/avb/trackgroups.py:221-226). -/
def wLock (c : WCtx) (x : Track) : Wr Unit := do
  wU8 69
  wInt c.bo .s16 (x.lock_number.getD 0)

/-- `TrackGroup.write` (src/avb/trackgroups.py:169-226). -/
def TrackGroup.write (c : WCtx) (x : TrackGroup) : Wr Unit := do
  x.toComponent.write c
  wU8 0x02
  wU8 0x08
  wU8 x.mc_mode
  wInt c.bo .s32 x.length
  wInt c.bo .s32 x.num_scalars
  wInt c.bo .s32 x.tracks.length
  forW x.tracks (Track.write c)
  Wr.when (x.tracks ≠ []) do
    wU8 0x01
    wU8 0x01
    forW x.tracks (wLock c)

/-- `TrackEffect` (src/avb/trackgroups.py:258-276). -/
structure TrackEffect extends TrackGroup where
  left_length : Int
  right_length : Int
  info_version : Int
  info_current : Int
  info_smooth : Int
  info_color_item : Int
  info_quality : Int
  info_is_reversed : Int
  info_aspect_on : Bool
  keyframes : Ref
  info_force_software : Bool
  info_never_hardware : Bool
  trackman : Option Ref
  deriving DecidableEq

/-- The `iter_ext` body of `TrackEffect.read` (src/avb/trackgroups.py:299-304). -/
def TrackEffect.ext (d : RCtx) (tag : Int) (s : TrackEffect) : Rd TrackEffect :=
  if tag = 0x02 then do
    rTag 72
    let v ← rRef d
    return { s with trackman := some v }
  else Rd.fail .value

/-- `TrackEffect.read` up to the test of the class id (src/avb/trackgroups.py:278-307): what the
subclasses inherit. -/
def TrackEffect.readBody (d : RCtx) : Rd TrackEffect := do
  let base ← TrackGroup.read d
  rTag 0x02
  rTag 0x06
  let left_length ← rInt d.bo .s32
  let right_length ← rInt d.bo .s32
  let info_version ← rInt d.bo .s16
  let info_current ← rInt d.bo .s32
  let info_smooth ← rInt d.bo .s32
  let info_color_item ← rInt d.bo .s16
  let info_quality ← rInt d.bo .s16
  let info_is_reversed ← rS8
  let info_aspect_on ← rBool
  let keyframes ← rRef d
  let info_force_software ← rBool
  let info_never_hardware ← rBool
  iterExt (TrackEffect.ext d)
    { toTrackGroup := base, left_length, right_length, info_version, info_current, info_smooth,
      info_color_item, info_quality, info_is_reversed, info_aspect_on, keyframes,
      info_force_software, info_never_hardware, trackman := none }

/-- `TrackEffect.read` for class id `TKFX` (src/avb/trackgroups.py:278-307). -/
def TrackEffect.read (d : RCtx) : Rd TrackEffect := do
  let s ← TrackEffect.readBody d
  rTag 0x03
  return s

/-- `TrackEffect.write` up to the test of the class id (src/avb/trackgroups.py:309-337). -/
def TrackEffect.writeBody (c : WCtx) (x : TrackEffect) : Wr Unit := do
  x.toTrackGroup.write c
  wU8 0x02
  wU8 0x06
  wInt c.bo .s32 x.left_length
  wInt c.bo .s32 x.right_length
  wInt c.bo .s16 x.info_version
  wInt c.bo .s32 x.info_current
  wInt c.bo .s32 x.info_smooth
  wInt c.bo .s16 x.info_color_item
  wInt c.bo .s16 x.info_quality
  wS8 x.info_is_reversed
  wBool x.info_aspect_on
  wRef c x.keyframes
  wBool x.info_force_software
  wBool x.info_never_hardware
  Wr.ifHas x.trackman fun r => do
    wU8 0x01
    wU8 0x02
    wU8 72
    wRef c r

/-- `TrackEffect.write` for class id `TKFX` (src/avb/trackgroups.py:309-337). -/
def TrackEffect.write (c : WCtx) (x : TrackEffect) : Wr Unit := do
  x.writeBody c
  wU8 0x03

/-- `PanVolumeEffect` (src/avb/trackgroups.py:340-352). -/
structure PanVolumeEffect extends TrackEffect where
  level : Int
  pan : Int
  suppress_validation : Bool
  level_set : Bool
  pan_set : Bool
  supports_seperate_gain : Option Int
  is_trim_gain_effect : Option Int
  deriving DecidableEq

/-- The `iter_ext` body of `PanVolumeEffect.read` (src/avb/trackgroups.py:367-375). -/
def PanVolumeEffect.ext (d : RCtx) (tag : Int) (s : PanVolumeEffect) : Rd PanVolumeEffect :=
  if tag = 0x01 then do
    rTag 71
    let v ← rInt d.bo .s32
    return { s with supports_seperate_gain := some v }
  else if tag = 0x02 then do
    rTag 71
    let v ← rInt d.bo .s32
    return { s with is_trim_gain_effect := some v }
  else Rd.fail .value

/-- `PanVolumeEffect.read` (src/avb/trackgroups.py:354-377). -/
def PanVolumeEffect.read (d : RCtx) : Rd PanVolumeEffect := do
  let base ← TrackEffect.readBody d
  rTag 0x02
  rTag 0x05
  let level ← rInt d.bo .s32
  let pan ← rInt d.bo .s32
  let suppress_validation ← rBool
  let level_set ← rBool
  let pan_set ← rBool
  let s ← iterExt (PanVolumeEffect.ext d)
    { toTrackEffect := base, level, pan, suppress_validation, level_set, pan_set,
      supports_seperate_gain := none, is_trim_gain_effect := none }
  rTag 0x03
  return s

/-- `PanVolumeEffect.write` (src/avb/trackgroups.py:379-403). -/
def PanVolumeEffect.write (c : WCtx) (x : PanVolumeEffect) : Wr Unit := do
  x.toTrackEffect.writeBody c
  wU8 0x02
  wU8 0x05
  wInt c.bo .s32 x.level
  wInt c.bo .s32 x.pan
  wBool x.suppress_validation
  wBool x.level_set
  wBool x.pan_set
  Wr.ifHas x.supports_seperate_gain fun v => do
    wU8 0x01
    wU8 0x01
    wU8 71
    wInt c.bo .s32 v
  Wr.ifHas x.is_trim_gain_effect fun v => do
    wU8 0x01
    wU8 0x02
    wU8 71
    wInt c.bo .s32 v
  wU8 0x03

/-- `ASPIPluginChunk` (src/avb/trackgroups.py:422-433). -/
structure ASPIPluginChunk where
  version : Int
  manufacturer_id : Int
  product_id : Int
  plugin_id : Int
  chunk_id : Int
  name : Text
  data : Bytes
  deriving DecidableEq

/-- `ASPIPlugin` (src/avb/trackgroups.py:406-415). -/
structure ASPIPlugin where
  name : Text
  manufacturer_id : Int
  product_id : Int
  plugin_id : Int
  chunks : List ASPIPluginChunk
  deriving DecidableEq

/-- `AudioSuitePluginEffect` (src/avb/trackgroups.py:436-449). -/
structure AudioSuitePluginEffect extends TrackEffect where
  plugins : List ASPIPlugin
  mob_id : Option MobID
  mark_in : Option Int
  mark_out : Option Int
  tracks_to_affect : Option Int
  rendering_mode : Option Int
  padding_secs : Option Int
  preset_path : Option Bytes
  deriving DecidableEq

/-- One plug-in chunk (src/avb/trackgroups.py:479-494). -/
def ASPIPluginChunk.read (d : RCtx) : Rd ASPIPluginChunk := do
  let chunk_size ← rInt d.bo .s32
  Rd.guard (chunk_size ≥ 0) .assertion
  let version ← rInt d.bo .s32
  let manufacturer_id ← rInt d.bo .u32
  let product_id ← rInt d.bo .u32
  let plugin_id ← rInt d.bo .u32
  let chunk_id ← rInt d.bo .u32
  let name ← rStr d.bo .macroman
  let data ← fread chunk_size
  return { version, manufacturer_id, product_id, plugin_id, chunk_id, name, data }

/-- One plug-in (src/avb/trackgroups.py:464-496). -/
def ASPIPlugin.read (d : RCtx) : Rd ASPIPlugin := do
  let name ← rStr d.bo .macroman
  let manufacturer_id ← rInt d.bo .u32
  let product_id ← rInt d.bo .u32
  let plugin_id ← rInt d.bo .u32
  let num_of_chunks ← rInt d.bo .s32
  Rd.guard (num_of_chunks ≥ 0) .assertion
  let chunks ← readN num_of_chunks.toNat (ASPIPluginChunk.read d)
  return { name, manufacturer_id, product_id, plugin_id, chunks }

/-- The preset path (src/avb/trackgroups.py:527-535). -/
def rPresetPath (d : RCtx) : Rd Bytes := do
  let preset_path_length ← rInt d.bo .u32
  if preset_path_length > 0 then do
    rTag 65
    let length ← rInt d.bo .u32
    Rd.guard (preset_path_length = length) .assertion
    fread length
  else return []

/-- The `iter_ext` body of `AudioSuitePluginEffect.read` (src/avb/trackgroups.py:499-535). -/
def AudioSuitePluginEffect.ext (d : RCtx) (tag : Int) (s : AudioSuitePluginEffect) :
    Rd AudioSuitePluginEffect :=
  if tag = 0x01 then do
    rTag 71
    let _mob_hi ← rInt d.bo .s32
    rTag 71
    let _mob_lo ← rInt d.bo .s32
    return s
  else if tag = 0x02 then do
    rTag 77
    let v ← rInt d.bo .s64
    return { s with mark_in := some v }
  else if tag = 0x03 then do
    rTag 77
    let v ← rInt d.bo .s64
    return { s with mark_out := some v }
  else if tag = 0x04 then do
    rTag 72
    let v ← rInt d.bo .s32
    return { s with tracks_to_affect := some v }
  else if tag = 0x05 then do
    rTag 71
    let v ← rInt d.bo .s32
    return { s with rendering_mode := some v }
  else if tag = 0x06 then do
    rTag 71
    let v ← rInt d.bo .s32
    return { s with padding_secs := some v }
  else if tag = 0x08 then do
    let v ← rMobId d.bo
    return { s with mob_id := some v }
  else if tag = 0x09 then do
    rTag 72
    let v ← rPresetPath d
    return { s with preset_path := some v }
  else Rd.fail .value

/-- `AudioSuitePluginEffect.read` (src/avb/trackgroups.py:451-537). -/
def AudioSuitePluginEffect.read (d : RCtx) : Rd AudioSuitePluginEffect := do
  let base ← TrackEffect.readBody d
  rTag 0x02
  rTag 0x01
  let number_of_plugins ← rInt d.bo .s32
  Rd.guard (number_of_plugins = 1) .assertion
  let plugin ← ASPIPlugin.read d
  let s ← iterExt (AudioSuitePluginEffect.ext d)
    { toTrackEffect := base, plugins := [plugin], mob_id := none, mark_in := none,
      mark_out := none, tracks_to_affect := none, rendering_mode := none, padding_secs := none,
      preset_path := none }
  rTag 0x03
  return s

/-- One plug-in chunk (src/avb/trackgroups.py:556-567). -/
def ASPIPluginChunk.write (c : WCtx) (x : ASPIPluginChunk) : Wr Unit := do
  wInt c.bo .s32 x.data.length
  wInt c.bo .s32 x.version
  wInt c.bo .u32 x.manufacturer_id
  wInt c.bo .u32 x.product_id
  wInt c.bo .u32 x.plugin_id
  wInt c.bo .u32 x.chunk_id
  wStr c.bo .macroman x.name
  Wr.emit x.data

/-- One plug-in (src/avb/trackgroups.py:548-567). -/
def ASPIPlugin.write (c : WCtx) (x : ASPIPlugin) : Wr Unit := do
  wStr c.bo .macroman x.name
  wInt c.bo .u32 x.manufacturer_id
  wInt c.bo .u32 x.product_id
  wInt c.bo .u32 x.plugin_id
  wInt c.bo .s32 x.chunks.length
  forW x.chunks (ASPIPluginChunk.write c)

/-- The preset path (src/avb/trackgroups.py:614-619). -/
def wPresetPath (c : WCtx) (v : Bytes) : Wr Unit := do
  wInt c.bo .u32 v.length
  Wr.when (v.length > 0) do
    wU8 65
    wInt c.bo .u32 v.length
    Wr.emit v

/-- `AudioSuitePluginEffect.write` (src/avb/trackgroups.py:539-621).  The two halves of the mob id
are written as signed words, so a value of `2 ** 31` or more raises `struct.error`. -/
def AudioSuitePluginEffect.write (c : WCtx) (x : AudioSuitePluginEffect) : Wr Unit := do
  x.toTrackEffect.writeBody c
  wU8 0x02
  wU8 0x01
  wInt c.bo .s32 x.plugins.length
  forW x.plugins (ASPIPlugin.write c)
  Wr.ifHas x.mob_id fun m => do
    wU8 0x01
    wU8 0x01
    wU8 71
    wInt c.bo .s32 m.lo
    wU8 71
    wInt c.bo .s32 m.hi
  Wr.ifHas x.mob_id fun m => do
    wU8 0x01
    wU8 0x08
    wMobId c.bo m
  Wr.ifHas x.mark_in fun v => do
    wU8 0x01
    wU8 0x02
    wU8 77
    wInt c.bo .s64 v
  Wr.ifHas x.mark_out fun v => do
    wU8 0x01
    wU8 0x03
    wU8 77
    wInt c.bo .s64 v
  Wr.ifHas x.tracks_to_affect fun v => do
    wU8 0x01
    wU8 0x04
    wU8 72
    wInt c.bo .s32 v
  Wr.ifHas x.rendering_mode fun v => do
    wU8 0x01
    wU8 0x05
    wU8 71
    wInt c.bo .s32 v
  Wr.ifHas x.padding_secs fun v => do
    wU8 0x01
    wU8 0x06
    wU8 71
    wInt c.bo .s32 v
  Wr.ifHas x.preset_path fun v => do
    wU8 0x01
    wU8 0x09
    wU8 72
    wPresetPath c v
  wU8 0x03

/-- `EqualizerBand` (src/avb/trackgroups.py:624-633). -/
structure EqualizerBand where
  type : Int
  freq : Int
  gain : Int
  q : Int
  enable : Bool
  deriving DecidableEq

/-- `EqualizerMultiBand` (src/avb/trackgroups.py:636-644). -/
structure EqualizerMultiBand extends TrackEffect where
  bands : List EqualizerBand
  effect_enable : Bool
  filter_name : Text
  deriving DecidableEq

/-- One band (src/avb/trackgroups.py:657-663). -/
def EqualizerBand.read (d : RCtx) : Rd EqualizerBand := do
  let type ← rInt d.bo .s32
  let freq ← rInt d.bo .s32
  let gain ← rInt d.bo .s32
  let q ← rInt d.bo .s32
  let enable ← rBool
  return { type, freq, gain, q, enable }

/-- `EqualizerMultiBand.read` (src/avb/trackgroups.py:646-668). -/
def EqualizerMultiBand.read (d : RCtx) : Rd EqualizerMultiBand := do
  let base ← TrackEffect.readBody d
  rTag 0x02
  rTag 0x05
  let num_bands ← rInt d.bo .s32
  Rd.guard (num_bands ≥ 0) .assertion
  let bands ← readN num_bands.toNat (EqualizerBand.read d)
  let effect_enable ← rBool
  let filter_name ← rStr d.bo .macroman
  rTag 0x03
  return { toTrackEffect := base, bands, effect_enable, filter_name }

/-- One band (src/avb/trackgroups.py:677-682). -/
def EqualizerBand.write (c : WCtx) (x : EqualizerBand) : Wr Unit := do
  wInt c.bo .s32 x.type
  wInt c.bo .s32 x.freq
  wInt c.bo .s32 x.gain
  wInt c.bo .s32 x.q
  wBool x.enable

/-- `EqualizerMultiBand.write` (src/avb/trackgroups.py:670-687). -/
def EqualizerMultiBand.write (c : WCtx) (x : EqualizerMultiBand) : Wr Unit := do
  x.toTrackEffect.writeBody c
  wU8 0x02
  wU8 0x05
  wInt c.bo .s32 x.bands.length
  forW x.bands (EqualizerBand.write c)
  wBool x.effect_enable
  wStr c.bo .macroman x.filter_name
  wU8 0x03

/-- `TimeWarp` (src/avb/trackgroups.py:689-695). -/
structure TimeWarp extends TrackGroup where
  phase_offset : Int
  deriving DecidableEq

/-- `TimeWarp.read` (src/avb/trackgroups.py:697-702). -/
def TimeWarp.read (d : RCtx) : Rd TimeWarp := do
  let base ← TrackGroup.read d
  rTag 0x02
  rTag 0x02
  let phase_offset ← rInt d.bo .s32
  return { toTrackGroup := base, phase_offset }

/-- `TimeWarp.write` (src/avb/trackgroups.py:704-709). -/
def TimeWarp.write (c : WCtx) (x : TimeWarp) : Wr Unit := do
  x.toTrackGroup.write c
  wU8 0x02
  wU8 0x02
  wInt c.bo .s32 x.phase_offset

/-- `CaptureMask` (src/avb/trackgroups.py:712-719). -/
structure CaptureMask extends TimeWarp where
  is_double : Bool
  mask_bits : Int
  deriving DecidableEq

/-- `CaptureMask.read` (src/avb/trackgroups.py:721-730). -/
def CaptureMask.read (d : RCtx) : Rd CaptureMask := do
  let base ← TimeWarp.read d
  rTag 0x02
  rTag 0x01
  let is_double ← rBool
  let mask_bits ← rInt d.bo .u32
  rTag 0x03
  return { toTimeWarp := base, is_double, mask_bits }

/-- `CaptureMask.write` (src/avb/trackgroups.py:732-741). -/
def CaptureMask.write (c : WCtx) (x : CaptureMask) : Wr Unit := do
  x.toTimeWarp.write c
  wU8 0x02
  wU8 0x01
  wBool x.is_double
  wInt c.bo .u32 x.mask_bits
  wU8 0x03

/-- `StrobeEffect` (src/avb/trackgroups.py:744-750). -/
structure StrobeEffect extends TimeWarp where
  strobe_value : Int
  deriving DecidableEq

/-- `StrobeEffect.read` (src/avb/trackgroups.py:752-758). -/
def StrobeEffect.read (d : RCtx) : Rd StrobeEffect := do
  let base ← TimeWarp.read d
  rTag 0x02
  rTag 0x01
  let strobe_value ← rInt d.bo .s32
  rTag 0x03
  return { toTimeWarp := base, strobe_value }

/-- `StrobeEffect.write` (src/avb/trackgroups.py:760-766). -/
def StrobeEffect.write (c : WCtx) (x : StrobeEffect) : Wr Unit := do
  x.toTimeWarp.write c
  wU8 0x02
  wU8 0x01
  wInt c.bo .s32 x.strobe_value
  wU8 0x03

/-- `MotionEffect` (src/avb/trackgroups.py:769-778). -/
structure MotionEffect extends TimeWarp where
  speed_num : Int
  speed_den : Int
  offset_adjust : Option F64
  source_param_list : Option Ref
  new_source_calculation : Option Bool
  deriving DecidableEq

/-- The `iter_ext` body of `MotionEffect.read` (src/avb/trackgroups.py:790-802). -/
def MotionEffect.ext (d : RCtx) (tag : Int) (s : MotionEffect) : Rd MotionEffect :=
  if tag = 0x01 then do
    rTag 75
    let v ← rDouble
    return { s with offset_adjust := some v }
  else if tag = 0x02 then do
    rTag 72
    let v ← rRef d
    return { s with source_param_list := some v }
  else if tag = 0x03 then do
    rTag 66
    let v ← rBool
    return { s with new_source_calculation := some v }
  else Rd.fail .value

/-- `MotionEffect.read` (src/avb/trackgroups.py:780-804). -/
def MotionEffect.read (d : RCtx) : Rd MotionEffect := do
  let base ← TimeWarp.read d
  rTag 0x02
  rTag 0x03
  let speed_num ← rInt d.bo .s32
  let speed_den ← rInt d.bo .s32
  let s ← iterExt (MotionEffect.ext d)
    { toTimeWarp := base, speed_num, speed_den, offset_adjust := none, source_param_list := none,
      new_source_calculation := none }
  rTag 0x03
  return s

/-- `MotionEffect.write` (src/avb/trackgroups.py:806-831). -/
def MotionEffect.write (c : WCtx) (x : MotionEffect) : Wr Unit := do
  x.toTimeWarp.write c
  wU8 0x02
  wU8 0x03
  wInt c.bo .s32 x.speed_num
  wInt c.bo .s32 x.speed_den
  Wr.ifHas x.offset_adjust fun v => do
    wU8 0x01
    wU8 0x01
    wU8 75
    wDouble v
  Wr.ifHas x.source_param_list fun v => do
    wU8 0x01
    wU8 0x02
    wU8 72
    wRef c v
  Wr.ifHas x.new_source_calculation fun v => do
    wU8 0x01
    wU8 0x03
    wU8 66
    wBool v
  wU8 0x03

/-- `Repeat` (src/avb/trackgroups.py:834-837). -/
structure Repeat extends TimeWarp where
  deriving DecidableEq

/-- `Repeat.read` (src/avb/trackgroups.py:839-845). -/
def Repeat.read (d : RCtx) : Rd Repeat := do
  let base ← TimeWarp.read d
  rTag 0x02
  rTag 0x01
  rTag 0x03
  return { toTimeWarp := base }

/-- `Repeat.write` (src/avb/trackgroups.py:847-853). -/
def Repeat.write (c : WCtx) (x : Repeat) : Wr Unit := do
  x.toTimeWarp.write c
  wU8 0x02
  wU8 0x01
  wU8 0x03

/-- `EssenceGroup` (src/avb/trackgroups.py:856-862). -/
structure EssenceGroup extends TrackGroup where
  rep_set_type : Option Int
  deriving DecidableEq

/-- The `iter_ext` body of `EssenceGroup.read` (src/avb/trackgroups.py:870-875). -/
def EssenceGroup.ext (d : RCtx) (tag : Int) (s : EssenceGroup) : Rd EssenceGroup :=
  if tag = 0x01 then do
    rTag 71
    let v ← rInt d.bo .s32
    return { s with rep_set_type := some v }
  else Rd.fail .value

/-- `EssenceGroup.read` (src/avb/trackgroups.py:864-877). -/
def EssenceGroup.read (d : RCtx) : Rd EssenceGroup := do
  let base ← TrackGroup.read d
  rTag 0x02
  rTag 0x01
  let s ← iterExt (EssenceGroup.ext d) { toTrackGroup := base, rep_set_type := none }
  rTag 0x03
  return s

/-- `EssenceGroup.write` (src/avb/trackgroups.py:879-891). -/
def EssenceGroup.write (c : WCtx) (x : EssenceGroup) : Wr Unit := do
  x.toTrackGroup.write c
  wU8 0x02
  wU8 0x01
  Wr.ifHas x.rep_set_type fun v => do
    wU8 0x01
    wU8 0x01
    wU8 71
    wInt c.bo .s32 v
  wU8 0x03

/-- `TransitionEffect` (src/avb/trackgroups.py:894-913). -/
structure TransitionEffect extends TrackGroup where
  cutpoint : Int
  left_length : Int
  right_length : Int
  info_version : Int
  info_current : Int
  info_smooth : Int
  info_color_item : Int
  info_quality : Int
  info_is_reversed : Int
  info_aspect_on : Bool
  keyframes : Ref
  info_force_software : Bool
  info_never_hardware : Bool
  trackman : Option Ref
  deriving DecidableEq

/-- The `iter_ext` body of `TransitionEffect.read` (src/avb/trackgroups.py:942-947). -/
def TransitionEffect.ext (d : RCtx) (tag : Int) (s : TransitionEffect) : Rd TransitionEffect :=
  if tag = 0x01 then do
    rTag 72
    let v ← rRef d
    return { s with trackman := some v }
  else Rd.fail .value

/-- `TransitionEffect.read` (src/avb/trackgroups.py:915-949). -/
def TransitionEffect.read (d : RCtx) : Rd TransitionEffect := do
  let base ← TrackGroup.read d
  rTag 0x02
  rTag 0x01
  let cutpoint ← rInt d.bo .s32
  rTag 0x02
  rTag 0x05
  let left_length ← rInt d.bo .s32
  let right_length ← rInt d.bo .s32
  let info_version ← rInt d.bo .s16
  let info_current ← rInt d.bo .s32
  let info_smooth ← rInt d.bo .s32
  let info_color_item ← rInt d.bo .s16
  let info_quality ← rInt d.bo .s16
  let info_is_reversed ← rS8
  let info_aspect_on ← rBool
  let keyframes ← rRef d
  let info_force_software ← rBool
  let info_never_hardware ← rBool
  let s ← iterExt (TransitionEffect.ext d)
    { toTrackGroup := base, cutpoint, left_length, right_length, info_version, info_current,
      info_smooth, info_color_item, info_quality, info_is_reversed, info_aspect_on, keyframes,
      info_force_software, info_never_hardware, trackman := none }
  rTag 0x03
  return s

/-- `TransitionEffect.write` (src/avb/trackgroups.py:951-984). -/
def TransitionEffect.write (c : WCtx) (x : TransitionEffect) : Wr Unit := do
  x.toTrackGroup.write c
  wU8 0x02
  wU8 0x01
  wInt c.bo .s32 x.cutpoint
  wU8 0x02
  wU8 0x05
  wInt c.bo .s32 x.left_length
  wInt c.bo .s32 x.right_length
  wInt c.bo .s16 x.info_version
  wInt c.bo .s32 x.info_current
  wInt c.bo .s32 x.info_smooth
  wInt c.bo .s16 x.info_color_item
  wInt c.bo .s16 x.info_quality
  wS8 x.info_is_reversed
  wBool x.info_aspect_on
  wRef c x.keyframes
  wBool x.info_force_software
  wBool x.info_never_hardware
  Wr.ifHas x.trackman fun r => do
    wU8 0x01
    wU8 0x01
    wU8 72
    wRef c r
  wU8 0x03

/-- `Selector` (src/avb/trackgroups.py:987-994). -/
structure Selector extends TrackGroup where
  is_ganged : Bool
  selected : Int
  deriving DecidableEq

/-- `Selector.read` (src/avb/trackgroups.py:996-1007). -/
def Selector.read (d : RCtx) : Rd Selector := do
  let base ← TrackGroup.read d
  rTag 0x02
  rTag 0x01
  let is_ganged ← rBool
  let selected ← rInt d.bo .u16
  Rd.guard (selected < base.tracks.length) .assertion
  rTag 0x03
  return { toTrackGroup := base, is_ganged, selected }

/-- `Selector.write` (src/avb/trackgroups.py:1009-1018). -/
def Selector.write (c : WCtx) (x : Selector) : Wr Unit := do
  x.toTrackGroup.write c
  wU8 0x02
  wU8 0x01
  wBool x.is_ganged
  wInt c.bo .u16 x.selected
  wU8 0x03

/-- `Composition`, i.e. a mob (src/avb/trackgroups.py:1025-1036). -/
structure Composition extends TrackGroup where
  last_modified : Int
  mob_type_id : Int
  usage_code : Int
  descriptor : Ref
  creation_time : Option Int
  mob_id : Option MobID
  deriving DecidableEq

/-- The `iter_ext` body of `Composition.read` (src/avb/trackgroups.py:1072-1080). -/
def Composition.ext (d : RCtx) (tag : Int) (s : Composition) : Rd Composition :=
  if tag = 0x01 then do
    rTag 71
    let v ← rDate d.bo
    return { s with creation_time := some v }
  else if tag = 0x02 then do
    let v ← rMobId d.bo
    return { s with mob_id := some v }
  else Rd.fail .value

/-- `Composition.read` (src/avb/trackgroups.py:1058-1082). -/
def Composition.read (d : RCtx) : Rd Composition := do
  let base ← TrackGroup.read d
  rTag 0x02
  rTag 0x02
  let _mob_id_lo ← rInt d.bo .u32
  let _mob_id_hi ← rInt d.bo .u32
  let last_modified ← rDate d.bo
  let mob_type_id ← rU8
  let usage_code ← rInt d.bo .s32
  let descriptor ← rRef d
  let s ← iterExt (Composition.ext d)
    { toTrackGroup := base, last_modified, mob_type_id, usage_code, descriptor,
      creation_time := none, mob_id := none }
  rTag 0x03
  return s

/-- `Composition.write` (src/avb/trackgroups.py:1084-1111). -/
def Composition.write (c : WCtx) (x : Composition) : Wr Unit := do
  x.toTrackGroup.write c
  wU8 0x02
  wU8 0x02
  let mob_id ← Wr.get x.mob_id
  wInt c.bo .u32 mob_id.lo
  wInt c.bo .u32 mob_id.hi
  wDate c.bo x.last_modified
  wU8 x.mob_type_id
  wInt c.bo .s32 x.usage_code
  wRef c x.descriptor
  Wr.ifHas x.creation_time fun v => do
    wU8 0x01
    wU8 0x01
    wU8 71
    wDate c.bo v
  Wr.ifHas x.mob_id fun m => do
    wU8 0x01
    wU8 0x02
    wMobId c.bo m
  wU8 0x03

end Avb
