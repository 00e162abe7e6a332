import Verif.Model.File

/-!
Objects of which some properties have no value.  `AVBObject.__getattr__` raises `AttributeError` when a property
without a value is read (src/avb/core.py:206-211); properties without a default have none until the program
assigns one (src/avb/core.py:178-182).  The writers here are those of the other files of the model with every
reading of a property marked.  Properties whose presence the writers test (`hasattr`) are optional values of
the model and not marked.
-/

namespace Avb.Unset

/-- A property of an object or of a helper object in one of its lists: the way to it (name of the list and
position, for each level) and its name (src/avb/core.py:166-211). -/
abbrev Slot := List (String × Nat) × String

/-- Which properties have no value (src/avb/core.py:178-182). -/
abbrev Unset := Slot → Bool

end Avb.Unset

namespace Avb

open Unset

/-- The unset properties of the helper object at a position of a list (src/avb/core.py:166-176). -/
def Unset.Unset.at (u : Unset) (list : String) (i : Nat) : Unset := fun s => u ((list, i) :: s.1, s.2)

/-- A statement that reads a property, for the first time in this writer: a property that had a value has one
later (src/avb/core.py:206-211). -/
def need {α : Type} (u : Unset) (name : String) (w : Wr α) : Wr α :=
  if u ([], name) then Wr.fail .attribute else w

/-- A loop over helper objects, with their positions (src/avb/misc.py:338-389 for instance). -/
def forWiFrom {α : Type} (i : Nat) : List α → (Nat → α → Wr Unit) → Wr Unit
  | [], _ => pure ()
  | x :: xs, w => do
    w i x
    forWiFrom (i + 1) xs w

/-- A loop over helper objects, with their positions (src/avb/misc.py:338-389 for instance). -/
def forWi {α : Type} (xs : List α) (w : Nat → α → Wr Unit) : Wr Unit := forWiFrom 0 xs w

/-- `Setting.write` with some properties unset (src/avb/bin.py:38-51). -/
def Setting.writeU (u : Unset) (c : WCtx) (x : Setting) : Wr Unit := do
  wU8 0x02
  wU8 0x06
  need u "name" (wStr c.bo .macroman x.name)
  need u "kind" (wStr c.bo .macroman x.kind)
  need u "attr_count" (wInt c.bo .s16 x.attr_count)
  need u "attr_type" (wInt c.bo .s16 x.attr_type)
  need u "attributes" (wRef c x.attributes)

/-- `BinViewSetting.write` with some properties unset (src/avb/bin.py:137-171). -/
def BinViewSetting.writeU (u : Unset) (c : WCtx) (x : BinViewSetting) : Wr Unit := do
  x.toSetting.writeU u c
  wU8 0x02
  wU8 10
  need u "columns" (wInt c.bo .u16 x.columns.length)
  forW x.columns (BinColumn.write c)
  Wr.ifHas x.format_descriptors fun v => do
    wU8 0x01
    wU8 0x01
    wU8 69
    wInt c.bo .u16 v.length
    forW v (FormatDescriptor.write c)
  wU8 0x03

/-- `BinItem.write` with some properties unset (src/avb/bin.py:333-337). -/
def BinItem.writeU (u : Unset) (c : WCtx) (b : BinItem) : Wr Unit := do
  need u "mob" (wRef c b.mob)
  need u "x" (wInt c.bo .s16 b.x)
  need u "y" (wInt c.bo .s16 b.y)
  need u "keyframe" (wInt c.bo .s32 b.keyframe)
  need u "user_placed" (wU8 (if b.user_placed then 1 else 0))

/-- `SiftItem.write` with some properties unset (src/avb/bin.py:344-347). -/
def SiftItem.writeU (u : Unset) (c : WCtx) (x : SiftItem) : Wr Unit := do
  need u "method" (wInt c.bo .s16 x.method)
  need u "string" (wStr c.bo .macroman x.string)
  need u "column" (wStr c.bo .macroman x.column)

/-- `Bin.writeBody` with some properties unset (src/avb/bin.py:310-367). -/
def Bin.writeBodyU (u : Unset) (c : WCtx) (x : Bin) : Wr Unit := do
  wU8 0x02
  need u "items" (need u "large_bin" (wU8 (if x.isLarge then 0x0f else 0x0e)))
  need u "view_setting" (wRef c x.view_setting)
  need u "uid" (wInt c.bo .u64 x.uid)
  x.writeCount c
  forWi x.items fun i e => e.writeU (u.at "items" i) c
  need u "display_mask" (wInt c.bo .s32 x.display_mask)
  need u "display_mode" (wInt c.bo .s16 x.display_mode)
  need u "sifted" (wBool x.sifted)
  need u "sifted_settings" (do
    forW (List.range' 0 6) fun i => do
      let s ← Wr.nth x.sifted_settings i
      s.writeU (u.at "sifted_settings" i) c)
  need u "sort_columns" (wInt c.bo .s16 x.sort_columns.length)
  forW x.sort_columns (wSortColumn c)
  need u "mac_font" (wInt c.bo .s16 x.mac_font)
  need u "mac_font_size" (wInt c.bo .s16 x.mac_font_size)
  need u "mac_image_scale" (wInt c.bo .s16 x.mac_image_scale)
  need u "home_rect" (wRect c.bo x.home_rect)
  need u "background_color" (wRgb c.bo x.background_color)
  need u "forground_color" (wRgb c.bo x.forground_color)
  need u "ql_image_scale" (wInt c.bo .s16 x.ql_image_scale)
  need u "attributes" (wRef c x.attributes)
  need u "was_iconic" (wBool x.was_iconic)

/-- `Bin.write` with some properties unset (src/avb/bin.py:310-370). -/
def Bin.writeU (u : Unset) (c : WCtx) (x : Bin) : Wr Unit := do
  x.writeBodyU u c
  wU8 0x03

/-- `BinFirst.write` with some properties unset (src/avb/bin.py:431-440). -/
def BinFirst.writeU (u : Unset) (c : WCtx) (x : BinFirst) : Wr Unit := do
  x.toBin.writeBodyU u c
  wU8 0x02
  wU8 0x01
  need u "unknown_s32" (wInt c.bo .s32 x.unknown_s32)
  wU8 0x03

/-- `Component.write` with some properties unset (src/avb/components.py:65-93). -/
def Component.writeU (u : Unset) (c : WCtx) (x : Component) : Wr Unit := do
  wU8 0x02
  wU8 0x03
  need u "left_bob" (wRef c x.left_bob)
  need u "right_bob" (wRef c x.right_bob)
  need u "media_kind_id" (wInt c.bo .s16 x.media_kind_id)
  need u "edit_rate" (wRate c.bo x.edit_rate)
  need u "name" (wName c x.name)
  need u "effect_id" (wName c x.effect_id)
  need u "attributes" (wRef c x.attributes)
  need u "session_attrs" (wRef c x.session_attrs)
  need u "precomputed" (wRef c x.precomputed)
  Wr.ifHas x.param_list fun r => do
    wU8 0x01
    wU8 0x01
    wU8 72
    wRef c r

/-- `Sequence.write` with some properties unset (src/avb/components.py:169-179). -/
def Sequence.writeU (u : Unset) (c : WCtx) (x : Sequence) : Wr Unit := do
  x.toComponent.writeU u c
  wU8 0x02
  wU8 0x03
  need u "components" (wInt c.bo .u32 x.components.length)
  forW x.components (wRef c)
  wU8 0x03

/-- `Clip.write` with some properties unset (src/avb/components.py:250-255). -/
def Clip.writeU (u : Unset) (c : WCtx) (x : Clip) : Wr Unit := do
  x.toComponent.writeU u c
  wU8 0x02
  wU8 0x01
  need u "length" (wInt c.bo .u32 x.length)

/-- `SourceClip.write` with some properties unset (src/avb/components.py:292-312). -/
def SourceClip.writeU (u : Unset) (c : WCtx) (x : SourceClip) : Wr Unit := do
  x.toClip.writeU u c
  wU8 0x02
  wU8 0x03
  let mob_id ← need u "mob_id" (Wr.get x.mob_id)
  wInt c.bo .u32 mob_id.lo
  wInt c.bo .u32 mob_id.hi
  need u "track_id" (wInt c.bo .s16 x.track_id)
  need u "start_time" (wInt c.bo .s32 x.start_time)
  Wr.ifHas x.mob_id fun m => do
    wU8 0x01
    wU8 0x01
    wMobId c.bo m
  wU8 0x03

/-- `Timecode.write` with some properties unset (src/avb/components.py:356-367). -/
def Timecode.writeU (u : Unset) (c : WCtx) (x : Timecode) : Wr Unit := do
  x.toClip.writeU u c
  wU8 0x02
  wU8 0x01
  need u "flags" (wInt c.bo .u32 x.flags)
  need u "fps" (wInt c.bo .u16 x.fps)
  Wr.emit (List.replicate 6 0)
  need u "start" (wInt c.bo .u32 x.start)
  wU8 0x03

/-- `Edgecode.write` with some properties unset (src/avb/components.py:398-413). -/
def Edgecode.writeU (u : Unset) (c : WCtx) (x : Edgecode) : Wr Unit := do
  x.toClip.writeU u c
  wU8 0x02
  wU8 0x01
  need u "header" (Wr.guard (x.header.length = 8) .assertion)
  Wr.emit x.header
  need u "film_kind" (wU8 x.film_kind)
  need u "code_format" (wU8 x.code_format)
  need u "base_perf" (wInt c.bo .u16 x.base_perf)
  wInt c.bo .u32 0
  need u "start_ec" (wInt c.bo .s32 x.start_ec)
  wU8 0x03

/-- `TrackRef.write` with some properties unset (src/avb/components.py:436-445). -/
def TrackRef.writeU (u : Unset) (c : WCtx) (x : TrackRef) : Wr Unit := do
  x.toClip.writeU u c
  wU8 0x02
  wU8 0x01
  need u "relative_scope" (wInt c.bo .s16 x.relative_scope)
  need u "relative_track" (wInt c.bo .s16 x.relative_track)
  wU8 0x03

/-- `PCPProp.writeValue` with some properties unset (src/avb/components.py:652-657). -/
def PCPProp.writeValueU (u : Unset) (c : WCtx) (x : PCPProp) : Wr Unit :=
  if x.type = 2 then need u "value" (x.value.wDbl)
  else if x.type = 1 then need u "value" (x.value.wS32 c.bo)
  else Wr.fail .value

/-- `PCPProp.write` with some properties unset (src/avb/components.py:648-657). -/
def PCPProp.writeU (u : Unset) (c : WCtx) (x : PCPProp) : Wr Unit := do
  need u "code" (wInt c.bo .s16 x.code)
  need u "type" (wInt c.bo .s16 x.type)
  x.writeValueU u c

/-- `PCP.writeValue` with some properties unset (src/avb/components.py:636-643). -/
def PCP.writeValueU (u : Unset) (c : WCtx) (value_type : Int) (x : PCP) : Wr Unit :=
  if value_type = 1 then need u "value" (x.value.wS32 c.bo)
  else if value_type = 2 then need u "value" (x.value.wDbl)
  else if value_type = 4 then need u "value" (x.value.wRef c)
  else Wr.fail .attribute

/-- `PCP.write` with some properties unset (src/avb/components.py:631-657). -/
def PCP.writeU (u : Unset) (c : WCtx) (value_type : Int) (x : PCP) : Wr Unit := do
  need u "offset" (wInt c.bo .s32 x.offset_num)
  wInt c.bo .s32 x.offset_den
  need u "timescale" (wInt c.bo .s32 x.timescale)
  x.writeValueU u c value_type
  need u "pp" (wInt c.bo .s16 x.pp.length)
  forWi x.pp fun i e => e.writeU (u.at "pp" i) c

/-- `ParamClip.write` with some properties unset (src/avb/components.py:618-668). -/
def ParamClip.writeU (u : Unset) (c : WCtx) (x : ParamClip) : Wr Unit := do
  x.toClip.writeU u c
  wU8 0x02
  wU8 0x01
  need u "interp_kind" (wInt c.bo .s32 x.interp_kind)
  need u "value_type" (wInt c.bo .s16 x.value_type)
  need u "control_points" (wInt c.bo .s32 x.control_points.length)
  forWi x.control_points fun i e => e.writeU (u.at "control_points" i) c x.value_type
  Wr.ifHas x.extrap_kind fun v => do
    wU8 0x01
    wU8 0x01
    wU8 71
    wInt c.bo .s32 v
  Wr.ifHas x.fields fun v => do
    wU8 0x01
    wU8 0x02
    wU8 71
    wInt c.bo .s32 v
  wU8 0x03

/-- `CPProp.write` with some properties unset (src/avb/components.py:922-925). -/
def CPProp.writeU (u : Unset) (c : WCtx) (x : CPProp) : Wr Unit := do
  need u "code" (wInt c.bo .s16 x.code)
  need u "value" (wInt c.bo .s32 x.value_a)
  wInt c.bo .s32 x.value_b

/-- `CP.write` with some properties unset (src/avb/components.py:911-925). -/
def CP.writeU (u : Unset) (c : WCtx) (x : CP) : Wr Unit := do
  need u "offset" (wInt c.bo .s32 x.offset_a)
  wInt c.bo .s32 x.offset_b
  need u "time_scale" (wInt c.bo .s32 x.time_scale)
  wBool true
  need u "value" (wInt c.bo .s32 x.value_a)
  wInt c.bo .s32 x.value_b
  need u "pp" (wInt c.bo .s16 x.pp.length)
  forWi x.pp fun i e => e.writeU (u.at "pp" i) c

/-- `ControlClip.write` with some properties unset (src/avb/components.py:903-927). -/
def ControlClip.writeU (u : Unset) (c : WCtx) (x : ControlClip) : Wr Unit := do
  x.toClip.writeU u c
  wU8 0x02
  wU8 0x03
  need u "interp_kind" (wInt c.bo .s32 x.interp_kind)
  need u "control_points" (wInt c.bo .s32 x.control_points.length)
  forWi x.control_points fun i e => e.writeU (u.at "control_points" i) c
  wU8 0x03

/-- `Filler.write` with some properties unset (src/avb/components.py:943-949). -/
def Filler.writeU (u : Unset) (c : WCtx) (x : Filler) : Wr Unit := do
  x.toClip.writeU u c
  wU8 0x02
  wU8 0x01
  wU8 0x03

/-- `MediaDescriptor.writeBody` with some properties unset (src/avb/essence.py:65-94). -/
def MediaDescriptor.writeBodyU (u : Unset) (c : WCtx) (x : MediaDescriptor) : Wr Unit := do
  wU8 0x02
  wU8 0x03
  need u "mob_kind" (wU8 x.mob_kind)
  need u "locator" (wRef c x.locator)
  need u "intermediate" (wBool x.intermediate)
  need u "physical_media" (wRef c x.physical_media)
  Wr.ifHas x.uuid fun v => do
    wU8 0x01
    wU8 0x01
    wU8 65
    wInt c.bo .s32 16
    wRawUuid c.bo v
  Wr.ifHas x.wchar fun v => do
    wU8 0x01
    wU8 0x02
    wU8 65
    wInt c.bo .s32 v.length
    Wr.emit v
  Wr.ifHas x.attributes fun v => do
    wU8 0x01
    wU8 0x03
    wU8 72
    wRef c v

/-- `MediaDescriptor.write` with some properties unset (src/avb/essence.py:65-97). -/
def MediaDescriptor.writeU (u : Unset) (c : WCtx) (x : MediaDescriptor) : Wr Unit := do
  x.writeBodyU u c
  wU8 0x03

/-- `TapeDescriptor.write` with some properties unset (src/avb/essence.py:117-124). -/
def TapeDescriptor.writeU (u : Unset) (c : WCtx) (x : TapeDescriptor) : Wr Unit := do
  x.toMediaDescriptor.writeBodyU u c
  wU8 0x02
  wU8 0x02
  need u "cframe" (wInt c.bo .s16 x.cframe)
  wU8 0x03

/-- `FilmDescriptor.write` with some properties unset (src/avb/essence.py:139-144). -/
def FilmDescriptor.writeU (u : Unset) (c : WCtx) (x : FilmDescriptor) : Wr Unit := do
  x.toMediaDescriptor.writeBodyU u c
  wU8 0x02
  wU8 0x01
  wU8 0x03

/-- `NagraDescriptor.write` with some properties unset (src/avb/essence.py:159-164). -/
def NagraDescriptor.writeU (u : Unset) (c : WCtx) (x : NagraDescriptor) : Wr Unit := do
  x.toMediaDescriptor.writeBodyU u c
  wU8 0x02
  wU8 0x01
  wU8 0x03

/-- `MediaFileDescriptor.writeBody` with some properties unset (src/avb/essence.py:191-200). -/
def MediaFileDescriptor.writeBodyU (u : Unset) (c : WCtx) (x : MediaFileDescriptor) : Wr Unit := do
  x.toMediaDescriptor.writeBodyU u c
  wU8 0x02
  wU8 0x03
  need u "edit_rate" (wRate c.bo x.edit_rate)
  need u "length" (wInt c.bo .s32 x.length)
  need u "is_omfi" (wInt c.bo .s16 x.is_omfi)
  need u "data_offset" (wInt c.bo .s32 x.data_offset)

/-- `MediaFileDescriptor.write` with some properties unset (src/avb/essence.py:191-203). -/
def MediaFileDescriptor.writeU (u : Unset) (c : WCtx) (x : MediaFileDescriptor) : Wr Unit := do
  x.writeBodyU u c
  wU8 0x03

/-- `MultiDescriptor.write` with some properties unset (src/avb/essence.py:227-238). -/
def MultiDescriptor.writeU (u : Unset) (c : WCtx) (x : MultiDescriptor) : Wr Unit := do
  x.toMediaFileDescriptor.writeBodyU u c
  wU8 0x02
  wU8 0x01
  need u "descriptors" (wInt c.bo .s32 x.descriptors.length)
  forW x.descriptors (wRef c)
  wU8 0x03

/-- `WaveDescriptor.write` with some properties unset (src/avb/essence.py:261-270). -/
def WaveDescriptor.writeU (u : Unset) (c : WCtx) (x : WaveDescriptor) : Wr Unit := do
  x.toMediaFileDescriptor.writeBodyU u c
  wU8 0x02
  wU8 0x01
  Wr.emit [82, 73, 70, 70]
  need u "summary" (wInt .little .u32 x.summary.length)
  Wr.emit x.summary
  wU8 0x03

/-- `AIFCDescriptor.write` with some properties unset (src/avb/essence.py:301-318). -/
def AIFCDescriptor.writeU (u : Unset) (c : WCtx) (x : AIFCDescriptor) : Wr Unit := do
  x.toMediaFileDescriptor.writeBodyU u c
  wU8 0x02
  wU8 0x01
  Wr.emit [70, 79, 82, 77]
  need u "summary" (wInt .big .u32 x.summary.length)
  Wr.emit x.summary
  Wr.ifHas x.data_pos fun v => do
    wU8 0x01
    wU8 0x01
    wU8 71
    wInt c.bo .s32 v
  wU8 0x03

/-- `PCMADescriptor.write` with some properties unset (src/avb/essence.py:393-436). -/
def PCMADescriptor.writeU (u : Unset) (c : WCtx) (x : PCMADescriptor) : Wr Unit := do
  x.toMediaFileDescriptor.writeBodyU u c
  wU8 0x02
  wU8 0x01
  need u "channels" (wInt c.bo .u16 x.channels)
  need u "quantization_bits" (wInt c.bo .u16 x.quantization_bits)
  need u "sample_rate" (wRate c.bo x.sample_rate)
  need u "locked" (wBool x.locked)
  need u "audio_ref_level" (wInt c.bo .s16 x.audio_ref_level)
  need u "electro_spatial_formulation" (wInt c.bo .s32 x.electro_spatial_formulation)
  need u "dial_norm" (wInt c.bo .u16 x.dial_norm)
  need u "coding_format" (wInt c.bo .u32 x.coding_format)
  need u "block_align" (wInt c.bo .u32 x.block_align)
  need u "sequence_offset" (wInt c.bo .u16 x.sequence_offset)
  need u "average_bps" (wInt c.bo .u32 x.average_bps)
  need u "has_peak_envelope_data" (wBool x.has_peak_envelope_data)
  need u "peak_envelope_version" (wInt c.bo .s32 x.peak_envelope_version)
  need u "peak_envelope_format" (wInt c.bo .s32 x.peak_envelope_format)
  need u "points_per_peak_value" (wInt c.bo .s32 x.points_per_peak_value)
  need u "peak_envelope_block_size" (wInt c.bo .s32 x.peak_envelope_block_size)
  need u "peak_channel_count" (wInt c.bo .s32 x.peak_channel_count)
  need u "peak_frame_count" (wInt c.bo .s32 x.peak_frame_count)
  need u "peak_of_peaks_offset" (wInt c.bo .u64 x.peak_of_peaks_offset)
  need u "peak_envelope_timestamp" (wInt c.bo .s32 x.peak_envelope_timestamp)
  Wr.ifHas x.ebu_timestamp fun v => do
    wU8 0x01
    wU8 0x01
    wU8 77
    wInt c.bo .s64 v
  Wr.ifHas x.timecode_framerate fun v => do
    wU8 0x01
    wU8 0x03
    wU8 76
    wStr c.bo .macroman v
  wU8 0x03

/-- `MPGADescriptor.write` with some properties unset (src/avb/essence.py:487-517). -/
def MPGADescriptor.writeU (u : Unset) (c : WCtx) (x : MPGADescriptor) : Wr Unit := do
  x.toMediaFileDescriptor.writeBodyU u c
  wU8 0x02
  wU8 0x01
  need u "channels" (wInt c.bo .u16 x.channels)
  need u "quantization_bits" (wInt c.bo .u16 x.quantization_bits)
  need u "sample_rate" (wRate c.bo x.sample_rate)
  need u "locked" (wBool x.locked)
  need u "audio_ref_level" (wInt c.bo .s16 x.audio_ref_level)
  need u "electro_spatial_formulation" (wInt c.bo .s32 x.electro_spatial_formulation)
  need u "dial_norm" (wInt c.bo .u16 x.dial_norm)
  need u "coding_format" (wInt c.bo .u32 x.coding_format)
  need u "bit_rate" (wInt c.bo .u32 x.bit_rate)
  Wr.ifHas x.sub_frame_alignment fun v => do
    wU8 0x01
    wU8 0x01
    wU8 77
    wInt c.bo .s64 v
  Wr.ifHas x.origin fun v => do
    wU8 0x01
    wU8 0x02
    wU8 77
    wInt c.bo .u64 v
  wU8 0x03

/-- `DIDDescriptor.writeBody` with some properties unset (src/avb/essence.py:772-980). -/
def DIDDescriptor.writeBodyU (u : Unset) (c : WCtx) (x : DIDDescriptor) : Wr Unit := do
  x.toMediaFileDescriptor.writeBodyU u c
  wU8 0x02
  wU8 0x02
  need u "stored_height" (wInt c.bo .s32 x.stored_height)
  need u "stored_width" (wInt c.bo .s32 x.stored_width)
  need u "sampled_height" (wInt c.bo .s32 x.sampled_height)
  need u "sampled_width" (wInt c.bo .s32 x.sampled_width)
  need u "sampled_x_offset" (wInt c.bo .s32 x.sampled_x_offset)
  need u "sampled_y_offset" (wInt c.bo .s32 x.sampled_y_offset)
  need u "display_height" (wInt c.bo .s32 x.display_height)
  need u "display_width" (wInt c.bo .s32 x.display_width)
  need u "display_x_offset" (wInt c.bo .s32 x.display_x_offset)
  need u "display_y_offset" (wInt c.bo .s32 x.display_y_offset)
  need u "frame_layout" (wInt c.bo .s16 x.frame_layout)
  need u "aspect_ratio" (wInt c.bo .s32 x.aspect_ratio.1)
  wInt c.bo .s32 x.aspect_ratio.2
  need u "line_map" (wInt c.bo .s32 (x.line_map.length * 4))
  forW x.line_map (wInt c.bo .s32)
  need u "alpha_transparency" (wInt c.bo .s32 x.alpha_transparency)
  need u "uniformness" (wBool x.uniformness)
  need u "did_image_size" (wInt c.bo .s32 x.did_image_size)
  need u "next_did_desc" (wRef c x.next_did_desc)
  need u "compress_method" (Wr.guard (x.compress_method.length = 4) .assertion)
  wFourcc c.bo x.compress_method
  need u "resolution_id" (wInt c.bo .s32 x.resolution_id)
  need u "image_alignment_factor" (wInt c.bo .s32 x.image_alignment_factor)
  Wr.ifHas x.frame_index_byte_order fun v => do
    wU8 0x01
    wU8 0x01
    wU8 69
    wInt c.bo .s16 v
  Wr.ifHas x.frame_sample_size fun v => do
    wU8 0x01
    wU8 0x02
    wU8 71
    wInt c.bo .s32 v
  Wr.ifHas x.first_frame_offset fun v => do
    wU8 0x01
    wU8 0x03
    wU8 71
    wInt c.bo .s32 v
  Wr.ifHas x.client_fill_start fun v => do
    wU8 0x01
    wU8 0x04
    wU8 71
    wInt c.bo .s32 v
    wU8 71
    let e ← Wr.get x.client_fill_end
    wInt c.bo .s32 e
  Wr.ifHas x.offset_to_rle_frame_index fun v => do
    wU8 0x01
    wU8 0x05
    wU8 71
    wInt c.bo .s32 v
  Wr.ifHas x.frame_start_offset fun v => do
    wU8 0x01
    wU8 0x06
    wU8 71
    wInt c.bo .s32 v
  Wr.ifHas (andHas (andHas x.valid_box x.essence_box) x.source_box) fun v => do
    wU8 0x01
    wU8 0x08
    wBox c v.1.1
    wBox c v.1.2
    wBox c v.2
  Wr.ifHas (andHas x.framing_box x.reformatting_option) fun v => do
    wU8 0x01
    wU8 9
    wBox c v.1
    wU8 71
    wInt c.bo .s32 v.2
  Wr.ifHas x.transfer_characteristic fun v => do
    wU8 0x01
    wU8 10
    wU8 80
    wRawUuid c.bo v
  Wr.ifHas (andHas x.color_primaries x.coding_equations) fun v => do
    wU8 0x01
    wU8 11
    wU8 80
    wRawUuid c.bo v.1
    wU8 80
    wRawUuid c.bo v.2
  Wr.ifHas x.essence_compression fun v => do
    wU8 0x01
    wU8 12
    wU8 80
    wRawUuid c.bo v
  Wr.ifHas x.essence_element_size_kind fun v => do
    wU8 0x01
    wU8 14
    wU8 68
    wU8 v
  Wr.ifHas x.frame_checked_with_mapper fun v => do
    wU8 0x01
    wU8 15
    wU8 66
    wBool v

/-- `DIDDescriptor.write` with some properties unset (src/avb/essence.py:772-983). -/
def DIDDescriptor.writeU (u : Unset) (c : WCtx) (x : DIDDescriptor) : Wr Unit := do
  x.writeBodyU u c
  wU8 0x03

/-- `CDCIDescriptor.writeBody` with some properties unset (src/avb/essence.py:1033-1060). -/
def CDCIDescriptor.writeBodyU (u : Unset) (c : WCtx) (x : CDCIDescriptor) : Wr Unit := do
  x.toDIDDescriptor.writeBodyU u c
  wU8 0x02
  wU8 0x02
  need u "horizontal_subsampling" (wInt c.bo .u32 x.horizontal_subsampling)
  need u "vertical_subsampling" (wInt c.bo .u32 x.vertical_subsampling)
  need u "component_width" (wInt c.bo .s32 x.component_width)
  need u "color_sitting" (wInt c.bo .s16 x.color_sitting)
  need u "black_ref_level" (wInt c.bo .u32 x.black_ref_level)
  need u "white_ref_level" (wInt c.bo .u32 x.white_ref_level)
  need u "color_range" (wInt c.bo .u32 x.color_range)
  need u "frame_index_offset" (wInt c.bo .s64 x.frame_index_offset)
  Wr.ifHas x.alpha_sampled_width fun v => do
    wU8 0x01
    wU8 0x01
    wU8 72
    wInt c.bo .u32 v
  Wr.ifHas x.ignore_bw fun v => do
    wU8 0x01
    wU8 0x02
    wU8 72
    wInt c.bo .u32 v

/-- `CDCIDescriptor.write` with some properties unset (src/avb/essence.py:1033-1063). -/
def CDCIDescriptor.writeU (u : Unset) (c : WCtx) (x : CDCIDescriptor) : Wr Unit := do
  x.writeBodyU u c
  wU8 0x03

/-- `MPGIDescriptor.write` with some properties unset (src/avb/essence.py:1103-1121). -/
def MPGIDescriptor.writeU (u : Unset) (c : WCtx) (x : MPGIDescriptor) : Wr Unit := do
  x.toCDCIDescriptor.writeBodyU u c
  wU8 0x02
  wU8 0x01
  need u "mpeg_version" (wU8 x.mpeg_version)
  need u "profile" (wU8 x.profile)
  need u "gop_structure" (wU8 x.gop_structure)
  need u "stream_type" (wU8 x.stream_type)
  need u "random_access" (wBool x.random_access)
  need u "leading_discard" (wBool x.leading_discard)
  need u "trailing_discard" (wBool x.trailing_discard)
  need u "min_gop_length" (wInt c.bo .u16 x.min_gop_length)
  need u "max_gop_length" (wInt c.bo .u16 x.max_gop_length)
  need u "sequence_hdr" (wInt c.bo .s32 x.sequence_hdr.length)
  Wr.emit x.sequence_hdr
  wU8 0x03

/-- `JPEGDescriptor.write` with some properties unset (src/avb/essence.py:1155-1172). -/
def JPEGDescriptor.writeU (u : Unset) (c : WCtx) (x : JPEGDescriptor) : Wr Unit := do
  x.toCDCIDescriptor.writeBodyU u c
  wU8 0x02
  wU8 0x01
  need u "jpeg_table_id" (wInt c.bo .s32 x.jpeg_table_id)
  need u "jpeg_frame_index_offset" (wInt c.bo .u64 x.jpeg_frame_index_offset)
  need u "quantization_tables" (wInt c.bo .s32 x.quantization_tables.length)
  Wr.emit x.quantization_tables
  Wr.ifHas x.image_start_align fun v => do
    wU8 0x01
    wU8 0x01
    wU8 71
    wInt c.bo .s32 v
  wU8 0x03

/-- `RGBADescriptor.write` with some properties unset (src/avb/essence.py:1260-1313). -/
def RGBADescriptor.writeU (u : Unset) (c : WCtx) (x : RGBADescriptor) : Wr Unit := do
  x.toDIDDescriptor.writeBodyU u c
  wU8 0x02
  wU8 0x01
  let enc ← need u "pixel_layout" (encodePixelLayout x.pixel_layout)
  wInt c.bo .u32 enc.1.length
  Wr.emit enc.1
  wInt c.bo .u32 enc.2.length
  Wr.emit enc.2
  wInt c.bo .u32 0
  wInt c.bo .u32 0
  wInt c.bo .u32 0
  Wr.ifHas x.frame_index_offset fun v => do
    wU8 0x01
    wU8 0x01
    wU8 77
    wInt c.bo .u64 v
  Wr.ifHas x.has_comp_min_ref fun v => do
    wU8 0x01
    wU8 0x02
    wU8 66
    wBool v
    wU8 72
    let a ← Wr.get x.comp_min_ref
    wInt c.bo .u32 a
    wU8 66
    let b ← Wr.get x.has_comp_max_ref
    wBool b
    wU8 72
    let e ← Wr.get x.comp_max_ref
    wInt c.bo .u32 e
  Wr.ifHas x.alpha_min_ref fun v => do
    wU8 0x01
    wU8 0x03
    wU8 72
    wInt c.bo .u32 v
    wU8 72
    let a ← Wr.get x.alpha_max_ref
    wInt c.bo .u32 a
  wU8 0x03

/-- `DataDescriptor.write` with some properties unset (src/avb/essence.py:1340-1350). -/
def DataDescriptor.writeU (u : Unset) (c : WCtx) (x : DataDescriptor) : Wr Unit := do
  x.toMediaFileDescriptor.writeBodyU u c
  wU8 0x02
  wU8 0x01
  need u "is_offset_to_frame_indexes_valid" (wBool x.is_offset_to_frame_indexes_valid)
  need u "offset_to_frame_indexes" (wInt c.bo .u64 x.offset_to_frame_indexes)
  need u "first_frame_offset" (wInt c.bo .s32 x.first_frame_offset)
  need u "min_sample_size" (wInt c.bo .s32 x.min_sample_size)
  need u "max_sample_size" (wInt c.bo .s32 x.max_sample_size)

/-- `ANCDataDescriptor.write` with some properties unset (src/avb/essence.py:1371-1379). -/
def ANCDataDescriptor.writeU (u : Unset) (c : WCtx) (x : ANCDataDescriptor) : Wr Unit := do
  x.toDataDescriptor.writeU u c
  wU8 0x02
  wU8 0x01
  need u "manifest_element_count" (wInt c.bo .s32 x.manifest_element_count)
  wU8 0x03

/-- `FileLocator.write` with some properties unset (src/avb/misc.py:49-75). -/
def FileLocator.writeU (u : Unset) (c : WCtx) (x : FileLocator) : Wr Unit := do
  wU8 0x02
  wU8 0x02
  need u "path" (wStr c.bo .macroman x.path)
  Wr.ifHas x.path_posix fun v => do
    wU8 0x01
    wU8 0x01
    wU8 76
    wStr c.bo .macroman v
  Wr.ifHas x.path_utf8 fun v => do
    wU8 0x01
    wU8 0x02
    wU8 76
    wStr c.bo .utf8 v
  Wr.ifHas x.path2_utf8 fun v => do
    wU8 0x01
    wU8 0x03
    wU8 76
    wStr c.bo .utf8 v
  wU8 0x03

/-- `GraphicEffect.write` with some properties unset (src/avb/misc.py:128-137). -/
def GraphicEffect.writeU (u : Unset) (c : WCtx) (x : GraphicEffect) : Wr Unit := do
  wU8 0x02
  wU8 0x01
  need u "pict_data" (wInt c.bo .s32 x.pict_data.length)
  Wr.emit x.pict_data
  wU8 0x03

/-- `ShapeList.write` with some properties unset (src/avb/misc.py:160-169). -/
def ShapeList.writeU (u : Unset) (c : WCtx) (x : ShapeList) : Wr Unit := do
  wU8 0x02
  wU8 0x01
  need u "shape_data" (wInt c.bo .s32 x.shape_data.length)
  Wr.emit x.shape_data
  wU8 0x03

/-- `ColorCorrectionEffect.write` with some properties unset (src/avb/misc.py:193-202). -/
def ColorCorrectionEffect.writeU (u : Unset) (c : WCtx) (x : ColorCorrectionEffect) : Wr Unit := do
  wU8 0x02
  wU8 0x01
  need u "color_correction" (wInt c.bo .s16 x.color_correction.length)
  Wr.emit x.color_correction
  wU8 0x03

/-- `EffectParam.write` with some properties unset (src/avb/misc.py:338-387). -/
def EffectParam.writeU (u : Unset) (c : WCtx) (p : EffectParam) : Wr Unit := do
  need u "percent_time" (wInt c.bo .s32 p.percent_time)
  need u "level" (wInt c.bo .s32 p.level)
  need u "pos_x" (wInt c.bo .s32 p.pos_x)
  need u "floor_x" (wInt c.bo .s32 p.floor_x)
  need u "ceil_x" (wInt c.bo .s32 p.ceil_x)
  need u "pos_y" (wInt c.bo .s32 p.pos_y)
  need u "floor_y" (wInt c.bo .s32 p.floor_y)
  need u "ceil_y" (wInt c.bo .s32 p.ceil_y)
  need u "scale_x" (wInt c.bo .s32 p.scale_x)
  need u "scale_y" (wInt c.bo .s32 p.scale_y)
  need u "crop_left" (wInt c.bo .s32 p.crop_left)
  need u "crop_right" (wInt c.bo .s32 p.crop_right)
  need u "crop_top" (wInt c.bo .s32 p.crop_top)
  need u "crop_bottom" (wInt c.bo .s32 p.crop_bottom)
  let box0 ← need u "box" (Wr.nth p.box 0)
  wInt c.bo .s32 box0
  let box1 ← Wr.nth p.box 1
  wInt c.bo .s32 box1
  let box2 ← Wr.nth p.box 2
  wInt c.bo .s32 box2
  let box3 ← Wr.nth p.box 3
  wInt c.bo .s32 box3
  need u "box_xscale" (wBool p.box_xscale)
  need u "box_yscale" (wBool p.box_yscale)
  need u "box_xpos" (wBool p.box_xpos)
  need u "box_ypos" (wBool p.box_ypos)
  need u "border_width" (wInt c.bo .s32 p.border_width)
  need u "border_soft" (wInt c.bo .s32 p.border_soft)
  need u "splill_gain2" (wInt c.bo .s16 p.splill_gain2)
  need u "splill_gain" (wInt c.bo .s16 p.splill_gain)
  need u "splill_soft2" (wInt c.bo .s16 p.splill_soft2)
  need u "splill_soft" (wInt c.bo .s16 p.splill_soft)
  need u "enable_key_flags" (wS8 p.enable_key_flags)
  need u "colors" (wInt c.bo .s32 p.colors.length)
  forW p.colors (wInt c.bo .s32)
  need u "user_param" (wInt c.bo .s32 p.user_param.length)
  Wr.emit p.user_param
  need u "selected" (wBool p.selected)

/-- `EffectParamList.write` with some properties unset (src/avb/misc.py:326-389). -/
def EffectParamList.writeU (u : Unset) (c : WCtx) (x : EffectParamList) : Wr Unit := do
  wU8 0x02
  wU8 0x12
  need u "orig_length" (wInt c.bo .s32 x.orig_length)
  need u "window_offset" (wInt c.bo .s32 x.window_offset)
  need u "parameters" (wInt c.bo .s32 x.parameters.length)
  need u "keyframe_size" (wInt c.bo .s32 x.keyframe_size)
  forWi x.parameters fun i e => e.writeU (u.at "parameters" i) c
  wU8 0x03

/-- `CFUserParam.write` with some properties unset (src/avb/misc.py:423-438). -/
def CFUserParam.writeU (u : Unset) (c : WCtx) (x : CFUserParam) : Wr Unit := do
  wU8 0x02
  wU8 0x01
  wInt c.bo .s16 0x4949
  need u "uuid" (wRawUuid c.bo x.uuid)
  need u "data" (wInt c.bo .s32 (x.data.length + 4))
  wInt c.bo .s32 x.data.length
  Wr.emit x.data
  wU8 0x03

/-- `ParameterItem.writeValue` with some properties unset (src/avb/misc.py:494-501). -/
def ParameterItem.writeValueU (u : Unset) (c : WCtx) (x : ParameterItem) : Wr Unit :=
  if x.value_type = 1 then need u "value" (x.value.wS32 c.bo)
  else if x.value_type = 2 then need u "value" (x.value.wDbl)
  else if x.value_type = 4 then need u "value" (x.value.wRef c)
  else Wr.fail .value

/-- `ParameterItem.write` with some properties unset (src/avb/misc.py:485-517). -/
def ParameterItem.writeU (u : Unset) (c : WCtx) (x : ParameterItem) : Wr Unit := do
  wU8 0x02
  wU8 0x02
  need u "uuid" (wRawUuid c.bo x.uuid)
  need u "value_type" (wInt c.bo .s16 x.value_type)
  x.writeValueU u c
  need u "name" (wName c (some x.name))
  need u "enable" (wBool x.enable)
  need u "control_track" (wRef c x.control_track)
  Wr.ifHas x.contribs_to_sig fun v => do
    wU8 0x01
    wU8 0x01
    wU8 66
    wBool v
  wU8 0x03

/-- `MSMLocator.write` with some properties unset (src/avb/misc.py:572-602). -/
def MSMLocator.writeU (u : Unset) (c : WCtx) (x : MSMLocator) : Wr Unit := do
  wU8 0x02
  wU8 0x02
  let mob_id ← need u "mob_id" (Wr.get x.mob_id)
  wInt c.bo .u32 mob_id.lo
  wInt c.bo .u32 mob_id.hi
  need u "last_known_volume" (wStr c.bo .macroman x.last_known_volume)
  Wr.ifHas x.domain_type fun v => do
    wU8 0x01
    wU8 0x01
    wU8 71
    wInt c.bo .s32 v
  Wr.ifHas x.mob_id fun m => do
    wU8 0x01
    wU8 0x02
    wMobId c.bo m
  Wr.ifHas x.last_known_volume_utf8 fun v => do
    wU8 0x01
    wU8 0x03
    wU8 76
    wStr c.bo .utf8 v
  wU8 0x03

/-- `Position.writeBody` with some properties unset (src/avb/misc.py:631-645). -/
def Position.writeBodyU (u : Unset) (c : WCtx) (x : Position) : Wr Unit := do
  wU8 0x02
  wU8 0x01
  let mob_id ← need u "mob_id" (Wr.get x.mob_id)
  wInt c.bo .u32 mob_id.lo
  wInt c.bo .u32 mob_id.hi
  Wr.ifHas x.mob_id fun m => do
    wU8 0x01
    wU8 0x01
    wMobId c.bo m

/-- `Position.write` with some properties unset (src/avb/misc.py:631-648). -/
def Position.writeU (u : Unset) (c : WCtx) (x : Position) : Wr Unit := do
  x.writeBodyU u c
  wU8 0x03

/-- `BOBPosition.writeBody` with some properties unset (src/avb/misc.py:676-685). -/
def BOBPosition.writeBodyU (u : Unset) (c : WCtx) (x : BOBPosition) : Wr Unit := do
  x.toPosition.writeBodyU u c
  wU8 0x02
  wU8 0x01
  need u "sample_num" (wInt c.bo .s32 x.sample_num)
  need u "length" (wInt c.bo .s32 x.length)
  need u "track_type" (wInt c.bo .s16 x.track_type)
  need u "track_index" (wInt c.bo .s16 x.track_index)

/-- `BOBPosition.write` with some properties unset (src/avb/misc.py:676-688). -/
def BOBPosition.writeU (u : Unset) (c : WCtx) (x : BOBPosition) : Wr Unit := do
  x.writeBodyU u c
  wU8 0x03

/-- `DIDPosition.writeBody` with some properties unset (src/avb/misc.py:716-725). -/
def DIDPosition.writeBodyU (u : Unset) (c : WCtx) (x : DIDPosition) : Wr Unit := do
  x.toBOBPosition.writeBodyU u c
  wU8 0x02
  wU8 0x01
  need u "strip" (wInt c.bo .s32 x.strip)
  need u "offset" (wInt c.bo .u64 x.offset)
  need u "byte_length" (wInt c.bo .u64 x.byte_length)
  need u "spos_invalid" (wBool x.spos_invalid)

/-- `DIDPosition.write` with some properties unset (src/avb/misc.py:716-728). -/
def DIDPosition.writeU (u : Unset) (c : WCtx) (x : DIDPosition) : Wr Unit := do
  x.writeBodyU u c
  wU8 0x03

/-- `MPGPosition.write` with some properties unset (src/avb/misc.py:763-781). -/
def MPGPosition.writeU (u : Unset) (c : WCtx) (x : MPGPosition) : Wr Unit := do
  x.toDIDPosition.writeBodyU u c
  wU8 0x02
  wU8 0x01
  need u "trailing_discards" (wInt c.bo .s16 x.trailing_discards)
  need u "need_seq_hdr" (wBool x.need_seq_hdr)
  need u "fields" (MPGPosition.writeFields c x.fields)
  wU8 0x03

/-- `BinRef.write` with some properties unset (src/avb/misc.py:814-829). -/
def BinRef.writeU (u : Unset) (c : WCtx) (x : BinRef) : Wr Unit := do
  wU8 0x02
  wU8 0x01
  need u "uid_high" (wInt c.bo .s32 x.uid_high)
  need u "uid_low" (wInt c.bo .s32 x.uid_low)
  need u "name" (wStr c.bo .macroman x.name)
  let name_utf8 ← need u "name_utf8" (Wr.get x.name_utf8)
  wU8 0x01
  wU8 0x01
  wU8 76
  wStr c.bo .utf8 name_utf8
  wU8 0x03

/-- `MobRef.writeBody` with some properties unset (src/avb/misc.py:860-876). -/
def MobRef.writeBodyU (u : Unset) (c : WCtx) (x : MobRef) : Wr Unit := do
  wU8 0x02
  wU8 0x01
  let mob_id ← need u "mob_id" (Wr.get x.mob_id)
  wInt c.bo .u32 mob_id.lo
  wInt c.bo .u32 mob_id.hi
  need u "position" (wInt c.bo .s32 x.position)
  Wr.ifHas x.mob_id fun m => do
    wU8 0x01
    wU8 0x01
    wMobId c.bo m

/-- `MobRef.write` with some properties unset (src/avb/misc.py:860-879). -/
def MobRef.writeU (u : Unset) (c : WCtx) (x : MobRef) : Wr Unit := do
  x.writeBodyU u c
  wU8 0x03

/-- `Marker.write` with some properties unset (src/avb/misc.py:922-943). -/
def Marker.writeU (u : Unset) (c : WCtx) (x : Marker) : Wr Unit := do
  x.toMobRef.writeBodyU u c
  wU8 0x02
  wU8 0x03
  need u "comp_offset" (wInt c.bo .s32 x.comp_offset)
  need u "attributes" (wRef c x.attributes)
  wInt c.bo .s16 1
  need u "color" (forW x.color (wInt c.bo .u16))
  Wr.ifHas x.handled_codes fun v => do
    wU8 0x01
    wU8 0x01
    wU8 66
    wBool v
  wU8 0x03

/-- `TrackerManager.write` with some properties unset (src/avb/misc.py:966-975). -/
def TrackerManager.writeU (u : Unset) (c : WCtx) (x : TrackerManager) : Wr Unit := do
  wU8 0x02
  wU8 0x01
  need u "data_slots" (wRef c x.data_slots)
  need u "param_slots" (wRef c x.param_slots)
  wU8 0x03

/-- `TrackerDataSlot.write` with some properties unset (src/avb/misc.py:1008-1025). -/
def TrackerDataSlot.writeU (u : Unset) (c : WCtx) (x : TrackerDataSlot) : Wr Unit := do
  wU8 0x02
  wU8 0x01
  need u "tracker_data" (wInt c.bo .s32 x.tracker_data.length)
  forW x.tracker_data (wRef c)
  Wr.ifHas x.track_fg fun v => do
    wU8 0x01
    wU8 0x01
    wU8 66
    wBool v
  wU8 0x03

/-- `TrackerParameterSlot.write` with some properties unset (src/avb/misc.py:1055-1068). -/
def TrackerParameterSlot.writeU (u : Unset) (c : WCtx) (x : TrackerParameterSlot) : Wr Unit := do
  wU8 0x02
  wU8 0x01
  need u "settings" (wInt c.bo .s16 x.settings.length)
  Wr.emit x.settings
  need u "params" (wInt c.bo .s32 x.params.length)
  forW x.params (wRef c)
  wU8 0x03

/-- `TrackerData.write` with some properties unset (src/avb/misc.py:1127-1179). -/
def TrackerData.writeU (u : Unset) (c : WCtx) (x : TrackerData) : Wr Unit := do
  wU8 0x02
  wU8 0x01
  need u "settings" (wInt c.bo .s16 x.settings.length)
  Wr.emit x.settings
  need u "clip_version" (wInt c.bo .u32 x.clip_version)
  need u "clips" (wInt c.bo .s16 x.clips.length)
  forW x.clips (wRef c)
  Wr.ifHas x.offset_tracking fun v => do
    wU8 0x01
    wU8 0x01
    wU8 72
    wInt c.bo .u32 v
  Wr.ifHas x.smoothing fun v => do
    wU8 0x01
    wU8 0x02
    wU8 72
    wInt c.bo .u32 v
  Wr.ifHas x.jitter_removal fun v => do
    wU8 0x01
    wU8 0x03
    wU8 72
    wInt c.bo .u32 v
  Wr.ifHas x.filter_amount fun v => do
    wU8 0x01
    wU8 0x04
    wU8 75
    wDouble v
  Wr.ifHas x.clip5 fun v => do
    wU8 0x01
    wU8 0x05
    wU8 72
    wRef c v
  Wr.ifHas x.clip6 fun v => do
    wU8 0x01
    wU8 0x06
    wU8 72
    wRef c v
  wU8 0x03

/-- `TrackerParameter.write` with some properties unset (src/avb/misc.py:1203-1212). -/
def TrackerParameter.writeU (u : Unset) (c : WCtx) (x : TrackerParameter) : Wr Unit := do
  wU8 0x02
  wU8 0x01
  need u "settings" (wInt c.bo .s16 x.settings.length)
  Wr.emit x.settings
  wU8 0x03

/-- `TrackGroup.write` with some properties unset (src/avb/trackgroups.py:169-226). -/
def TrackGroup.writeU (u : Unset) (c : WCtx) (x : TrackGroup) : Wr Unit := do
  x.toComponent.writeU u c
  wU8 0x02
  wU8 0x08
  need u "mc_mode" (wU8 x.mc_mode)
  need u "length" (wInt c.bo .s32 x.length)
  need u "num_scalars" (wInt c.bo .s32 x.num_scalars)
  need u "tracks" (wInt c.bo .s32 x.tracks.length)
  forW x.tracks (Track.write c)
  Wr.when (x.tracks ≠ []) do
    wU8 0x01
    wU8 0x01
    forW x.tracks (wLock c)

/-- `TrackEffect.writeBody` with some properties unset (src/avb/trackgroups.py:309-337). -/
def TrackEffect.writeBodyU (u : Unset) (c : WCtx) (x : TrackEffect) : Wr Unit := do
  x.toTrackGroup.writeU u c
  wU8 0x02
  wU8 0x06
  need u "left_length" (wInt c.bo .s32 x.left_length)
  need u "right_length" (wInt c.bo .s32 x.right_length)
  need u "info_version" (wInt c.bo .s16 x.info_version)
  need u "info_current" (wInt c.bo .s32 x.info_current)
  need u "info_smooth" (wInt c.bo .s32 x.info_smooth)
  need u "info_color_item" (wInt c.bo .s16 x.info_color_item)
  need u "info_quality" (wInt c.bo .s16 x.info_quality)
  need u "info_is_reversed" (wS8 x.info_is_reversed)
  need u "info_aspect_on" (wBool x.info_aspect_on)
  need u "keyframes" (wRef c x.keyframes)
  need u "info_force_software" (wBool x.info_force_software)
  need u "info_never_hardware" (wBool x.info_never_hardware)
  Wr.ifHas x.trackman fun r => do
    wU8 0x01
    wU8 0x02
    wU8 72
    wRef c r

/-- `TrackEffect.write` with some properties unset (src/avb/trackgroups.py:309-337). -/
def TrackEffect.writeU (u : Unset) (c : WCtx) (x : TrackEffect) : Wr Unit := do
  x.writeBodyU u c
  wU8 0x03

/-- `PanVolumeEffect.write` with some properties unset (src/avb/trackgroups.py:379-403). -/
def PanVolumeEffect.writeU (u : Unset) (c : WCtx) (x : PanVolumeEffect) : Wr Unit := do
  x.toTrackEffect.writeBodyU u c
  wU8 0x02
  wU8 0x05
  need u "level" (wInt c.bo .s32 x.level)
  need u "pan" (wInt c.bo .s32 x.pan)
  need u "suppress_validation" (wBool x.suppress_validation)
  need u "level_set" (wBool x.level_set)
  need u "pan_set" (wBool x.pan_set)
  Wr.ifHas x.supports_seperate_gain fun v => do
    wU8 0x01
    wU8 0x01
    wU8 71
    wInt c.bo .s32 v
  Wr.ifHas x.is_trim_gain_effect fun v => do
    wU8 0x01
    wU8 0x02
    wU8 71
    wInt c.bo .s32 v
  wU8 0x03

/-- `ASPIPluginChunk.write` with some properties unset (src/avb/trackgroups.py:556-567). -/
def ASPIPluginChunk.writeU (u : Unset) (c : WCtx) (x : ASPIPluginChunk) : Wr Unit := do
  need u "data" (wInt c.bo .s32 x.data.length)
  need u "version" (wInt c.bo .s32 x.version)
  need u "manufacturer_id" (wInt c.bo .u32 x.manufacturer_id)
  need u "product_id" (wInt c.bo .u32 x.product_id)
  need u "plugin_id" (wInt c.bo .u32 x.plugin_id)
  need u "chunk_id" (wInt c.bo .u32 x.chunk_id)
  need u "name" (wStr c.bo .macroman x.name)
  Wr.emit x.data

/-- `ASPIPlugin.write` with some properties unset (src/avb/trackgroups.py:548-567). -/
def ASPIPlugin.writeU (u : Unset) (c : WCtx) (x : ASPIPlugin) : Wr Unit := do
  need u "name" (wStr c.bo .macroman x.name)
  need u "manufacturer_id" (wInt c.bo .u32 x.manufacturer_id)
  need u "product_id" (wInt c.bo .u32 x.product_id)
  need u "plugin_id" (wInt c.bo .u32 x.plugin_id)
  need u "chunks" (wInt c.bo .s32 x.chunks.length)
  forWi x.chunks fun i e => e.writeU (u.at "chunks" i) c

/-- `AudioSuitePluginEffect.write` with some properties unset (src/avb/trackgroups.py:539-621). -/
def AudioSuitePluginEffect.writeU (u : Unset) (c : WCtx) (x : AudioSuitePluginEffect) : Wr Unit := do
  x.toTrackEffect.writeBodyU u c
  wU8 0x02
  wU8 0x01
  need u "plugins" (wInt c.bo .s32 x.plugins.length)
  forWi x.plugins fun i e => e.writeU (u.at "plugins" i) c
  Wr.ifHas x.mob_id fun m => do
    wU8 0x01
    wU8 0x01
    wU8 71
    wInt c.bo .s32 m.lo
    wU8 71
    wInt c.bo .s32 m.hi
  Wr.ifHas x.mob_id fun m => do
    wU8 0x01
    wU8 0x08
    wMobId c.bo m
  Wr.ifHas x.mark_in fun v => do
    wU8 0x01
    wU8 0x02
    wU8 77
    wInt c.bo .s64 v
  Wr.ifHas x.mark_out fun v => do
    wU8 0x01
    wU8 0x03
    wU8 77
    wInt c.bo .s64 v
  Wr.ifHas x.tracks_to_affect fun v => do
    wU8 0x01
    wU8 0x04
    wU8 72
    wInt c.bo .s32 v
  Wr.ifHas x.rendering_mode fun v => do
    wU8 0x01
    wU8 0x05
    wU8 71
    wInt c.bo .s32 v
  Wr.ifHas x.padding_secs fun v => do
    wU8 0x01
    wU8 0x06
    wU8 71
    wInt c.bo .s32 v
  Wr.ifHas x.preset_path fun v => do
    wU8 0x01
    wU8 0x09
    wU8 72
    wPresetPath c v
  wU8 0x03

/-- `EqualizerBand.write` with some properties unset (src/avb/trackgroups.py:677-682). -/
def EqualizerBand.writeU (u : Unset) (c : WCtx) (x : EqualizerBand) : Wr Unit := do
  need u "type" (wInt c.bo .s32 x.type)
  need u "freq" (wInt c.bo .s32 x.freq)
  need u "gain" (wInt c.bo .s32 x.gain)
  need u "q" (wInt c.bo .s32 x.q)
  need u "enable" (wBool x.enable)

/-- `EqualizerMultiBand.write` with some properties unset (src/avb/trackgroups.py:670-687). -/
def EqualizerMultiBand.writeU (u : Unset) (c : WCtx) (x : EqualizerMultiBand) : Wr Unit := do
  x.toTrackEffect.writeBodyU u c
  wU8 0x02
  wU8 0x05
  need u "bands" (wInt c.bo .s32 x.bands.length)
  forWi x.bands fun i e => e.writeU (u.at "bands" i) c
  need u "effect_enable" (wBool x.effect_enable)
  need u "filter_name" (wStr c.bo .macroman x.filter_name)
  wU8 0x03

/-- `TimeWarp.write` with some properties unset (src/avb/trackgroups.py:704-709). -/
def TimeWarp.writeU (u : Unset) (c : WCtx) (x : TimeWarp) : Wr Unit := do
  x.toTrackGroup.writeU u c
  wU8 0x02
  wU8 0x02
  need u "phase_offset" (wInt c.bo .s32 x.phase_offset)

/-- `CaptureMask.write` with some properties unset (src/avb/trackgroups.py:732-741). -/
def CaptureMask.writeU (u : Unset) (c : WCtx) (x : CaptureMask) : Wr Unit := do
  x.toTimeWarp.writeU u c
  wU8 0x02
  wU8 0x01
  need u "is_double" (wBool x.is_double)
  need u "mask_bits" (wInt c.bo .u32 x.mask_bits)
  wU8 0x03

/-- `StrobeEffect.write` with some properties unset (src/avb/trackgroups.py:760-766). -/
def StrobeEffect.writeU (u : Unset) (c : WCtx) (x : StrobeEffect) : Wr Unit := do
  x.toTimeWarp.writeU u c
  wU8 0x02
  wU8 0x01
  need u "strobe_value" (wInt c.bo .s32 x.strobe_value)
  wU8 0x03

/-- `MotionEffect.write` with some properties unset (src/avb/trackgroups.py:806-831). -/
def MotionEffect.writeU (u : Unset) (c : WCtx) (x : MotionEffect) : Wr Unit := do
  x.toTimeWarp.writeU u c
  wU8 0x02
  wU8 0x03
  need u "speed_ratio" (wInt c.bo .s32 x.speed_num)
  wInt c.bo .s32 x.speed_den
  Wr.ifHas x.offset_adjust fun v => do
    wU8 0x01
    wU8 0x01
    wU8 75
    wDouble v
  Wr.ifHas x.source_param_list fun v => do
    wU8 0x01
    wU8 0x02
    wU8 72
    wRef c v
  Wr.ifHas x.new_source_calculation fun v => do
    wU8 0x01
    wU8 0x03
    wU8 66
    wBool v
  wU8 0x03

/-- `Repeat.write` with some properties unset (src/avb/trackgroups.py:847-853). -/
def Repeat.writeU (u : Unset) (c : WCtx) (x : Repeat) : Wr Unit := do
  x.toTimeWarp.writeU u c
  wU8 0x02
  wU8 0x01
  wU8 0x03

/-- `EssenceGroup.write` with some properties unset (src/avb/trackgroups.py:879-891). -/
def EssenceGroup.writeU (u : Unset) (c : WCtx) (x : EssenceGroup) : Wr Unit := do
  x.toTrackGroup.writeU u c
  wU8 0x02
  wU8 0x01
  Wr.ifHas x.rep_set_type fun v => do
    wU8 0x01
    wU8 0x01
    wU8 71
    wInt c.bo .s32 v
  wU8 0x03

/-- `TransitionEffect.write` with some properties unset (src/avb/trackgroups.py:951-984). -/
def TransitionEffect.writeU (u : Unset) (c : WCtx) (x : TransitionEffect) : Wr Unit := do
  x.toTrackGroup.writeU u c
  wU8 0x02
  wU8 0x01
  need u "cutpoint" (wInt c.bo .s32 x.cutpoint)
  wU8 0x02
  wU8 0x05
  need u "left_length" (wInt c.bo .s32 x.left_length)
  need u "right_length" (wInt c.bo .s32 x.right_length)
  need u "info_version" (wInt c.bo .s16 x.info_version)
  need u "info_current" (wInt c.bo .s32 x.info_current)
  need u "info_smooth" (wInt c.bo .s32 x.info_smooth)
  need u "info_color_item" (wInt c.bo .s16 x.info_color_item)
  need u "info_quality" (wInt c.bo .s16 x.info_quality)
  need u "info_is_reversed" (wS8 x.info_is_reversed)
  need u "info_aspect_on" (wBool x.info_aspect_on)
  need u "keyframes" (wRef c x.keyframes)
  need u "info_force_software" (wBool x.info_force_software)
  need u "info_never_hardware" (wBool x.info_never_hardware)
  Wr.ifHas x.trackman fun r => do
    wU8 0x01
    wU8 0x01
    wU8 72
    wRef c r
  wU8 0x03

/-- `Selector.write` with some properties unset (src/avb/trackgroups.py:1009-1018). -/
def Selector.writeU (u : Unset) (c : WCtx) (x : Selector) : Wr Unit := do
  x.toTrackGroup.writeU u c
  wU8 0x02
  wU8 0x01
  need u "is_ganged" (wBool x.is_ganged)
  need u "selected" (wInt c.bo .u16 x.selected)
  wU8 0x03

/-- `Composition.write` with some properties unset (src/avb/trackgroups.py:1084-1111). -/
def Composition.writeU (u : Unset) (c : WCtx) (x : Composition) : Wr Unit := do
  x.toTrackGroup.writeU u c
  wU8 0x02
  wU8 0x02
  let mob_id ← need u "mob_id" (Wr.get x.mob_id)
  wInt c.bo .u32 mob_id.lo
  wInt c.bo .u32 mob_id.hi
  need u "last_modified" (wDate c.bo x.last_modified)
  need u "mob_type_id" (wU8 x.mob_type_id)
  need u "usage_code" (wInt c.bo .s32 x.usage_code)
  need u "descriptor" (wRef c x.descriptor)
  Wr.ifHas x.creation_time fun v => do
    wU8 0x01
    wU8 0x01
    wU8 71
    wDate c.bo v
  Wr.ifHas x.mob_id fun m => do
    wU8 0x01
    wU8 0x02
    wMobId c.bo m
  wU8 0x03

/-- `obj.write(buffer)` with some properties unset (src/avb/file.py:329).  Attribute sets and lists of references
have no properties. -/
def Obj.writeU (u : Unset) (c : WCtx) : Obj → Wr Unit
  | .ATTR x => x.write c
  | .PRLS x => x.write c
  | .TMCS x => x.write c
  | .BVst x => x.writeU u c
  | .ABIN x => x.writeU u c
  | .BINF x => x.writeU u c
  | .SEQU x => x.writeU u c
  | .SCLP x => x.writeU u c
  | .TCCP x => x.writeU u c
  | .ECCP x => x.writeU u c
  | .TRKR x => x.writeU u c
  | .PRCL x => x.writeU u c
  | .CTRL x => x.writeU u c
  | .FILL x => x.writeU u c
  | .TRKG x => x.writeU u c
  | .TKFX x => x.writeU u c
  | .PVOL x => x.writeU u c
  | .ASPI x => x.writeU u c
  | .EQMB x => x.writeU u c
  | .MASK x => x.writeU u c
  | .STRB x => x.writeU u c
  | .SPED x => x.writeU u c
  | .REPT x => x.writeU u c
  | .RSET x => x.writeU u c
  | .TNFX x => x.writeU u c
  | .SLCT x => x.writeU u c
  | .CMPO x => x.writeU u c
  | .FILE x => x.writeU u c
  | .WINF x => x.writeU u c
  | .URLL x => x.write c
  | .GRFX x => x.writeU u c
  | .SHLP x => x.writeU u c
  | .CCFX x => x.writeU u c
  | .FXPS x => x.writeU u c
  | .AVUP x => x.writeU u c
  | .PRIT x => x.writeU u c
  | .MSML x => x.writeU u c
  | .APOS x => x.writeU u c
  | .ABOB x => x.writeU u c
  | .DIDP x => x.writeU u c
  | .MPGP x => x.writeU u c
  | .MCBR x => x.writeU u c
  | .MCMR x => x.writeU u c
  | .TMBC x => x.writeU u c
  | .TKMN x => x.writeU u c
  | .TKDS x => x.writeU u c
  | .TKPS x => x.writeU u c
  | .TKDA x => x.writeU u c
  | .TKPA x => x.writeU u c
  | .MDES x => x.writeU u c
  | .MDTP x => x.writeU u c
  | .MDFM x => x.writeU u c
  | .MDNG x => x.writeU u c
  | .MDFL x => x.writeU u c
  | .MULD x => x.writeU u c
  | .WAVE x => x.writeU u c
  | .AIFC x => x.writeU u c
  | .PCMA x => x.writeU u c
  | .MPGA x => x.writeU u c
  | .DIDD x => x.writeU u c
  | .CDCI x => x.writeU u c
  | .MPGI x => x.writeU u c
  | .JPED x => x.writeU u c
  | .RGBA x => x.writeU u c
  | .DATD x => x.writeU u c
  | .ANCD x => x.writeU u c

/-- The properties that have a value when `create.N()` returns: those with a default, and those that the
constructors assign (src/avb/core.py:178-182; src/avb/bin.py:13-23, 83-90, 196-219, 221-235, 413-419,
src/avb/components.py:15-36, 142-153, 235-240, 258-275, 330-340, 416-424, src/avb/essence.py:15-27, 101-106, 167-175,
521-585, 986-1002, src/avb/trackgroups.py:89-103, 1025-1061). -/
def initial : Cls → List String
  | .ATTR => []
  | .PRLS => []
  | .TMCS => []
  | .BVst => ["attr_count", "attr_type", "name", "kind", "attributes", "format_descriptors", "columns"]
  | .ABIN => ["large_bin", "display_mask", "display_mode", "sifted", "mac_font", "mac_font_size",
      "mac_image_scale", "home_rect", "background_color", "forground_color", "ql_image_scale",
      "was_iconic", "view_setting", "uid", "items", "sort_columns", "sifted_settings", "attributes"]
  | .BINF => ["large_bin", "display_mask", "display_mode", "sifted", "mac_font", "mac_font_size",
      "mac_image_scale", "home_rect", "background_color", "forground_color", "ql_image_scale",
      "was_iconic", "unknown_s32", "view_setting", "uid", "items", "sort_columns", "sifted_settings",
      "attributes"]
  | .SEQU => ["left_bob", "right_bob", "media_kind_id", "edit_rate", "name", "effect_id", "session_attrs",
      "precomputed", "attributes", "components"]
  | .SCLP => ["left_bob", "right_bob", "media_kind_id", "edit_rate", "name", "effect_id", "session_attrs",
      "precomputed", "length", "track_id", "start_time", "attributes", "mob_id"]
  | .TCCP => ["left_bob", "right_bob", "media_kind_id", "edit_rate", "name", "effect_id", "session_attrs",
      "precomputed", "length", "flags", "fps", "start", "attributes"]
  | .ECCP => ["left_bob", "right_bob", "media_kind_id", "edit_rate", "name", "effect_id", "session_attrs",
      "precomputed", "length", "attributes"]
  | .TRKR => ["left_bob", "right_bob", "media_kind_id", "edit_rate", "name", "effect_id", "session_attrs",
      "precomputed", "length", "relative_scope", "relative_track", "attributes"]
  | .PRCL => ["left_bob", "right_bob", "media_kind_id", "edit_rate", "name", "effect_id", "session_attrs",
      "precomputed", "length", "attributes"]
  | .CTRL => ["left_bob", "right_bob", "media_kind_id", "edit_rate", "name", "effect_id", "session_attrs",
      "precomputed", "length", "attributes"]
  | .FILL => ["left_bob", "right_bob", "media_kind_id", "edit_rate", "name", "effect_id", "session_attrs",
      "precomputed", "length", "attributes"]
  | .TRKG => ["left_bob", "right_bob", "media_kind_id", "edit_rate", "name", "effect_id", "session_attrs",
      "precomputed", "mc_mode", "length", "num_scalars", "attributes", "tracks"]
  | .TKFX => ["left_bob", "right_bob", "media_kind_id", "edit_rate", "name", "effect_id", "session_attrs",
      "precomputed", "mc_mode", "length", "num_scalars", "attributes", "tracks"]
  | .PVOL => ["left_bob", "right_bob", "media_kind_id", "edit_rate", "name", "effect_id", "session_attrs",
      "precomputed", "mc_mode", "length", "num_scalars", "attributes", "tracks"]
  | .ASPI => ["left_bob", "right_bob", "media_kind_id", "edit_rate", "name", "effect_id", "session_attrs",
      "precomputed", "mc_mode", "length", "num_scalars", "attributes", "tracks"]
  | .EQMB => ["left_bob", "right_bob", "media_kind_id", "edit_rate", "name", "effect_id", "session_attrs",
      "precomputed", "mc_mode", "length", "num_scalars", "attributes", "tracks"]
  | .MASK => ["left_bob", "right_bob", "media_kind_id", "edit_rate", "name", "effect_id", "session_attrs",
      "precomputed", "mc_mode", "length", "num_scalars", "attributes", "tracks"]
  | .STRB => ["left_bob", "right_bob", "media_kind_id", "edit_rate", "name", "effect_id", "session_attrs",
      "precomputed", "mc_mode", "length", "num_scalars", "attributes", "tracks"]
  | .SPED => ["left_bob", "right_bob", "media_kind_id", "edit_rate", "name", "effect_id", "session_attrs",
      "precomputed", "mc_mode", "length", "num_scalars", "attributes", "tracks"]
  | .REPT => ["left_bob", "right_bob", "media_kind_id", "edit_rate", "name", "effect_id", "session_attrs",
      "precomputed", "mc_mode", "length", "num_scalars", "attributes", "tracks"]
  | .RSET => ["left_bob", "right_bob", "media_kind_id", "edit_rate", "name", "effect_id", "session_attrs",
      "precomputed", "mc_mode", "length", "num_scalars", "attributes", "tracks"]
  | .TNFX => ["left_bob", "right_bob", "media_kind_id", "edit_rate", "name", "effect_id", "session_attrs",
      "precomputed", "mc_mode", "length", "num_scalars", "attributes", "tracks"]
  | .SLCT => ["left_bob", "right_bob", "media_kind_id", "edit_rate", "name", "effect_id", "session_attrs",
      "precomputed", "mc_mode", "length", "num_scalars", "attributes", "tracks"]
  | .CMPO => ["left_bob", "right_bob", "media_kind_id", "edit_rate", "name", "effect_id", "session_attrs",
      "precomputed", "mc_mode", "length", "num_scalars", "last_modified", "mob_type_id", "usage_code",
      "descriptor", "attributes", "tracks", "mob_id", "creation_time"]
  | .FILE => []
  | .WINF => []
  | .URLL => []
  | .GRFX => []
  | .SHLP => []
  | .CCFX => []
  | .FXPS => []
  | .AVUP => []
  | .PRIT => []
  | .MSML => []
  | .APOS => []
  | .ABOB => []
  | .DIDP => []
  | .MPGP => []
  | .MCBR => []
  | .MCMR => []
  | .TMBC => []
  | .TKMN => []
  | .TKDS => []
  | .TKPS => []
  | .TKDA => []
  | .TKPA => []
  | .MDES => ["mob_kind", "locator", "intermediate", "physical_media"]
  | .MDTP => ["mob_kind", "locator", "intermediate", "physical_media", "cframe"]
  | .MDFM => ["mob_kind", "locator", "intermediate", "physical_media"]
  | .MDNG => ["mob_kind", "locator", "intermediate", "physical_media"]
  | .MDFL => ["mob_kind", "locator", "intermediate", "physical_media", "edit_rate", "length", "is_omfi",
      "data_offset"]
  | .MULD => ["mob_kind", "locator", "intermediate", "physical_media", "edit_rate", "length", "is_omfi",
      "data_offset"]
  | .WAVE => ["mob_kind", "locator", "intermediate", "physical_media", "edit_rate", "length", "is_omfi",
      "data_offset"]
  | .AIFC => ["mob_kind", "locator", "intermediate", "physical_media", "edit_rate", "length", "is_omfi",
      "data_offset"]
  | .PCMA => ["mob_kind", "locator", "intermediate", "physical_media", "edit_rate", "length", "is_omfi",
      "data_offset"]
  | .MPGA => ["mob_kind", "locator", "intermediate", "physical_media", "edit_rate", "length", "is_omfi",
      "data_offset"]
  | .DIDD => ["mob_kind", "locator", "intermediate", "physical_media", "edit_rate", "length", "is_omfi",
      "data_offset", "stored_height", "stored_width", "sampled_height", "sampled_width",
      "sampled_x_offset", "sampled_y_offset", "display_height", "display_width", "display_x_offset",
      "display_y_offset", "frame_layout", "aspect_ratio", "line_map", "alpha_transparency", "uniformness",
      "did_image_size", "next_did_desc", "compress_method", "resolution_id", "image_alignment_factor"]
  | .CDCI => ["mob_kind", "locator", "intermediate", "physical_media", "edit_rate", "length", "is_omfi",
      "data_offset", "stored_height", "stored_width", "sampled_height", "sampled_width",
      "sampled_x_offset", "sampled_y_offset", "display_height", "display_width", "display_x_offset",
      "display_y_offset", "frame_layout", "aspect_ratio", "line_map", "alpha_transparency", "uniformness",
      "did_image_size", "next_did_desc", "compress_method", "resolution_id", "image_alignment_factor",
      "horizontal_subsampling", "vertical_subsampling", "component_width", "color_sitting",
      "black_ref_level", "white_ref_level", "color_range", "frame_index_offset"]
  | .MPGI => ["mob_kind", "locator", "intermediate", "physical_media", "edit_rate", "length", "is_omfi",
      "data_offset", "stored_height", "stored_width", "sampled_height", "sampled_width",
      "sampled_x_offset", "sampled_y_offset", "display_height", "display_width", "display_x_offset",
      "display_y_offset", "frame_layout", "aspect_ratio", "line_map", "alpha_transparency", "uniformness",
      "did_image_size", "next_did_desc", "compress_method", "resolution_id", "image_alignment_factor",
      "horizontal_subsampling", "vertical_subsampling", "component_width", "color_sitting",
      "black_ref_level", "white_ref_level", "color_range", "frame_index_offset"]
  | .JPED => ["mob_kind", "locator", "intermediate", "physical_media", "edit_rate", "length", "is_omfi",
      "data_offset", "stored_height", "stored_width", "sampled_height", "sampled_width",
      "sampled_x_offset", "sampled_y_offset", "display_height", "display_width", "display_x_offset",
      "display_y_offset", "frame_layout", "aspect_ratio", "line_map", "alpha_transparency", "uniformness",
      "did_image_size", "next_did_desc", "compress_method", "resolution_id", "image_alignment_factor",
      "horizontal_subsampling", "vertical_subsampling", "component_width", "color_sitting",
      "black_ref_level", "white_ref_level", "color_range", "frame_index_offset"]
  | .RGBA => ["mob_kind", "locator", "intermediate", "physical_media", "edit_rate", "length", "is_omfi",
      "data_offset", "stored_height", "stored_width", "sampled_height", "sampled_width",
      "sampled_x_offset", "sampled_y_offset", "display_height", "display_width", "display_x_offset",
      "display_y_offset", "frame_layout", "aspect_ratio", "line_map", "alpha_transparency", "uniformness",
      "did_image_size", "next_did_desc", "compress_method", "resolution_id", "image_alignment_factor"]
  | .DATD => ["mob_kind", "locator", "intermediate", "physical_media", "edit_rate", "length", "is_omfi",
      "data_offset"]
  | .ANCD => ["mob_kind", "locator", "intermediate", "physical_media", "edit_rate", "length", "is_omfi",
      "data_offset"]

/-- The unset properties of a new object.  Helper objects that constructors make are complete: all properties of
`SiftItem` have defaults (src/avb/bin.py:186-193, 227-230). -/
def newUnset (k : Cls) : Unset := fun s => s.1.isEmpty && !(initial k).contains s.2

/-- Assigning values to some properties of the object (src/avb/core.py:199-204). -/
def Unset.Unset.assign (u : Unset) (names : List String) : Unset :=
  fun s => u s && !(s.1.isEmpty && names.contains s.2)

/-- `AVBFile.write_object` for an object with unset properties (src/avb/file.py:325-336). -/
def writeObjectU (u : Unset) (c : WCtx) (e : Entry) : Wr Unit := do
  Wr.guard (e.own = true) .value
  let data ← payloadOf (e.obj.writeU u c)
  Wr.guard (data.getLast? = some 3) .assertion
  wFourcc c.bo e.obj.cls.id
  wInt c.bo .u32 data.length
  Wr.emit data

/-- The loop of `AVBFile.write` over the objects met, `us` telling what the object at an address has no value
for (src/avb/file.py:356-362). -/
def saveLoopU (h : Heap) (us : Ref → Unset) (bo : BO) : List Ref → SaveSt → SaveSt × Option Err
  | [], s => (s, none)
  | r :: rs, s =>
    match h r with
    | .error er => (s, some er)
    | .ok e =>
      if (s.map e.iid).isSome then saveLoopU h us bo rs s
      else
        let next := s.next + 1
        let map := mapSet s.map e.iid next
        match writeObjectU (us r) ⟨bo, refMapOf h map⟩ e with
        | .ok (_, bs) => saveLoopU h us bo rs ⟨next, map, s.out ++ bs⟩
        | .error er => (⟨next, map, s.out⟩, some er)

/-- `AVBFile.write` with unset properties (src/avb/file.py:348-370), see `saveRun`.  The walk only meets
properties that have values (src/avb/core.py:142-143): the `visits` of an entry. -/
def saveRunU (h : Heap) (us : Ref → Unset) (fuel : Nat) (bo : BO) (hd : HeaderInfo) (content : Ref) : SaveRun :=
  match (writeHeaderPre bo hd).bytes, (writeCounts bo 0 0).bytes, (writeHeaderPost bo hd).bytes with
  | .ok pre, .ok zero, .ok post =>
    let w := walkObj h fuel content
    let (s, er) := saveLoopU h us bo w.out ⟨0, fun _ => none, []⟩
    let appended := pre ++ zero ++ post ++ s.out
    match er, w.err with
    | some e, _ => ⟨appended, none, some e⟩
    | none, some e => ⟨appended, none, some e⟩
    | none, none =>
      match (writeCounts bo s.next s.next).bytes with
      | .ok counts => ⟨appended, some (pre.length, counts), none⟩
      | .error e => ⟨appended, none, some e⟩
  | .error e, _, _ => ⟨[], none, some e⟩
  | _, .error e, _ => ⟨[], none, some e⟩
  | _, _, .error e => ⟨[], none, some e⟩

/-- A save without exception, some properties being unset, and the file it leaves
(src/avb/file.py:348-370). -/
def saveU (h : Heap) (us : Ref → Unset) (fuel : Nat) (bo : BO) (hd : HeaderInfo) (content : Ref) :
    Except Err Bytes :=
  let s := saveRunU h us fuel bo hd content
  match s.err with
  | some e => .error e
  | none => .ok s.disk

end Avb
