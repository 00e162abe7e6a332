import Verif.Model.Misc

/-
src/avb/essence.py: media descriptors.

Conventions as in Verif/Model/Components.lean and Verif/Model/Misc.lean.
-/

namespace Avb

/-- `hasattr(self, 'a') and hasattr(self, 'b')`. -/
def andHas {α β : Type} (a : Option α) (b : Option β) : Option (α × β) :=
  match a, b with
  | some a, some b => some (a, b)
  | _, _ => none

/-- What a writer leaves in a separate `BytesIO` (src/avb/essence.py:1174-1182). -/
def Wr.buffer (w : Wr Unit) : Wr Bytes :=
  match w with
  | .ok (_, bs) => .ok (bs, [])
  | .error e => .error e

/-- `MediaDescriptor` (src/avb/essence.py:15-27). -/
structure MediaDescriptor where
  mob_kind : Int
  locator : Ref
  intermediate : Bool
  physical_media : Ref
  uuid : Option UUID
  wchar : Option Bytes
  attributes : Option Ref
  deriving DecidableEq

/-- The `iter_ext` body of `MediaDescriptor.read` (src/avb/essence.py:44-60). -/
def MediaDescriptor.ext (d : RCtx) (tag : Int) (s : MediaDescriptor) : Rd MediaDescriptor :=
  if tag = 0x01 then do
    rTag 65
    let uuid_len ← rInt d.bo .s32
    Rd.guard (uuid_len = 16) .assertion
    let v ← rRawUuid d.bo
    return { s with uuid := some v }
  else if tag = 0x02 then do
    rTag 65
    let size ← rInt d.bo .s32
    let v ← fread size
    return { s with wchar := some v }
  else if tag = 0x03 then do
    rTag 72
    let v ← rRef d
    return { s with attributes := some v }
  else Rd.fail .value

/-- `MediaDescriptor.read` up to the class id test (src/avb/essence.py:29-60). -/
def MediaDescriptor.readBody (d : RCtx) : Rd MediaDescriptor := do
  rTag 0x02
  rTag 0x03
  let mob_kind ← rU8
  let locator ← rRef d
  let intermediate ← rBool
  let physical_media ← rRef d
  iterExt (MediaDescriptor.ext d)
    { mob_kind, locator, intermediate, physical_media, uuid := none, wchar := none,
      attributes := none }

/-- `MediaDescriptor.read` of an MDES chunk (src/avb/essence.py:29-63). -/
def MediaDescriptor.read (d : RCtx) : Rd MediaDescriptor := do
  let s ← MediaDescriptor.readBody d
  rTag 0x03
  return s

/-- `MediaDescriptor.write` up to the class id test (src/avb/essence.py:65-94). -/
def MediaDescriptor.writeBody (c : WCtx) (x : MediaDescriptor) : Wr Unit := do
  wU8 0x02
  wU8 0x03
  wU8 x.mob_kind
  wRef c x.locator
  wBool x.intermediate
  wRef c x.physical_media
  Wr.ifHas x.uuid fun v => do
    wU8 0x01
    wU8 0x01
    wU8 65
    wInt c.bo .s32 16
    wRawUuid c.bo v
  Wr.ifHas x.wchar fun v => do
    wU8 0x01
    wU8 0x02
    wU8 65
    wInt c.bo .s32 v.length
    Wr.emit v
  Wr.ifHas x.attributes fun v => do
    wU8 0x01
    wU8 0x03
    wU8 72
    wRef c v

/-- `MediaDescriptor.write` of an MDES object (src/avb/essence.py:65-97). -/
def MediaDescriptor.write (c : WCtx) (x : MediaDescriptor) : Wr Unit := do
  x.writeBody c
  wU8 0x03

/-- `TapeDescriptor` (src/avb/essence.py:101-106). -/
structure TapeDescriptor extends MediaDescriptor where
  cframe : Int
  deriving DecidableEq

/-- `TapeDescriptor.read` (src/avb/essence.py:108-115). -/
def TapeDescriptor.read (d : RCtx) : Rd TapeDescriptor := do
  let base ← MediaDescriptor.readBody d
  rTag 0x02
  rTag 0x02
  let cframe ← rInt d.bo .s16
  rTag 0x03
  return { toMediaDescriptor := base, cframe }

/-- `TapeDescriptor.write` (src/avb/essence.py:117-124). -/
def TapeDescriptor.write (c : WCtx) (x : TapeDescriptor) : Wr Unit := do
  x.toMediaDescriptor.writeBody c
  wU8 0x02
  wU8 0x02
  wInt c.bo .s16 x.cframe
  wU8 0x03

/-- `FilmDescriptor` (src/avb/essence.py:127-129). -/
structure FilmDescriptor extends MediaDescriptor where
  deriving DecidableEq

/-- `FilmDescriptor.read` (src/avb/essence.py:131-137). -/
def FilmDescriptor.read (d : RCtx) : Rd FilmDescriptor := do
  let base ← MediaDescriptor.readBody d
  rTag 0x02
  rTag 0x01
  rTag 0x03
  return { toMediaDescriptor := base }

/-- `FilmDescriptor.write` (src/avb/essence.py:139-144). -/
def FilmDescriptor.write (c : WCtx) (x : FilmDescriptor) : Wr Unit := do
  x.toMediaDescriptor.writeBody c
  wU8 0x02
  wU8 0x01
  wU8 0x03

/-- `NagraDescriptor` (src/avb/essence.py:147-149). -/
structure NagraDescriptor extends MediaDescriptor where
  deriving DecidableEq

/-- `NagraDescriptor.read` (src/avb/essence.py:151-157). -/
def NagraDescriptor.read (d : RCtx) : Rd NagraDescriptor := do
  let base ← MediaDescriptor.readBody d
  rTag 0x02
  rTag 0x01
  rTag 0x03
  return { toMediaDescriptor := base }

/-- `NagraDescriptor.write` (src/avb/essence.py:159-164). -/
def NagraDescriptor.write (c : WCtx) (x : NagraDescriptor) : Wr Unit := do
  x.toMediaDescriptor.writeBody c
  wU8 0x02
  wU8 0x01
  wU8 0x03

/-- `MediaFileDescriptor` (src/avb/essence.py:167-175). -/
structure MediaFileDescriptor extends MediaDescriptor where
  edit_rate : Rate
  length : Int
  is_omfi : Int
  data_offset : Int
  deriving DecidableEq

/-- `MediaFileDescriptor.read` up to the class id test (src/avb/essence.py:177-186). -/
def MediaFileDescriptor.readBody (d : RCtx) : Rd MediaFileDescriptor := do
  let base ← MediaDescriptor.readBody d
  rTag 0x02
  rTag 0x03
  let edit_rate ← rRate d.bo
  let length ← rInt d.bo .s32
  let is_omfi ← rInt d.bo .s16
  let data_offset ← rInt d.bo .s32
  return { toMediaDescriptor := base, edit_rate, length, is_omfi, data_offset }

/-- `MediaFileDescriptor.read` of an MDFL chunk (src/avb/essence.py:177-189). -/
def MediaFileDescriptor.read (d : RCtx) : Rd MediaFileDescriptor := do
  let s ← MediaFileDescriptor.readBody d
  rTag 0x03
  return s

/-- `MediaFileDescriptor.write` up to the class id test (src/avb/essence.py:191-200). -/
def MediaFileDescriptor.writeBody (c : WCtx) (x : MediaFileDescriptor) : Wr Unit := do
  x.toMediaDescriptor.writeBody c
  wU8 0x02
  wU8 0x03
  wRate c.bo x.edit_rate
  wInt c.bo .s32 x.length
  wInt c.bo .s16 x.is_omfi
  wInt c.bo .s32 x.data_offset

/-- `MediaFileDescriptor.write` of an MDFL object (src/avb/essence.py:191-203). -/
def MediaFileDescriptor.write (c : WCtx) (x : MediaFileDescriptor) : Wr Unit := do
  x.writeBody c
  wU8 0x03

/-- `MultiDescriptor` (src/avb/essence.py:206-211). -/
structure MultiDescriptor extends MediaFileDescriptor where
  descriptors : List Ref
  deriving DecidableEq

/-- `MultiDescriptor.read` (src/avb/essence.py:213-225). -/
def MultiDescriptor.read (d : RCtx) : Rd MultiDescriptor := do
  let base ← MediaFileDescriptor.readBody d
  rTag 0x02
  rTag 0x01
  let count ← rInt d.bo .s32
  let descriptors ← readN count.toNat (rRef d)
  rTag 0x03
  return { toMediaFileDescriptor := base, descriptors }

/-- `MultiDescriptor.write` (src/avb/essence.py:227-238). -/
def MultiDescriptor.write (c : WCtx) (x : MultiDescriptor) : Wr Unit := do
  x.toMediaFileDescriptor.writeBody c
  wU8 0x02
  wU8 0x01
  wInt c.bo .s32 x.descriptors.length
  forW x.descriptors (wRef c)
  wU8 0x03

/-- `WaveDescriptor` (src/avb/essence.py:241-246). -/
structure WaveDescriptor extends MediaFileDescriptor where
  summary : Bytes
  deriving DecidableEq

/-- `WaveDescriptor.read` (src/avb/essence.py:248-259); the size is little endian in every file. -/
def WaveDescriptor.read (d : RCtx) : Rd WaveDescriptor := do
  let base ← MediaFileDescriptor.readBody d
  rTag 0x02
  rTag 0x01
  let magic ← fread 4
  Rd.guard (magic = [82, 73, 70, 70]) .assertion
  let size ← rInt .little .u32
  let summary ← fread size
  rTag 0x03
  return { toMediaFileDescriptor := base, summary }

/-- `WaveDescriptor.write` (src/avb/essence.py:261-270). -/
def WaveDescriptor.write (c : WCtx) (x : WaveDescriptor) : Wr Unit := do
  x.toMediaFileDescriptor.writeBody c
  wU8 0x02
  wU8 0x01
  Wr.emit [82, 73, 70, 70]
  wInt .little .u32 x.summary.length
  Wr.emit x.summary
  wU8 0x03

/-- `AIFCDescriptor` (src/avb/essence.py:273-279). -/
structure AIFCDescriptor extends MediaFileDescriptor where
  summary : Bytes
  data_pos : Option Int
  deriving DecidableEq

/-- The `iter_ext` body of `AIFCDescriptor.read` (src/avb/essence.py:292-297). -/
def AIFCDescriptor.ext (d : RCtx) (tag : Int) (s : AIFCDescriptor) : Rd AIFCDescriptor :=
  if tag = 0x01 then do
    rTag 71
    let v ← rInt d.bo .s32
    return { s with data_pos := some v }
  else Rd.fail .value

/-- `AIFCDescriptor.read` (src/avb/essence.py:281-299); the size is big endian in every file. -/
def AIFCDescriptor.read (d : RCtx) : Rd AIFCDescriptor := do
  let base ← MediaFileDescriptor.readBody d
  rTag 0x02
  rTag 0x01
  let magic ← fread 4
  Rd.guard (magic = [70, 79, 82, 77]) .assertion
  let size ← rInt .big .u32
  let summary ← fread size
  let s ← iterExt (AIFCDescriptor.ext d)
    { toMediaFileDescriptor := base, summary, data_pos := none }
  rTag 0x03
  return s

/-- `AIFCDescriptor.write` (src/avb/essence.py:301-318). -/
def AIFCDescriptor.write (c : WCtx) (x : AIFCDescriptor) : Wr Unit := do
  x.toMediaFileDescriptor.writeBody c
  wU8 0x02
  wU8 0x01
  Wr.emit [70, 79, 82, 77]
  wInt .big .u32 x.summary.length
  Wr.emit x.summary
  Wr.ifHas x.data_pos fun v => do
    wU8 0x01
    wU8 0x01
    wU8 71
    wInt c.bo .s32 v
  wU8 0x03

/-- `PCMADescriptor` (src/avb/essence.py:321-347). -/
structure PCMADescriptor extends MediaFileDescriptor where
  channels : Int
  quantization_bits : Int
  sample_rate : Rate
  locked : Bool
  audio_ref_level : Int
  electro_spatial_formulation : Int
  dial_norm : Int
  coding_format : Int
  block_align : Int
  sequence_offset : Int
  average_bps : Int
  has_peak_envelope_data : Bool
  peak_envelope_version : Int
  peak_envelope_format : Int
  points_per_peak_value : Int
  peak_envelope_block_size : Int
  peak_channel_count : Int
  peak_frame_count : Int
  peak_of_peaks_offset : Int
  peak_envelope_timestamp : Int
  ebu_timestamp : Option Int
  timecode_framerate : Option Text
  deriving DecidableEq

/-- The `iter_ext` body of `PCMADescriptor.read` (src/avb/essence.py:380-389). -/
def PCMADescriptor.ext (d : RCtx) (tag : Int) (s : PCMADescriptor) : Rd PCMADescriptor :=
  if tag = 0x01 then do
    rTag 77
    let v ← rInt d.bo .s64
    return { s with ebu_timestamp := some v }
  else if tag = 0x03 then do
    rTag 76
    let v ← rStr d.bo .macroman
    return { s with timecode_framerate := some v }
  else Rd.fail .value

/-- `PCMADescriptor.read` (src/avb/essence.py:349-391). -/
def PCMADescriptor.read (d : RCtx) : Rd PCMADescriptor := do
  let base ← MediaFileDescriptor.readBody d
  rTag 0x02
  rTag 0x01
  let channels ← rInt d.bo .u16
  let quantization_bits ← rInt d.bo .u16
  let sample_rate ← rRate d.bo
  let locked ← rBool
  let audio_ref_level ← rInt d.bo .s16
  let electro_spatial_formulation ← rInt d.bo .s32
  let dial_norm ← rInt d.bo .u16
  let coding_format ← rInt d.bo .u32
  let block_align ← rInt d.bo .u32
  let sequence_offset ← rInt d.bo .u16
  let average_bps ← rInt d.bo .u32
  let has_peak_envelope_data ← rBool
  let peak_envelope_version ← rInt d.bo .s32
  let peak_envelope_format ← rInt d.bo .s32
  let points_per_peak_value ← rInt d.bo .s32
  let peak_envelope_block_size ← rInt d.bo .s32
  let peak_channel_count ← rInt d.bo .s32
  let peak_frame_count ← rInt d.bo .s32
  let peak_of_peaks_offset ← rInt d.bo .u64
  let peak_envelope_timestamp ← rInt d.bo .s32
  let s ← iterExt (PCMADescriptor.ext d)
    { toMediaFileDescriptor := base, channels, quantization_bits, sample_rate, locked,
      audio_ref_level, electro_spatial_formulation, dial_norm, coding_format, block_align,
      sequence_offset, average_bps, has_peak_envelope_data, peak_envelope_version,
      peak_envelope_format, points_per_peak_value, peak_envelope_block_size, peak_channel_count,
      peak_frame_count, peak_of_peaks_offset, peak_envelope_timestamp, ebu_timestamp := none,
      timecode_framerate := none }
  rTag 0x03
  return s

/-- `PCMADescriptor.write` (src/avb/essence.py:393-436). -/
def PCMADescriptor.write (c : WCtx) (x : PCMADescriptor) : Wr Unit := do
  x.toMediaFileDescriptor.writeBody c
  wU8 0x02
  wU8 0x01
  wInt c.bo .u16 x.channels
  wInt c.bo .u16 x.quantization_bits
  wRate c.bo x.sample_rate
  wBool x.locked
  wInt c.bo .s16 x.audio_ref_level
  wInt c.bo .s32 x.electro_spatial_formulation
  wInt c.bo .u16 x.dial_norm
  wInt c.bo .u32 x.coding_format
  wInt c.bo .u32 x.block_align
  wInt c.bo .u16 x.sequence_offset
  wInt c.bo .u32 x.average_bps
  wBool x.has_peak_envelope_data
  wInt c.bo .s32 x.peak_envelope_version
  wInt c.bo .s32 x.peak_envelope_format
  wInt c.bo .s32 x.points_per_peak_value
  wInt c.bo .s32 x.peak_envelope_block_size
  wInt c.bo .s32 x.peak_channel_count
  wInt c.bo .s32 x.peak_frame_count
  wInt c.bo .u64 x.peak_of_peaks_offset
  wInt c.bo .s32 x.peak_envelope_timestamp
  Wr.ifHas x.ebu_timestamp fun v => do
    wU8 0x01
    wU8 0x01
    wU8 77
    wInt c.bo .s64 v
  Wr.ifHas x.timecode_framerate fun v => do
    wU8 0x01
    wU8 0x03
    wU8 76
    wStr c.bo .macroman v
  wU8 0x03

/-- `MPGADescriptor` (src/avb/essence.py:440-455). -/
structure MPGADescriptor extends MediaFileDescriptor where
  channels : Int
  quantization_bits : Int
  sample_rate : Rate
  locked : Bool
  audio_ref_level : Int
  electro_spatial_formulation : Int
  dial_norm : Int
  coding_format : Int
  bit_rate : Int
  sub_frame_alignment : Option Int
  origin : Option Int
  deriving DecidableEq

/-- The `iter_ext` body of `MPGADescriptor.read` (src/avb/essence.py:475-483). -/
def MPGADescriptor.ext (d : RCtx) (tag : Int) (s : MPGADescriptor) : Rd MPGADescriptor :=
  if tag = 0x01 then do
    rTag 77
    let v ← rInt d.bo .u64
    return { s with sub_frame_alignment := some v }
  else if tag = 0x02 then do
    rTag 77
    let v ← rInt d.bo .u64
    return { s with origin := some v }
  else Rd.fail .value

/-- `MPGADescriptor.read` (src/avb/essence.py:457-485). -/
def MPGADescriptor.read (d : RCtx) : Rd MPGADescriptor := do
  let base ← MediaFileDescriptor.readBody d
  rTag 0x02
  rTag 0x01
  let channels ← rInt d.bo .u16
  let quantization_bits ← rInt d.bo .u16
  let sample_rate ← rRate d.bo
  let locked ← rBool
  let audio_ref_level ← rInt d.bo .s16
  let electro_spatial_formulation ← rInt d.bo .s32
  let dial_norm ← rInt d.bo .u16
  let coding_format ← rInt d.bo .u32
  let bit_rate ← rInt d.bo .u32
  let s ← iterExt (MPGADescriptor.ext d)
    { toMediaFileDescriptor := base, channels, quantization_bits, sample_rate, locked,
      audio_ref_level, electro_spatial_formulation, dial_norm, coding_format, bit_rate,
      sub_frame_alignment := none, origin := none }
  rTag 0x03
  return s

/-- `MPGADescriptor.write` (src/avb/essence.py:487-517); `sub_frame_alignment` is written signed though
it is read unsigned. -/
def MPGADescriptor.write (c : WCtx) (x : MPGADescriptor) : Wr Unit := do
  x.toMediaFileDescriptor.writeBody c
  wU8 0x02
  wU8 0x01
  wInt c.bo .u16 x.channels
  wInt c.bo .u16 x.quantization_bits
  wRate c.bo x.sample_rate
  wBool x.locked
  wInt c.bo .s16 x.audio_ref_level
  wInt c.bo .s32 x.electro_spatial_formulation
  wInt c.bo .u16 x.dial_norm
  wInt c.bo .u32 x.coding_format
  wInt c.bo .u32 x.bit_rate
  Wr.ifHas x.sub_frame_alignment fun v => do
    wU8 0x01
    wU8 0x01
    wU8 77
    wInt c.bo .s64 v
  Wr.ifHas x.origin fun v => do
    wU8 0x01
    wU8 0x02
    wU8 77
    wInt c.bo .u64 v
  wU8 0x03

/-- A bounding box: a list of `[x, y]` points, four of which are stored
(src/avb/essence.py:640-745, 855-948). -/
abbrev Box := List (Int × Int)

/-- One point of a box (src/avb/essence.py:642-646 and the like). -/
def rPoint (d : RCtx) : Rd (Int × Int) := do
  rTag 71
  let x ← rInt d.bo .s32
  rTag 71
  let y ← rInt d.bo .s32
  return (x, y)

/-- One point of a box (src/avb/essence.py:859-862 and the like). -/
def wPoint (c : WCtx) (p : Int × Int) : Wr Unit := do
  wU8 71
  wInt c.bo .s32 p.1
  wU8 71
  wInt c.bo .s32 p.2

/-- The four points of a box (src/avb/essence.py:641-664 and the like). -/
def rBox (d : RCtx) : Rd Box := do
  let p0 ← rPoint d
  let p1 ← rPoint d
  let p2 ← rPoint d
  let p3 ← rPoint d
  return [p0, p1, p2, p3]

/-- The four points of a box (src/avb/essence.py:859-877 and the like): `box[0]` to `box[3]`. -/
def wBox (c : WCtx) (b : Box) : Wr Unit := do
  let p0 ← Wr.nth b 0
  wPoint c p0
  let p1 ← Wr.nth b 1
  wPoint c p1
  let p2 ← Wr.nth b 2
  wPoint c p2
  let p3 ← Wr.nth b 3
  wPoint c p3

/-- `DIDDescriptor` (src/avb/essence.py:521-563).  `aspect_ratio` is a two element list in Python. -/
structure DIDDescriptor extends MediaFileDescriptor where
  stored_height : Int
  stored_width : Int
  sampled_height : Int
  sampled_width : Int
  sampled_x_offset : Int
  sampled_y_offset : Int
  display_height : Int
  display_width : Int
  display_x_offset : Int
  display_y_offset : Int
  frame_layout : Int
  aspect_ratio : Int × Int
  line_map : List Int
  alpha_transparency : Int
  uniformness : Bool
  did_image_size : Int
  next_did_desc : Ref
  compress_method : Bytes
  resolution_id : Int
  image_alignment_factor : Int
  frame_index_byte_order : Option Int
  frame_sample_size : Option Int
  first_frame_offset : Option Int
  client_fill_start : Option Int
  client_fill_end : Option Int
  offset_to_rle_frame_index : Option Int
  frame_start_offset : Option Int
  valid_box : Option Box
  essence_box : Option Box
  source_box : Option Box
  framing_box : Option Box
  reformatting_option : Option Int
  transfer_characteristic : Option UUID
  color_primaries : Option UUID
  coding_equations : Option UUID
  essence_compression : Option UUID
  essence_element_size_kind : Option Int
  frame_checked_with_mapper : Option Bool
  deriving DecidableEq

/-- The `iter_ext` body of `DIDDescriptor.read` (src/avb/essence.py:611-767). -/
def DIDDescriptor.ext (d : RCtx) (tag : Int) (s : DIDDescriptor) : Rd DIDDescriptor :=
  if tag = 0x01 then do
    rTag 69
    let v ← rInt d.bo .s16
    return { s with frame_index_byte_order := some v }
  else if tag = 0x02 then do
    rTag 71
    let v ← rInt d.bo .s32
    return { s with frame_sample_size := some v }
  else if tag = 0x03 then do
    rTag 71
    let v ← rInt d.bo .s32
    return { s with first_frame_offset := some v }
  else if tag = 0x04 then do
    rTag 71
    let v ← rInt d.bo .s32
    rTag 71
    let e ← rInt d.bo .s32
    return { s with client_fill_start := some v, client_fill_end := some e }
  else if tag = 0x05 then do
    rTag 71
    let v ← rInt d.bo .s32
    return { s with offset_to_rle_frame_index := some v }
  else if tag = 0x06 then do
    rTag 71
    let v ← rInt d.bo .s32
    return { s with frame_start_offset := some v }
  else if tag = 0x08 then do
    let valid_box ← rBox d
    let essence_box ← rBox d
    let source_box ← rBox d
    return { s with
      valid_box := some valid_box, essence_box := some essence_box, source_box := some source_box }
  else if tag = 9 then do
    let framing_box ← rBox d
    rTag 71
    let v ← rInt d.bo .s32
    return { s with framing_box := some framing_box, reformatting_option := some v }
  else if tag = 10 then do
    rTag 80
    let v ← rRawUuid d.bo
    return { s with transfer_characteristic := some v }
  else if tag = 11 then do
    rTag 80
    let v ← rRawUuid d.bo
    rTag 80
    let e ← rRawUuid d.bo
    return { s with color_primaries := some v, coding_equations := some e }
  else if tag = 12 then do
    rTag 80
    let v ← rRawUuid d.bo
    return { s with essence_compression := some v }
  else if tag = 14 then do
    rTag 68
    let v ← rU8
    return { s with essence_element_size_kind := some v }
  else if tag = 15 then do
    rTag 66
    let v ← rBool
    return { s with frame_checked_with_mapper := some v }
  else Rd.fail .value

/-- `DIDDescriptor.read` up to the class id test (src/avb/essence.py:565-767). -/
def DIDDescriptor.readBody (d : RCtx) : Rd DIDDescriptor := do
  let base ← MediaFileDescriptor.readBody d
  rTag 0x02
  rTag 0x02
  let stored_height ← rInt d.bo .s32
  let stored_width ← rInt d.bo .s32
  let sampled_height ← rInt d.bo .s32
  let sampled_width ← rInt d.bo .s32
  let sampled_x_offset ← rInt d.bo .s32
  let sampled_y_offset ← rInt d.bo .s32
  let display_height ← rInt d.bo .s32
  let display_width ← rInt d.bo .s32
  let display_x_offset ← rInt d.bo .s32
  let display_y_offset ← rInt d.bo .s32
  let frame_layout ← rInt d.bo .s16
  let numerator ← rInt d.bo .s32
  let denominator ← rInt d.bo .s32
  let line_map_byte_size ← rInt d.bo .s32
  let line_map ← readN (line_map_byte_size / 4).toNat (rInt d.bo .s32)
  let alpha_transparency ← rInt d.bo .s32
  let uniformness ← rBool
  let did_image_size ← rInt d.bo .s32
  let next_did_desc ← rRef d
  let compress_method ← rFourcc d.bo
  let resolution_id ← rInt d.bo .s32
  let image_alignment_factor ← rInt d.bo .s32
  iterExt (DIDDescriptor.ext d)
    { toMediaFileDescriptor := base, stored_height, stored_width, sampled_height, sampled_width,
      sampled_x_offset, sampled_y_offset, display_height, display_width, display_x_offset,
      display_y_offset, frame_layout, aspect_ratio := (numerator, denominator), line_map,
      alpha_transparency, uniformness, did_image_size, next_did_desc, compress_method,
      resolution_id, image_alignment_factor, frame_index_byte_order := none, frame_sample_size :=
      none, first_frame_offset := none, client_fill_start := none, client_fill_end := none,
      offset_to_rle_frame_index := none, frame_start_offset := none, valid_box := none,
      essence_box := none, source_box := none, framing_box := none, reformatting_option := none,
      transfer_characteristic := none, color_primaries := none, coding_equations := none,
      essence_compression := none, essence_element_size_kind := none, frame_checked_with_mapper :=
      none }

/-- `DIDDescriptor.read` of a DIDD chunk (src/avb/essence.py:565-770). -/
def DIDDescriptor.read (d : RCtx) : Rd DIDDescriptor := do
  let s ← DIDDescriptor.readBody d
  rTag 0x03
  return s

/-- `DIDDescriptor.write` up to the class id test (src/avb/essence.py:772-980). -/
def DIDDescriptor.writeBody (c : WCtx) (x : DIDDescriptor) : Wr Unit := do
  x.toMediaFileDescriptor.writeBody c
  wU8 0x02
  wU8 0x02
  wInt c.bo .s32 x.stored_height
  wInt c.bo .s32 x.stored_width
  wInt c.bo .s32 x.sampled_height
  wInt c.bo .s32 x.sampled_width
  wInt c.bo .s32 x.sampled_x_offset
  wInt c.bo .s32 x.sampled_y_offset
  wInt c.bo .s32 x.display_height
  wInt c.bo .s32 x.display_width
  wInt c.bo .s32 x.display_x_offset
  wInt c.bo .s32 x.display_y_offset
  wInt c.bo .s16 x.frame_layout
  wInt c.bo .s32 x.aspect_ratio.1
  wInt c.bo .s32 x.aspect_ratio.2
  wInt c.bo .s32 (x.line_map.length * 4)
  forW x.line_map (wInt c.bo .s32)
  wInt c.bo .s32 x.alpha_transparency
  wBool x.uniformness
  wInt c.bo .s32 x.did_image_size
  wRef c x.next_did_desc
  Wr.guard (x.compress_method.length = 4) .assertion
  wFourcc c.bo x.compress_method
  wInt c.bo .s32 x.resolution_id
  wInt c.bo .s32 x.image_alignment_factor
  Wr.ifHas x.frame_index_byte_order fun v => do
    wU8 0x01
    wU8 0x01
    wU8 69
    wInt c.bo .s16 v
  Wr.ifHas x.frame_sample_size fun v => do
    wU8 0x01
    wU8 0x02
    wU8 71
    wInt c.bo .s32 v
  Wr.ifHas x.first_frame_offset fun v => do
    wU8 0x01
    wU8 0x03
    wU8 71
    wInt c.bo .s32 v
  Wr.ifHas x.client_fill_start fun v => do
    wU8 0x01
    wU8 0x04
    wU8 71
    wInt c.bo .s32 v
    wU8 71
    let e ← Wr.get x.client_fill_end
    wInt c.bo .s32 e
  Wr.ifHas x.offset_to_rle_frame_index fun v => do
    wU8 0x01
    wU8 0x05
    wU8 71
    wInt c.bo .s32 v
  Wr.ifHas x.frame_start_offset fun v => do
    wU8 0x01
    wU8 0x06
    wU8 71
    wInt c.bo .s32 v
  Wr.ifHas (andHas (andHas x.valid_box x.essence_box) x.source_box) fun v => do
    wU8 0x01
    wU8 0x08
    wBox c v.1.1
    wBox c v.1.2
    wBox c v.2
  Wr.ifHas (andHas x.framing_box x.reformatting_option) fun v => do
    wU8 0x01
    wU8 9
    wBox c v.1
    wU8 71
    wInt c.bo .s32 v.2
  Wr.ifHas x.transfer_characteristic fun v => do
    wU8 0x01
    wU8 10
    wU8 80
    wRawUuid c.bo v
  Wr.ifHas (andHas x.color_primaries x.coding_equations) fun v => do
    wU8 0x01
    wU8 11
    wU8 80
    wRawUuid c.bo v.1
    wU8 80
    wRawUuid c.bo v.2
  Wr.ifHas x.essence_compression fun v => do
    wU8 0x01
    wU8 12
    wU8 80
    wRawUuid c.bo v
  Wr.ifHas x.essence_element_size_kind fun v => do
    wU8 0x01
    wU8 14
    wU8 68
    wU8 v
  Wr.ifHas x.frame_checked_with_mapper fun v => do
    wU8 0x01
    wU8 15
    wU8 66
    wBool v

/-- `DIDDescriptor.write` of a DIDD object (src/avb/essence.py:772-983). -/
def DIDDescriptor.write (c : WCtx) (x : DIDDescriptor) : Wr Unit := do
  x.writeBody c
  wU8 0x03

/-- `CDCIDescriptor` (src/avb/essence.py:986-1000). -/
structure CDCIDescriptor extends DIDDescriptor where
  horizontal_subsampling : Int
  vertical_subsampling : Int
  component_width : Int
  color_sitting : Int
  black_ref_level : Int
  white_ref_level : Int
  color_range : Int
  frame_index_offset : Int
  alpha_sampled_width : Option Int
  ignore_bw : Option Int
  deriving DecidableEq

/-- The `iter_ext` body of `CDCIDescriptor.read` (src/avb/essence.py:1019-1028). -/
def CDCIDescriptor.ext (d : RCtx) (tag : Int) (s : CDCIDescriptor) : Rd CDCIDescriptor :=
  if tag = 0x01 then do
    rTag 72
    let v ← rInt d.bo .u32
    return { s with alpha_sampled_width := some v }
  else if tag = 0x02 then do
    rTag 72
    let v ← rInt d.bo .u32
    return { s with ignore_bw := some v }
  else Rd.fail .value

/-- `CDCIDescriptor.read` up to the class id test (src/avb/essence.py:1002-1028). -/
def CDCIDescriptor.readBody (d : RCtx) : Rd CDCIDescriptor := do
  let base ← DIDDescriptor.readBody d
  rTag 0x02
  rTag 0x02
  let horizontal_subsampling ← rInt d.bo .u32
  let vertical_subsampling ← rInt d.bo .u32
  let component_width ← rInt d.bo .s32
  let color_sitting ← rInt d.bo .s16
  let black_ref_level ← rInt d.bo .u32
  let white_ref_level ← rInt d.bo .u32
  let color_range ← rInt d.bo .u32
  let frame_index_offset ← rInt d.bo .s64
  iterExt (CDCIDescriptor.ext d)
    { toDIDDescriptor := base, horizontal_subsampling, vertical_subsampling, component_width,
      color_sitting, black_ref_level, white_ref_level, color_range, frame_index_offset,
      alpha_sampled_width := none, ignore_bw := none }

/-- `CDCIDescriptor.read` of a CDCI chunk (src/avb/essence.py:1002-1031). -/
def CDCIDescriptor.read (d : RCtx) : Rd CDCIDescriptor := do
  let s ← CDCIDescriptor.readBody d
  rTag 0x03
  return s

/-- `CDCIDescriptor.write` up to the class id test (src/avb/essence.py:1033-1060). -/
def CDCIDescriptor.writeBody (c : WCtx) (x : CDCIDescriptor) : Wr Unit := do
  x.toDIDDescriptor.writeBody c
  wU8 0x02
  wU8 0x02
  wInt c.bo .u32 x.horizontal_subsampling
  wInt c.bo .u32 x.vertical_subsampling
  wInt c.bo .s32 x.component_width
  wInt c.bo .s16 x.color_sitting
  wInt c.bo .u32 x.black_ref_level
  wInt c.bo .u32 x.white_ref_level
  wInt c.bo .u32 x.color_range
  wInt c.bo .s64 x.frame_index_offset
  Wr.ifHas x.alpha_sampled_width fun v => do
    wU8 0x01
    wU8 0x01
    wU8 72
    wInt c.bo .u32 v
  Wr.ifHas x.ignore_bw fun v => do
    wU8 0x01
    wU8 0x02
    wU8 72
    wInt c.bo .u32 v

/-- `CDCIDescriptor.write` of a CDCI object (src/avb/essence.py:1033-1063). -/
def CDCIDescriptor.write (c : WCtx) (x : CDCIDescriptor) : Wr Unit := do
  x.writeBody c
  wU8 0x03

/-- `MPGIDescriptor` (src/avb/essence.py:1066-1080). -/
structure MPGIDescriptor extends CDCIDescriptor where
  mpeg_version : Int
  profile : Int
  gop_structure : Int
  stream_type : Int
  random_access : Bool
  leading_discard : Bool
  trailing_discard : Bool
  min_gop_length : Int
  max_gop_length : Int
  sequence_hdr : Bytes
  deriving DecidableEq

/-- `MPGIDescriptor.read` (src/avb/essence.py:1082-1101). -/
def MPGIDescriptor.read (d : RCtx) : Rd MPGIDescriptor := do
  let base ← CDCIDescriptor.readBody d
  rTag 0x02
  rTag 0x01
  let mpeg_version ← rU8
  let profile ← rU8
  let gop_structure ← rU8
  let stream_type ← rU8
  let random_access ← rBool
  let leading_discard ← rBool
  let trailing_discard ← rBool
  let min_gop_length ← rInt d.bo .u16
  let max_gop_length ← rInt d.bo .u16
  let hdrlen ← rInt d.bo .s32
  Rd.guard (hdrlen ≥ 0) .assertion
  let sequence_hdr ← fread hdrlen
  rTag 0x03
  return { toCDCIDescriptor := base, mpeg_version, profile, gop_structure, stream_type,
           random_access, leading_discard, trailing_discard, min_gop_length, max_gop_length,
           sequence_hdr }

/-- `MPGIDescriptor.write` (src/avb/essence.py:1103-1121). -/
def MPGIDescriptor.write (c : WCtx) (x : MPGIDescriptor) : Wr Unit := do
  x.toCDCIDescriptor.writeBody c
  wU8 0x02
  wU8 0x01
  wU8 x.mpeg_version
  wU8 x.profile
  wU8 x.gop_structure
  wU8 x.stream_type
  wBool x.random_access
  wBool x.leading_discard
  wBool x.trailing_discard
  wInt c.bo .u16 x.min_gop_length
  wInt c.bo .u16 x.max_gop_length
  wInt c.bo .s32 x.sequence_hdr.length
  Wr.emit x.sequence_hdr
  wU8 0x03

/-- `JPEGDescriptor` (src/avb/essence.py:1124-1132). -/
structure JPEGDescriptor extends CDCIDescriptor where
  jpeg_table_id : Int
  jpeg_frame_index_offset : Int
  quantization_tables : Bytes
  image_start_align : Option Int
  deriving DecidableEq

/-- The `iter_ext` body of `JPEGDescriptor.read` (src/avb/essence.py:1146-1151). -/
def JPEGDescriptor.ext (d : RCtx) (tag : Int) (s : JPEGDescriptor) : Rd JPEGDescriptor :=
  if tag = 0x01 then do
    rTag 71
    let v ← rInt d.bo .s32
    return { s with image_start_align := some v }
  else Rd.fail .value

/-- `JPEGDescriptor.read` (src/avb/essence.py:1134-1153). -/
def JPEGDescriptor.read (d : RCtx) : Rd JPEGDescriptor := do
  let base ← CDCIDescriptor.readBody d
  rTag 0x02
  rTag 0x01
  let jpeg_table_id ← rInt d.bo .s32
  let jpeg_frame_index_offset ← rInt d.bo .u64
  let table_size ← rInt d.bo .s32
  Rd.guard (table_size ≥ 0) .assertion
  let quantization_tables ← fread table_size
  let s ← iterExt (JPEGDescriptor.ext d)
    { toCDCIDescriptor := base, jpeg_table_id, jpeg_frame_index_offset, quantization_tables,
      image_start_align := none }
  rTag 0x03
  return s

/-- `JPEGDescriptor.write` (src/avb/essence.py:1155-1172). -/
def JPEGDescriptor.write (c : WCtx) (x : JPEGDescriptor) : Wr Unit := do
  x.toCDCIDescriptor.writeBody c
  wU8 0x02
  wU8 0x01
  wInt c.bo .s32 x.jpeg_table_id
  wInt c.bo .u64 x.jpeg_frame_index_offset
  wInt c.bo .s32 x.quantization_tables.length
  Wr.emit x.quantization_tables
  Wr.ifHas x.image_start_align fun v => do
    wU8 0x01
    wU8 0x01
    wU8 71
    wInt c.bo .s32 v
  wU8 0x03

/-- `RGBADescriptor` (src/avb/essence.py:1185-1198).  An entry of `pixel_layout` is a dict with the keys
`Code` and `Size`, here a pair.  The declared property `palette` is neither read nor written and is
left out. -/
structure RGBADescriptor extends DIDDescriptor where
  pixel_layout : List (Int × Int)
  frame_index_offset : Option Int
  has_comp_min_ref : Option Bool
  comp_min_ref : Option Int
  has_comp_max_ref : Option Bool
  comp_max_ref : Option Int
  alpha_min_ref : Option Int
  alpha_max_ref : Option Int
  deriving DecidableEq

/-- The `iter_ext` body of `RGBADescriptor.read` (src/avb/essence.py:1230-1256). -/
def RGBADescriptor.ext (d : RCtx) (tag : Int) (s : RGBADescriptor) : Rd RGBADescriptor :=
  if tag = 0x01 then do
    rTag 77
    let v ← rInt d.bo .u64
    return { s with frame_index_offset := some v }
  else if tag = 0x02 then do
    rTag 66
    let a ← rBool
    rTag 72
    let b ← rInt d.bo .u32
    rTag 66
    let e ← rBool
    rTag 72
    let g ← rInt d.bo .u32
    return { s with
      has_comp_min_ref := some a, comp_min_ref := some b, has_comp_max_ref := some e
      comp_max_ref := some g }
  else if tag = 0x03 then do
    rTag 72
    let a ← rInt d.bo .u32
    rTag 72
    let b ← rInt d.bo .u32
    return { s with alpha_min_ref := some a, alpha_max_ref := some b }
  else Rd.fail .value

/-- `encode_pixel_layout` (src/avb/essence.py:1174-1182). -/
def encodePixelLayout (layout : List (Int × Int)) : Wr (Bytes × Bytes) := do
  let pixel_layout ← Wr.buffer (forW layout fun p => wU8 p.1)
  let pixel_struct ← Wr.buffer (forW layout fun p => wU8 p.2)
  return (pixel_layout, pixel_struct)

/-- `RGBADescriptor.read` (src/avb/essence.py:1200-1258). -/
def RGBADescriptor.read (d : RCtx) : Rd RGBADescriptor := do
  let base ← DIDDescriptor.readBody d
  rTag 0x02
  rTag 0x01
  let layout_size ← rInt d.bo .u32
  let pixel_layout ← fread layout_size
  let struct_size ← rInt d.bo .u32
  let pixel_struct ← fread struct_size
  Rd.guard (layout_size = struct_size) .assertion
  let palette_layout_size ← rInt d.bo .u32
  Rd.guard (palette_layout_size = 0) .assertion
  let palette_struct_size ← rInt d.bo .u32
  Rd.guard (palette_struct_size = 0) .assertion
  let palette_size ← rInt d.bo .u32
  Rd.guard (palette_size = 0) .assertion
  let s ← iterExt (RGBADescriptor.ext d)
    { toDIDDescriptor := base
      pixel_layout := List.zipWith (fun c s => ((c.toNat : Int), (s.toNat : Int)))
        pixel_layout pixel_struct
      frame_index_offset := none, has_comp_min_ref := none, comp_min_ref := none
      has_comp_max_ref := none, comp_max_ref := none, alpha_min_ref := none
      alpha_max_ref := none }
  rTag 0x03
  return s

/-- `RGBADescriptor.write` (src/avb/essence.py:1260-1313). -/
def RGBADescriptor.write (c : WCtx) (x : RGBADescriptor) : Wr Unit := do
  x.toDIDDescriptor.writeBody c
  wU8 0x02
  wU8 0x01
  let enc ← encodePixelLayout x.pixel_layout
  wInt c.bo .u32 enc.1.length
  Wr.emit enc.1
  wInt c.bo .u32 enc.2.length
  Wr.emit enc.2
  wInt c.bo .u32 0
  wInt c.bo .u32 0
  wInt c.bo .u32 0
  Wr.ifHas x.frame_index_offset fun v => do
    wU8 0x01
    wU8 0x01
    wU8 77
    wInt c.bo .u64 v
  Wr.ifHas x.has_comp_min_ref fun v => do
    wU8 0x01
    wU8 0x02
    wU8 66
    wBool v
    wU8 72
    let a ← Wr.get x.comp_min_ref
    wInt c.bo .u32 a
    wU8 66
    let b ← Wr.get x.has_comp_max_ref
    wBool b
    wU8 72
    let e ← Wr.get x.comp_max_ref
    wInt c.bo .u32 e
  Wr.ifHas x.alpha_min_ref fun v => do
    wU8 0x01
    wU8 0x03
    wU8 72
    wInt c.bo .u32 v
    wU8 72
    let a ← Wr.get x.alpha_max_ref
    wInt c.bo .u32 a
  wU8 0x03

/-- `DataDescriptor` (src/avb/essence.py:1317-1326). -/
structure DataDescriptor extends MediaFileDescriptor where
  is_offset_to_frame_indexes_valid : Bool
  offset_to_frame_indexes : Int
  first_frame_offset : Int
  min_sample_size : Int
  max_sample_size : Int
  deriving DecidableEq

/-- `DataDescriptor.read` (src/avb/essence.py:1328-1338); there is no closing tag. -/
def DataDescriptor.read (d : RCtx) : Rd DataDescriptor := do
  let base ← MediaFileDescriptor.readBody d
  rTag 0x02
  rTag 0x01
  let is_offset_to_frame_indexes_valid ← rBool
  let offset_to_frame_indexes ← rInt d.bo .u64
  let first_frame_offset ← rInt d.bo .s32
  let min_sample_size ← rInt d.bo .s32
  let max_sample_size ← rInt d.bo .s32
  return { toMediaFileDescriptor := base, is_offset_to_frame_indexes_valid,
           offset_to_frame_indexes, first_frame_offset, min_sample_size, max_sample_size }

/-- `DataDescriptor.write` (src/avb/essence.py:1340-1350); there is no closing tag. -/
def DataDescriptor.write (c : WCtx) (x : DataDescriptor) : Wr Unit := do
  x.toMediaFileDescriptor.writeBody c
  wU8 0x02
  wU8 0x01
  wBool x.is_offset_to_frame_indexes_valid
  wInt c.bo .u64 x.offset_to_frame_indexes
  wInt c.bo .s32 x.first_frame_offset
  wInt c.bo .s32 x.min_sample_size
  wInt c.bo .s32 x.max_sample_size

/-- `ANCDataDescriptor` (src/avb/essence.py:1353-1359). -/
structure ANCDataDescriptor extends DataDescriptor where
  manifest_element_count : Int
  deriving DecidableEq

/-- `ANCDataDescriptor.read` (src/avb/essence.py:1361-1369). -/
def ANCDataDescriptor.read (d : RCtx) : Rd ANCDataDescriptor := do
  let base ← DataDescriptor.read d
  rTag 0x02
  rTag 0x01
  let manifest_element_count ← rInt d.bo .s32
  rTag 0x03
  return { toDataDescriptor := base, manifest_element_count }

/-- `ANCDataDescriptor.write` (src/avb/essence.py:1371-1379). -/
def ANCDataDescriptor.write (c : WCtx) (x : ANCDataDescriptor) : Wr Unit := do
  x.toDataDescriptor.write c
  wU8 0x02
  wU8 0x01
  wInt c.bo .s32 x.manifest_element_count
  wU8 0x03

end Avb
