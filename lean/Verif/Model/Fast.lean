import Verif.Model.File

/-
The accelerated chunk readers: src/avb/_ext_core.cpp and src/avb/_ext.pyx.

A reader works on the whole payload of a chunk (`Buffer`) and a growing set of properties
(`Properties`).  It stops with the return code -1, which several callers ignore, or with a C++
exception, which no caller catches.  The state at the moment of stopping is kept, because a caller
that ignores the return code carries on from it.

An access outside of the memory that belongs to the payload or to a vector is undefined behaviour; it
is modelled as a way to stop of its own (`Stop.wild`, `Props.short_box`).

Not modelled: allocation failures for absurd counts, the C `pow` being off by one unit in the last
place.
-/

namespace Avb.Fast

/-- The properties collected from a chunk, by their Python names: `none` when the property was not
added, otherwise the value `process_poperties` stores in `property_data`
(src/avb/_ext_core.cpp:146-166, src/avb/_ext.pyx:358-388).  Adding a property twice keeps the last
value, as the dictionary does.  The C++ vectors are kept per value type; no reader uses one name
with two types on one object, so a single record is enough.  The order of the dictionary is not
modelled. -/
structure Props where
  left_bob : Option Ref := none
  right_bob : Option Ref := none
  media_kind_id : Option Int := none
  edit_rate : Option Rate := none
  /-- outer `none`: no such property; inner `none`: Python `None` -/
  name : Option (Option Text) := none
  effect_id : Option (Option Text) := none
  attributes : Option Ref := none
  session_attrs : Option Ref := none
  precomputed : Option Ref := none
  param_list : Option Ref := none
  components : Option (List Ref) := none
  length : Option Int := none
  track_id : Option Int := none
  start_time : Option Int := none
  mob_id : Option MobID := none
  interp_kind : Option Int := none
  value_type : Option Int := none
  extrap_kind : Option Int := none
  control_points : Option (List PCP) := none
  fields : Option Int := none
  uuid : Option UUID := none
  value : Option PVal := none
  enable : Option Bool := none
  control_track : Option Ref := none
  contribs_to_sig : Option Bool := none
  relative_scope : Option Int := none
  relative_track : Option Int := none
  mc_mode : Option Int := none
  num_scalars : Option Int := none
  tracks : Option (List Track) := none
  left_length : Option Int := none
  right_length : Option Int := none
  info_version : Option Int := none
  info_current : Option Int := none
  info_smooth : Option Int := none
  info_color_item : Option Int := none
  info_quality : Option Int := none
  info_is_reversed : Option Int := none
  info_aspect_on : Option Bool := none
  keyframes : Option Ref := none
  info_force_software : Option Bool := none
  info_never_hardware : Option Bool := none
  trackman : Option Ref := none
  is_ganged : Option Bool := none
  selected : Option Int := none
  last_modified : Option Int := none
  mob_type_id : Option Int := none
  usage_code : Option Int := none
  descriptor : Option Ref := none
  creation_time : Option Int := none
  mob_kind : Option Int := none
  locator : Option Ref := none
  intermediate : Option Bool := none
  physical_media : Option Ref := none
  wchar : Option Bytes := none
  is_omfi : Option Int := none
  data_offset : Option Int := none
  stored_height : Option Int := none
  stored_width : Option Int := none
  sampled_height : Option Int := none
  sampled_width : Option Int := none
  sampled_x_offset : Option Int := none
  sampled_y_offset : Option Int := none
  display_height : Option Int := none
  display_width : Option Int := none
  display_x_offset : Option Int := none
  display_y_offset : Option Int := none
  frame_layout : Option Int := none
  aspect_ratio : Option (Int × Int) := none
  line_map : Option (List Int) := none
  alpha_transparency : Option Int := none
  uniformness : Option Bool := none
  did_image_size : Option Int := none
  next_did_desc : Option Ref := none
  compress_method : Option Bytes := none
  resolution_id : Option Int := none
  image_alignment_factor : Option Int := none
  frame_index_byte_order : Option Int := none
  frame_sample_size : Option Int := none
  first_frame_offset : Option Int := none
  client_fill_start : Option Int := none
  client_fill_end : Option Int := none
  offset_to_rle_frame_index : Option Int := none
  frame_start_offset : Option Int := none
  valid_box : Option Box := none
  essence_box : Option Box := none
  source_box : Option Box := none
  framing_box : Option Box := none
  reformatting_option : Option Int := none
  transfer_characteristic : Option UUID := none
  color_primaries : Option UUID := none
  coding_equations : Option UUID := none
  essence_compression : Option UUID := none
  essence_element_size_kind : Option Int := none
  frame_checked_with_mapper : Option Bool := none
  horizontal_subsampling : Option Int := none
  vertical_subsampling : Option Int := none
  component_width : Option Int := none
  color_sitting : Option Int := none
  black_ref_level : Option Int := none
  white_ref_level : Option Int := none
  color_range : Option Int := none
  frame_index_offset : Option Int := none
  alpha_sampled_width : Option Int := none
  ignore_bw : Option Int := none
  orig_length : Option Int := none
  window_offset : Option Int := none
  keyframe_size : Option Int := none
  parameters : Option (List EffectParam) := none
  /-- one of the four kinds of boxes was added with fewer than eight numbers -/
  short_box : Bool := false
  deriving DecidableEq

/-- `Buffer.ptr` as an offset into the payload, and the properties so far
(src/avb/_ext_core.cpp:38-43). -/
structure St where
  pos : Nat
  p : Props

/-- How a reader stops early: `return -1`, a C++ exception (src/avb/_ext_core.cpp:179-188), or
undefined behaviour. -/
inductive Stop where
  | ret
  | throw
  | wild
  deriving DecidableEq, Repr

/-- An accelerated reader: payload and state in, result and state out. -/
def _root_.Avb.Fast (α : Type) : Type := Bytes → St → Except Stop α × St

variable {α β : Type}

/-- Continue with a value. -/
protected def pure (a : α) : Fast α := fun _ s => (.ok a, s)

/-- One statement after the other; an early stop ends the function. -/
protected def bind (f : Fast α) (k : α → Fast β) : Fast β := fun d s =>
  match f d s with
  | (.ok a, s') => k a d s'
  | (.error e, s') => (.error e, s')

instance : Monad Fast where
  pure := Fast.pure
  bind := Fast.bind

/-- `return -1` -/
def stop (e : Stop) : Fast α := fun _ s => (.error e, s)

/-- `add_int`, `add_string`, …: change the properties (src/avb/_ext_core.cpp:273-327). -/
def put (u : Props → Props) : Fast Unit := fun _ s => (.ok (), { s with p := u s.p })

/-- A call whose return code is not looked at (e.g. src/avb/_ext_core.cpp:461). -/
def ignore (f : Fast Unit) : Fast Unit := fun d s =>
  match f d s with
  | (.error .ret, s') => (.ok (), s')
  | r => r

/-- `read_u8` (src/avb/_ext_core.cpp:168-173): past the last byte it returns 0 and stays. -/
def u8 : Fast UInt8 := fun d s =>
  match d[s.pos]? with
  | some b => (.ok b, { s with pos := s.pos + 1 })
  | none => (.ok 0, s)

/-- `read_assert_tag` (src/avb/_ext_core.cpp:179-183). -/
def tag (t : UInt8) : Fast Unit := do
  let b ← u8
  if b = t then pure () else stop .ret

/-- `n` times `read_u8`, as in the loops of src/avb/_ext_core.cpp:236-238, 246-248, 399-401. -/
def bytes : Nat → Fast Bytes
  | 0 => pure []
  | n + 1 => do
    let b ← u8
    let bs ← bytes n
    return b :: bs

/-- `read_u16le`, `read_u32le`, `read_u64le` (src/avb/_ext_core.cpp:195-216) for 2, 4 and 8 bytes. -/
def uint (n : Nat) : Fast Nat := do
  let b ← bytes n
  return leVal b

/-- The C casts `(int8_t)`, `(int16_t)`, `(int32_t)`, `(int64_t)` of an unsigned value. -/
def toSigned (n : Nat) (v : Nat) : Int :=
  if 2 ^ (8 * n - 1) ≤ v then (v : Int) - (2 ^ (8 * n) : Int) else v

/-- A read with a signed cast, e.g. `(int32_t)read_u32le(f)`. -/
def sint (n : Nat) : Fast Int := do
  let v ← uint n
  return toSigned n v

/-- An unsigned read stored with `add_uint`, or with `add_int` but no cast. -/
def unat (n : Nat) : Fast Int := do
  let v ← uint n
  return (v : Int)

/-- `read_bool` (src/avb/_ext_core.cpp:190-193). -/
def bool : Fast Bool := do
  let b ← u8
  return b = 1

/-- `read_double_le` (src/avb/_ext_core.cpp:218-222). -/
def double : Fast F64 := do
  let v ← uint 8
  return ⟨UInt64.ofNat v⟩

/-- `mantissa * pow(10.0, exp)` (src/avb/_ext_core.cpp:229) in doubles; `pow` is taken to be
correctly rounded, and is infinite when too large. -/
def scale (m e : Int) : Rate :=
  let fin (q : Rat) : Rate := if pow2 1024 ≤ absRat q then .inf (decide (q < 0)) else .fin q
  if 0 ≤ e then
    let p := rnd ((10 ^ e.toNat : Nat) : Rat)
    if pow2 1024 ≤ p then (if m = 0 then .nan else .inf (decide (m < 0)))
    else fin (rnd ((m : Rat) * p))
  else
    let p := rnd (1 / ((10 ^ (-e).toNat : Nat) : Rat))
    fin (rnd ((m : Rat) * p))

/-- `read_exp10_encoded_float` (src/avb/_ext_core.cpp:224-230). -/
def rate : Fast Rate := do
  let m ← sint 4
  let e ← sint 2
  return scale m e

/-- `read_data32` (src/avb/_ext_core.cpp:232-239). -/
def data32 : Fast Bytes := do
  let size ← uint 4
  bytes size

/-- `read_data16` (src/avb/_ext_core.cpp:241-250). -/
def data16 : Fast Bytes := do
  let size ← uint 2
  if size < 65535 then bytes size else pure []

/-- `add_string` and `strings2dict` (src/avb/_ext_core.cpp:252-261, src/avb/_ext.pyx:295-308): the
bytes are decoded as they are. -/
def str : Fast Text := do
  let b ← data16
  return b.map macDecodeByte

/-- A reference: any 32 bit number (src/avb/_ext_core.cpp:273-280, src/avb/_ext.pyx:174-177). -/
def ref : Fast Ref := uint 4

/-- `f->ptr--` (src/avb/_ext_core.cpp:268).  Before the first byte it would leave the payload: the test
in `read_u8` is for the end only, and the next read would be out of bounds. -/
def back : Fast Unit := fun _ s =>
  if s.pos = 0 then (.error .wild, s) else (.ok (), { s with pos := s.pos - 1 })

/-- `iter_ext` (src/avb/_ext_core.cpp:263-270).  Past the last byte `read_u8` does not advance, so
the step back lands on the last byte of the data. -/
def more : Fast Bool := do
  let b ← u8
  if b = 1 then return true
  else do
    back
    return false

/-- `while (iter_ext(f)) { uint8_t tag = read_u8(f); body }` (e.g. src/avb/_ext_core.cpp:442-454).
Every turn reads a real byte 1 and the bodies only move forward, so the guard that makes the
recursion well-founded never fails for them; as it stops with `wild`, this is part of C63. -/
def iterExt (body : UInt8 → Fast Unit) : Fast Unit := fun d s =>
  match more d s with
  | (.ok true, s1) =>
    match (u8 >>= body) d s1 with
    | (.ok _, s2) =>
      if s.pos < s2.pos ∧ s2.pos ≤ d.length then iterExt body d s2 else (.error .wild, s2)
    | (.error e, s2) => (.error e, s2)
  | (.ok false, s1) => (.ok (), s1)
  | (.error e, s1) => (.error e, s1)
  termination_by d s => d.length - s.pos
  decreasing_by omega

/-- `for (i = 0; i < n; i++) v.push_back(f())` -/
def times (f : Fast α) : Nat → Fast (List α)
  | 0 => pure []
  | n + 1 => do
    let x ← f
    let xs ← times f n
    return x :: xs

/-- `add_raw_uuid` and `uuid2dict` (src/avb/_ext_core.cpp:393-404, src/avb/_ext.pyx:272-282). -/
def rawUuid : Fast UUID := do
  let b ← bytes 16
  match uuidOfBytesLE b with
  | some u => return u
  | none => stop .throw

/-- `read_mob_id` up to the final `push_back`, with the conversion of `mob_id2dict`
(src/avb/_ext_core.cpp:329-391, src/avb/_ext.pyx:284-293). -/
def mobId : Fast MobID := do
  tag 65
  let smpte_label_len ← uint 4
  if smpte_label_len ≠ 12 then stop .ret
  else do
    let label ← bytes 12
    tag 68
    let l ← u8
    tag 68
    let h ← u8
    tag 68
    let m ← u8
    tag 68
    let lo ← u8
    tag 72
    let d1 ← bytes 4
    tag 70
    let d2 ← bytes 2
    tag 70
    let d3 ← bytes 2
    tag 65
    let data4len ← uint 4
    if data4len ≠ 8 then stop .ret
    else do
      let d4 ← bytes 8
      let b := label ++ [l, h, m, lo] ++ (d1 ++ d2 ++ d3 ++ d4)
      if hb : b.length = 32 then return ⟨b, hb⟩ else stop .throw

/-- The extension loop body of `read_comp` (src/avb/_ext_core.cpp:442-454). -/
def compExt (t : UInt8) : Fast Unit :=
  if t = 0x01 then do
    tag 72
    let v ← ref
    put fun p => { p with param_list := some v }
  else stop .ret

/-- `read_comp` (src/avb/_ext_core.cpp:423-457).  As in the readers below, properties added one
after the other with no way to stop in between are added together. -/
def read_comp : Fast Unit := do
  tag 0x02
  tag 0x03
  let left_bob ← ref
  let right_bob ← ref
  let media_kind_id ← unat 2
  let edit_rate ← rate
  let name ← str
  let effect_id ← str
  let attributes ← ref
  let session_attrs ← ref
  let precomputed ← ref
  put fun p => { p with
    left_bob := some left_bob, right_bob := some right_bob, media_kind_id := some media_kind_id,
    edit_rate := some edit_rate, name := some (some name), effect_id := some (some effect_id),
    attributes := some attributes, session_attrs := some session_attrs,
    precomputed := some precomputed }
  iterExt compExt

/-- `read_sequence` (src/avb/_ext_core.cpp:459-477). -/
def read_sequence : Fast Unit := do
  ignore read_comp
  tag 0x02
  tag 0x03
  let count ← uint 4
  let components ← times ref count
  put fun p => { p with components := some components }
  tag 0x03

/-- `read_clip` (src/avb/_ext_core.cpp:478-486). -/
def read_clip : Fast Unit := do
  ignore read_comp
  tag 0x02
  tag 0x01
  let length ← unat 4
  put fun p => { p with length := some length }

/-- `read_filler` (src/avb/_ext_core.cpp:488-496). -/
def read_filler : Fast Unit := do
  ignore read_clip
  tag 0x02
  tag 0x01
  tag 0x03

/-- The extension loop body of `read_sourceclip` (src/avb/_ext_core.cpp:512-523): the return code of
`read_mob_id` is ignored. -/
def sourceclipExt (t : UInt8) : Fast Unit :=
  if t = 0x01 then
    ignore do
      let v ← mobId
      put fun p => { p with mob_id := some v }
  else stop .ret

/-- `read_sourceclip` (src/avb/_ext_core.cpp:498-528). -/
def read_sourceclip : Fast Unit := do
  ignore read_clip
  tag 0x02
  tag 0x03
  let _mob_id_hi ← uint 4
  let _mob_id_lo ← uint 4
  let track_id ← sint 2
  let start_time ← sint 4
  put fun p => { p with track_id := some track_id, start_time := some start_time }
  iterExt sourceclipExt
  tag 0x03

/-- The value of a control point (src/avb/_ext_core.cpp:556-570, src/avb/_ext.pyx:218-223). -/
def pointValue (value_type : Nat) : Fast PVal :=
  if value_type = 1 then do
    let v ← unat 4
    return .int v
  else if value_type = 2 then do
    let v ← double
    return .dbl v
  else if value_type = 4 then do
    let v ← ref
    return .ref v
  else stop .ret

/-- The value of a point property (src/avb/_ext_core.cpp:578-589, src/avb/_ext.pyx:230-233). -/
def propValue (type : Nat) : Fast PVal :=
  if type = 1 then do
    let v ← unat 4
    return .int v
  else if type = 2 then do
    let v ← double
    return .dbl v
  else stop .ret

/-- One point property (src/avb/_ext_core.cpp:574-590). -/
def pointProp : Fast PCPProp := do
  let code ← sint 2
  let type ← uint 2
  let value ← propValue type
  return { code, type, value }

/-- One control point (src/avb/_ext_core.cpp:550-591). -/
def point (value_type : Nat) : Fast PCP := do
  let offset_num ← sint 4
  let offset_den ← sint 4
  let timescale ← sint 4
  let value ← pointValue value_type
  let pp_count ← uint 2
  let pp ← times pointProp pp_count
  return { offset_num, offset_den, timescale, value, pp }

/-- The extension loop body of `read_paramclip` (src/avb/_ext_core.cpp:592-608). -/
def paramclipExt (t : UInt8) : Fast Unit :=
  if t = 0x01 then do
    tag 71
    let v ← sint 4
    put fun p => { p with extrap_kind := some v }
  else if t = 0x02 then do
    tag 71
    let v ← sint 4
    put fun p => { p with fields := some v }
  else stop .ret

/-- `read_paramclip` (src/avb/_ext_core.cpp:530-612). -/
def read_paramclip : Fast Unit := do
  ignore read_clip
  tag 0x02
  tag 0x01
  let interp_kind ← sint 4
  let value_type ← uint 2
  put fun p => { p with interp_kind := some interp_kind, value_type := some (value_type : Int) }
  let point_count ← uint 4
  let control_points ← times (point value_type) point_count
  put fun p => { p with control_points := some control_points }
  iterExt paramclipExt
  tag 0x03

/-- The value of a parameter item (src/avb/_ext_core.cpp:622-636). -/
def itemValue (value_type : Int) : Fast PVal :=
  if value_type = 1 then do
    let v ← sint 4
    return .int v
  else if value_type = 2 then do
    let v ← double
    return .dbl v
  else if value_type = 4 then do
    let v ← ref
    return .ref v
  else stop .ret

/-- The extension loop body of `read_paramitem` (src/avb/_ext_core.cpp:642-654). -/
def paramitemExt (t : UInt8) : Fast Unit :=
  if t = 0x01 then do
    tag 66
    let v ← bool
    put fun p => { p with contribs_to_sig := some v }
  else stop .ret

/-- `read_paramitem` (src/avb/_ext_core.cpp:614-657). -/
def read_paramitem : Fast Unit := do
  tag 0x02
  tag 0x02
  let uuid ← rawUuid
  let value_type ← sint 2
  put fun p => { p with uuid := some uuid, value_type := some value_type }
  let value ← itemValue value_type
  let name ← str
  let enable ← bool
  let control_track ← ref
  put fun p => { p with
    value := some value, name := some (some name), enable := some enable,
    control_track := some control_track }
  iterExt paramitemExt
  tag 0x03

/-- `read_trackref` (src/avb/_ext_core.cpp:659-670). -/
def read_trackref : Fast Unit := do
  ignore read_clip
  tag 0x02
  tag 0x01
  let relative_scope ← sint 2
  let relative_track ← sint 2
  put fun p => { p with
    relative_scope := some relative_scope, relative_track := some relative_track }
  tag 0x03

/-- `if (flags & FLAG) add(…)` (src/avb/_ext_core.cpp:695-723). -/
def opt (c : Bool) (f : Fast α) : Fast (Option α) :=
  if c then do
    let a ← f
    return some a
  else pure none

/-- A track before anything is read into it (src/avb/_ext_core.cpp:688). -/
def emptyTrack : Track :=
  { index := none, attributes := none, session_attr := none, component := none,
    filler_proxy := none, bob_data := none, control_code := none, control_sub_code := none,
    start_pos := none, read_only := none, lock_number := none }

/-- `&tracks[i]` changed in place. -/
def onTrack (i : Nat) (u : Track → Track) : Fast Unit :=
  put fun p => { p with tracks := p.tracks.map fun l => l.modify i u }

/-- One turn of the track loop (src/avb/_ext_core.cpp:690-731). -/
def oneTrack (i : Nat) : Fast Unit := do
  let flags ← uint 2
  let index ← opt (flags.testBit 0) (sint 2)
  let attributes ← opt (flags.testBit 1) ref
  let session_attr ← opt (flags.testBit 9) ref
  let component ← opt (flags.testBit 2) ref
  let filler_proxy ← opt (flags.testBit 3) ref
  let bob_data ← opt (flags.testBit 4) ref
  let control_code ← opt (flags.testBit 5) (sint 2)
  let control_sub_code ← opt (flags.testBit 6) (sint 2)
  let start_pos ← opt (flags.testBit 7) (sint 4)
  let read_only ← opt (flags.testBit 8) bool
  onTrack i fun _ =>
    { index, attributes, session_attr, component, filler_proxy, bob_data, control_code,
      control_sub_code, start_pos, read_only, lock_number := none }
  if flags &&& 0xFC00 ≠ 0 then stop .ret else pure ()

/-- `for (i …; i < track_count; i++) body(i)` from turn `i` with `n` turns left. -/
def each (body : Nat → Fast Unit) : Nat → Nat → Fast Unit
  | _, 0 => pure ()
  | i, n + 1 => do
    body i
    each body (i + 1) n

/-- One lock number (src/avb/_ext_core.cpp:737-740). -/
def oneLock (i : Nat) : Fast Unit := do
  tag 69
  let v ← sint 2
  onTrack i fun t => { t with lock_number := some v }

/-- The extension loop body of `read_trackgroup` (src/avb/_ext_core.cpp:733-747). -/
def trackgroupExt (track_count : Nat) (t : UInt8) : Fast Unit :=
  if t = 0x01 then each oneLock 0 track_count
  else stop .ret

/-- `read_trackgroup` (src/avb/_ext_core.cpp:672-750): `tracks.resize` of a negative count throws. -/
def read_trackgroup : Fast Unit := do
  ignore read_comp
  tag 0x02
  tag 0x08
  let mc_mode ← unat 1
  let length ← sint 4
  let num_scalars ← sint 4
  put fun p => { p with
    mc_mode := some mc_mode, length := some length, num_scalars := some num_scalars }
  let track_count ← sint 4
  if track_count < 0 then stop .throw
  else do
    put fun p => { p with tracks := some (List.replicate track_count.toNat emptyTrack) }
    each oneTrack 0 track_count.toNat
    iterExt (trackgroupExt track_count.toNat)

/-- The extension loop body of `read_trackeffect` (src/avb/_ext_core.cpp:773-785). -/
def trackeffectExt (t : UInt8) : Fast Unit :=
  if t = 0x02 then do
    tag 72
    let v ← ref
    put fun p => { p with trackman := some v }
  else stop .ret

/-- `read_trackeffect` (src/avb/_ext_core.cpp:752-788): no end marker is expected. -/
def read_trackeffect : Fast Unit := do
  ignore read_trackgroup
  tag 0x02
  tag 0x06
  let left_length ← sint 4
  let right_length ← sint 4
  let info_version ← sint 2
  let info_current ← sint 4
  let info_smooth ← sint 4
  let info_color_item ← sint 2
  let info_quality ← sint 2
  let info_is_reversed ← sint 1
  let info_aspect_on ← bool
  let keyframes ← ref
  let info_force_software ← bool
  let info_never_hardware ← bool
  put fun p => { p with
    left_length := some left_length, right_length := some right_length,
    info_version := some info_version, info_current := some info_current,
    info_smooth := some info_smooth, info_color_item := some info_color_item,
    info_quality := some info_quality, info_is_reversed := some info_is_reversed,
    info_aspect_on := some info_aspect_on, keyframes := some keyframes,
    info_force_software := some info_force_software,
    info_never_hardware := some info_never_hardware }
  iterExt trackeffectExt

/-- `read_selector` (src/avb/_ext_core.cpp:790-802). -/
def read_selector : Fast Unit := do
  ignore read_trackgroup
  tag 0x02
  tag 0x01
  let is_ganged ← bool
  let selected ← unat 2
  put fun p => { p with is_ganged := some is_ganged, selected := some selected }
  tag 0x03

/-- The extension loop body of `read_composition` (src/avb/_ext_core.cpp:820-835): the return code
of `read_mob_id` is ignored. -/
def compositionExt (t : UInt8) : Fast Unit :=
  if t = 0x01 then do
    tag 71
    let v ← unat 4
    put fun p => { p with creation_time := some v }
  else if t = 0x02 then
    ignore do
      let v ← mobId
      put fun p => { p with mob_id := some v }
  else stop .ret

/-- `read_composition` (src/avb/_ext_core.cpp:804-840).  Dates are kept as timestamps
(src/avb/_ext.pyx:256-259). -/
def read_composition : Fast Unit := do
  ignore read_trackgroup
  tag 0x02
  tag 0x02
  let _mob_hi ← uint 4
  let _mob_lo ← uint 4
  let last_modified ← unat 4
  let mob_type_id ← unat 1
  let usage_code ← unat 4
  let descriptor ← ref
  put fun p => { p with
    last_modified := some last_modified, mob_type_id := some mob_type_id,
    usage_code := some usage_code, descriptor := some descriptor }
  iterExt compositionExt
  tag 0x03

/-- The extension loop body of `read_media_descriptor` (src/avb/_ext_core.cpp:852-877). -/
def mediaExt (t : UInt8) : Fast Unit :=
  if t = 0x01 then do
    tag 65
    let uuid_len ← uint 4
    if uuid_len ≠ 16 then stop .ret
    else do
      let v ← rawUuid
      put fun p => { p with uuid := some v }
  else if t = 0x02 then do
    tag 65
    let v ← data32
    put fun p => { p with wchar := some v }
  else if t = 0x03 then do
    tag 72
    let v ← ref
    put fun p => { p with attributes := some v }
  else stop .ret

/-- `read_media_descriptor` (src/avb/_ext_core.cpp:842-879): no end marker is expected. -/
def read_media_descriptor : Fast Unit := do
  tag 0x02
  tag 0x03
  let mob_kind ← unat 1
  let locator ← ref
  let intermediate ← bool
  let physical_media ← ref
  put fun p => { p with
    mob_kind := some mob_kind, locator := some locator, intermediate := some intermediate,
    physical_media := some physical_media }
  iterExt mediaExt

/-- `read_media_file_descriptor` (src/avb/_ext_core.cpp:881-893). -/
def read_media_file_descriptor : Fast Unit := do
  read_media_descriptor
  tag 0x02
  tag 0x03
  let edit_rate ← rate
  let length ← sint 4
  let is_omfi ← sint 2
  let data_offset ← sint 4
  put fun p => { p with
    edit_rate := some edit_rate, length := some length, is_omfi := some is_omfi,
    data_offset := some data_offset }

/-- One coordinate pair of a box (src/avb/_ext_core.cpp:979-982 and the like). -/
def boxPoint : Fast (Int × Int) := do
  tag 71
  let x ← sint 4
  tag 71
  let y ← sint 4
  return (x, y)

/-- The array of a box is added before the numbers: if a wrong tag ends the function, an array with
fewer than eight numbers stays behind (src/avb/_ext_core.cpp:976-977, 999-1000, 1022-1023, 1046-1047). -/
def keepShort (f : Fast α) : Fast α := fun d s =>
  match f d s with
  | (.error .ret, s') => (.error .ret, { s' with p := { s'.p with short_box := true } })
  | r => r

/-- Eight coordinates (src/avb/_ext_core.cpp:976-995 and the like), grouped in pairs by
`int_array2dict` (src/avb/_ext.pyx:338-342). -/
def box : Fast Box := keepShort do
  let p0 ← boxPoint
  let p1 ← boxPoint
  let p2 ← boxPoint
  let p3 ← boxPoint
  return [p0, p1, p2, p3]

/-- The extension loop body of `read_did_descriptor` (src/avb/_ext_core.cpp:945-1098). -/
def didExt (t : UInt8) : Fast Unit :=
  if t = 0x01 then do
    tag 69
    let v ← sint 2
    put fun p => { p with frame_index_byte_order := some v }
  else if t = 0x02 then do
    tag 71
    let v ← sint 4
    put fun p => { p with frame_sample_size := some v }
  else if t = 0x03 then do
    tag 71
    let v ← sint 4
    put fun p => { p with first_frame_offset := some v }
  else if t = 0x04 then do
    tag 71
    let v ← sint 4
    put fun p => { p with client_fill_start := some v }
    tag 71
    let e ← sint 4
    put fun p => { p with client_fill_end := some e }
  else if t = 0x05 then do
    tag 71
    let v ← sint 4
    put fun p => { p with offset_to_rle_frame_index := some v }
  else if t = 0x06 then do
    tag 71
    let v ← sint 4
    put fun p => { p with frame_start_offset := some v }
  else if t = 0x08 then do
    let v ← box
    put fun p => { p with valid_box := some v }
    let e ← box
    put fun p => { p with essence_box := some e }
    let s ← box
    put fun p => { p with source_box := some s }
  else if t = 9 then do
    let v ← box
    put fun p => { p with framing_box := some v }
    tag 71
    let e ← sint 4
    put fun p => { p with reformatting_option := some e }
  else if t = 10 then do
    tag 80
    let v ← rawUuid
    put fun p => { p with transfer_characteristic := some v }
  else if t = 11 then do
    tag 80
    let v ← rawUuid
    put fun p => { p with color_primaries := some v }
    tag 80
    let e ← rawUuid
    put fun p => { p with coding_equations := some e }
  else if t = 12 then do
    tag 80
    let v ← rawUuid
    put fun p => { p with essence_compression := some v }
  else if t = 14 then do
    tag 68
    let v ← unat 1
    put fun p => { p with essence_element_size_kind := some v }
  else if t = 15 then do
    tag 66
    let v ← bool
    put fun p => { p with frame_checked_with_mapper := some v }
  else stop .ret

/-- `read_did_descriptor` (src/avb/_ext_core.cpp:895-1101): the return code of
`read_media_file_descriptor` is ignored and no end marker is expected. -/
def read_did_descriptor : Fast Unit := do
  ignore read_media_file_descriptor
  tag 0x02
  tag 0x02
  let stored_height ← sint 4
  let stored_width ← sint 4
  let sampled_height ← sint 4
  let sampled_width ← sint 4
  let sampled_x_offset ← sint 4
  let sampled_y_offset ← sint 4
  let display_height ← sint 4
  let display_width ← sint 4
  let display_x_offset ← sint 4
  let display_y_offset ← sint 4
  let frame_layout ← sint 2
  let numerator ← sint 4
  let denominator ← sint 4
  let line_map_byte_size ← uint 4
  let line_map ← times (sint 4) (line_map_byte_size / 4)
  let alpha_transparency ← sint 4
  let uniformness ← bool
  let did_image_size ← sint 4
  let next_did_desc ← ref
  let compress_method ← bytes 4
  let resolution_id ← sint 4
  let image_alignment_factor ← sint 4
  put fun p => { p with
    stored_height := some stored_height, stored_width := some stored_width,
    sampled_height := some sampled_height, sampled_width := some sampled_width,
    sampled_x_offset := some sampled_x_offset, sampled_y_offset := some sampled_y_offset,
    display_height := some display_height, display_width := some display_width,
    display_x_offset := some display_x_offset, display_y_offset := some display_y_offset,
    frame_layout := some frame_layout, aspect_ratio := some (numerator, denominator),
    line_map := some line_map, alpha_transparency := some alpha_transparency,
    uniformness := some uniformness, did_image_size := some did_image_size,
    next_did_desc := some next_did_desc, compress_method := some compress_method.reverse,
    resolution_id := some resolution_id,
    image_alignment_factor := some image_alignment_factor }
  iterExt didExt

/-- The extension loop body of `read_cdci_descriptor` (src/avb/_ext_core.cpp:1120-1136). -/
def cdciExt (t : UInt8) : Fast Unit :=
  if t = 0x01 then do
    tag 72
    let v ← unat 4
    put fun p => { p with alpha_sampled_width := some v }
  else if t = 0x02 then do
    tag 72
    let v ← unat 4
    put fun p => { p with ignore_bw := some v }
  else stop .ret

/-- `read_cdci_descriptor` (src/avb/_ext_core.cpp:1103-1139). -/
def read_cdci_descriptor : Fast Unit := do
  ignore read_did_descriptor
  tag 0x02
  tag 0x02
  let horizontal_subsampling ← unat 4
  let vertical_subsampling ← unat 4
  let component_width ← unat 4
  let color_sitting ← sint 2
  let black_ref_level ← unat 4
  let white_ref_level ← unat 4
  let color_range ← unat 4
  let frame_index_offset ← sint 8
  put fun p => { p with
    horizontal_subsampling := some horizontal_subsampling,
    vertical_subsampling := some vertical_subsampling, component_width := some component_width,
    color_sitting := some color_sitting, black_ref_level := some black_ref_level,
    white_ref_level := some white_ref_level, color_range := some color_range,
    frame_index_offset := some frame_index_offset }
  iterExt cdciExt
  tag 0x03

/-- One effect parameter (src/avb/_ext_core.cpp:1159-1219). -/
def effectParam : Fast EffectParam := do
  let percent_time ← sint 4
  let level ← sint 4
  let pos_x ← sint 4
  let floor_x ← sint 4
  let ceil_x ← sint 4
  let pos_y ← sint 4
  let floor_y ← sint 4
  let ceil_y ← sint 4
  let scale_x ← sint 4
  let scale_y ← sint 4
  let crop_left ← sint 4
  let crop_right ← sint 4
  let crop_top ← sint 4
  let crop_bottom ← sint 4
  let box0 ← sint 4
  let box1 ← sint 4
  let box2 ← sint 4
  let box3 ← sint 4
  let box_xscale ← bool
  let box_yscale ← bool
  let box_xpos ← bool
  let box_ypos ← bool
  let border_width ← sint 4
  let border_soft ← sint 4
  let splill_gain2 ← sint 2
  let splill_gain ← sint 2
  let splill_soft2 ← sint 2
  let splill_soft ← sint 2
  let enable_key_flags ← sint 1
  let color_count ← uint 4
  let colors ← times (sint 4) color_count
  let param_size ← uint 4
  let user_param ← bytes param_size
  let selected ← bool
  return { percent_time, level, pos_x, floor_x, ceil_x, pos_y, floor_y, ceil_y, scale_x, scale_y,
           crop_left, crop_right, crop_top, crop_bottom, box := [box0, box1, box2, box3],
           box_xscale, box_yscale, box_xpos, box_ypos, border_width, border_soft, splill_gain2,
           splill_gain, splill_soft2, splill_soft, enable_key_flags, colors, user_param, selected }

/-- `read_effectparamlist` (src/avb/_ext_core.cpp:1141-1224). -/
def read_effectparamlist : Fast Unit := do
  tag 0x02
  tag 0x12
  let orig_length ← sint 4
  let window_offset ← sint 4
  let parameter_count ← uint 4
  let keyframe_size ← sint 4
  let parameters ← times effectParam parameter_count
  put fun p => { p with
    orig_length := some orig_length, window_offset := some window_offset,
    keyframe_size := some keyframe_size, parameters := some parameters }
  tag 0x03

/-- The value of one attribute (src/avb/_ext_core.cpp:1243-1260, src/avb/_ext.pyx:417-438). -/
def attrValue (type : Nat) : Fast AttrVal :=
  if type = 1 then do
    let v ← sint 4
    return .int v
  else if type = 2 then do
    let v ← str
    return .str v
  else if type = 3 then do
    let v ← ref
    return .obj v
  else if type = 4 then do
    let v ← data32
    return .bob v
  else stop .ret

/-- One attribute (src/avb/_ext_core.cpp:1240-1262). -/
def attrItem : Fast (Text × AttrVal) := do
  let type ← uint 4
  let name ← str
  let value ← attrValue type
  return (name, value)

/-- `read_attributes` (src/avb/_ext_core.cpp:1226-1266): with no attributes the end marker is not
looked at. -/
def read_attributes : Fast (List (Text × AttrVal)) := do
  tag 0x02
  tag 0x01
  let attr_count ← uint 4
  if attr_count = 0 then return []
  else do
    let items ← times attrItem attr_count
    tag 0x03
    return items

/-- The table `READERS` (src/avb/_ext.pyx:719-734) without `ATTR`, which fills a dictionary instead
of properties. -/
def reader : Cls → Option (Fast Unit)
  | .CMPO => some read_composition
  | .TKFX => some read_trackeffect
  | .MDES => some read_media_descriptor
  | .DIDD => some read_did_descriptor
  | .CDCI => some read_cdci_descriptor
  | .SLCT => some read_selector
  | .SEQU => some read_sequence
  | .FILL => some read_filler
  | .SCLP => some read_sourceclip
  | .PRCL => some read_paramclip
  | .PRIT => some read_paramitem
  | .TRKR => some read_trackref
  | .FXPS => some read_effectparamlist
  | _ => none

/-- `read_sequence_data` and its siblings (src/avb/_ext.pyx:456-716): run the reader on the payload;
-1 is a `ValueError`, a C++ exception some other exception.  `int_array2dict` takes eight numbers from
the array of every box without looking at its size (src/avb/_ext.pyx:334-342).  Bytes after the point
where the reader stops are not looked at (src/avb/file.py:296-299). -/
def load (f : Fast Unit) (data : Bytes) : Except Err Props :=
  match f data { pos := 0, p := {} } with
  | (.ok _, s) => if s.p.short_box then .error .undefined else .ok s.p
  | (.error .ret, _) => .error .value
  | (.error .throw, _) => .error .exception
  | (.error .wild, _) => .error .undefined

/-- `read_attr_data` (src/avb/_ext.pyx:391-442): later attributes replace earlier ones of the same
name. -/
def loadAttr (data : Bytes) : Except Err Attributes :=
  match read_attributes data { pos := 0, p := {} } with
  | (.ok items, _) => .ok { items := items.foldl (fun l p => dictSet l p.1 p.2) [] }
  | (.error .ret, _) => .error .value
  | (.error .throw, _) => .error .exception
  | (.error .wild, _) => .error .undefined

/-- An object as a program gets it: read by the Python code, or filled in from properties or
attributes by an accelerated reader. -/
inductive Loaded where
  | portable (o : Obj)
  | props (k : Cls) (p : Props)
  | attributes (a : Attributes)

/-- Reading a payload in a little endian file opened with `use_ext` (src/avb/file.py:131-132,
296-304): by the accelerated reader when there is one, otherwise by the Python reader, and only then
is it checked that nothing is left. -/
def loadChunk (d : RCtx) (k : Cls) (payload : Bytes) : Except Err Loaded :=
  if k = .ATTR then (loadAttr payload).map .attributes
  else match reader k with
    | some f => (load f payload).map (.props k)
    | none =>
      match Obj.readAs d k payload with
      | .error e => .error e
      | .ok (o, left) => if left = [] then .ok (.portable o) else .error .assertion

/-- `AVBFile.read_object` for an object that is not in the cache (src/avb/file.py:262-323), with the
accelerated readers installed.  They are used in little endian files only
(src/avb/file.py:129-134). -/
def readObject (f : AvbFile) (index : Nat) : Except Err (Option Loaded) :=
  if index = 0 then .ok none
  else
    match f.positions[index]? with
    | none => .error .index
    | some pos =>
      match (rFourcc f.bo >>= fun id => rInt f.bo .u32 >>= fun size => pure (id, size))
          (f.data.drop pos) with
      | .error e => .error e
      | .ok ((id, size), rest) =>
        if (rest.take size.toNat).length ≠ size.toNat then .error .assertion
        else
          match Cls.ofId id with
          | none => .error .notImplemented
          | some k =>
            match f.bo with
            | .little => (loadChunk f.ctx k (rest.take size.toNat)).map some
            | .big =>
              match Obj.readAs f.ctx k (rest.take size.toNat) with
              | .error e => .error e
              | .ok (o, left) => if left = [] then .ok (some (.portable o)) else .error .assertion

end Avb.Fast
