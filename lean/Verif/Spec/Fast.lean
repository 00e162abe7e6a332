import Verif.Model.Fast
import Verif.Lemmas.Text

/-
What the accelerated readers should give: the properties of an object read by the portable code, and
the systematic differences in how the accelerated code stores values.
-/

namespace Avb

/-- The properties a portable object of class `Component` has, by name. -/
def Component.props (x : Component) : Fast.Props :=
  { left_bob := some x.left_bob, right_bob := some x.right_bob,
    media_kind_id := some x.media_kind_id, edit_rate := some x.edit_rate, name := some x.name,
    effect_id := some x.effect_id, attributes := some x.attributes,
    session_attrs := some x.session_attrs, precomputed := some x.precomputed,
    param_list := x.param_list }

/-- `Sequence` -/
def Sequence.props (x : Sequence) : Fast.Props :=
  { x.toComponent.props with components := some x.components }

/-- `Clip` and `Filler` -/
def Clip.props (x : Clip) : Fast.Props :=
  { x.toComponent.props with length := some x.length }

/-- `SourceClip` -/
def SourceClip.props (x : SourceClip) : Fast.Props :=
  { x.toClip.props with
    track_id := some x.track_id, start_time := some x.start_time, mob_id := x.mob_id }

/-- `ParamClip` -/
def ParamClip.props (x : ParamClip) : Fast.Props :=
  { x.toClip.props with
    interp_kind := some x.interp_kind, value_type := some x.value_type,
    extrap_kind := x.extrap_kind, control_points := some x.control_points, fields := x.fields }

/-- `TrackRef` -/
def TrackRef.props (x : TrackRef) : Fast.Props :=
  { x.toClip.props with
    relative_scope := some x.relative_scope, relative_track := some x.relative_track }

/-- `TrackGroup` -/
def TrackGroup.props (x : TrackGroup) : Fast.Props :=
  { x.toComponent.props with
    mc_mode := some x.mc_mode, length := some x.length, num_scalars := some x.num_scalars,
    tracks := some x.tracks }

/-- `TrackEffect` -/
def TrackEffect.props (x : TrackEffect) : Fast.Props :=
  { x.toTrackGroup.props with
    left_length := some x.left_length, right_length := some x.right_length,
    info_version := some x.info_version, info_current := some x.info_current,
    info_smooth := some x.info_smooth, info_color_item := some x.info_color_item,
    info_quality := some x.info_quality, info_is_reversed := some x.info_is_reversed,
    info_aspect_on := some x.info_aspect_on, keyframes := some x.keyframes,
    info_force_software := some x.info_force_software,
    info_never_hardware := some x.info_never_hardware, trackman := x.trackman }

/-- `Selector` -/
def Selector.props (x : Selector) : Fast.Props :=
  { x.toTrackGroup.props with is_ganged := some x.is_ganged, selected := some x.selected }

/-- `Composition` -/
def Composition.props (x : Composition) : Fast.Props :=
  { x.toTrackGroup.props with
    last_modified := some x.last_modified, mob_type_id := some x.mob_type_id,
    usage_code := some x.usage_code, descriptor := some x.descriptor,
    creation_time := x.creation_time, mob_id := x.mob_id }

/-- `MediaDescriptor` -/
def MediaDescriptor.props (x : MediaDescriptor) : Fast.Props :=
  { mob_kind := some x.mob_kind, locator := some x.locator, intermediate := some x.intermediate,
    physical_media := some x.physical_media, uuid := x.uuid, wchar := x.wchar,
    attributes := x.attributes }

/-- `MediaFileDescriptor` -/
def MediaFileDescriptor.props (x : MediaFileDescriptor) : Fast.Props :=
  { x.toMediaDescriptor.props with
    edit_rate := some x.edit_rate, length := some x.length, is_omfi := some x.is_omfi,
    data_offset := some x.data_offset }

/-- `DIDDescriptor` -/
def DIDDescriptor.props (x : DIDDescriptor) : Fast.Props :=
  { x.toMediaFileDescriptor.props with
    stored_height := some x.stored_height, stored_width := some x.stored_width,
    sampled_height := some x.sampled_height, sampled_width := some x.sampled_width,
    sampled_x_offset := some x.sampled_x_offset, sampled_y_offset := some x.sampled_y_offset,
    display_height := some x.display_height, display_width := some x.display_width,
    display_x_offset := some x.display_x_offset, display_y_offset := some x.display_y_offset,
    frame_layout := some x.frame_layout, aspect_ratio := some x.aspect_ratio,
    line_map := some x.line_map, alpha_transparency := some x.alpha_transparency,
    uniformness := some x.uniformness, did_image_size := some x.did_image_size,
    next_did_desc := some x.next_did_desc, compress_method := some x.compress_method,
    resolution_id := some x.resolution_id, image_alignment_factor := some x.image_alignment_factor,
    frame_index_byte_order := x.frame_index_byte_order, frame_sample_size := x.frame_sample_size,
    first_frame_offset := x.first_frame_offset, client_fill_start := x.client_fill_start,
    client_fill_end := x.client_fill_end,
    offset_to_rle_frame_index := x.offset_to_rle_frame_index,
    frame_start_offset := x.frame_start_offset, valid_box := x.valid_box,
    essence_box := x.essence_box, source_box := x.source_box, framing_box := x.framing_box,
    reformatting_option := x.reformatting_option,
    transfer_characteristic := x.transfer_characteristic, color_primaries := x.color_primaries,
    coding_equations := x.coding_equations, essence_compression := x.essence_compression,
    essence_element_size_kind := x.essence_element_size_kind,
    frame_checked_with_mapper := x.frame_checked_with_mapper }

/-- `CDCIDescriptor` -/
def CDCIDescriptor.props (x : CDCIDescriptor) : Fast.Props :=
  { x.toDIDDescriptor.props with
    horizontal_subsampling := some x.horizontal_subsampling,
    vertical_subsampling := some x.vertical_subsampling,
    component_width := some x.component_width, color_sitting := some x.color_sitting,
    black_ref_level := some x.black_ref_level, white_ref_level := some x.white_ref_level,
    color_range := some x.color_range, frame_index_offset := some x.frame_index_offset,
    alpha_sampled_width := x.alpha_sampled_width, ignore_bw := x.ignore_bw }

/-- `EffectParamList` -/
def EffectParamList.props (x : EffectParamList) : Fast.Props :=
  { orig_length := some x.orig_length, window_offset := some x.window_offset,
    keyframe_size := some x.keyframe_size, parameters := some x.parameters }

/-- `ParameterItem` -/
def ParameterItem.props (x : ParameterItem) : Fast.Props :=
  { uuid := some x.uuid, value_type := some x.value_type, value := some x.value,
    name := some (some x.name), enable := some x.enable, control_track := some x.control_track,
    contribs_to_sig := x.contribs_to_sig }

namespace Fast

/-- The number without sign that has the same `n` bytes. -/
def unsigned (n : Nat) (v : Int) : Int := v % 2 ^ (8 * n)

/-- An integer value without its sign. -/
def unsignedVal : PVal → PVal
  | .int v => .int (unsigned 4 v)
  | v => v

/-- A control point as the accelerated reader gives it. -/
def unsignedPoint (c : PCP) : PCP :=
  { c with
    value := unsignedVal c.value, pp := c.pp.map fun q => { q with value := unsignedVal q.value } }

/-- The integers the accelerated reader takes without sign: the media kind, the usage code, the
component width and the values of control points.  All other properties are the same. -/
def Props.unsigned (p : Props) : Props :=
  { p with
    media_kind_id := p.media_kind_id.map (Fast.unsigned 2)
    usage_code := p.usage_code.map (Fast.unsigned 4)
    component_width := p.component_width.map (Fast.unsigned 4)
    control_points := p.control_points.map fun l => l.map unsignedPoint }

/-- What the portable reader shows for a text: without outer NULs, `None` when empty. -/
def seenText (t : Option Text) : Option Text := t.bind fun t => orNone (stripText t)

/-- The texts as the portable reader gives them. -/
def Props.seen (p : Props) : Props :=
  { p with name := p.name.map seenText, effect_id := p.effect_id.map seenText }

/-- The same for a parameter item, whose name stays a text when empty. -/
def Props.seenItem (p : Props) : Props :=
  { p with name := p.name.map fun n => n.map stripText }

/-- An attribute as the portable reader would give it. -/
def seenAttr (q : Text × AttrVal) : Text × AttrVal :=
  (stripText q.1, match q.2 with | .str t => .str (stripText t) | v => v)

end Fast

/-- The number of tracks a chunk of a track group class says it has. -/
def TrackGroup.storedCount (d : RCtx) : Rd Int := do
  let _ ← Component.read d
  rTag 0x02
  rTag 0x08
  let _mc_mode ← rU8
  let _length ← rInt d.bo .s32
  let _num_scalars ← rInt d.bo .s32
  rInt d.bo .s32

/-- The number of parameters a chunk of an effect parameter list says it has. -/
def EffectParamList.storedCount (d : RCtx) : Rd Int := do
  rTag 0x02
  rTag 0x12
  let _orig_length ← rInt d.bo .s32
  let _window_offset ← rInt d.bo .s32
  rInt d.bo .s32

/-- The size of the line map a digital image descriptor says it has. -/
def DIDDescriptor.storedCount (d : RCtx) : Rd Int := do
  let _ ← MediaFileDescriptor.readBody d
  rTag 0x02
  rTag 0x02
  let _stored_height ← rInt d.bo .s32
  let _stored_width ← rInt d.bo .s32
  let _sampled_height ← rInt d.bo .s32
  let _sampled_width ← rInt d.bo .s32
  let _sampled_x_offset ← rInt d.bo .s32
  let _sampled_y_offset ← rInt d.bo .s32
  let _display_height ← rInt d.bo .s32
  let _display_width ← rInt d.bo .s32
  let _display_x_offset ← rInt d.bo .s32
  let _display_y_offset ← rInt d.bo .s32
  let _frame_layout ← rInt d.bo .s16
  let _numerator ← rInt d.bo .s32
  let _denominator ← rInt d.bo .s32
  rInt d.bo .s32

/-- The count at the place `r` looks for it is not negative, if there is one. -/
def CountOK (r : Rd Int) (bs : Bytes) : Prop := ∀ n rest, r bs = .ok (n, rest) → 0 ≤ n

namespace Fast

/-- Payloads whose number of tracks is not negative. -/
abbrev TracksOK (n : Nat) : Bytes → Prop := CountOK (TrackGroup.storedCount ⟨.little, n⟩)
/-- Payloads whose line map does not have a negative size. -/
abbrev LineMapOK (n : Nat) : Bytes → Prop := CountOK (DIDDescriptor.storedCount ⟨.little, n⟩)
/-- Payloads whose number of parameters is not negative. -/
abbrev ParamsOK (n : Nat) : Bytes → Prop := CountOK (EffectParamList.storedCount ⟨.little, n⟩)

/-- Payloads of a class in which the counts named above are not negative. -/
def CountsOK (n : Nat) : Cls → Bytes → Prop
  | .TKFX | .SLCT | .CMPO => TracksOK n
  | .DIDD | .CDCI => LineMapOK n
  | .FXPS => ParamsOK n
  | _ => fun _ => True

/-- The texts as the portable reader gives them, by class. -/
def Props.seenAs (p : Props) : Cls → Props
  | .PRIT => p.seenItem
  | _ => p.seen

end Fast

/-- The properties of an object of one of the accelerated classes, by name. -/
def Obj.props : Obj → Fast.Props
  | .CMPO x => x.props
  | .TKFX x => x.props
  | .MDES x => x.props
  | .DIDD x => x.props
  | .CDCI x => x.props
  | .SLCT x => x.props
  | .SEQU x => x.props
  | .FILL x => x.toClip.props
  | .SCLP x => x.props
  | .PRCL x => x.props
  | .PRIT x => x.props
  | .TRKR x => x.props
  | .FXPS x => x.props
  | _ => {}

namespace Fast

/-- The same attributes, in the same order, provided their names without outer NULs differ. -/
def SameAttributes (a x : Attributes) : Prop :=
  (a.items.map fun q => stripText q.1).Nodup → x.items = a.items.map seenAttr

/-- What a program gets with the accelerated readers agrees with the object it gets without. -/
def Loaded.Agrees (o : Obj) : Loaded → Prop
  | .portable o' => o' = o
  | .props k p => k = o.cls ∧ p.seenAs k = o.props.unsigned
  | .attributes a => ∃ x, o = .ATTR x ∧ SameAttributes a x

end Fast

end Avb
