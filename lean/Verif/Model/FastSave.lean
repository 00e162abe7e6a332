import Verif.Model.Fast
import Verif.Model.File

/-
What the writers see of an object that an accelerated reader loaded: the values of its property
dictionary, and the order of the dictionary.
-/

namespace Avb.Fast

/-- The properties `Component.write` uses (src/avb/components.py:65-93), looked up in the dictionary
(src/avb/core.py:207-212).  `none`: a property is missing and the lookup raises `AttributeError`. -/
def Props.component (p : Props) : Option Component := do
  return {
    left_bob := (← p.left_bob), right_bob := (← p.right_bob),
    media_kind_id := (← p.media_kind_id), edit_rate := (← p.edit_rate), name := (← p.name),
    effect_id := (← p.effect_id), attributes := (← p.attributes),
    session_attrs := (← p.session_attrs), precomputed := (← p.precomputed),
    param_list := p.param_list }

/-- The properties of a `Sequence` (src/avb/components.py:169-179). -/
def Props.sequence (p : Props) : Option Sequence := do
  return { toComponent := (← p.component), components := (← p.components) }

/-- The properties of a `Clip` (src/avb/components.py:250-255). -/
def Props.clip (p : Props) : Option Clip := do
  return { toComponent := (← p.component), length := (← p.length) }

/-- The properties of a `SourceClip` (src/avb/components.py:292-312). -/
def Props.sourceClip (p : Props) : Option SourceClip := do
  return {
    toClip := (← p.clip), track_id := (← p.track_id), start_time := (← p.start_time),
    mob_id := p.mob_id }

/-- The properties of a `ParamClip` (src/avb/components.py:618-668). -/
def Props.paramClip (p : Props) : Option ParamClip := do
  return {
    toClip := (← p.clip), interp_kind := (← p.interp_kind), value_type := (← p.value_type),
    extrap_kind := p.extrap_kind, control_points := (← p.control_points), fields := p.fields }

/-- The properties of a `TrackRef` (src/avb/components.py:436-445). -/
def Props.trackRef (p : Props) : Option TrackRef := do
  return {
    toClip := (← p.clip), relative_scope := (← p.relative_scope),
    relative_track := (← p.relative_track) }

/-- The properties of a `TrackGroup` (src/avb/trackgroups.py:169-226). -/
def Props.trackGroup (p : Props) : Option TrackGroup := do
  return {
    toComponent := (← p.component), mc_mode := (← p.mc_mode), length := (← p.length),
    num_scalars := (← p.num_scalars), tracks := (← p.tracks) }

/-- The properties of a `TrackEffect` (src/avb/trackgroups.py:309-337). -/
def Props.trackEffect (p : Props) : Option TrackEffect := do
  return {
    toTrackGroup := (← p.trackGroup), left_length := (← p.left_length),
    right_length := (← p.right_length), info_version := (← p.info_version),
    info_current := (← p.info_current), info_smooth := (← p.info_smooth),
    info_color_item := (← p.info_color_item), info_quality := (← p.info_quality),
    info_is_reversed := (← p.info_is_reversed), info_aspect_on := (← p.info_aspect_on),
    keyframes := (← p.keyframes), info_force_software := (← p.info_force_software),
    info_never_hardware := (← p.info_never_hardware), trackman := p.trackman }

/-- The properties of a `Selector` (src/avb/trackgroups.py:1009-1018). -/
def Props.selector (p : Props) : Option Selector := do
  return {
    toTrackGroup := (← p.trackGroup), is_ganged := (← p.is_ganged), selected := (← p.selected) }

/-- The properties of a `Composition` (src/avb/trackgroups.py:1084-1111). -/
def Props.composition (p : Props) : Option Composition := do
  return {
    toTrackGroup := (← p.trackGroup), last_modified := (← p.last_modified),
    mob_type_id := (← p.mob_type_id), usage_code := (← p.usage_code),
    descriptor := (← p.descriptor), creation_time := p.creation_time, mob_id := p.mob_id }

/-- The properties of a `MediaDescriptor` (src/avb/essence.py:65-94). -/
def Props.mediaDescriptor (p : Props) : Option MediaDescriptor := do
  return {
    mob_kind := (← p.mob_kind), locator := (← p.locator), intermediate := (← p.intermediate),
    physical_media := (← p.physical_media), uuid := p.uuid, wchar := p.wchar,
    attributes := p.attributes }

/-- The properties of a `MediaFileDescriptor` (src/avb/essence.py:191-200). -/
def Props.mediaFile (p : Props) : Option MediaFileDescriptor := do
  return {
    toMediaDescriptor := (← p.mediaDescriptor), edit_rate := (← p.edit_rate),
    length := (← p.length), is_omfi := (← p.is_omfi), data_offset := (← p.data_offset) }

/-- The properties of a `DIDDescriptor` (src/avb/essence.py:772-980). -/
def Props.didDescriptor (p : Props) : Option DIDDescriptor := do
  return {
    toMediaFileDescriptor := (← p.mediaFile), stored_height := (← p.stored_height),
    stored_width := (← p.stored_width), sampled_height := (← p.sampled_height),
    sampled_width := (← p.sampled_width), sampled_x_offset := (← p.sampled_x_offset),
    sampled_y_offset := (← p.sampled_y_offset), display_height := (← p.display_height),
    display_width := (← p.display_width), display_x_offset := (← p.display_x_offset),
    display_y_offset := (← p.display_y_offset), frame_layout := (← p.frame_layout),
    aspect_ratio := (← p.aspect_ratio), line_map := (← p.line_map),
    alpha_transparency := (← p.alpha_transparency), uniformness := (← p.uniformness),
    did_image_size := (← p.did_image_size), next_did_desc := (← p.next_did_desc),
    compress_method := (← p.compress_method), resolution_id := (← p.resolution_id),
    image_alignment_factor := (← p.image_alignment_factor),
    frame_index_byte_order := p.frame_index_byte_order, frame_sample_size := p.frame_sample_size,
    first_frame_offset := p.first_frame_offset, client_fill_start := p.client_fill_start,
    client_fill_end := p.client_fill_end,
    offset_to_rle_frame_index := p.offset_to_rle_frame_index,
    frame_start_offset := p.frame_start_offset, valid_box := p.valid_box,
    essence_box := p.essence_box, source_box := p.source_box, framing_box := p.framing_box,
    reformatting_option := p.reformatting_option,
    transfer_characteristic := p.transfer_characteristic, color_primaries := p.color_primaries,
    coding_equations := p.coding_equations, essence_compression := p.essence_compression,
    essence_element_size_kind := p.essence_element_size_kind,
    frame_checked_with_mapper := p.frame_checked_with_mapper }

/-- The properties of a `CDCIDescriptor` (src/avb/essence.py:1033-1060). -/
def Props.cdciDescriptor (p : Props) : Option CDCIDescriptor := do
  return {
    toDIDDescriptor := (← p.didDescriptor),
    horizontal_subsampling := (← p.horizontal_subsampling),
    vertical_subsampling := (← p.vertical_subsampling), component_width := (← p.component_width),
    color_sitting := (← p.color_sitting), black_ref_level := (← p.black_ref_level),
    white_ref_level := (← p.white_ref_level), color_range := (← p.color_range),
    frame_index_offset := (← p.frame_index_offset), alpha_sampled_width := p.alpha_sampled_width,
    ignore_bw := p.ignore_bw }

/-- The properties of an `EffectParamList` (src/avb/misc.py:326-389). -/
def Props.effectParamList (p : Props) : Option EffectParamList := do
  return {
    orig_length := (← p.orig_length), window_offset := (← p.window_offset),
    keyframe_size := (← p.keyframe_size), parameters := (← p.parameters) }

/-- The properties of a `ParameterItem` (src/avb/misc.py:485-517). -/
def Props.parameterItem (p : Props) : Option ParameterItem := do
  let name ← p.name
  return {
    uuid := (← p.uuid), value_type := (← p.value_type), value := (← p.value), name := (← name),
    enable := (← p.enable), control_track := (← p.control_track),
    contribs_to_sig := p.contribs_to_sig }

/-- The object of class `k` with these properties, as its writer sees it (src/avb/_ext.pyx:456-734). -/
def Props.object (p : Props) : Cls → Option Obj
  | .CMPO => p.composition.map .CMPO
  | .TKFX => p.trackEffect.map .TKFX
  | .MDES => p.mediaDescriptor.map .MDES
  | .DIDD => p.didDescriptor.map .DIDD
  | .CDCI => p.cdciDescriptor.map .CDCI
  | .SLCT => p.selector.map .SLCT
  | .SEQU => p.sequence.map .SEQU
  | .FILL => p.clip.map fun x => .FILL { toClip := x }
  | .SCLP => p.sourceClip.map .SCLP
  | .PRCL => p.paramClip.map .PRCL
  | .PRIT => p.parameterItem.map .PRIT
  | .TRKR => p.trackRef.map .TRKR
  | .FXPS => p.effectParamList.map .FXPS
  | _ => none

/-- The single references every component class has (src/avb/_ext_core.cpp:273-280). -/
def Props.compSingles (p : Props) : List Visit :=
  optProp p.left_bob ++ optProp p.right_bob ++ optProp p.attributes ++ optProp p.session_attrs ++
    optProp p.precomputed ++ optProp p.param_list

/-- The single references among the properties of an object of class `k`, in the order in which
`add_object_ref` is called (src/avb/_ext_core.cpp:273-280, 428-447, 630, 640, 769, 778, 818, 848-850,
870, 933).  Listed are the properties the reader of the class can set. -/
def Props.singles (p : Props) (k : Cls) : List Visit :=
  match k with
  | .MDES => optProp p.locator ++ optProp p.physical_media ++ optProp p.attributes
  | .DIDD | .CDCI =>
    optProp p.locator ++ optProp p.physical_media ++ optProp p.attributes ++ optProp p.next_did_desc
  | .PRIT => (match p.value with | some v => v.visits | none => []) ++ optProp p.control_track
  | .TKFX => p.compSingles ++ optProp p.keyframes ++ optProp p.trackman
  | .CMPO => p.compSingles ++ optProp p.descriptor
  | .SLCT | .SEQU | .FILL | .SCLP | .PRCL | .TRKR => p.compSingles
  | _ => []

/-- `process_poperties` (src/avb/_ext.pyx:358-388): the dictionary has first the single references, then
the lists of references, then values without references, then the control points, then the tracks.  The
walk before a save follows this order (src/avb/core.py:136-163).  The order of the values without
references is not modelled. -/
def Props.visits (p : Props) (k : Cls) : List Visit :=
  p.singles k ++
    match k with
    | .SEQU => (p.components.getD []).map .item
    | .PRCL => (p.control_points.getD []).flatMap fun c => c.value.visits
    | .TKFX | .SLCT | .CMPO => (p.tracks.getD []).flatMap Track.visits
    | _ => []

/-- An object as a program gets it, with its references in the order of its dictionary
(src/avb/file.py:262-323).  An object that lacks a property its writer needs is an `AttributeError` here,
when it is loaded; the program gets it when the object is written. -/
def Loaded.entry (r : Nat) : Loaded → Except Err Entry
  | .portable o => .ok ⟨r, true, o, o.visits⟩
  | .attributes a => .ok ⟨r, true, .ATTR a, a.visits⟩
  | .props k p =>
    match p.object k with
    | some o => .ok ⟨r, true, o, p.visits k⟩
    | none => .error .attribute

/-- The objects of an opened file with the accelerated readers, each read when it is asked for
(src/avb/file.py:262-323, src/avb/utils.py:21-28). -/
def fileHeap (f : AvbFile) : Heap := fun r =>
  match readObject f r with
  | .ok (some l) => l.entry r
  | .ok none => .error .attribute
  | .error e => .error e

end Avb.Fast
