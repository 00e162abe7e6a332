import Verif.Model.IOCtx

/-! Attribute access on objects: which names an object accepts, and where the values go. -/

namespace Avb.Attrs

/-- What a name in the body of a class is: a method or constant, a `property` without or with a setter, or a
slot (src/avb/core.py:166-246). -/
inductive Kind
  | plain | getter | getset | slot
  deriving DecidableEq

/-- A class statement: the first base class, the properties it adds to `propertydefs`, whether it has a
`propertydefs_dict` of its own, whether it is registered (src/avb/utils.py:102-115), whether it declares
`__slots__`, and the other names in its body.  Names with two underscores are left out.  Every
`propertydefs` is that of the base class and the names in `own` (src/avb/components.py:145 for instance). -/
structure ClassDef where
  name : Text
  base : Option Text
  own : List Text
  ownDict : Bool
  registered : Bool
  slots : Bool
  attrs : List (Text × Kind)
  deriving DecidableEq

/-- `AVBObject` (src/avb/core.py:166-170). -/
def clsAVBObject : ClassDef where
  name := "AVBObject".toList
  base := none
  own := []
  ownDict := true
  registered := false
  slots := true
  attrs := [
    ("class_id".toList, .plain), ("mark_modified".toList, .plain), ("get_property_def".toList, .plain),
    ("get".toList, .plain), ("read".toList, .plain), ("write".toList, .plain), ("copy".toList, .plain),
    ("media_kind".toList, .getter), ("root".toList, .slot), ("property_data".toList, .slot),
    ("instance_id".toList, .slot), ("propertydefs".toList, .plain), ("propertydefs_dict".toList, .plain)]

/-- `Setting` (src/avb/bin.py:13-23). -/
def clsSetting : ClassDef where
  name := "Setting".toList
  base := some "AVBObject".toList
  own := [
    "name".toList, "kind".toList, "attr_count".toList, "attr_type".toList, "attributes".toList]
  ownDict := true
  registered := false
  slots := true
  attrs := [
    ("class_id".toList, .plain), ("read".toList, .plain), ("write".toList, .plain),
    ("propertydefs".toList, .plain), ("propertydefs_dict".toList, .plain)]

/-- `BinViewSetting` (src/avb/bin.py:74-81). -/
def clsBinViewSetting : ClassDef where
  name := "BinViewSetting".toList
  base := some "Setting".toList
  own := [
    "columns".toList, "format_descriptors".toList]
  ownDict := true
  registered := true
  slots := true
  attrs := [
    ("class_id".toList, .plain), ("read".toList, .plain), ("write".toList, .plain),
    ("propertydefs".toList, .plain), ("propertydefs_dict".toList, .plain)]

/-- `BinItem` (src/avb/bin.py:174-183). -/
def clsBinItem : ClassDef where
  name := "BinItem".toList
  base := some "AVBObject".toList
  own := [
    "mob".toList, "x".toList, "y".toList, "keyframe".toList, "user_placed".toList]
  ownDict := true
  registered := true
  slots := true
  attrs := [
    ("propertydefs".toList, .plain), ("propertydefs_dict".toList, .plain)]

/-- `SiftItem` (src/avb/bin.py:186-193). -/
def clsSiftItem : ClassDef where
  name := "SiftItem".toList
  base := some "AVBObject".toList
  own := [
    "method".toList, "string".toList, "column".toList]
  ownDict := true
  registered := true
  slots := true
  attrs := [
    ("propertydefs".toList, .plain), ("propertydefs_dict".toList, .plain)]

/-- `Bin` (src/avb/bin.py:196-219). -/
def clsBin : ClassDef where
  name := "Bin".toList
  base := some "AVBObject".toList
  own := [
    "large_bin".toList, "view_setting".toList, "uid".toList, "items".toList, "display_mask".toList,
    "display_mode".toList, "sifted".toList, "sifted_settings".toList, "sort_columns".toList,
    "mac_font".toList, "mac_font_size".toList, "mac_image_scale".toList, "home_rect".toList,
    "background_color".toList, "forground_color".toList, "ql_image_scale".toList, "attributes".toList,
    "was_iconic".toList]
  ownDict := true
  registered := true
  slots := true
  attrs := [
    ("class_id".toList, .plain), ("read".toList, .plain), ("write".toList, .plain),
    ("find_by_mob_id".toList, .plain), ("add_mob".toList, .plain), ("mobs".toList, .getter),
    ("toplevel".toList, .plain), ("compositionmobs".toList, .plain), ("mastermobs".toList, .plain),
    ("_mob_dict".toList, .slot), ("propertydefs".toList, .plain), ("propertydefs_dict".toList, .plain)]

/-- `BinFirst` (src/avb/bin.py:413-419). -/
def clsBinFirst : ClassDef where
  name := "BinFirst".toList
  base := some "Bin".toList
  own := [
    "unknown_s32".toList]
  ownDict := true
  registered := true
  slots := true
  attrs := [
    ("class_id".toList, .plain), ("read".toList, .plain), ("write".toList, .plain),
    ("propertydefs".toList, .plain), ("propertydefs_dict".toList, .plain)]

/-- `Component` (src/avb/components.py:15-30). -/
def clsComponent : ClassDef where
  name := "Component".toList
  base := some "AVBObject".toList
  own := [
    "left_bob".toList, "right_bob".toList, "media_kind_id".toList, "edit_rate".toList, "name".toList,
    "effect_id".toList, "attributes".toList, "session_attrs".toList, "precomputed".toList, "param_list".toList]
  ownDict := true
  registered := false
  slots := true
  attrs := [
    ("class_id".toList, .plain), ("read".toList, .plain), ("write".toList, .plain),
    ("media_kind".toList, .getset), ("propertydefs".toList, .plain), ("propertydefs_dict".toList, .plain)]

/-- `Sequence` (src/avb/components.py:142-148). -/
def clsSequence : ClassDef where
  name := "Sequence".toList
  base := some "Component".toList
  own := [
    "components".toList]
  ownDict := true
  registered := true
  slots := true
  attrs := [
    ("class_id".toList, .plain), ("read".toList, .plain), ("write".toList, .plain),
    ("length".toList, .getter), ("nearest_component_at_time".toList, .plain),
    ("nearest_index_at_time".toList, .plain), ("positions".toList, .plain), ("propertydefs".toList, .plain),
    ("propertydefs_dict".toList, .plain)]

/-- `Clip` (src/avb/components.py:235-241). -/
def clsClip : ClassDef where
  name := "Clip".toList
  base := some "Component".toList
  own := [
    "length".toList]
  ownDict := true
  registered := false
  slots := true
  attrs := [
    ("class_id".toList, .plain), ("read".toList, .plain), ("write".toList, .plain),
    ("propertydefs".toList, .plain), ("propertydefs_dict".toList, .plain)]

/-- `SourceClip` (src/avb/components.py:258-266). -/
def clsSourceClip : ClassDef where
  name := "SourceClip".toList
  base := some "Clip".toList
  own := [
    "track_id".toList, "start_time".toList, "mob_id".toList]
  ownDict := true
  registered := true
  slots := true
  attrs := [
    ("class_id".toList, .plain), ("read".toList, .plain), ("write".toList, .plain), ("mob".toList, .getter),
    ("track".toList, .getter), ("propertydefs".toList, .plain), ("propertydefs_dict".toList, .plain)]

/-- `Timecode` (src/avb/components.py:330-338). -/
def clsTimecode : ClassDef where
  name := "Timecode".toList
  base := some "Clip".toList
  own := [
    "flags".toList, "fps".toList, "start".toList]
  ownDict := true
  registered := true
  slots := true
  attrs := [
    ("class_id".toList, .plain), ("read".toList, .plain), ("write".toList, .plain),
    ("propertydefs".toList, .plain), ("propertydefs_dict".toList, .plain)]

/-- `Edgecode` (src/avb/components.py:370-380). -/
def clsEdgecode : ClassDef where
  name := "Edgecode".toList
  base := some "Clip".toList
  own := [
    "header".toList, "film_kind".toList, "code_format".toList, "base_perf".toList, "start_ec".toList]
  ownDict := true
  registered := true
  slots := true
  attrs := [
    ("class_id".toList, .plain), ("read".toList, .plain), ("write".toList, .plain),
    ("propertydefs".toList, .plain), ("propertydefs_dict".toList, .plain)]

/-- `TrackRef` (src/avb/components.py:416-423). -/
def clsTrackRef : ClassDef where
  name := "TrackRef".toList
  base := some "Clip".toList
  own := [
    "relative_scope".toList, "relative_track".toList]
  ownDict := true
  registered := true
  slots := true
  attrs := [
    ("class_id".toList, .plain), ("read".toList, .plain), ("write".toList, .plain),
    ("propertydefs".toList, .plain), ("propertydefs_dict".toList, .plain)]

/-- `ParamControlPoint` (src/avb/components.py:469-477). -/
def clsParamControlPoint : ClassDef where
  name := "ParamControlPoint".toList
  base := some "AVBObject".toList
  own := [
    "offset".toList, "timescale".toList, "value".toList, "pp".toList]
  ownDict := true
  registered := true
  slots := true
  attrs := [
    ("time".toList, .getter), ("point_properties".toList, .getter), ("base_frame".toList, .getter),
    ("tangents".toList, .getter), ("propertydefs".toList, .plain), ("propertydefs_dict".toList, .plain)]

/-- `ParamControlPointProperty` (src/avb/components.py:518-525). -/
def clsParamControlPointProperty : ClassDef where
  name := "ParamControlPointProperty".toList
  base := some "AVBObject".toList
  own := [
    "code".toList, "type".toList, "value".toList]
  ownDict := true
  registered := true
  slots := true
  attrs := [
    ("name".toList, .getter), ("type_name".toList, .getter), ("propertydefs".toList, .plain),
    ("propertydefs_dict".toList, .plain)]

/-- `ParamClip` (src/avb/components.py:544-554). -/
def clsParamClip : ClassDef where
  name := "ParamClip".toList
  base := some "Clip".toList
  own := [
    "interp_kind".toList, "value_type".toList, "extrap_kind".toList, "control_points".toList, "fields".toList]
  ownDict := true
  registered := true
  slots := true
  attrs := [
    ("class_id".toList, .plain), ("read".toList, .plain), ("write".toList, .plain),
    ("value_type_name".toList, .getter), ("interp".toList, .getter), ("nearest_index".toList, .plain),
    ("value_at".toList, .plain), ("integrate".toList, .plain), ("propertydefs".toList, .plain),
    ("propertydefs_dict".toList, .plain)]

/-- `ControlPoint` (src/avb/components.py:831-839). -/
def clsControlPoint : ClassDef where
  name := "ControlPoint".toList
  base := some "AVBObject".toList
  own := [
    "offset".toList, "time_scale".toList, "value".toList, "pp".toList]
  ownDict := true
  registered := true
  slots := true
  attrs := [
    ("propertydefs".toList, .plain), ("propertydefs_dict".toList, .plain)]

/-- `ControlPointProperty` (src/avb/components.py:842-848). -/
def clsControlPointProperty : ClassDef where
  name := "ControlPointProperty".toList
  base := some "AVBObject".toList
  own := [
    "code".toList, "value".toList]
  ownDict := true
  registered := true
  slots := true
  attrs := [
    ("propertydefs".toList, .plain), ("propertydefs_dict".toList, .plain)]

/-- `ControlClip` (src/avb/components.py:852-859). -/
def clsControlClip : ClassDef where
  name := "ControlClip".toList
  base := some "Clip".toList
  own := [
    "interp_kind".toList, "control_points".toList]
  ownDict := true
  registered := true
  slots := true
  attrs := [
    ("class_id".toList, .plain), ("read".toList, .plain), ("write".toList, .plain),
    ("propertydefs".toList, .plain), ("propertydefs_dict".toList, .plain)]

/-- `Filler` (src/avb/components.py:930-933). -/
def clsFiller : ClassDef where
  name := "Filler".toList
  base := some "Clip".toList
  own := []
  ownDict := true
  registered := true
  slots := true
  attrs := [
    ("class_id".toList, .plain), ("read".toList, .plain), ("write".toList, .plain),
    ("propertydefs_dict".toList, .plain)]

/-- `MediaDescriptor` (src/avb/essence.py:15-27). -/
def clsMediaDescriptor : ClassDef where
  name := "MediaDescriptor".toList
  base := some "AVBObject".toList
  own := [
    "mob_kind".toList, "locator".toList, "intermediate".toList, "physical_media".toList, "uuid".toList,
    "wchar".toList, "attributes".toList]
  ownDict := true
  registered := true
  slots := true
  attrs := [
    ("class_id".toList, .plain), ("read".toList, .plain), ("write".toList, .plain),
    ("propertydefs".toList, .plain), ("propertydefs_dict".toList, .plain)]

/-- `TapeDescriptor` (src/avb/essence.py:101-106). -/
def clsTapeDescriptor : ClassDef where
  name := "TapeDescriptor".toList
  base := some "MediaDescriptor".toList
  own := [
    "cframe".toList]
  ownDict := false
  registered := true
  slots := true
  attrs := [
    ("class_id".toList, .plain), ("read".toList, .plain), ("write".toList, .plain),
    ("propertydefs".toList, .plain)]

/-- `FilmDescriptor` (src/avb/essence.py:127-129). -/
def clsFilmDescriptor : ClassDef where
  name := "FilmDescriptor".toList
  base := some "MediaDescriptor".toList
  own := []
  ownDict := false
  registered := true
  slots := true
  attrs := [
    ("class_id".toList, .plain), ("read".toList, .plain), ("write".toList, .plain)]

/-- `NagraDescriptor` (src/avb/essence.py:147-149). -/
def clsNagraDescriptor : ClassDef where
  name := "NagraDescriptor".toList
  base := some "MediaDescriptor".toList
  own := []
  ownDict := false
  registered := true
  slots := true
  attrs := [
    ("class_id".toList, .plain), ("read".toList, .plain), ("write".toList, .plain)]

/-- `MediaFileDescriptor` (src/avb/essence.py:167-175). -/
def clsMediaFileDescriptor : ClassDef where
  name := "MediaFileDescriptor".toList
  base := some "MediaDescriptor".toList
  own := [
    "edit_rate".toList, "length".toList, "is_omfi".toList, "data_offset".toList]
  ownDict := false
  registered := true
  slots := true
  attrs := [
    ("class_id".toList, .plain), ("read".toList, .plain), ("write".toList, .plain),
    ("propertydefs".toList, .plain)]

/-- `MultiDescriptor` (src/avb/essence.py:206-211). -/
def clsMultiDescriptor : ClassDef where
  name := "MultiDescriptor".toList
  base := some "MediaFileDescriptor".toList
  own := [
    "descriptors".toList]
  ownDict := false
  registered := true
  slots := true
  attrs := [
    ("class_id".toList, .plain), ("read".toList, .plain), ("write".toList, .plain),
    ("propertydefs".toList, .plain)]

/-- `WaveDescriptor` (src/avb/essence.py:241-246). -/
def clsWaveDescriptor : ClassDef where
  name := "WaveDescriptor".toList
  base := some "MediaFileDescriptor".toList
  own := [
    "summary".toList]
  ownDict := false
  registered := true
  slots := true
  attrs := [
    ("class_id".toList, .plain), ("read".toList, .plain), ("write".toList, .plain),
    ("propertydefs".toList, .plain)]

/-- `AIFCDescriptor` (src/avb/essence.py:273-279). -/
def clsAIFCDescriptor : ClassDef where
  name := "AIFCDescriptor".toList
  base := some "MediaFileDescriptor".toList
  own := [
    "summary".toList, "data_pos".toList]
  ownDict := false
  registered := true
  slots := true
  attrs := [
    ("class_id".toList, .plain), ("read".toList, .plain), ("write".toList, .plain),
    ("propertydefs".toList, .plain)]

/-- `PCMADescriptor` (src/avb/essence.py:321-347). -/
def clsPCMADescriptor : ClassDef where
  name := "PCMADescriptor".toList
  base := some "MediaFileDescriptor".toList
  own := [
    "channels".toList, "quantization_bits".toList, "sample_rate".toList, "locked".toList,
    "audio_ref_level".toList, "electro_spatial_formulation".toList, "dial_norm".toList,
    "coding_format".toList, "block_align".toList, "sequence_offset".toList, "average_bps".toList,
    "has_peak_envelope_data".toList, "peak_envelope_version".toList, "peak_envelope_format".toList,
    "points_per_peak_value".toList, "peak_envelope_block_size".toList, "peak_channel_count".toList,
    "peak_frame_count".toList, "peak_of_peaks_offset".toList, "peak_envelope_timestamp".toList,
    "ebu_timestamp".toList, "timecode_framerate".toList]
  ownDict := false
  registered := true
  slots := true
  attrs := [
    ("class_id".toList, .plain), ("read".toList, .plain), ("write".toList, .plain),
    ("propertydefs".toList, .plain)]

/-- `MPGADescriptor` (src/avb/essence.py:440-455). -/
def clsMPGADescriptor : ClassDef where
  name := "MPGADescriptor".toList
  base := some "MediaFileDescriptor".toList
  own := [
    "channels".toList, "quantization_bits".toList, "sample_rate".toList, "locked".toList,
    "audio_ref_level".toList, "electro_spatial_formulation".toList, "dial_norm".toList,
    "coding_format".toList, "bit_rate".toList, "sub_frame_alignment".toList, "origin".toList]
  ownDict := false
  registered := true
  slots := true
  attrs := [
    ("class_id".toList, .plain), ("read".toList, .plain), ("write".toList, .plain),
    ("propertydefs".toList, .plain)]

/-- `DIDDescriptor` (src/avb/essence.py:521-563). -/
def clsDIDDescriptor : ClassDef where
  name := "DIDDescriptor".toList
  base := some "MediaFileDescriptor".toList
  own := [
    "stored_height".toList, "stored_width".toList, "sampled_height".toList, "sampled_width".toList,
    "sampled_x_offset".toList, "sampled_y_offset".toList, "display_height".toList, "display_width".toList,
    "display_x_offset".toList, "display_y_offset".toList, "frame_layout".toList, "aspect_ratio".toList,
    "line_map".toList, "alpha_transparency".toList, "uniformness".toList, "did_image_size".toList,
    "next_did_desc".toList, "compress_method".toList, "resolution_id".toList, "image_alignment_factor".toList,
    "frame_index_byte_order".toList, "frame_sample_size".toList, "first_frame_offset".toList,
    "client_fill_start".toList, "client_fill_end".toList, "offset_to_rle_frame_index".toList,
    "frame_start_offset".toList, "valid_box".toList, "essence_box".toList, "source_box".toList,
    "framing_box".toList, "reformatting_option".toList, "transfer_characteristic".toList,
    "color_primaries".toList, "coding_equations".toList, "essence_compression".toList,
    "essence_element_size_kind".toList, "frame_checked_with_mapper".toList]
  ownDict := false
  registered := true
  slots := true
  attrs := [
    ("class_id".toList, .plain), ("read".toList, .plain), ("write".toList, .plain),
    ("propertydefs".toList, .plain)]

/-- `CDCIDescriptor` (src/avb/essence.py:986-1000). -/
def clsCDCIDescriptor : ClassDef where
  name := "CDCIDescriptor".toList
  base := some "DIDDescriptor".toList
  own := [
    "horizontal_subsampling".toList, "vertical_subsampling".toList, "component_width".toList,
    "color_sitting".toList, "black_ref_level".toList, "white_ref_level".toList, "color_range".toList,
    "frame_index_offset".toList, "alpha_sampled_width".toList, "ignore_bw".toList]
  ownDict := false
  registered := true
  slots := true
  attrs := [
    ("class_id".toList, .plain), ("read".toList, .plain), ("write".toList, .plain),
    ("propertydefs".toList, .plain)]

/-- `MPGIDescriptor` (src/avb/essence.py:1066-1080). -/
def clsMPGIDescriptor : ClassDef where
  name := "MPGIDescriptor".toList
  base := some "CDCIDescriptor".toList
  own := [
    "mpeg_version".toList, "profile".toList, "gop_structure".toList, "stream_type".toList,
    "random_access".toList, "leading_discard".toList, "trailing_discard".toList, "min_gop_length".toList,
    "max_gop_length".toList, "sequence_hdr".toList]
  ownDict := false
  registered := true
  slots := true
  attrs := [
    ("class_id".toList, .plain), ("read".toList, .plain), ("write".toList, .plain),
    ("propertydefs".toList, .plain)]

/-- `JPEGDescriptor` (src/avb/essence.py:1124-1132). -/
def clsJPEGDescriptor : ClassDef where
  name := "JPEGDescriptor".toList
  base := some "CDCIDescriptor".toList
  own := [
    "jpeg_table_id".toList, "jpeg_frame_index_offset".toList, "quantization_tables".toList,
    "image_start_align".toList]
  ownDict := false
  registered := true
  slots := true
  attrs := [
    ("class_id".toList, .plain), ("read".toList, .plain), ("write".toList, .plain),
    ("propertydefs".toList, .plain)]

/-- `RGBADescriptor` (src/avb/essence.py:1185-1198). -/
def clsRGBADescriptor : ClassDef where
  name := "RGBADescriptor".toList
  base := some "DIDDescriptor".toList
  own := [
    "pixel_layout".toList, "palette".toList, "frame_index_offset".toList, "has_comp_min_ref".toList,
    "comp_min_ref".toList, "has_comp_max_ref".toList, "comp_max_ref".toList, "alpha_min_ref".toList,
    "alpha_max_ref".toList]
  ownDict := false
  registered := true
  slots := true
  attrs := [
    ("class_id".toList, .plain), ("read".toList, .plain), ("write".toList, .plain),
    ("propertydefs".toList, .plain)]

/-- `DataDescriptor` (src/avb/essence.py:1317-1326). -/
def clsDataDescriptor : ClassDef where
  name := "DataDescriptor".toList
  base := some "MediaFileDescriptor".toList
  own := [
    "is_offset_to_frame_indexes_valid".toList, "offset_to_frame_indexes".toList, "first_frame_offset".toList,
    "min_sample_size".toList, "max_sample_size".toList]
  ownDict := false
  registered := true
  slots := true
  attrs := [
    ("class_id".toList, .plain), ("read".toList, .plain), ("write".toList, .plain),
    ("propertydefs".toList, .plain)]

/-- `ANCDataDescriptor` (src/avb/essence.py:1353-1359). -/
def clsANCDataDescriptor : ClassDef where
  name := "ANCDataDescriptor".toList
  base := some "DataDescriptor".toList
  own := [
    "manifest_element_count".toList]
  ownDict := false
  registered := true
  slots := true
  attrs := [
    ("class_id".toList, .plain), ("read".toList, .plain), ("write".toList, .plain),
    ("propertydefs".toList, .plain)]

/-- `FileLocator` (src/avb/misc.py:15-24). -/
def clsFileLocator : ClassDef where
  name := "FileLocator".toList
  base := some "AVBObject".toList
  own := [
    "path".toList, "path_posix".toList, "path_utf8".toList, "path2_utf8".toList]
  ownDict := true
  registered := false
  slots := true
  attrs := [
    ("class_id".toList, .plain), ("read".toList, .plain), ("write".toList, .plain),
    ("propertydefs".toList, .plain), ("propertydefs_dict".toList, .plain)]

/-- `MacFileLocator` (src/avb/misc.py:78-81). -/
def clsMacFileLocator : ClassDef where
  name := "MacFileLocator".toList
  base := some "FileLocator".toList
  own := []
  ownDict := true
  registered := true
  slots := true
  attrs := [
    ("class_id".toList, .plain), ("propertydefs_dict".toList, .plain)]

/-- `WinFileLocator` (src/avb/misc.py:84-87). -/
def clsWinFileLocator : ClassDef where
  name := "WinFileLocator".toList
  base := some "FileLocator".toList
  own := []
  ownDict := true
  registered := true
  slots := true
  attrs := [
    ("class_id".toList, .plain), ("propertydefs_dict".toList, .plain)]

/-- `URLLocator` (src/avb/misc.py:90-93). -/
def clsURLLocator : ClassDef where
  name := "URLLocator".toList
  base := some "AVBObject".toList
  own := []
  ownDict := true
  registered := true
  slots := true
  attrs := [
    ("class_id".toList, .plain), ("read".toList, .plain), ("write".toList, .plain),
    ("propertydefs_dict".toList, .plain)]

/-- `GraphicEffect` (src/avb/misc.py:106-112). -/
def clsGraphicEffect : ClassDef where
  name := "GraphicEffect".toList
  base := some "AVBObject".toList
  own := [
    "pict_data".toList]
  ownDict := true
  registered := true
  slots := true
  attrs := [
    ("class_id".toList, .plain), ("read".toList, .plain), ("write".toList, .plain),
    ("propertydefs".toList, .plain), ("propertydefs_dict".toList, .plain)]

/-- `ShapeList` (src/avb/misc.py:140-145). -/
def clsShapeList : ClassDef where
  name := "ShapeList".toList
  base := some "AVBObject".toList
  own := [
    "shape_data".toList]
  ownDict := true
  registered := true
  slots := false
  attrs := [
    ("class_id".toList, .plain), ("read".toList, .plain), ("write".toList, .plain),
    ("propertydefs".toList, .plain), ("propertydefs_dict".toList, .plain)]

/-- `ColorCorrectionEffect` (src/avb/misc.py:172-178). -/
def clsColorCorrectionEffect : ClassDef where
  name := "ColorCorrectionEffect".toList
  base := some "AVBObject".toList
  own := [
    "color_correction".toList]
  ownDict := true
  registered := true
  slots := true
  attrs := [
    ("class_id".toList, .plain), ("read".toList, .plain), ("write".toList, .plain),
    ("propertydefs".toList, .plain), ("propertydefs_dict".toList, .plain)]

/-- `EffectParam` (src/avb/misc.py:205-238). -/
def clsEffectParam : ClassDef where
  name := "EffectParam".toList
  base := some "AVBObject".toList
  own := [
    "percent_time".toList, "level".toList, "pos_x".toList, "floor_x".toList, "ceil_x".toList, "pos_y".toList,
    "floor_y".toList, "ceil_y".toList, "scale_x".toList, "scale_y".toList, "crop_left".toList,
    "crop_right".toList, "crop_top".toList, "crop_bottom".toList, "box".toList, "box_xscale".toList,
    "box_yscale".toList, "box_xpos".toList, "box_ypos".toList, "border_width".toList, "border_soft".toList,
    "splill_gain2".toList, "splill_gain".toList, "splill_soft2".toList, "splill_soft".toList,
    "enable_key_flags".toList, "colors".toList, "user_param".toList, "selected".toList]
  ownDict := true
  registered := true
  slots := true
  attrs := [
    ("propertydefs".toList, .plain), ("propertydefs_dict".toList, .plain)]

/-- `EffectParamList` (src/avb/misc.py:241-250). -/
def clsEffectParamList : ClassDef where
  name := "EffectParamList".toList
  base := some "AVBObject".toList
  own := [
    "orig_length".toList, "window_offset".toList, "keyframe_size".toList, "parameters".toList]
  ownDict := true
  registered := true
  slots := true
  attrs := [
    ("class_id".toList, .plain), ("read".toList, .plain), ("write".toList, .plain),
    ("propertydefs".toList, .plain), ("propertydefs_dict".toList, .plain)]

/-- `CFUserParam` (src/avb/misc.py:392-400). -/
def clsCFUserParam : ClassDef where
  name := "CFUserParam".toList
  base := some "AVBObject".toList
  own := [
    "byte_order".toList, "uuid".toList, "data".toList]
  ownDict := true
  registered := true
  slots := true
  attrs := [
    ("class_id".toList, .plain), ("read".toList, .plain), ("write".toList, .plain),
    ("propertydefs".toList, .plain), ("propertydefs_dict".toList, .plain)]

/-- `ParameterItem` (src/avb/misc.py:441-453). -/
def clsParameterItem : ClassDef where
  name := "ParameterItem".toList
  base := some "AVBObject".toList
  own := [
    "uuid".toList, "value_type".toList, "value".toList, "name".toList, "enable".toList,
    "control_track".toList, "contribs_to_sig".toList]
  ownDict := true
  registered := true
  slots := true
  attrs := [
    ("class_id".toList, .plain), ("read".toList, .plain), ("write".toList, .plain),
    ("parameter_name".toList, .getter), ("value_type_name".toList, .getter), ("propertydefs".toList, .plain),
    ("propertydefs_dict".toList, .plain)]

/-- `MSMLocator` (src/avb/misc.py:535-544). -/
def clsMSMLocator : ClassDef where
  name := "MSMLocator".toList
  base := some "AVBObject".toList
  own := [
    "last_known_volume".toList, "domain_type".toList, "mob_id".toList, "last_known_volume_utf8".toList]
  ownDict := true
  registered := true
  slots := true
  attrs := [
    ("class_id".toList, .plain), ("read".toList, .plain), ("write".toList, .plain),
    ("propertydefs".toList, .plain), ("propertydefs_dict".toList, .plain)]

/-- `Position` (src/avb/misc.py:605-611). -/
def clsPosition : ClassDef where
  name := "Position".toList
  base := some "AVBObject".toList
  own := [
    "mob_id".toList]
  ownDict := true
  registered := true
  slots := true
  attrs := [
    ("class_id".toList, .plain), ("read".toList, .plain), ("write".toList, .plain),
    ("propertydefs".toList, .plain), ("propertydefs_dict".toList, .plain)]

/-- `BOBPosition` (src/avb/misc.py:651-660). -/
def clsBOBPosition : ClassDef where
  name := "BOBPosition".toList
  base := some "Position".toList
  own := [
    "sample_num".toList, "length".toList, "track_type".toList, "track_index".toList]
  ownDict := true
  registered := true
  slots := true
  attrs := [
    ("class_id".toList, .plain), ("read".toList, .plain), ("write".toList, .plain),
    ("propertydefs".toList, .plain), ("propertydefs_dict".toList, .plain)]

/-- `DIDPosition` (src/avb/misc.py:691-700). -/
def clsDIDPosition : ClassDef where
  name := "DIDPosition".toList
  base := some "BOBPosition".toList
  own := [
    "strip".toList, "offset".toList, "byte_length".toList, "spos_invalid".toList]
  ownDict := true
  registered := true
  slots := true
  attrs := [
    ("class_id".toList, .plain), ("read".toList, .plain), ("write".toList, .plain),
    ("propertydefs".toList, .plain), ("propertydefs_dict".toList, .plain)]

/-- `MPGPosition` (src/avb/misc.py:731-740). -/
def clsMPGPosition : ClassDef where
  name := "MPGPosition".toList
  base := some "DIDPosition".toList
  own := [
    "trailing_discards".toList, "need_seq_hdr".toList, "leader_length".toList, "fields".toList]
  ownDict := true
  registered := true
  slots := true
  attrs := [
    ("class_id".toList, .plain), ("read".toList, .plain), ("write".toList, .plain),
    ("propertydefs".toList, .plain), ("propertydefs_dict".toList, .plain)]

/-- `BinRef` (src/avb/misc.py:784-793). -/
def clsBinRef : ClassDef where
  name := "BinRef".toList
  base := some "AVBObject".toList
  own := [
    "uid_high".toList, "uid_low".toList, "name".toList, "name_utf8".toList]
  ownDict := true
  registered := true
  slots := true
  attrs := [
    ("class_id".toList, .plain), ("read".toList, .plain), ("write".toList, .plain),
    ("propertydefs".toList, .plain), ("propertydefs_dict".toList, .plain)]

/-- `MobRef` (src/avb/misc.py:832-839). -/
def clsMobRef : ClassDef where
  name := "MobRef".toList
  base := some "AVBObject".toList
  own := [
    "position".toList, "mob_id".toList]
  ownDict := true
  registered := true
  slots := true
  attrs := [
    ("class_id".toList, .plain), ("read".toList, .plain), ("write".toList, .plain),
    ("propertydefs".toList, .plain), ("propertydefs_dict".toList, .plain)]

/-- `Marker` (src/avb/misc.py:883-892). -/
def clsMarker : ClassDef where
  name := "Marker".toList
  base := some "MobRef".toList
  own := [
    "comp_offset".toList, "attributes".toList, "color".toList, "handled_codes".toList]
  ownDict := true
  registered := true
  slots := true
  attrs := [
    ("class_id".toList, .plain), ("read".toList, .plain), ("write".toList, .plain),
    ("propertydefs".toList, .plain), ("propertydefs_dict".toList, .plain)]

/-- `TrackerManager` (src/avb/misc.py:946-953). -/
def clsTrackerManager : ClassDef where
  name := "TrackerManager".toList
  base := some "AVBObject".toList
  own := [
    "data_slots".toList, "param_slots".toList]
  ownDict := true
  registered := true
  slots := true
  attrs := [
    ("class_id".toList, .plain), ("read".toList, .plain), ("write".toList, .plain),
    ("propertydefs".toList, .plain), ("propertydefs_dict".toList, .plain)]

/-- `TrackerDataSlot` (src/avb/misc.py:978-985). -/
def clsTrackerDataSlot : ClassDef where
  name := "TrackerDataSlot".toList
  base := some "AVBObject".toList
  own := [
    "tracker_data".toList, "track_fg".toList]
  ownDict := true
  registered := true
  slots := true
  attrs := [
    ("class_id".toList, .plain), ("read".toList, .plain), ("write".toList, .plain),
    ("propertydefs".toList, .plain), ("propertydefs_dict".toList, .plain)]

/-- `TrackerParameterSlot` (src/avb/misc.py:1028-1035). -/
def clsTrackerParameterSlot : ClassDef where
  name := "TrackerParameterSlot".toList
  base := some "AVBObject".toList
  own := [
    "settings".toList, "params".toList]
  ownDict := true
  registered := true
  slots := true
  attrs := [
    ("class_id".toList, .plain), ("read".toList, .plain), ("write".toList, .plain),
    ("propertydefs".toList, .plain), ("propertydefs_dict".toList, .plain)]

/-- `TrackerData` (src/avb/misc.py:1071-1085). -/
def clsTrackerData : ClassDef where
  name := "TrackerData".toList
  base := some "AVBObject".toList
  own := [
    "settings".toList, "clip_version".toList, "clips".toList, "offset_tracking".toList, "smoothing".toList,
    "jitter_removal".toList, "filter_amount".toList, "clip5".toList, "clip6".toList]
  ownDict := true
  registered := true
  slots := true
  attrs := [
    ("class_id".toList, .plain), ("read".toList, .plain), ("write".toList, .plain),
    ("propertydefs".toList, .plain), ("propertydefs_dict".toList, .plain)]

/-- `TrackerParameter` (src/avb/misc.py:1183-1189). -/
def clsTrackerParameter : ClassDef where
  name := "TrackerParameter".toList
  base := some "AVBObject".toList
  own := [
    "settings".toList]
  ownDict := true
  registered := true
  slots := true
  attrs := [
    ("class_id".toList, .plain), ("read".toList, .plain), ("write".toList, .plain),
    ("propertydefs".toList, .plain), ("propertydefs_dict".toList, .plain)]

/-- `Track` (src/avb/trackgroups.py:30-45). -/
def clsTrack : ClassDef where
  name := "Track".toList
  base := some "AVBObject".toList
  own := [
    "index".toList, "attributes".toList, "session_attr".toList, "component".toList, "filler_proxy".toList,
    "bob_data".toList, "control_code".toList, "control_sub_code".toList, "start_pos".toList,
    "read_only".toList, "lock_number".toList]
  ownDict := true
  registered := true
  slots := true
  attrs := [
    ("media_kind".toList, .getter), ("flags".toList, .getter), ("propertydefs".toList, .plain),
    ("propertydefs_dict".toList, .plain)]

/-- `TrackGroup` (src/avb/trackgroups.py:89-98). -/
def clsTrackGroup : ClassDef where
  name := "TrackGroup".toList
  base := some "Component".toList
  own := [
    "mc_mode".toList, "length".toList, "num_scalars".toList, "tracks".toList]
  ownDict := true
  registered := true
  slots := true
  attrs := [
    ("class_id".toList, .plain), ("read".toList, .plain), ("write".toList, .plain),
    ("dependant_mobs".toList, .plain), ("propertydefs".toList, .plain), ("propertydefs_dict".toList, .plain)]

/-- `TrackEffect` (src/avb/trackgroups.py:258-276). -/
def clsTrackEffect : ClassDef where
  name := "TrackEffect".toList
  base := some "TrackGroup".toList
  own := [
    "left_length".toList, "right_length".toList, "info_version".toList, "info_current".toList,
    "info_smooth".toList, "info_color_item".toList, "info_quality".toList, "info_is_reversed".toList,
    "info_aspect_on".toList, "keyframes".toList, "info_force_software".toList, "info_never_hardware".toList,
    "trackman".toList]
  ownDict := true
  registered := true
  slots := true
  attrs := [
    ("class_id".toList, .plain), ("read".toList, .plain), ("write".toList, .plain),
    ("propertydefs".toList, .plain), ("propertydefs_dict".toList, .plain)]

/-- `PanVolumeEffect` (src/avb/trackgroups.py:340-352). -/
def clsPanVolumeEffect : ClassDef where
  name := "PanVolumeEffect".toList
  base := some "TrackEffect".toList
  own := [
    "level".toList, "pan".toList, "suppress_validation".toList, "level_set".toList, "pan_set".toList,
    "supports_seperate_gain".toList, "is_trim_gain_effect".toList]
  ownDict := true
  registered := true
  slots := true
  attrs := [
    ("class_id".toList, .plain), ("read".toList, .plain), ("write".toList, .plain),
    ("propertydefs".toList, .plain), ("propertydefs_dict".toList, .plain)]

/-- `ASPIPlugin` (src/avb/trackgroups.py:406-415). -/
def clsASPIPlugin : ClassDef where
  name := "ASPIPlugin".toList
  base := some "AVBObject".toList
  own := [
    "name".toList, "manufacturer_id".toList, "product_id".toList, "plugin_id".toList, "chunks".toList]
  ownDict := true
  registered := true
  slots := true
  attrs := [
    ("propertydefs".toList, .plain), ("propertydefs_dict".toList, .plain)]

/-- `ASPIPluginChunk` (src/avb/trackgroups.py:422-433). -/
def clsASPIPluginChunk : ClassDef where
  name := "ASPIPluginChunk".toList
  base := some "AVBObject".toList
  own := [
    "version".toList, "manufacturer_id".toList, "product_id".toList, "plugin_id".toList, "chunk_id".toList,
    "name".toList, "data".toList]
  ownDict := true
  registered := true
  slots := true
  attrs := [
    ("propertydefs".toList, .plain), ("propertydefs_dict".toList, .plain)]

/-- `AudioSuitePluginEffect` (src/avb/trackgroups.py:436-449). -/
def clsAudioSuitePluginEffect : ClassDef where
  name := "AudioSuitePluginEffect".toList
  base := some "TrackEffect".toList
  own := [
    "plugins".toList, "mob_id".toList, "mark_in".toList, "mark_out".toList, "tracks_to_affect".toList,
    "rendering_mode".toList, "padding_secs".toList, "preset_path".toList]
  ownDict := true
  registered := true
  slots := true
  attrs := [
    ("class_id".toList, .plain), ("read".toList, .plain), ("write".toList, .plain),
    ("propertydefs".toList, .plain), ("propertydefs_dict".toList, .plain)]

/-- `EqualizerBand` (src/avb/trackgroups.py:624-633). -/
def clsEqualizerBand : ClassDef where
  name := "EqualizerBand".toList
  base := some "AVBObject".toList
  own := [
    "type".toList, "freq".toList, "gain".toList, "q".toList, "enable".toList]
  ownDict := true
  registered := true
  slots := true
  attrs := [
    ("propertydefs".toList, .plain), ("propertydefs_dict".toList, .plain)]

/-- `EqualizerMultiBand` (src/avb/trackgroups.py:636-644). -/
def clsEqualizerMultiBand : ClassDef where
  name := "EqualizerMultiBand".toList
  base := some "TrackEffect".toList
  own := [
    "bands".toList, "effect_enable".toList, "filter_name".toList]
  ownDict := true
  registered := true
  slots := true
  attrs := [
    ("class_id".toList, .plain), ("read".toList, .plain), ("write".toList, .plain),
    ("propertydefs".toList, .plain), ("propertydefs_dict".toList, .plain)]

/-- `TimeWarp` (src/avb/trackgroups.py:689-695). -/
def clsTimeWarp : ClassDef where
  name := "TimeWarp".toList
  base := some "TrackGroup".toList
  own := [
    "phase_offset".toList]
  ownDict := true
  registered := false
  slots := true
  attrs := [
    ("class_id".toList, .plain), ("read".toList, .plain), ("write".toList, .plain),
    ("propertydefs".toList, .plain), ("propertydefs_dict".toList, .plain)]

/-- `CaptureMask` (src/avb/trackgroups.py:712-719). -/
def clsCaptureMask : ClassDef where
  name := "CaptureMask".toList
  base := some "TimeWarp".toList
  own := [
    "is_double".toList, "mask_bits".toList]
  ownDict := true
  registered := true
  slots := true
  attrs := [
    ("class_id".toList, .plain), ("read".toList, .plain), ("write".toList, .plain),
    ("propertydefs".toList, .plain), ("propertydefs_dict".toList, .plain)]

/-- `StrobeEffect` (src/avb/trackgroups.py:744-750). -/
def clsStrobeEffect : ClassDef where
  name := "StrobeEffect".toList
  base := some "TimeWarp".toList
  own := [
    "strobe_value".toList]
  ownDict := true
  registered := true
  slots := true
  attrs := [
    ("class_id".toList, .plain), ("read".toList, .plain), ("write".toList, .plain),
    ("propertydefs".toList, .plain), ("propertydefs_dict".toList, .plain)]

/-- `MotionEffect` (src/avb/trackgroups.py:769-778). -/
def clsMotionEffect : ClassDef where
  name := "MotionEffect".toList
  base := some "TimeWarp".toList
  own := [
    "speed_ratio".toList, "offset_adjust".toList, "source_param_list".toList, "new_source_calculation".toList]
  ownDict := true
  registered := true
  slots := true
  attrs := [
    ("class_id".toList, .plain), ("read".toList, .plain), ("write".toList, .plain),
    ("propertydefs".toList, .plain), ("propertydefs_dict".toList, .plain)]

/-- `Repeat` (src/avb/trackgroups.py:834-837). -/
def clsRepeat : ClassDef where
  name := "Repeat".toList
  base := some "TimeWarp".toList
  own := []
  ownDict := true
  registered := true
  slots := true
  attrs := [
    ("class_id".toList, .plain), ("read".toList, .plain), ("write".toList, .plain),
    ("propertydefs_dict".toList, .plain)]

/-- `EssenceGroup` (src/avb/trackgroups.py:856-862). -/
def clsEssenceGroup : ClassDef where
  name := "EssenceGroup".toList
  base := some "TrackGroup".toList
  own := [
    "rep_set_type".toList]
  ownDict := true
  registered := true
  slots := true
  attrs := [
    ("class_id".toList, .plain), ("read".toList, .plain), ("write".toList, .plain),
    ("propertydefs".toList, .plain), ("propertydefs_dict".toList, .plain)]

/-- `TransitionEffect` (src/avb/trackgroups.py:894-913). -/
def clsTransitionEffect : ClassDef where
  name := "TransitionEffect".toList
  base := some "TrackGroup".toList
  own := [
    "cutpoint".toList, "left_length".toList, "right_length".toList, "info_version".toList,
    "info_current".toList, "info_smooth".toList, "info_color_item".toList, "info_quality".toList,
    "info_is_reversed".toList, "info_aspect_on".toList, "keyframes".toList, "info_force_software".toList,
    "info_never_hardware".toList, "trackman".toList]
  ownDict := true
  registered := true
  slots := true
  attrs := [
    ("class_id".toList, .plain), ("read".toList, .plain), ("write".toList, .plain),
    ("propertydefs".toList, .plain), ("propertydefs_dict".toList, .plain)]

/-- `Selector` (src/avb/trackgroups.py:987-994). -/
def clsSelector : ClassDef where
  name := "Selector".toList
  base := some "TrackGroup".toList
  own := [
    "is_ganged".toList, "selected".toList]
  ownDict := true
  registered := true
  slots := true
  attrs := [
    ("class_id".toList, .plain), ("read".toList, .plain), ("write".toList, .plain),
    ("components".toList, .plain), ("propertydefs".toList, .plain), ("propertydefs_dict".toList, .plain)]

/-- `Composition` (src/avb/trackgroups.py:1025-1036). -/
def clsComposition : ClassDef where
  name := "Composition".toList
  base := some "TrackGroup".toList
  own := [
    "last_modified".toList, "mob_type_id".toList, "usage_code".toList, "descriptor".toList,
    "creation_time".toList, "mob_id".toList]
  ownDict := true
  registered := true
  slots := true
  attrs := [
    ("class_id".toList, .plain), ("read".toList, .plain), ("write".toList, .plain), ("usage".toList, .getter),
    ("mob_type".toList, .getter), ("propertydefs".toList, .plain), ("propertydefs_dict".toList, .plain)]

/-- The classes derived from `AVBObject` and itself, in the order of the modules that define them
(src/avb/core.py:166, src/avb/bin.py, components.py, essence.py, misc.py and trackgroups.py). -/
def classDefs : List ClassDef := [
  clsAVBObject, clsSetting, clsBinViewSetting, clsBinItem, clsSiftItem, clsBin, clsBinFirst, clsComponent,
  clsSequence, clsClip, clsSourceClip, clsTimecode, clsEdgecode, clsTrackRef, clsParamControlPoint,
  clsParamControlPointProperty, clsParamClip, clsControlPoint, clsControlPointProperty, clsControlClip,
  clsFiller, clsMediaDescriptor, clsTapeDescriptor, clsFilmDescriptor, clsNagraDescriptor,
  clsMediaFileDescriptor, clsMultiDescriptor, clsWaveDescriptor, clsAIFCDescriptor, clsPCMADescriptor,
  clsMPGADescriptor, clsDIDDescriptor, clsCDCIDescriptor, clsMPGIDescriptor, clsJPEGDescriptor,
  clsRGBADescriptor, clsDataDescriptor, clsANCDataDescriptor, clsFileLocator, clsMacFileLocator,
  clsWinFileLocator, clsURLLocator, clsGraphicEffect, clsShapeList, clsColorCorrectionEffect, clsEffectParam,
  clsEffectParamList, clsCFUserParam, clsParameterItem, clsMSMLocator, clsPosition, clsBOBPosition,
  clsDIDPosition, clsMPGPosition, clsBinRef, clsMobRef, clsMarker, clsTrackerManager, clsTrackerDataSlot,
  clsTrackerParameterSlot, clsTrackerData, clsTrackerParameter, clsTrack, clsTrackGroup, clsTrackEffect,
  clsPanVolumeEffect, clsASPIPlugin, clsASPIPluginChunk, clsAudioSuitePluginEffect, clsEqualizerBand,
  clsEqualizerMultiBand, clsTimeWarp, clsCaptureMask, clsStrobeEffect, clsMotionEffect, clsRepeat,
  clsEssenceGroup, clsTransitionEffect, clsSelector, clsComposition]

/-- The class with a name (src/avb/utils.py:100-104). -/
def find (n : Text) : Option ClassDef := classDefs.find? fun c => c.name = n

/-- A class and its base classes, itself first (the method resolution order; src/avb/core.py:166); at most `k`
of them. -/
def chainN : Nat → Text → List ClassDef
  | 0, _ => []
  | k + 1, n =>
    match find n with
    | none => []
    | some c => c :: (match c.base with
      | none => []
      | some b => chainN k b)

/-- All of them (src/avb/core.py:166). -/
def chain (n : Text) : List ClassDef := chainN classDefs.length n

/-- `propertydefs` of a class (src/avb/core.py:167, src/avb/components.py:145 for instance). -/
def propertydefs (n : Text) : List Text := (chain n).reverse.flatMap (·.own)

/-- The class whose `propertydefs_dict` a class uses: its own, or else that of the nearest base class that has
one (src/avb/core.py:168, src/avb/utils.py:107). -/
def dictOwner (n : Text) : Option Text := ((chain n).find? (·.ownDict)).map (·.name)

/-- All `propertydefs_dict`s after the modules are imported, as pairs of the class that has the dictionary and
a key (`register_class` and `register_helper_class`, src/avb/utils.py:102-115). -/
def dicts : List (Option Text × Text) :=
  (classDefs.filter (·.registered)).flatMap fun c => (propertydefs c.name).map fun p => (dictOwner c.name, p)

/-- `name in self.propertydefs_dict` (src/avb/core.py:200). -/
def accepts (n a : Text) : Bool := dicts.contains (dictOwner n, a)

/-- The attribute of the class with a name (src/avb/core.py:166-246). -/
def classAttr (n a : Text) : Option Kind := (chain n).findSome? fun c => c.attrs.lookup a

/-- Objects of the class have a `__dict__`: some class does not declare `__slots__` (src/avb/misc.py:140-145). -/
def hasDict (n : Text) : Bool := (chain n).any fun c => !c.slots

/-- An object: its class, its `property_data` (src/avb/core.py:175) and its `__dict__` if it has one. -/
structure Inst (V : Type) where
  cls : Text
  data : List (Text × V)
  extra : List (Text × V)

/-- `d[k] = v` of an ordered dictionary (src/avb/core.py:35, 202). -/
def put {V : Type} (k : Text) (v : V) : List (Text × V) → List (Text × V)
  | [] => [(k, v)]
  | p :: l => if p.1 = k then (k, v) :: l else p :: put k v l

/-- What an assignment does: changes the object, goes to a slot or a setter (not followed here), or raises
`AttributeError`. -/
inductive Out (V : Type)
  | stored (o : Inst V)
  | elsewhere
  | raises

/-- `AVBObject.__setattr__` (src/avb/core.py:199-206) with `object.__setattr__`. -/
def setattr {V : Type} (o : Inst V) (a : Text) (v : V) : Out V :=
  if accepts o.cls a then .stored { o with data := put a v o.data }
  else match classAttr o.cls a with
    | some .slot => .elsewhere
    | some .getset => .elsewhere
    | some .getter => .raises
    | _ => if hasDict o.cls then .stored { o with extra := put a v o.extra } else .raises

/-- What reading an attribute gives: a value, something of the class (a method, the result of a `property`, a
slot; not followed here), or `AttributeError`. -/
inductive Got (V : Type)
  | val (v : V)
  | elsewhere
  | raises

/-- Attribute access: Python looks into the class and the `__dict__` first, and calls
`AVBObject.__getattr__` (src/avb/core.py:208-213) if nothing is found. -/
def getattr {V : Type} (o : Inst V) (a : Text) : Got V :=
  match classAttr o.cls a with
  | some .slot => .elsewhere
  | some .getset => .elsewhere
  | some .getter => .elsewhere
  | k => match o.extra.lookup a with
    | some v => .val v
    | none => if k.isSome then .elsewhere else match o.data.lookup a with
      | some v => .val v
      | none => .raises

/-- `AVBObject.get` (src/avb/core.py:193-197). -/
def get {V : Type} (o : Inst V) (key : Text) (default : V) : V :=
  match o.data.find? (fun p => p.1 = key) with
  | some p => p.2
  | none => default

/-- A sequence of assignments, each caught if it raises (src/avb/core.py:199-206). -/
def assign {V : Type} (o : Inst V) (p : Text × V) : Inst V :=
  match setattr o p.1 p.2 with
  | .stored o' => o'
  | _ => o

end Avb.Attrs
