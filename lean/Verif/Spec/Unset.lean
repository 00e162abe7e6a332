import Verif.Model.Unset

/-!
Which properties an object must have to be saved, and which of them the program has to assign after
`create.N()`.  Both are written down from the `write` methods and the `propertydefs`, not from the model.
-/

namespace Avb

open Unset

/-- The properties without which an object of a class cannot be saved. -/
def mandatory : Cls → List String
  | .ATTR => []
  | .PRLS => []
  | .TMCS => []
  | .BVst => ["name", "kind", "attr_count", "attr_type", "attributes", "columns"]
  | .ABIN => ["items", "large_bin", "view_setting", "uid", "display_mask", "display_mode", "sifted",
      "sifted_settings", "sort_columns", "mac_font", "mac_font_size", "mac_image_scale", "home_rect",
      "background_color", "forground_color", "ql_image_scale", "attributes", "was_iconic"]
  | .BINF => ["items", "large_bin", "view_setting", "uid", "display_mask", "display_mode", "sifted",
      "sifted_settings", "sort_columns", "mac_font", "mac_font_size", "mac_image_scale", "home_rect",
      "background_color", "forground_color", "ql_image_scale", "attributes", "was_iconic", "unknown_s32"]
  | .SEQU => ["left_bob", "right_bob", "media_kind_id", "edit_rate", "name", "effect_id", "attributes",
      "session_attrs", "precomputed", "components"]
  | .SCLP => ["left_bob", "right_bob", "media_kind_id", "edit_rate", "name", "effect_id", "attributes",
      "session_attrs", "precomputed", "length", "mob_id", "track_id", "start_time"]
  | .TCCP => ["left_bob", "right_bob", "media_kind_id", "edit_rate", "name", "effect_id", "attributes",
      "session_attrs", "precomputed", "length", "flags", "fps", "start"]
  | .ECCP => ["left_bob", "right_bob", "media_kind_id", "edit_rate", "name", "effect_id", "attributes",
      "session_attrs", "precomputed", "length", "header", "film_kind", "code_format", "base_perf",
      "start_ec"]
  | .TRKR => ["left_bob", "right_bob", "media_kind_id", "edit_rate", "name", "effect_id", "attributes",
      "session_attrs", "precomputed", "length", "relative_scope", "relative_track"]
  | .PRCL => ["left_bob", "right_bob", "media_kind_id", "edit_rate", "name", "effect_id", "attributes",
      "session_attrs", "precomputed", "length", "interp_kind", "value_type", "control_points"]
  | .CTRL => ["left_bob", "right_bob", "media_kind_id", "edit_rate", "name", "effect_id", "attributes",
      "session_attrs", "precomputed", "length", "interp_kind", "control_points"]
  | .FILL => ["left_bob", "right_bob", "media_kind_id", "edit_rate", "name", "effect_id", "attributes",
      "session_attrs", "precomputed", "length"]
  | .TRKG => ["left_bob", "right_bob", "media_kind_id", "edit_rate", "name", "effect_id", "attributes",
      "session_attrs", "precomputed", "mc_mode", "length", "num_scalars", "tracks"]
  | .TKFX => ["left_bob", "right_bob", "media_kind_id", "edit_rate", "name", "effect_id", "attributes",
      "session_attrs", "precomputed", "mc_mode", "length", "num_scalars", "tracks", "left_length",
      "right_length", "info_version", "info_current", "info_smooth", "info_color_item", "info_quality",
      "info_is_reversed", "info_aspect_on", "keyframes", "info_force_software", "info_never_hardware"]
  | .PVOL => ["left_bob", "right_bob", "media_kind_id", "edit_rate", "name", "effect_id", "attributes",
      "session_attrs", "precomputed", "mc_mode", "length", "num_scalars", "tracks", "left_length",
      "right_length", "info_version", "info_current", "info_smooth", "info_color_item", "info_quality",
      "info_is_reversed", "info_aspect_on", "keyframes", "info_force_software", "info_never_hardware",
      "level", "pan", "suppress_validation", "level_set", "pan_set"]
  | .ASPI => ["left_bob", "right_bob", "media_kind_id", "edit_rate", "name", "effect_id", "attributes",
      "session_attrs", "precomputed", "mc_mode", "length", "num_scalars", "tracks", "left_length",
      "right_length", "info_version", "info_current", "info_smooth", "info_color_item", "info_quality",
      "info_is_reversed", "info_aspect_on", "keyframes", "info_force_software", "info_never_hardware",
      "plugins"]
  | .EQMB => ["left_bob", "right_bob", "media_kind_id", "edit_rate", "name", "effect_id", "attributes",
      "session_attrs", "precomputed", "mc_mode", "length", "num_scalars", "tracks", "left_length",
      "right_length", "info_version", "info_current", "info_smooth", "info_color_item", "info_quality",
      "info_is_reversed", "info_aspect_on", "keyframes", "info_force_software", "info_never_hardware",
      "bands", "effect_enable", "filter_name"]
  | .MASK => ["left_bob", "right_bob", "media_kind_id", "edit_rate", "name", "effect_id", "attributes",
      "session_attrs", "precomputed", "mc_mode", "length", "num_scalars", "tracks", "phase_offset",
      "is_double", "mask_bits"]
  | .STRB => ["left_bob", "right_bob", "media_kind_id", "edit_rate", "name", "effect_id", "attributes",
      "session_attrs", "precomputed", "mc_mode", "length", "num_scalars", "tracks", "phase_offset",
      "strobe_value"]
  | .SPED => ["left_bob", "right_bob", "media_kind_id", "edit_rate", "name", "effect_id", "attributes",
      "session_attrs", "precomputed", "mc_mode", "length", "num_scalars", "tracks", "phase_offset",
      "speed_ratio"]
  | .REPT => ["left_bob", "right_bob", "media_kind_id", "edit_rate", "name", "effect_id", "attributes",
      "session_attrs", "precomputed", "mc_mode", "length", "num_scalars", "tracks", "phase_offset"]
  | .RSET => ["left_bob", "right_bob", "media_kind_id", "edit_rate", "name", "effect_id", "attributes",
      "session_attrs", "precomputed", "mc_mode", "length", "num_scalars", "tracks"]
  | .TNFX => ["left_bob", "right_bob", "media_kind_id", "edit_rate", "name", "effect_id", "attributes",
      "session_attrs", "precomputed", "mc_mode", "length", "num_scalars", "tracks", "cutpoint",
      "left_length", "right_length", "info_version", "info_current", "info_smooth", "info_color_item",
      "info_quality", "info_is_reversed", "info_aspect_on", "keyframes", "info_force_software",
      "info_never_hardware"]
  | .SLCT => ["left_bob", "right_bob", "media_kind_id", "edit_rate", "name", "effect_id", "attributes",
      "session_attrs", "precomputed", "mc_mode", "length", "num_scalars", "tracks", "is_ganged",
      "selected"]
  | .CMPO => ["left_bob", "right_bob", "media_kind_id", "edit_rate", "name", "effect_id", "attributes",
      "session_attrs", "precomputed", "mc_mode", "length", "num_scalars", "tracks", "mob_id",
      "last_modified", "mob_type_id", "usage_code", "descriptor"]
  | .FILE => ["path"]
  | .WINF => ["path"]
  | .URLL => []
  | .GRFX => ["pict_data"]
  | .SHLP => ["shape_data"]
  | .CCFX => ["color_correction"]
  | .FXPS => ["orig_length", "window_offset", "parameters", "keyframe_size"]
  | .AVUP => ["uuid", "data"]
  | .PRIT => ["uuid", "value_type", "value", "name", "enable", "control_track"]
  | .MSML => ["mob_id", "last_known_volume"]
  | .APOS => ["mob_id"]
  | .ABOB => ["mob_id", "sample_num", "length", "track_type", "track_index"]
  | .DIDP => ["mob_id", "sample_num", "length", "track_type", "track_index", "strip", "offset", "byte_length",
      "spos_invalid"]
  | .MPGP => ["mob_id", "sample_num", "length", "track_type", "track_index", "strip", "offset", "byte_length",
      "spos_invalid", "trailing_discards", "need_seq_hdr", "fields"]
  | .MCBR => ["uid_high", "uid_low", "name", "name_utf8"]
  | .MCMR => ["mob_id", "position"]
  | .TMBC => ["mob_id", "position", "comp_offset", "attributes", "color"]
  | .TKMN => ["data_slots", "param_slots"]
  | .TKDS => ["tracker_data"]
  | .TKPS => ["settings", "params"]
  | .TKDA => ["settings", "clip_version", "clips"]
  | .TKPA => ["settings"]
  | .MDES => ["mob_kind", "locator", "intermediate", "physical_media"]
  | .MDTP => ["mob_kind", "locator", "intermediate", "physical_media", "cframe"]
  | .MDFM => ["mob_kind", "locator", "intermediate", "physical_media"]
  | .MDNG => ["mob_kind", "locator", "intermediate", "physical_media"]
  | .MDFL => ["mob_kind", "locator", "intermediate", "physical_media", "edit_rate", "length", "is_omfi",
      "data_offset"]
  | .MULD => ["mob_kind", "locator", "intermediate", "physical_media", "edit_rate", "length", "is_omfi",
      "data_offset", "descriptors"]
  | .WAVE => ["mob_kind", "locator", "intermediate", "physical_media", "edit_rate", "length", "is_omfi",
      "data_offset", "summary"]
  | .AIFC => ["mob_kind", "locator", "intermediate", "physical_media", "edit_rate", "length", "is_omfi",
      "data_offset", "summary"]
  | .PCMA => ["mob_kind", "locator", "intermediate", "physical_media", "edit_rate", "length", "is_omfi",
      "data_offset", "channels", "quantization_bits", "sample_rate", "locked", "audio_ref_level",
      "electro_spatial_formulation", "dial_norm", "coding_format", "block_align", "sequence_offset",
      "average_bps", "has_peak_envelope_data", "peak_envelope_version", "peak_envelope_format",
      "points_per_peak_value", "peak_envelope_block_size", "peak_channel_count", "peak_frame_count",
      "peak_of_peaks_offset", "peak_envelope_timestamp"]
  | .MPGA => ["mob_kind", "locator", "intermediate", "physical_media", "edit_rate", "length", "is_omfi",
      "data_offset", "channels", "quantization_bits", "sample_rate", "locked", "audio_ref_level",
      "electro_spatial_formulation", "dial_norm", "coding_format", "bit_rate"]
  | .DIDD => ["mob_kind", "locator", "intermediate", "physical_media", "edit_rate", "length", "is_omfi",
      "data_offset", "stored_height", "stored_width", "sampled_height", "sampled_width",
      "sampled_x_offset", "sampled_y_offset", "display_height", "display_width", "display_x_offset",
      "display_y_offset", "frame_layout", "aspect_ratio", "line_map", "alpha_transparency", "uniformness",
      "did_image_size", "next_did_desc", "compress_method", "resolution_id", "image_alignment_factor"]
  | .CDCI => ["mob_kind", "locator", "intermediate", "physical_media", "edit_rate", "length", "is_omfi",
      "data_offset", "stored_height", "stored_width", "sampled_height", "sampled_width",
      "sampled_x_offset", "sampled_y_offset", "display_height", "display_width", "display_x_offset",
      "display_y_offset", "frame_layout", "aspect_ratio", "line_map", "alpha_transparency", "uniformness",
      "did_image_size", "next_did_desc", "compress_method", "resolution_id", "image_alignment_factor",
      "horizontal_subsampling", "vertical_subsampling", "component_width", "color_sitting",
      "black_ref_level", "white_ref_level", "color_range", "frame_index_offset"]
  | .MPGI => ["mob_kind", "locator", "intermediate", "physical_media", "edit_rate", "length", "is_omfi",
      "data_offset", "stored_height", "stored_width", "sampled_height", "sampled_width",
      "sampled_x_offset", "sampled_y_offset", "display_height", "display_width", "display_x_offset",
      "display_y_offset", "frame_layout", "aspect_ratio", "line_map", "alpha_transparency", "uniformness",
      "did_image_size", "next_did_desc", "compress_method", "resolution_id", "image_alignment_factor",
      "horizontal_subsampling", "vertical_subsampling", "component_width", "color_sitting",
      "black_ref_level", "white_ref_level", "color_range", "frame_index_offset", "mpeg_version",
      "profile", "gop_structure", "stream_type", "random_access", "leading_discard", "trailing_discard",
      "min_gop_length", "max_gop_length", "sequence_hdr"]
  | .JPED => ["mob_kind", "locator", "intermediate", "physical_media", "edit_rate", "length", "is_omfi",
      "data_offset", "stored_height", "stored_width", "sampled_height", "sampled_width",
      "sampled_x_offset", "sampled_y_offset", "display_height", "display_width", "display_x_offset",
      "display_y_offset", "frame_layout", "aspect_ratio", "line_map", "alpha_transparency", "uniformness",
      "did_image_size", "next_did_desc", "compress_method", "resolution_id", "image_alignment_factor",
      "horizontal_subsampling", "vertical_subsampling", "component_width", "color_sitting",
      "black_ref_level", "white_ref_level", "color_range", "frame_index_offset", "jpeg_table_id",
      "jpeg_frame_index_offset", "quantization_tables"]
  | .RGBA => ["mob_kind", "locator", "intermediate", "physical_media", "edit_rate", "length", "is_omfi",
      "data_offset", "stored_height", "stored_width", "sampled_height", "sampled_width",
      "sampled_x_offset", "sampled_y_offset", "display_height", "display_width", "display_x_offset",
      "display_y_offset", "frame_layout", "aspect_ratio", "line_map", "alpha_transparency", "uniformness",
      "did_image_size", "next_did_desc", "compress_method", "resolution_id", "image_alignment_factor",
      "pixel_layout"]
  | .DATD => ["mob_kind", "locator", "intermediate", "physical_media", "edit_rate", "length", "is_omfi",
      "data_offset", "is_offset_to_frame_indexes_valid", "offset_to_frame_indexes", "first_frame_offset",
      "min_sample_size", "max_sample_size"]
  | .ANCD => ["mob_kind", "locator", "intermediate", "physical_media", "edit_rate", "length", "is_omfi",
      "data_offset", "is_offset_to_frame_indexes_valid", "offset_to_frame_indexes", "first_frame_offset",
      "min_sample_size", "max_sample_size", "manifest_element_count"]

/-- The properties that have to be assigned before a new object can be saved; none for 22 classes. -/
def toAssign : Cls → List String
  | .ECCP => ["header", "film_kind", "code_format", "base_perf", "start_ec"]
  | .PRCL => ["interp_kind", "value_type", "control_points"]
  | .CTRL => ["interp_kind", "control_points"]
  | .TKFX => ["left_length", "right_length", "info_version", "info_current", "info_smooth", "info_color_item",
      "info_quality", "info_is_reversed", "info_aspect_on", "keyframes", "info_force_software",
      "info_never_hardware"]
  | .PVOL => ["left_length", "right_length", "info_version", "info_current", "info_smooth", "info_color_item",
      "info_quality", "info_is_reversed", "info_aspect_on", "keyframes", "info_force_software",
      "info_never_hardware", "level", "pan", "suppress_validation", "level_set", "pan_set"]
  | .ASPI => ["left_length", "right_length", "info_version", "info_current", "info_smooth", "info_color_item",
      "info_quality", "info_is_reversed", "info_aspect_on", "keyframes", "info_force_software",
      "info_never_hardware", "plugins"]
  | .EQMB => ["left_length", "right_length", "info_version", "info_current", "info_smooth", "info_color_item",
      "info_quality", "info_is_reversed", "info_aspect_on", "keyframes", "info_force_software",
      "info_never_hardware", "bands", "effect_enable", "filter_name"]
  | .MASK => ["phase_offset", "is_double", "mask_bits"]
  | .STRB => ["phase_offset", "strobe_value"]
  | .SPED => ["phase_offset", "speed_ratio"]
  | .REPT => ["phase_offset"]
  | .TNFX => ["cutpoint", "left_length", "right_length", "info_version", "info_current", "info_smooth",
      "info_color_item", "info_quality", "info_is_reversed", "info_aspect_on", "keyframes",
      "info_force_software", "info_never_hardware"]
  | .SLCT => ["is_ganged", "selected"]
  | .FILE => ["path"]
  | .WINF => ["path"]
  | .GRFX => ["pict_data"]
  | .SHLP => ["shape_data"]
  | .CCFX => ["color_correction"]
  | .FXPS => ["orig_length", "window_offset", "parameters", "keyframe_size"]
  | .AVUP => ["uuid", "data"]
  | .PRIT => ["uuid", "value_type", "value", "name", "enable", "control_track"]
  | .MSML => ["mob_id", "last_known_volume"]
  | .APOS => ["mob_id"]
  | .ABOB => ["mob_id", "sample_num", "length", "track_type", "track_index"]
  | .DIDP => ["mob_id", "sample_num", "length", "track_type", "track_index", "strip", "offset", "byte_length",
      "spos_invalid"]
  | .MPGP => ["mob_id", "sample_num", "length", "track_type", "track_index", "strip", "offset", "byte_length",
      "spos_invalid", "trailing_discards", "need_seq_hdr", "fields"]
  | .MCBR => ["uid_high", "uid_low", "name", "name_utf8"]
  | .MCMR => ["mob_id", "position"]
  | .TMBC => ["mob_id", "position", "comp_offset", "attributes", "color"]
  | .TKMN => ["data_slots", "param_slots"]
  | .TKDS => ["tracker_data"]
  | .TKPS => ["settings", "params"]
  | .TKDA => ["settings", "clip_version", "clips"]
  | .TKPA => ["settings"]
  | .MULD => ["descriptors"]
  | .WAVE => ["summary"]
  | .AIFC => ["summary"]
  | .PCMA => ["channels", "quantization_bits", "sample_rate", "locked", "audio_ref_level",
      "electro_spatial_formulation", "dial_norm", "coding_format", "block_align", "sequence_offset",
      "average_bps", "has_peak_envelope_data", "peak_envelope_version", "peak_envelope_format",
      "points_per_peak_value", "peak_envelope_block_size", "peak_channel_count", "peak_frame_count",
      "peak_of_peaks_offset", "peak_envelope_timestamp"]
  | .MPGA => ["channels", "quantization_bits", "sample_rate", "locked", "audio_ref_level",
      "electro_spatial_formulation", "dial_norm", "coding_format", "bit_rate"]
  | .MPGI => ["mpeg_version", "profile", "gop_structure", "stream_type", "random_access", "leading_discard",
      "trailing_discard", "min_gop_length", "max_gop_length", "sequence_hdr"]
  | .JPED => ["jpeg_table_id", "jpeg_frame_index_offset", "quantization_tables"]
  | .RGBA => ["pixel_layout"]
  | .DATD => ["is_offset_to_frame_indexes_valid", "offset_to_frame_indexes", "first_frame_offset",
      "min_sample_size", "max_sample_size"]
  | .ANCD => ["is_offset_to_frame_indexes_valid", "offset_to_frame_indexes", "first_frame_offset",
      "min_sample_size", "max_sample_size", "manifest_element_count"]
  | _ => []

/-- Properties of the object itself. -/
def own (names : List String) : List Slot := names.map fun n => ([], n)

/-- Properties of the helper objects in a list. -/
def inList {α : Type} (list : String) (xs : List α) (f : α → List Slot) : List Slot :=
  xs.zipIdx.flatMap fun p => (f p.1).map fun s => ((list, p.2) :: s.1, s.2)

/-- The properties without which a helper object cannot be saved: all it has. -/
def binItemNames : List String := ["mob", "x", "y", "keyframe", "user_placed"]
/-- See `binItemNames`. -/
def siftNames : List String := ["method", "string", "column"]
/-- See `binItemNames`. -/
def pointNames : List String := ["offset", "timescale", "value", "pp"]
/-- See `binItemNames`. -/
def pointPropNames : List String := ["code", "type", "value"]
/-- See `binItemNames`. -/
def controlNames : List String := ["offset", "time_scale", "value", "pp"]
/-- See `binItemNames`. -/
def controlPropNames : List String := ["code", "value"]
/-- See `binItemNames`. -/
def effectParamNames : List String := ["percent_time", "level", "pos_x", "floor_x", "ceil_x", "pos_y", "floor_y", "ceil_y", "scale_x",
  "scale_y", "crop_left", "crop_right", "crop_top", "crop_bottom", "box", "box_xscale", "box_yscale",
  "box_xpos", "box_ypos", "border_width", "border_soft", "splill_gain2", "splill_gain", "splill_soft2",
  "splill_soft", "enable_key_flags", "colors", "user_param", "selected"]
/-- See `binItemNames`. -/
def pluginNames : List String := ["name", "manufacturer_id", "product_id", "plugin_id", "chunks"]
/-- See `binItemNames`. -/
def chunkNames : List String := ["data", "version", "manufacturer_id", "product_id", "plugin_id", "chunk_id", "name"]
/-- See `binItemNames`. -/
def bandNames : List String := ["type", "freq", "gain", "q", "enable"]

/-- The mandatory properties of the helper objects of an object.  Tracks have none: what is stored of a track is
what it has (C38).  Columns and formats of a bin view are dictionaries. -/
def Obj.helperSlots : Obj → List Slot
  | .ABIN x => inList "items" x.items (fun _ => own binItemNames) ++
      inList "sifted_settings" (List.range 6) (fun _ => own siftNames)
  | .BINF x => inList "items" x.items (fun _ => own binItemNames) ++
      inList "sifted_settings" (List.range 6) (fun _ => own siftNames)
  | .PRCL x => inList "control_points" x.control_points fun p =>
      own pointNames ++ inList "pp" p.pp fun _ => own pointPropNames
  | .CTRL x => inList "control_points" x.control_points fun p =>
      own controlNames ++ inList "pp" p.pp fun _ => own controlPropNames
  | .FXPS x => inList "parameters" x.parameters fun _ => own effectParamNames
  | .ASPI x => inList "plugins" x.plugins fun p =>
      own pluginNames ++ inList "chunks" p.chunks fun _ => own chunkNames
  | .EQMB x => inList "bands" x.bands fun _ => own bandNames
  | _ => []

/-- Everything that has to have a value for an object to be saved. -/
def Obj.slots (o : Obj) : List Slot := own (mandatory o.cls) ++ o.helperSlots

/-- Some mandatory property has no value. -/
def Lacks (u : Unset) (l : List Slot) : Prop := ∃ s ∈ l, u s = true

end Avb
