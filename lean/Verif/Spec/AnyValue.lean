import Verif.Model.AnyValue
import Mathlib.Data.List.Forall2

/-!
Which Python values can be stored in a property, and what is stored.  The tables are written down from the `write`
methods.
-/

namespace Avb

open Unset

/-- What a property holds, by the function that writes it. -/
inductive Kind where
  | int | bool | text | name | ref | rate | rect | rgb
  deriving DecidableEq, Repr

/-- `v` is an integer or a bool. -/
def Py.IsInt (v : Py) : Prop := (∃ z, v = .int z) ∨ ∃ b, v = .bool b

/-- `v` has at least `n` entries, the first `n` of them integers. -/
def Py.HasInts (n : Nat) (v : Py) : Prop :=
  (∃ bs : Bytes, v = .bytes bs ∧ n ≤ bs.length) ∨
    ∃ xs ys : List Py, v = .seq (xs ++ ys) ∧ xs.length = n ∧ ∀ x ∈ xs, x.IsInt

/-- The values that count as false. -/
def Py.Falsy (v : Py) : Prop :=
  v = .none ∨ v = .bool false ∨ v = .int 0 ∨ v = .float (.fin 0) ∨ v = .str [] ∨ v = .bytes [] ∨ v = .seq [] ∨
    (∃ r, v = .obj r false) ∨ v = .other false

/-- The values that a property takes. -/
def Takes : Kind → Py → Prop
  | .int, v => v.IsInt
  | .bool, _ => True
  | .text, v => v.Falsy ∨ ∃ t, v = .str t
  | .name, v => v.Falsy ∨ ∃ t, v = .str t
  | .ref, v => v = .none ∨ ∃ r b, v = .obj r b
  | .rate, v => v.IsInt ∨ ∃ r, v = .float r
  | .rect, v => v.HasInts 4
  | .rgb, v => v.HasInts 3

/-- All values given to the properties in `l` are taken. -/
def Accepts (g : Given) (l : List (Slot × Kind)) : Prop := ∀ s k v, (s, k) ∈ l → g s = some v → Takes k v

/-- Properties of the object itself. -/
def ownK (l : List (String × Kind)) : List (Slot × Kind) := l.map fun p => (([], p.1), p.2)

/-- Properties of the helper objects in a list. -/
def inListK {α : Type} (list : String) (xs : List α) (f : α → List (Slot × Kind)) : List (Slot × Kind) :=
  xs.zipIdx.flatMap fun p => (f p.1).map fun s => (((list, p.2) :: s.1.1, s.1.2), s.2)

/-- The properties of a `BinItem`. -/
def BinItem.kinds : List (String × Kind) :=
  [("mob", .ref), ("x", .int), ("y", .int), ("keyframe", .int)]

/-- The properties of a `SiftItem`. -/
def SiftItem.kinds : List (String × Kind) :=
  [("method", .int), ("string", .text), ("column", .text)]

/-- The properties of a `PCPProp`. -/
def PCPProp.kinds : List (String × Kind) :=
  [("code", .int)]

/-- The properties of a `PCP`. -/
def PCP.kinds : List (String × Kind) :=
  [("timescale", .int)]

/-- The properties of a `CPProp`. -/
def CPProp.kinds : List (String × Kind) :=
  [("code", .int)]

/-- The properties of a `CP`. -/
def CP.kinds : List (String × Kind) :=
  [("time_scale", .int)]

/-- The properties of a `EffectParam`. -/
def EffectParam.kinds : List (String × Kind) :=
  [("percent_time", .int), ("level", .int), ("pos_x", .int), ("floor_x", .int), ("ceil_x", .int),
   ("pos_y", .int), ("floor_y", .int), ("ceil_y", .int), ("scale_x", .int), ("scale_y", .int),
   ("crop_left", .int), ("crop_right", .int), ("crop_top", .int), ("crop_bottom", .int),
   ("box_xscale", .bool), ("box_yscale", .bool), ("box_xpos", .bool), ("box_ypos", .bool),
   ("border_width", .int), ("border_soft", .int), ("splill_gain2", .int), ("splill_gain", .int),
   ("splill_soft2", .int), ("splill_soft", .int), ("enable_key_flags", .int), ("selected", .bool)]

/-- The properties of a `ASPIPluginChunk`. -/
def ASPIPluginChunk.kinds : List (String × Kind) :=
  [("version", .int), ("manufacturer_id", .int), ("product_id", .int), ("plugin_id", .int),
   ("chunk_id", .int), ("name", .text)]

/-- The properties of a `ASPIPlugin`. -/
def ASPIPlugin.kinds : List (String × Kind) :=
  [("name", .text), ("manufacturer_id", .int), ("product_id", .int), ("plugin_id", .int)]

/-- The properties of a `EqualizerBand`. -/
def EqualizerBand.kinds : List (String × Kind) :=
  [("type", .int), ("freq", .int), ("gain", .int), ("q", .int), ("enable", .bool)]

/-- The properties of the objects of a class, with what they hold: all that are written by the functions for integers,
booleans, texts, references, edit rates, rectangles and colours. -/
def kinds : Cls → List (String × Kind)
  | .ATTR => []
  | .PRLS => []
  | .TMCS => []
  | .BVst => [("name", .text), ("kind", .text), ("attr_count", .int), ("attr_type", .int), ("attributes", .ref)]
  | .ABIN => [("view_setting", .ref), ("uid", .int), ("display_mask", .int), ("display_mode", .int),
      ("sifted", .bool), ("mac_font", .int), ("mac_font_size", .int), ("mac_image_scale", .int),
      ("home_rect", .rect), ("background_color", .rgb), ("forground_color", .rgb),
      ("ql_image_scale", .int), ("attributes", .ref), ("was_iconic", .bool)]
  | .BINF => [("view_setting", .ref), ("uid", .int), ("display_mask", .int), ("display_mode", .int),
      ("sifted", .bool), ("mac_font", .int), ("mac_font_size", .int), ("mac_image_scale", .int),
      ("home_rect", .rect), ("background_color", .rgb), ("forground_color", .rgb),
      ("ql_image_scale", .int), ("attributes", .ref), ("was_iconic", .bool), ("unknown_s32", .int)]
  | .SEQU => [("left_bob", .ref), ("right_bob", .ref), ("media_kind_id", .int), ("edit_rate", .rate),
      ("name", .name), ("effect_id", .name), ("attributes", .ref), ("session_attrs", .ref),
      ("precomputed", .ref), ("param_list", .ref)]
  | .SCLP => [("left_bob", .ref), ("right_bob", .ref), ("media_kind_id", .int), ("edit_rate", .rate),
      ("name", .name), ("effect_id", .name), ("attributes", .ref), ("session_attrs", .ref),
      ("precomputed", .ref), ("param_list", .ref), ("length", .int), ("track_id", .int),
      ("start_time", .int)]
  | .TCCP => [("left_bob", .ref), ("right_bob", .ref), ("media_kind_id", .int), ("edit_rate", .rate),
      ("name", .name), ("effect_id", .name), ("attributes", .ref), ("session_attrs", .ref),
      ("precomputed", .ref), ("param_list", .ref), ("length", .int), ("flags", .int), ("fps", .int),
      ("start", .int)]
  | .ECCP => [("left_bob", .ref), ("right_bob", .ref), ("media_kind_id", .int), ("edit_rate", .rate),
      ("name", .name), ("effect_id", .name), ("attributes", .ref), ("session_attrs", .ref),
      ("precomputed", .ref), ("param_list", .ref), ("length", .int), ("film_kind", .int),
      ("code_format", .int), ("base_perf", .int), ("start_ec", .int)]
  | .TRKR => [("left_bob", .ref), ("right_bob", .ref), ("media_kind_id", .int), ("edit_rate", .rate),
      ("name", .name), ("effect_id", .name), ("attributes", .ref), ("session_attrs", .ref),
      ("precomputed", .ref), ("param_list", .ref), ("length", .int), ("relative_scope", .int),
      ("relative_track", .int)]
  | .PRCL => [("left_bob", .ref), ("right_bob", .ref), ("media_kind_id", .int), ("edit_rate", .rate),
      ("name", .name), ("effect_id", .name), ("attributes", .ref), ("session_attrs", .ref),
      ("precomputed", .ref), ("param_list", .ref), ("length", .int), ("interp_kind", .int),
      ("extrap_kind", .int), ("fields", .int)]
  | .CTRL => [("left_bob", .ref), ("right_bob", .ref), ("media_kind_id", .int), ("edit_rate", .rate),
      ("name", .name), ("effect_id", .name), ("attributes", .ref), ("session_attrs", .ref),
      ("precomputed", .ref), ("param_list", .ref), ("length", .int), ("interp_kind", .int)]
  | .FILL => [("left_bob", .ref), ("right_bob", .ref), ("media_kind_id", .int), ("edit_rate", .rate),
      ("name", .name), ("effect_id", .name), ("attributes", .ref), ("session_attrs", .ref),
      ("precomputed", .ref), ("param_list", .ref), ("length", .int)]
  | .TRKG => [("left_bob", .ref), ("right_bob", .ref), ("media_kind_id", .int), ("edit_rate", .rate),
      ("name", .name), ("effect_id", .name), ("attributes", .ref), ("session_attrs", .ref),
      ("precomputed", .ref), ("param_list", .ref), ("mc_mode", .int), ("length", .int),
      ("num_scalars", .int)]
  | .TKFX => [("left_bob", .ref), ("right_bob", .ref), ("media_kind_id", .int), ("edit_rate", .rate),
      ("name", .name), ("effect_id", .name), ("attributes", .ref), ("session_attrs", .ref),
      ("precomputed", .ref), ("param_list", .ref), ("mc_mode", .int), ("length", .int),
      ("num_scalars", .int), ("left_length", .int), ("right_length", .int), ("info_version", .int),
      ("info_current", .int), ("info_smooth", .int), ("info_color_item", .int), ("info_quality", .int),
      ("info_is_reversed", .int), ("info_aspect_on", .bool), ("keyframes", .ref),
      ("info_force_software", .bool), ("info_never_hardware", .bool), ("trackman", .ref)]
  | .PVOL => [("left_bob", .ref), ("right_bob", .ref), ("media_kind_id", .int), ("edit_rate", .rate),
      ("name", .name), ("effect_id", .name), ("attributes", .ref), ("session_attrs", .ref),
      ("precomputed", .ref), ("param_list", .ref), ("mc_mode", .int), ("length", .int),
      ("num_scalars", .int), ("left_length", .int), ("right_length", .int), ("info_version", .int),
      ("info_current", .int), ("info_smooth", .int), ("info_color_item", .int), ("info_quality", .int),
      ("info_is_reversed", .int), ("info_aspect_on", .bool), ("keyframes", .ref),
      ("info_force_software", .bool), ("info_never_hardware", .bool), ("trackman", .ref),
      ("level", .int), ("pan", .int), ("suppress_validation", .bool), ("level_set", .bool),
      ("pan_set", .bool), ("supports_seperate_gain", .int), ("is_trim_gain_effect", .int)]
  | .ASPI => [("left_bob", .ref), ("right_bob", .ref), ("media_kind_id", .int), ("edit_rate", .rate),
      ("name", .name), ("effect_id", .name), ("attributes", .ref), ("session_attrs", .ref),
      ("precomputed", .ref), ("param_list", .ref), ("mc_mode", .int), ("length", .int),
      ("num_scalars", .int), ("left_length", .int), ("right_length", .int), ("info_version", .int),
      ("info_current", .int), ("info_smooth", .int), ("info_color_item", .int), ("info_quality", .int),
      ("info_is_reversed", .int), ("info_aspect_on", .bool), ("keyframes", .ref),
      ("info_force_software", .bool), ("info_never_hardware", .bool), ("trackman", .ref),
      ("mark_in", .int), ("mark_out", .int), ("tracks_to_affect", .int), ("rendering_mode", .int),
      ("padding_secs", .int)]
  | .EQMB => [("left_bob", .ref), ("right_bob", .ref), ("media_kind_id", .int), ("edit_rate", .rate),
      ("name", .name), ("effect_id", .name), ("attributes", .ref), ("session_attrs", .ref),
      ("precomputed", .ref), ("param_list", .ref), ("mc_mode", .int), ("length", .int),
      ("num_scalars", .int), ("left_length", .int), ("right_length", .int), ("info_version", .int),
      ("info_current", .int), ("info_smooth", .int), ("info_color_item", .int), ("info_quality", .int),
      ("info_is_reversed", .int), ("info_aspect_on", .bool), ("keyframes", .ref),
      ("info_force_software", .bool), ("info_never_hardware", .bool), ("trackman", .ref),
      ("effect_enable", .bool), ("filter_name", .text)]
  | .MASK => [("left_bob", .ref), ("right_bob", .ref), ("media_kind_id", .int), ("edit_rate", .rate),
      ("name", .name), ("effect_id", .name), ("attributes", .ref), ("session_attrs", .ref),
      ("precomputed", .ref), ("param_list", .ref), ("mc_mode", .int), ("length", .int),
      ("num_scalars", .int), ("phase_offset", .int), ("is_double", .bool), ("mask_bits", .int)]
  | .STRB => [("left_bob", .ref), ("right_bob", .ref), ("media_kind_id", .int), ("edit_rate", .rate),
      ("name", .name), ("effect_id", .name), ("attributes", .ref), ("session_attrs", .ref),
      ("precomputed", .ref), ("param_list", .ref), ("mc_mode", .int), ("length", .int),
      ("num_scalars", .int), ("phase_offset", .int), ("strobe_value", .int)]
  | .SPED => [("left_bob", .ref), ("right_bob", .ref), ("media_kind_id", .int), ("edit_rate", .rate),
      ("name", .name), ("effect_id", .name), ("attributes", .ref), ("session_attrs", .ref),
      ("precomputed", .ref), ("param_list", .ref), ("mc_mode", .int), ("length", .int),
      ("num_scalars", .int), ("phase_offset", .int), ("source_param_list", .ref),
      ("new_source_calculation", .bool)]
  | .REPT => [("left_bob", .ref), ("right_bob", .ref), ("media_kind_id", .int), ("edit_rate", .rate),
      ("name", .name), ("effect_id", .name), ("attributes", .ref), ("session_attrs", .ref),
      ("precomputed", .ref), ("param_list", .ref), ("mc_mode", .int), ("length", .int),
      ("num_scalars", .int), ("phase_offset", .int)]
  | .RSET => [("left_bob", .ref), ("right_bob", .ref), ("media_kind_id", .int), ("edit_rate", .rate),
      ("name", .name), ("effect_id", .name), ("attributes", .ref), ("session_attrs", .ref),
      ("precomputed", .ref), ("param_list", .ref), ("mc_mode", .int), ("length", .int),
      ("num_scalars", .int), ("rep_set_type", .int)]
  | .TNFX => [("left_bob", .ref), ("right_bob", .ref), ("media_kind_id", .int), ("edit_rate", .rate),
      ("name", .name), ("effect_id", .name), ("attributes", .ref), ("session_attrs", .ref),
      ("precomputed", .ref), ("param_list", .ref), ("mc_mode", .int), ("length", .int),
      ("num_scalars", .int), ("cutpoint", .int), ("left_length", .int), ("right_length", .int),
      ("info_version", .int), ("info_current", .int), ("info_smooth", .int), ("info_color_item", .int),
      ("info_quality", .int), ("info_is_reversed", .int), ("info_aspect_on", .bool), ("keyframes", .ref),
      ("info_force_software", .bool), ("info_never_hardware", .bool), ("trackman", .ref)]
  | .SLCT => [("left_bob", .ref), ("right_bob", .ref), ("media_kind_id", .int), ("edit_rate", .rate),
      ("name", .name), ("effect_id", .name), ("attributes", .ref), ("session_attrs", .ref),
      ("precomputed", .ref), ("param_list", .ref), ("mc_mode", .int), ("length", .int),
      ("num_scalars", .int), ("is_ganged", .bool), ("selected", .int)]
  | .CMPO => [("left_bob", .ref), ("right_bob", .ref), ("media_kind_id", .int), ("edit_rate", .rate),
      ("name", .name), ("effect_id", .name), ("attributes", .ref), ("session_attrs", .ref),
      ("precomputed", .ref), ("param_list", .ref), ("mc_mode", .int), ("length", .int),
      ("num_scalars", .int), ("mob_type_id", .int), ("usage_code", .int), ("descriptor", .ref)]
  | .FILE => [("path", .text), ("path_posix", .text), ("path_utf8", .text), ("path2_utf8", .text)]
  | .WINF => [("path", .text), ("path_posix", .text), ("path_utf8", .text), ("path2_utf8", .text)]
  | .URLL => []
  | .GRFX => []
  | .SHLP => []
  | .CCFX => []
  | .FXPS => [("orig_length", .int), ("window_offset", .int), ("keyframe_size", .int)]
  | .AVUP => []
  | .PRIT => [("enable", .bool), ("control_track", .ref), ("contribs_to_sig", .bool)]
  | .MSML => [("last_known_volume", .text), ("domain_type", .int), ("last_known_volume_utf8", .text)]
  | .APOS => []
  | .ABOB => [("sample_num", .int), ("length", .int), ("track_type", .int), ("track_index", .int)]
  | .DIDP => [("sample_num", .int), ("length", .int), ("track_type", .int), ("track_index", .int),
      ("strip", .int), ("offset", .int), ("byte_length", .int), ("spos_invalid", .bool)]
  | .MPGP => [("sample_num", .int), ("length", .int), ("track_type", .int), ("track_index", .int),
      ("strip", .int), ("offset", .int), ("byte_length", .int), ("spos_invalid", .bool),
      ("trailing_discards", .int), ("need_seq_hdr", .bool)]
  | .MCBR => [("uid_high", .int), ("uid_low", .int), ("name", .text)]
  | .MCMR => [("position", .int)]
  | .TMBC => [("position", .int), ("comp_offset", .int), ("attributes", .ref), ("handled_codes", .bool)]
  | .TKMN => [("data_slots", .ref), ("param_slots", .ref)]
  | .TKDS => [("track_fg", .bool)]
  | .TKPS => []
  | .TKDA => [("clip_version", .int), ("offset_tracking", .int), ("smoothing", .int), ("jitter_removal", .int),
      ("clip5", .ref), ("clip6", .ref)]
  | .TKPA => []
  | .MDES => [("mob_kind", .int), ("locator", .ref), ("intermediate", .bool), ("physical_media", .ref),
      ("attributes", .ref)]
  | .MDTP => [("mob_kind", .int), ("locator", .ref), ("intermediate", .bool), ("physical_media", .ref),
      ("attributes", .ref), ("cframe", .int)]
  | .MDFM => [("mob_kind", .int), ("locator", .ref), ("intermediate", .bool), ("physical_media", .ref),
      ("attributes", .ref)]
  | .MDNG => [("mob_kind", .int), ("locator", .ref), ("intermediate", .bool), ("physical_media", .ref),
      ("attributes", .ref)]
  | .MDFL => [("mob_kind", .int), ("locator", .ref), ("intermediate", .bool), ("physical_media", .ref),
      ("attributes", .ref), ("edit_rate", .rate), ("length", .int), ("is_omfi", .int),
      ("data_offset", .int)]
  | .MULD => [("mob_kind", .int), ("locator", .ref), ("intermediate", .bool), ("physical_media", .ref),
      ("attributes", .ref), ("edit_rate", .rate), ("length", .int), ("is_omfi", .int),
      ("data_offset", .int)]
  | .WAVE => [("mob_kind", .int), ("locator", .ref), ("intermediate", .bool), ("physical_media", .ref),
      ("attributes", .ref), ("edit_rate", .rate), ("length", .int), ("is_omfi", .int),
      ("data_offset", .int)]
  | .AIFC => [("mob_kind", .int), ("locator", .ref), ("intermediate", .bool), ("physical_media", .ref),
      ("attributes", .ref), ("edit_rate", .rate), ("length", .int), ("is_omfi", .int),
      ("data_offset", .int), ("data_pos", .int)]
  | .PCMA => [("mob_kind", .int), ("locator", .ref), ("intermediate", .bool), ("physical_media", .ref),
      ("attributes", .ref), ("edit_rate", .rate), ("length", .int), ("is_omfi", .int),
      ("data_offset", .int), ("channels", .int), ("quantization_bits", .int), ("sample_rate", .rate),
      ("locked", .bool), ("audio_ref_level", .int), ("electro_spatial_formulation", .int),
      ("dial_norm", .int), ("coding_format", .int), ("block_align", .int), ("sequence_offset", .int),
      ("average_bps", .int), ("has_peak_envelope_data", .bool), ("peak_envelope_version", .int),
      ("peak_envelope_format", .int), ("points_per_peak_value", .int),
      ("peak_envelope_block_size", .int), ("peak_channel_count", .int), ("peak_frame_count", .int),
      ("peak_of_peaks_offset", .int), ("peak_envelope_timestamp", .int), ("ebu_timestamp", .int),
      ("timecode_framerate", .text)]
  | .MPGA => [("mob_kind", .int), ("locator", .ref), ("intermediate", .bool), ("physical_media", .ref),
      ("attributes", .ref), ("edit_rate", .rate), ("length", .int), ("is_omfi", .int),
      ("data_offset", .int), ("channels", .int), ("quantization_bits", .int), ("sample_rate", .rate),
      ("locked", .bool), ("audio_ref_level", .int), ("electro_spatial_formulation", .int),
      ("dial_norm", .int), ("coding_format", .int), ("bit_rate", .int), ("sub_frame_alignment", .int),
      ("origin", .int)]
  | .DIDD => [("mob_kind", .int), ("locator", .ref), ("intermediate", .bool), ("physical_media", .ref),
      ("attributes", .ref), ("edit_rate", .rate), ("length", .int), ("is_omfi", .int),
      ("data_offset", .int), ("stored_height", .int), ("stored_width", .int), ("sampled_height", .int),
      ("sampled_width", .int), ("sampled_x_offset", .int), ("sampled_y_offset", .int),
      ("display_height", .int), ("display_width", .int), ("display_x_offset", .int),
      ("display_y_offset", .int), ("frame_layout", .int), ("alpha_transparency", .int),
      ("uniformness", .bool), ("did_image_size", .int), ("next_did_desc", .ref), ("resolution_id", .int),
      ("image_alignment_factor", .int), ("frame_index_byte_order", .int), ("frame_sample_size", .int),
      ("first_frame_offset", .int), ("offset_to_rle_frame_index", .int), ("frame_start_offset", .int),
      ("essence_element_size_kind", .int), ("frame_checked_with_mapper", .bool)]
  | .CDCI => [("mob_kind", .int), ("locator", .ref), ("intermediate", .bool), ("physical_media", .ref),
      ("attributes", .ref), ("edit_rate", .rate), ("length", .int), ("is_omfi", .int),
      ("data_offset", .int), ("stored_height", .int), ("stored_width", .int), ("sampled_height", .int),
      ("sampled_width", .int), ("sampled_x_offset", .int), ("sampled_y_offset", .int),
      ("display_height", .int), ("display_width", .int), ("display_x_offset", .int),
      ("display_y_offset", .int), ("frame_layout", .int), ("alpha_transparency", .int),
      ("uniformness", .bool), ("did_image_size", .int), ("next_did_desc", .ref), ("resolution_id", .int),
      ("image_alignment_factor", .int), ("frame_index_byte_order", .int), ("frame_sample_size", .int),
      ("first_frame_offset", .int), ("offset_to_rle_frame_index", .int), ("frame_start_offset", .int),
      ("essence_element_size_kind", .int), ("frame_checked_with_mapper", .bool),
      ("horizontal_subsampling", .int), ("vertical_subsampling", .int), ("component_width", .int),
      ("color_sitting", .int), ("black_ref_level", .int), ("white_ref_level", .int),
      ("color_range", .int), ("frame_index_offset", .int), ("alpha_sampled_width", .int),
      ("ignore_bw", .int)]
  | .MPGI => [("mob_kind", .int), ("locator", .ref), ("intermediate", .bool), ("physical_media", .ref),
      ("attributes", .ref), ("edit_rate", .rate), ("length", .int), ("is_omfi", .int),
      ("data_offset", .int), ("stored_height", .int), ("stored_width", .int), ("sampled_height", .int),
      ("sampled_width", .int), ("sampled_x_offset", .int), ("sampled_y_offset", .int),
      ("display_height", .int), ("display_width", .int), ("display_x_offset", .int),
      ("display_y_offset", .int), ("frame_layout", .int), ("alpha_transparency", .int),
      ("uniformness", .bool), ("did_image_size", .int), ("next_did_desc", .ref), ("resolution_id", .int),
      ("image_alignment_factor", .int), ("frame_index_byte_order", .int), ("frame_sample_size", .int),
      ("first_frame_offset", .int), ("offset_to_rle_frame_index", .int), ("frame_start_offset", .int),
      ("essence_element_size_kind", .int), ("frame_checked_with_mapper", .bool),
      ("horizontal_subsampling", .int), ("vertical_subsampling", .int), ("component_width", .int),
      ("color_sitting", .int), ("black_ref_level", .int), ("white_ref_level", .int),
      ("color_range", .int), ("frame_index_offset", .int), ("alpha_sampled_width", .int),
      ("ignore_bw", .int), ("mpeg_version", .int), ("profile", .int), ("gop_structure", .int),
      ("stream_type", .int), ("random_access", .bool), ("leading_discard", .bool),
      ("trailing_discard", .bool), ("min_gop_length", .int), ("max_gop_length", .int)]
  | .JPED => [("mob_kind", .int), ("locator", .ref), ("intermediate", .bool), ("physical_media", .ref),
      ("attributes", .ref), ("edit_rate", .rate), ("length", .int), ("is_omfi", .int),
      ("data_offset", .int), ("stored_height", .int), ("stored_width", .int), ("sampled_height", .int),
      ("sampled_width", .int), ("sampled_x_offset", .int), ("sampled_y_offset", .int),
      ("display_height", .int), ("display_width", .int), ("display_x_offset", .int),
      ("display_y_offset", .int), ("frame_layout", .int), ("alpha_transparency", .int),
      ("uniformness", .bool), ("did_image_size", .int), ("next_did_desc", .ref), ("resolution_id", .int),
      ("image_alignment_factor", .int), ("frame_index_byte_order", .int), ("frame_sample_size", .int),
      ("first_frame_offset", .int), ("offset_to_rle_frame_index", .int), ("frame_start_offset", .int),
      ("essence_element_size_kind", .int), ("frame_checked_with_mapper", .bool),
      ("horizontal_subsampling", .int), ("vertical_subsampling", .int), ("component_width", .int),
      ("color_sitting", .int), ("black_ref_level", .int), ("white_ref_level", .int),
      ("color_range", .int), ("frame_index_offset", .int), ("alpha_sampled_width", .int),
      ("ignore_bw", .int), ("jpeg_table_id", .int), ("jpeg_frame_index_offset", .int),
      ("image_start_align", .int)]
  | .RGBA => [("mob_kind", .int), ("locator", .ref), ("intermediate", .bool), ("physical_media", .ref),
      ("attributes", .ref), ("edit_rate", .rate), ("length", .int), ("is_omfi", .int),
      ("data_offset", .int), ("stored_height", .int), ("stored_width", .int), ("sampled_height", .int),
      ("sampled_width", .int), ("sampled_x_offset", .int), ("sampled_y_offset", .int),
      ("display_height", .int), ("display_width", .int), ("display_x_offset", .int),
      ("display_y_offset", .int), ("frame_layout", .int), ("alpha_transparency", .int),
      ("uniformness", .bool), ("did_image_size", .int), ("next_did_desc", .ref), ("resolution_id", .int),
      ("image_alignment_factor", .int), ("frame_index_byte_order", .int), ("frame_sample_size", .int),
      ("first_frame_offset", .int), ("offset_to_rle_frame_index", .int), ("frame_start_offset", .int),
      ("essence_element_size_kind", .int), ("frame_checked_with_mapper", .bool),
      ("frame_index_offset", .int)]
  | .DATD => [("mob_kind", .int), ("locator", .ref), ("intermediate", .bool), ("physical_media", .ref),
      ("attributes", .ref), ("edit_rate", .rate), ("length", .int), ("is_omfi", .int),
      ("data_offset", .int), ("is_offset_to_frame_indexes_valid", .bool),
      ("offset_to_frame_indexes", .int), ("first_frame_offset", .int), ("min_sample_size", .int),
      ("max_sample_size", .int)]
  | .ANCD => [("mob_kind", .int), ("locator", .ref), ("intermediate", .bool), ("physical_media", .ref),
      ("attributes", .ref), ("edit_rate", .rate), ("length", .int), ("is_omfi", .int),
      ("data_offset", .int), ("is_offset_to_frame_indexes_valid", .bool),
      ("offset_to_frame_indexes", .int), ("first_frame_offset", .int), ("min_sample_size", .int),
      ("max_sample_size", .int), ("manifest_element_count", .int)]

/-- What is stored for a property. -/
def Given.into {α : Type} (g : Given) (name : String) (conv : Py → Except Err α) (a : α) : α :=
  match g ([], name) with
  | some v =>
    match conv v with
    | .ok b => b
    | .error _ => a
  | Option.none => a

/-- What is stored for a property that need not be there. -/
def Given.intoOpt {α : Type} (g : Given) (name : String) (conv : Py → Except Err α) (a : Option α) : Option α :=
  match g ([], name) with
  | some v =>
    match conv v with
    | .ok b => some b
    | .error _ => a
  | Option.none => a

/-- The helper objects in a list, from position `i` on, with the values that are stored. -/
def convFrom {α : Type} (list : String) (f : Given → α → α) (g : Given) : Nat → List α → List α
  | _, [] => []
  | i, x :: xs => f (g.at list i) x :: convFrom list f g (i + 1) xs

/-- The helper objects in a list with the values that are stored. -/
def convList {α : Type} (list : String) (f : Given → α → α) (g : Given) (xs : List α) : List α :=
  convFrom list f g 0 xs

/-- A `Setting` with the values that are stored. -/
def Setting.conv (g : Given) (x : Setting) : Setting :=
  { x with
    name := g.into "name" Py.asText x.name,
    kind := g.into "kind" Py.asText x.kind,
    attr_count := g.into "attr_count" Py.asInt x.attr_count,
    attr_type := g.into "attr_type" Py.asInt x.attr_type,
    attributes := g.into "attributes" Py.asRef x.attributes }

/-- A `BinViewSetting` with the values that are stored. -/
def BinViewSetting.conv (g : Given) (x : BinViewSetting) : BinViewSetting :=
  { x with
    toSetting := x.toSetting.conv g }

/-- A `BinItem` with the values that are stored. -/
def BinItem.conv (g : Given) (x : BinItem) : BinItem :=
  { x with
    mob := g.into "mob" Py.asRef x.mob,
    x := g.into "x" Py.asInt x.x,
    y := g.into "y" Py.asInt x.y,
    keyframe := g.into "keyframe" Py.asInt x.keyframe }

/-- A `SiftItem` with the values that are stored. -/
def SiftItem.conv (g : Given) (x : SiftItem) : SiftItem :=
  { x with
    method := g.into "method" Py.asInt x.method,
    string := g.into "string" Py.asText x.string,
    column := g.into "column" Py.asText x.column }

/-- A `Bin` with the values that are stored. -/
def Bin.conv (g : Given) (x : Bin) : Bin :=
  { x with
    view_setting := g.into "view_setting" Py.asRef x.view_setting,
    uid := g.into "uid" Py.asInt x.uid,
    display_mask := g.into "display_mask" Py.asInt x.display_mask,
    display_mode := g.into "display_mode" Py.asInt x.display_mode,
    sifted := g.into "sifted" Py.asBool x.sifted,
    mac_font := g.into "mac_font" Py.asInt x.mac_font,
    mac_font_size := g.into "mac_font_size" Py.asInt x.mac_font_size,
    mac_image_scale := g.into "mac_image_scale" Py.asInt x.mac_image_scale,
    home_rect := g.into "home_rect" Py.asRect x.home_rect,
    background_color := g.into "background_color" Py.asRgb x.background_color,
    forground_color := g.into "forground_color" Py.asRgb x.forground_color,
    ql_image_scale := g.into "ql_image_scale" Py.asInt x.ql_image_scale,
    attributes := g.into "attributes" Py.asRef x.attributes,
    was_iconic := g.into "was_iconic" Py.asBool x.was_iconic,
    items := convList "items" BinItem.conv g x.items,
    sifted_settings := convList "sifted_settings" SiftItem.conv g x.sifted_settings }

/-- A `BinFirst` with the values that are stored. -/
def BinFirst.conv (g : Given) (x : BinFirst) : BinFirst :=
  { x with
    toBin := x.toBin.conv g,
    unknown_s32 := g.into "unknown_s32" Py.asInt x.unknown_s32 }

/-- A `Component` with the values that are stored. -/
def Component.conv (g : Given) (x : Component) : Component :=
  { x with
    left_bob := g.into "left_bob" Py.asRef x.left_bob,
    right_bob := g.into "right_bob" Py.asRef x.right_bob,
    media_kind_id := g.into "media_kind_id" Py.asInt x.media_kind_id,
    edit_rate := g.into "edit_rate" Py.asRate x.edit_rate,
    name := g.into "name" Py.asName x.name,
    effect_id := g.into "effect_id" Py.asName x.effect_id,
    attributes := g.into "attributes" Py.asRef x.attributes,
    session_attrs := g.into "session_attrs" Py.asRef x.session_attrs,
    precomputed := g.into "precomputed" Py.asRef x.precomputed,
    param_list := g.intoOpt "param_list" Py.asRef x.param_list }

/-- A `Sequence` with the values that are stored. -/
def Sequence.conv (g : Given) (x : Sequence) : Sequence :=
  { x with
    toComponent := x.toComponent.conv g }

/-- A `Clip` with the values that are stored. -/
def Clip.conv (g : Given) (x : Clip) : Clip :=
  { x with
    toComponent := x.toComponent.conv g,
    length := g.into "length" Py.asInt x.length }

/-- A `SourceClip` with the values that are stored. -/
def SourceClip.conv (g : Given) (x : SourceClip) : SourceClip :=
  { x with
    toClip := x.toClip.conv g,
    track_id := g.into "track_id" Py.asInt x.track_id,
    start_time := g.into "start_time" Py.asInt x.start_time }

/-- A `Timecode` with the values that are stored. -/
def Timecode.conv (g : Given) (x : Timecode) : Timecode :=
  { x with
    toClip := x.toClip.conv g,
    flags := g.into "flags" Py.asInt x.flags,
    fps := g.into "fps" Py.asInt x.fps,
    start := g.into "start" Py.asInt x.start }

/-- A `Edgecode` with the values that are stored. -/
def Edgecode.conv (g : Given) (x : Edgecode) : Edgecode :=
  { x with
    toClip := x.toClip.conv g,
    film_kind := g.into "film_kind" Py.asInt x.film_kind,
    code_format := g.into "code_format" Py.asInt x.code_format,
    base_perf := g.into "base_perf" Py.asInt x.base_perf,
    start_ec := g.into "start_ec" Py.asInt x.start_ec }

/-- A `TrackRef` with the values that are stored. -/
def TrackRef.conv (g : Given) (x : TrackRef) : TrackRef :=
  { x with
    toClip := x.toClip.conv g,
    relative_scope := g.into "relative_scope" Py.asInt x.relative_scope,
    relative_track := g.into "relative_track" Py.asInt x.relative_track }

/-- A `PCPProp` with the values that are stored. -/
def PCPProp.conv (g : Given) (x : PCPProp) : PCPProp :=
  { x with
    code := g.into "code" Py.asInt x.code }

/-- A `PCP` with the values that are stored. -/
def PCP.conv (g : Given) (x : PCP) : PCP :=
  { x with
    timescale := g.into "timescale" Py.asInt x.timescale,
    pp := convList "pp" PCPProp.conv g x.pp }

/-- A `ParamClip` with the values that are stored. -/
def ParamClip.conv (g : Given) (x : ParamClip) : ParamClip :=
  { x with
    toClip := x.toClip.conv g,
    interp_kind := g.into "interp_kind" Py.asInt x.interp_kind,
    extrap_kind := g.intoOpt "extrap_kind" Py.asInt x.extrap_kind,
    fields := g.intoOpt "fields" Py.asInt x.fields,
    control_points := convList "control_points" PCP.conv g x.control_points }

/-- A `CPProp` with the values that are stored. -/
def CPProp.conv (g : Given) (x : CPProp) : CPProp :=
  { x with
    code := g.into "code" Py.asInt x.code }

/-- A `CP` with the values that are stored. -/
def CP.conv (g : Given) (x : CP) : CP :=
  { x with
    time_scale := g.into "time_scale" Py.asInt x.time_scale,
    pp := convList "pp" CPProp.conv g x.pp }

/-- A `ControlClip` with the values that are stored. -/
def ControlClip.conv (g : Given) (x : ControlClip) : ControlClip :=
  { x with
    toClip := x.toClip.conv g,
    interp_kind := g.into "interp_kind" Py.asInt x.interp_kind,
    control_points := convList "control_points" CP.conv g x.control_points }

/-- A `Filler` with the values that are stored. -/
def Filler.conv (g : Given) (x : Filler) : Filler :=
  { x with
    toClip := x.toClip.conv g }

/-- A `MediaDescriptor` with the values that are stored. -/
def MediaDescriptor.conv (g : Given) (x : MediaDescriptor) : MediaDescriptor :=
  { x with
    mob_kind := g.into "mob_kind" Py.asInt x.mob_kind,
    locator := g.into "locator" Py.asRef x.locator,
    intermediate := g.into "intermediate" Py.asBool x.intermediate,
    physical_media := g.into "physical_media" Py.asRef x.physical_media,
    attributes := g.intoOpt "attributes" Py.asRef x.attributes }

/-- A `TapeDescriptor` with the values that are stored. -/
def TapeDescriptor.conv (g : Given) (x : TapeDescriptor) : TapeDescriptor :=
  { x with
    toMediaDescriptor := x.toMediaDescriptor.conv g,
    cframe := g.into "cframe" Py.asInt x.cframe }

/-- A `FilmDescriptor` with the values that are stored. -/
def FilmDescriptor.conv (g : Given) (x : FilmDescriptor) : FilmDescriptor :=
  { x with
    toMediaDescriptor := x.toMediaDescriptor.conv g }

/-- A `NagraDescriptor` with the values that are stored. -/
def NagraDescriptor.conv (g : Given) (x : NagraDescriptor) : NagraDescriptor :=
  { x with
    toMediaDescriptor := x.toMediaDescriptor.conv g }

/-- A `MediaFileDescriptor` with the values that are stored. -/
def MediaFileDescriptor.conv (g : Given) (x : MediaFileDescriptor) : MediaFileDescriptor :=
  { x with
    toMediaDescriptor := x.toMediaDescriptor.conv g,
    edit_rate := g.into "edit_rate" Py.asRate x.edit_rate,
    length := g.into "length" Py.asInt x.length,
    is_omfi := g.into "is_omfi" Py.asInt x.is_omfi,
    data_offset := g.into "data_offset" Py.asInt x.data_offset }

/-- A `MultiDescriptor` with the values that are stored. -/
def MultiDescriptor.conv (g : Given) (x : MultiDescriptor) : MultiDescriptor :=
  { x with
    toMediaFileDescriptor := x.toMediaFileDescriptor.conv g }

/-- A `WaveDescriptor` with the values that are stored. -/
def WaveDescriptor.conv (g : Given) (x : WaveDescriptor) : WaveDescriptor :=
  { x with
    toMediaFileDescriptor := x.toMediaFileDescriptor.conv g }

/-- A `AIFCDescriptor` with the values that are stored. -/
def AIFCDescriptor.conv (g : Given) (x : AIFCDescriptor) : AIFCDescriptor :=
  { x with
    toMediaFileDescriptor := x.toMediaFileDescriptor.conv g,
    data_pos := g.intoOpt "data_pos" Py.asInt x.data_pos }

/-- A `PCMADescriptor` with the values that are stored. -/
def PCMADescriptor.conv (g : Given) (x : PCMADescriptor) : PCMADescriptor :=
  { x with
    toMediaFileDescriptor := x.toMediaFileDescriptor.conv g,
    channels := g.into "channels" Py.asInt x.channels,
    quantization_bits := g.into "quantization_bits" Py.asInt x.quantization_bits,
    sample_rate := g.into "sample_rate" Py.asRate x.sample_rate,
    locked := g.into "locked" Py.asBool x.locked,
    audio_ref_level := g.into "audio_ref_level" Py.asInt x.audio_ref_level,
    electro_spatial_formulation := g.into "electro_spatial_formulation" Py.asInt x.electro_spatial_formulation,
    dial_norm := g.into "dial_norm" Py.asInt x.dial_norm,
    coding_format := g.into "coding_format" Py.asInt x.coding_format,
    block_align := g.into "block_align" Py.asInt x.block_align,
    sequence_offset := g.into "sequence_offset" Py.asInt x.sequence_offset,
    average_bps := g.into "average_bps" Py.asInt x.average_bps,
    has_peak_envelope_data := g.into "has_peak_envelope_data" Py.asBool x.has_peak_envelope_data,
    peak_envelope_version := g.into "peak_envelope_version" Py.asInt x.peak_envelope_version,
    peak_envelope_format := g.into "peak_envelope_format" Py.asInt x.peak_envelope_format,
    points_per_peak_value := g.into "points_per_peak_value" Py.asInt x.points_per_peak_value,
    peak_envelope_block_size := g.into "peak_envelope_block_size" Py.asInt x.peak_envelope_block_size,
    peak_channel_count := g.into "peak_channel_count" Py.asInt x.peak_channel_count,
    peak_frame_count := g.into "peak_frame_count" Py.asInt x.peak_frame_count,
    peak_of_peaks_offset := g.into "peak_of_peaks_offset" Py.asInt x.peak_of_peaks_offset,
    peak_envelope_timestamp := g.into "peak_envelope_timestamp" Py.asInt x.peak_envelope_timestamp,
    ebu_timestamp := g.intoOpt "ebu_timestamp" Py.asInt x.ebu_timestamp,
    timecode_framerate := g.intoOpt "timecode_framerate" Py.asText x.timecode_framerate }

/-- A `MPGADescriptor` with the values that are stored. -/
def MPGADescriptor.conv (g : Given) (x : MPGADescriptor) : MPGADescriptor :=
  { x with
    toMediaFileDescriptor := x.toMediaFileDescriptor.conv g,
    channels := g.into "channels" Py.asInt x.channels,
    quantization_bits := g.into "quantization_bits" Py.asInt x.quantization_bits,
    sample_rate := g.into "sample_rate" Py.asRate x.sample_rate,
    locked := g.into "locked" Py.asBool x.locked,
    audio_ref_level := g.into "audio_ref_level" Py.asInt x.audio_ref_level,
    electro_spatial_formulation := g.into "electro_spatial_formulation" Py.asInt x.electro_spatial_formulation,
    dial_norm := g.into "dial_norm" Py.asInt x.dial_norm,
    coding_format := g.into "coding_format" Py.asInt x.coding_format,
    bit_rate := g.into "bit_rate" Py.asInt x.bit_rate,
    sub_frame_alignment := g.intoOpt "sub_frame_alignment" Py.asInt x.sub_frame_alignment,
    origin := g.intoOpt "origin" Py.asInt x.origin }

/-- A `DIDDescriptor` with the values that are stored. -/
def DIDDescriptor.conv (g : Given) (x : DIDDescriptor) : DIDDescriptor :=
  { x with
    toMediaFileDescriptor := x.toMediaFileDescriptor.conv g,
    stored_height := g.into "stored_height" Py.asInt x.stored_height,
    stored_width := g.into "stored_width" Py.asInt x.stored_width,
    sampled_height := g.into "sampled_height" Py.asInt x.sampled_height,
    sampled_width := g.into "sampled_width" Py.asInt x.sampled_width,
    sampled_x_offset := g.into "sampled_x_offset" Py.asInt x.sampled_x_offset,
    sampled_y_offset := g.into "sampled_y_offset" Py.asInt x.sampled_y_offset,
    display_height := g.into "display_height" Py.asInt x.display_height,
    display_width := g.into "display_width" Py.asInt x.display_width,
    display_x_offset := g.into "display_x_offset" Py.asInt x.display_x_offset,
    display_y_offset := g.into "display_y_offset" Py.asInt x.display_y_offset,
    frame_layout := g.into "frame_layout" Py.asInt x.frame_layout,
    alpha_transparency := g.into "alpha_transparency" Py.asInt x.alpha_transparency,
    uniformness := g.into "uniformness" Py.asBool x.uniformness,
    did_image_size := g.into "did_image_size" Py.asInt x.did_image_size,
    next_did_desc := g.into "next_did_desc" Py.asRef x.next_did_desc,
    resolution_id := g.into "resolution_id" Py.asInt x.resolution_id,
    image_alignment_factor := g.into "image_alignment_factor" Py.asInt x.image_alignment_factor,
    frame_index_byte_order := g.intoOpt "frame_index_byte_order" Py.asInt x.frame_index_byte_order,
    frame_sample_size := g.intoOpt "frame_sample_size" Py.asInt x.frame_sample_size,
    first_frame_offset := g.intoOpt "first_frame_offset" Py.asInt x.first_frame_offset,
    offset_to_rle_frame_index := g.intoOpt "offset_to_rle_frame_index" Py.asInt x.offset_to_rle_frame_index,
    frame_start_offset := g.intoOpt "frame_start_offset" Py.asInt x.frame_start_offset,
    essence_element_size_kind := g.intoOpt "essence_element_size_kind" Py.asInt x.essence_element_size_kind,
    frame_checked_with_mapper := g.intoOpt "frame_checked_with_mapper" Py.asBool x.frame_checked_with_mapper }

/-- A `CDCIDescriptor` with the values that are stored. -/
def CDCIDescriptor.conv (g : Given) (x : CDCIDescriptor) : CDCIDescriptor :=
  { x with
    toDIDDescriptor := x.toDIDDescriptor.conv g,
    horizontal_subsampling := g.into "horizontal_subsampling" Py.asInt x.horizontal_subsampling,
    vertical_subsampling := g.into "vertical_subsampling" Py.asInt x.vertical_subsampling,
    component_width := g.into "component_width" Py.asInt x.component_width,
    color_sitting := g.into "color_sitting" Py.asInt x.color_sitting,
    black_ref_level := g.into "black_ref_level" Py.asInt x.black_ref_level,
    white_ref_level := g.into "white_ref_level" Py.asInt x.white_ref_level,
    color_range := g.into "color_range" Py.asInt x.color_range,
    frame_index_offset := g.into "frame_index_offset" Py.asInt x.frame_index_offset,
    alpha_sampled_width := g.intoOpt "alpha_sampled_width" Py.asInt x.alpha_sampled_width,
    ignore_bw := g.intoOpt "ignore_bw" Py.asInt x.ignore_bw }

/-- A `MPGIDescriptor` with the values that are stored. -/
def MPGIDescriptor.conv (g : Given) (x : MPGIDescriptor) : MPGIDescriptor :=
  { x with
    toCDCIDescriptor := x.toCDCIDescriptor.conv g,
    mpeg_version := g.into "mpeg_version" Py.asInt x.mpeg_version,
    profile := g.into "profile" Py.asInt x.profile,
    gop_structure := g.into "gop_structure" Py.asInt x.gop_structure,
    stream_type := g.into "stream_type" Py.asInt x.stream_type,
    random_access := g.into "random_access" Py.asBool x.random_access,
    leading_discard := g.into "leading_discard" Py.asBool x.leading_discard,
    trailing_discard := g.into "trailing_discard" Py.asBool x.trailing_discard,
    min_gop_length := g.into "min_gop_length" Py.asInt x.min_gop_length,
    max_gop_length := g.into "max_gop_length" Py.asInt x.max_gop_length }

/-- A `JPEGDescriptor` with the values that are stored. -/
def JPEGDescriptor.conv (g : Given) (x : JPEGDescriptor) : JPEGDescriptor :=
  { x with
    toCDCIDescriptor := x.toCDCIDescriptor.conv g,
    jpeg_table_id := g.into "jpeg_table_id" Py.asInt x.jpeg_table_id,
    jpeg_frame_index_offset := g.into "jpeg_frame_index_offset" Py.asInt x.jpeg_frame_index_offset,
    image_start_align := g.intoOpt "image_start_align" Py.asInt x.image_start_align }

/-- A `RGBADescriptor` with the values that are stored. -/
def RGBADescriptor.conv (g : Given) (x : RGBADescriptor) : RGBADescriptor :=
  { x with
    toDIDDescriptor := x.toDIDDescriptor.conv g,
    frame_index_offset := g.intoOpt "frame_index_offset" Py.asInt x.frame_index_offset }

/-- A `DataDescriptor` with the values that are stored. -/
def DataDescriptor.conv (g : Given) (x : DataDescriptor) : DataDescriptor :=
  { x with
    toMediaFileDescriptor := x.toMediaFileDescriptor.conv g,
    is_offset_to_frame_indexes_valid := g.into "is_offset_to_frame_indexes_valid" Py.asBool x.is_offset_to_frame_indexes_valid,
    offset_to_frame_indexes := g.into "offset_to_frame_indexes" Py.asInt x.offset_to_frame_indexes,
    first_frame_offset := g.into "first_frame_offset" Py.asInt x.first_frame_offset,
    min_sample_size := g.into "min_sample_size" Py.asInt x.min_sample_size,
    max_sample_size := g.into "max_sample_size" Py.asInt x.max_sample_size }

/-- A `ANCDataDescriptor` with the values that are stored. -/
def ANCDataDescriptor.conv (g : Given) (x : ANCDataDescriptor) : ANCDataDescriptor :=
  { x with
    toDataDescriptor := x.toDataDescriptor.conv g,
    manifest_element_count := g.into "manifest_element_count" Py.asInt x.manifest_element_count }

/-- A `FileLocator` with the values that are stored. -/
def FileLocator.conv (g : Given) (x : FileLocator) : FileLocator :=
  { x with
    path := g.into "path" Py.asText x.path,
    path_posix := g.intoOpt "path_posix" Py.asText x.path_posix,
    path_utf8 := g.intoOpt "path_utf8" Py.asText x.path_utf8,
    path2_utf8 := g.intoOpt "path2_utf8" Py.asText x.path2_utf8 }

/-- A `GraphicEffect` with the values that are stored. -/
def GraphicEffect.conv (_ : Given) (x : GraphicEffect) : GraphicEffect := x

/-- A `ShapeList` with the values that are stored. -/
def ShapeList.conv (_ : Given) (x : ShapeList) : ShapeList := x

/-- A `ColorCorrectionEffect` with the values that are stored. -/
def ColorCorrectionEffect.conv (_ : Given) (x : ColorCorrectionEffect) : ColorCorrectionEffect := x

/-- A `EffectParam` with the values that are stored. -/
def EffectParam.conv (g : Given) (x : EffectParam) : EffectParam :=
  { x with
    percent_time := g.into "percent_time" Py.asInt x.percent_time,
    level := g.into "level" Py.asInt x.level,
    pos_x := g.into "pos_x" Py.asInt x.pos_x,
    floor_x := g.into "floor_x" Py.asInt x.floor_x,
    ceil_x := g.into "ceil_x" Py.asInt x.ceil_x,
    pos_y := g.into "pos_y" Py.asInt x.pos_y,
    floor_y := g.into "floor_y" Py.asInt x.floor_y,
    ceil_y := g.into "ceil_y" Py.asInt x.ceil_y,
    scale_x := g.into "scale_x" Py.asInt x.scale_x,
    scale_y := g.into "scale_y" Py.asInt x.scale_y,
    crop_left := g.into "crop_left" Py.asInt x.crop_left,
    crop_right := g.into "crop_right" Py.asInt x.crop_right,
    crop_top := g.into "crop_top" Py.asInt x.crop_top,
    crop_bottom := g.into "crop_bottom" Py.asInt x.crop_bottom,
    box_xscale := g.into "box_xscale" Py.asBool x.box_xscale,
    box_yscale := g.into "box_yscale" Py.asBool x.box_yscale,
    box_xpos := g.into "box_xpos" Py.asBool x.box_xpos,
    box_ypos := g.into "box_ypos" Py.asBool x.box_ypos,
    border_width := g.into "border_width" Py.asInt x.border_width,
    border_soft := g.into "border_soft" Py.asInt x.border_soft,
    splill_gain2 := g.into "splill_gain2" Py.asInt x.splill_gain2,
    splill_gain := g.into "splill_gain" Py.asInt x.splill_gain,
    splill_soft2 := g.into "splill_soft2" Py.asInt x.splill_soft2,
    splill_soft := g.into "splill_soft" Py.asInt x.splill_soft,
    enable_key_flags := g.into "enable_key_flags" Py.asInt x.enable_key_flags,
    selected := g.into "selected" Py.asBool x.selected }

/-- A `EffectParamList` with the values that are stored. -/
def EffectParamList.conv (g : Given) (x : EffectParamList) : EffectParamList :=
  { x with
    orig_length := g.into "orig_length" Py.asInt x.orig_length,
    window_offset := g.into "window_offset" Py.asInt x.window_offset,
    keyframe_size := g.into "keyframe_size" Py.asInt x.keyframe_size,
    parameters := convList "parameters" EffectParam.conv g x.parameters }

/-- A `CFUserParam` with the values that are stored. -/
def CFUserParam.conv (_ : Given) (x : CFUserParam) : CFUserParam := x

/-- A `ParameterItem` with the values that are stored. -/
def ParameterItem.conv (g : Given) (x : ParameterItem) : ParameterItem :=
  { x with
    enable := g.into "enable" Py.asBool x.enable,
    control_track := g.into "control_track" Py.asRef x.control_track,
    contribs_to_sig := g.intoOpt "contribs_to_sig" Py.asBool x.contribs_to_sig }

/-- A `MSMLocator` with the values that are stored. -/
def MSMLocator.conv (g : Given) (x : MSMLocator) : MSMLocator :=
  { x with
    last_known_volume := g.into "last_known_volume" Py.asText x.last_known_volume,
    domain_type := g.intoOpt "domain_type" Py.asInt x.domain_type,
    last_known_volume_utf8 := g.intoOpt "last_known_volume_utf8" Py.asText x.last_known_volume_utf8 }

/-- A `Position` with the values that are stored. -/
def Position.conv (_ : Given) (x : Position) : Position := x

/-- A `BOBPosition` with the values that are stored. -/
def BOBPosition.conv (g : Given) (x : BOBPosition) : BOBPosition :=
  { x with
    toPosition := x.toPosition.conv g,
    sample_num := g.into "sample_num" Py.asInt x.sample_num,
    length := g.into "length" Py.asInt x.length,
    track_type := g.into "track_type" Py.asInt x.track_type,
    track_index := g.into "track_index" Py.asInt x.track_index }

/-- A `DIDPosition` with the values that are stored. -/
def DIDPosition.conv (g : Given) (x : DIDPosition) : DIDPosition :=
  { x with
    toBOBPosition := x.toBOBPosition.conv g,
    strip := g.into "strip" Py.asInt x.strip,
    offset := g.into "offset" Py.asInt x.offset,
    byte_length := g.into "byte_length" Py.asInt x.byte_length,
    spos_invalid := g.into "spos_invalid" Py.asBool x.spos_invalid }

/-- A `MPGPosition` with the values that are stored. -/
def MPGPosition.conv (g : Given) (x : MPGPosition) : MPGPosition :=
  { x with
    toDIDPosition := x.toDIDPosition.conv g,
    trailing_discards := g.into "trailing_discards" Py.asInt x.trailing_discards,
    need_seq_hdr := g.into "need_seq_hdr" Py.asBool x.need_seq_hdr }

/-- A `BinRef` with the values that are stored. -/
def BinRef.conv (g : Given) (x : BinRef) : BinRef :=
  { x with
    uid_high := g.into "uid_high" Py.asInt x.uid_high,
    uid_low := g.into "uid_low" Py.asInt x.uid_low,
    name := g.into "name" Py.asText x.name }

/-- A `MobRef` with the values that are stored. -/
def MobRef.conv (g : Given) (x : MobRef) : MobRef :=
  { x with
    position := g.into "position" Py.asInt x.position }

/-- A `Marker` with the values that are stored. -/
def Marker.conv (g : Given) (x : Marker) : Marker :=
  { x with
    toMobRef := x.toMobRef.conv g,
    comp_offset := g.into "comp_offset" Py.asInt x.comp_offset,
    attributes := g.into "attributes" Py.asRef x.attributes,
    handled_codes := g.intoOpt "handled_codes" Py.asBool x.handled_codes }

/-- A `TrackerManager` with the values that are stored. -/
def TrackerManager.conv (g : Given) (x : TrackerManager) : TrackerManager :=
  { x with
    data_slots := g.into "data_slots" Py.asRef x.data_slots,
    param_slots := g.into "param_slots" Py.asRef x.param_slots }

/-- A `TrackerDataSlot` with the values that are stored. -/
def TrackerDataSlot.conv (g : Given) (x : TrackerDataSlot) : TrackerDataSlot :=
  { x with
    track_fg := g.intoOpt "track_fg" Py.asBool x.track_fg }

/-- A `TrackerParameterSlot` with the values that are stored. -/
def TrackerParameterSlot.conv (_ : Given) (x : TrackerParameterSlot) : TrackerParameterSlot := x

/-- A `TrackerData` with the values that are stored. -/
def TrackerData.conv (g : Given) (x : TrackerData) : TrackerData :=
  { x with
    clip_version := g.into "clip_version" Py.asInt x.clip_version,
    offset_tracking := g.intoOpt "offset_tracking" Py.asInt x.offset_tracking,
    smoothing := g.intoOpt "smoothing" Py.asInt x.smoothing,
    jitter_removal := g.intoOpt "jitter_removal" Py.asInt x.jitter_removal,
    clip5 := g.intoOpt "clip5" Py.asRef x.clip5,
    clip6 := g.intoOpt "clip6" Py.asRef x.clip6 }

/-- A `TrackerParameter` with the values that are stored. -/
def TrackerParameter.conv (_ : Given) (x : TrackerParameter) : TrackerParameter := x

/-- A `TrackGroup` with the values that are stored. -/
def TrackGroup.conv (g : Given) (x : TrackGroup) : TrackGroup :=
  { x with
    toComponent := x.toComponent.conv g,
    mc_mode := g.into "mc_mode" Py.asInt x.mc_mode,
    length := g.into "length" Py.asInt x.length,
    num_scalars := g.into "num_scalars" Py.asInt x.num_scalars }

/-- A `TrackEffect` with the values that are stored. -/
def TrackEffect.conv (g : Given) (x : TrackEffect) : TrackEffect :=
  { x with
    toTrackGroup := x.toTrackGroup.conv g,
    left_length := g.into "left_length" Py.asInt x.left_length,
    right_length := g.into "right_length" Py.asInt x.right_length,
    info_version := g.into "info_version" Py.asInt x.info_version,
    info_current := g.into "info_current" Py.asInt x.info_current,
    info_smooth := g.into "info_smooth" Py.asInt x.info_smooth,
    info_color_item := g.into "info_color_item" Py.asInt x.info_color_item,
    info_quality := g.into "info_quality" Py.asInt x.info_quality,
    info_is_reversed := g.into "info_is_reversed" Py.asInt x.info_is_reversed,
    info_aspect_on := g.into "info_aspect_on" Py.asBool x.info_aspect_on,
    keyframes := g.into "keyframes" Py.asRef x.keyframes,
    info_force_software := g.into "info_force_software" Py.asBool x.info_force_software,
    info_never_hardware := g.into "info_never_hardware" Py.asBool x.info_never_hardware,
    trackman := g.intoOpt "trackman" Py.asRef x.trackman }

/-- A `PanVolumeEffect` with the values that are stored. -/
def PanVolumeEffect.conv (g : Given) (x : PanVolumeEffect) : PanVolumeEffect :=
  { x with
    toTrackEffect := x.toTrackEffect.conv g,
    level := g.into "level" Py.asInt x.level,
    pan := g.into "pan" Py.asInt x.pan,
    suppress_validation := g.into "suppress_validation" Py.asBool x.suppress_validation,
    level_set := g.into "level_set" Py.asBool x.level_set,
    pan_set := g.into "pan_set" Py.asBool x.pan_set,
    supports_seperate_gain := g.intoOpt "supports_seperate_gain" Py.asInt x.supports_seperate_gain,
    is_trim_gain_effect := g.intoOpt "is_trim_gain_effect" Py.asInt x.is_trim_gain_effect }

/-- A `ASPIPluginChunk` with the values that are stored. -/
def ASPIPluginChunk.conv (g : Given) (x : ASPIPluginChunk) : ASPIPluginChunk :=
  { x with
    version := g.into "version" Py.asInt x.version,
    manufacturer_id := g.into "manufacturer_id" Py.asInt x.manufacturer_id,
    product_id := g.into "product_id" Py.asInt x.product_id,
    plugin_id := g.into "plugin_id" Py.asInt x.plugin_id,
    chunk_id := g.into "chunk_id" Py.asInt x.chunk_id,
    name := g.into "name" Py.asText x.name }

/-- A `ASPIPlugin` with the values that are stored. -/
def ASPIPlugin.conv (g : Given) (x : ASPIPlugin) : ASPIPlugin :=
  { x with
    name := g.into "name" Py.asText x.name,
    manufacturer_id := g.into "manufacturer_id" Py.asInt x.manufacturer_id,
    product_id := g.into "product_id" Py.asInt x.product_id,
    plugin_id := g.into "plugin_id" Py.asInt x.plugin_id,
    chunks := convList "chunks" ASPIPluginChunk.conv g x.chunks }

/-- A `AudioSuitePluginEffect` with the values that are stored. -/
def AudioSuitePluginEffect.conv (g : Given) (x : AudioSuitePluginEffect) : AudioSuitePluginEffect :=
  { x with
    toTrackEffect := x.toTrackEffect.conv g,
    mark_in := g.intoOpt "mark_in" Py.asInt x.mark_in,
    mark_out := g.intoOpt "mark_out" Py.asInt x.mark_out,
    tracks_to_affect := g.intoOpt "tracks_to_affect" Py.asInt x.tracks_to_affect,
    rendering_mode := g.intoOpt "rendering_mode" Py.asInt x.rendering_mode,
    padding_secs := g.intoOpt "padding_secs" Py.asInt x.padding_secs,
    plugins := convList "plugins" ASPIPlugin.conv g x.plugins }

/-- A `EqualizerBand` with the values that are stored. -/
def EqualizerBand.conv (g : Given) (x : EqualizerBand) : EqualizerBand :=
  { x with
    type := g.into "type" Py.asInt x.type,
    freq := g.into "freq" Py.asInt x.freq,
    gain := g.into "gain" Py.asInt x.gain,
    q := g.into "q" Py.asInt x.q,
    enable := g.into "enable" Py.asBool x.enable }

/-- A `EqualizerMultiBand` with the values that are stored. -/
def EqualizerMultiBand.conv (g : Given) (x : EqualizerMultiBand) : EqualizerMultiBand :=
  { x with
    toTrackEffect := x.toTrackEffect.conv g,
    effect_enable := g.into "effect_enable" Py.asBool x.effect_enable,
    filter_name := g.into "filter_name" Py.asText x.filter_name,
    bands := convList "bands" EqualizerBand.conv g x.bands }

/-- A `TimeWarp` with the values that are stored. -/
def TimeWarp.conv (g : Given) (x : TimeWarp) : TimeWarp :=
  { x with
    toTrackGroup := x.toTrackGroup.conv g,
    phase_offset := g.into "phase_offset" Py.asInt x.phase_offset }

/-- A `CaptureMask` with the values that are stored. -/
def CaptureMask.conv (g : Given) (x : CaptureMask) : CaptureMask :=
  { x with
    toTimeWarp := x.toTimeWarp.conv g,
    is_double := g.into "is_double" Py.asBool x.is_double,
    mask_bits := g.into "mask_bits" Py.asInt x.mask_bits }

/-- A `StrobeEffect` with the values that are stored. -/
def StrobeEffect.conv (g : Given) (x : StrobeEffect) : StrobeEffect :=
  { x with
    toTimeWarp := x.toTimeWarp.conv g,
    strobe_value := g.into "strobe_value" Py.asInt x.strobe_value }

/-- A `MotionEffect` with the values that are stored. -/
def MotionEffect.conv (g : Given) (x : MotionEffect) : MotionEffect :=
  { x with
    toTimeWarp := x.toTimeWarp.conv g,
    source_param_list := g.intoOpt "source_param_list" Py.asRef x.source_param_list,
    new_source_calculation := g.intoOpt "new_source_calculation" Py.asBool x.new_source_calculation }

/-- A `Repeat` with the values that are stored. -/
def Repeat.conv (g : Given) (x : Repeat) : Repeat :=
  { x with
    toTimeWarp := x.toTimeWarp.conv g }

/-- A `EssenceGroup` with the values that are stored. -/
def EssenceGroup.conv (g : Given) (x : EssenceGroup) : EssenceGroup :=
  { x with
    toTrackGroup := x.toTrackGroup.conv g,
    rep_set_type := g.intoOpt "rep_set_type" Py.asInt x.rep_set_type }

/-- A `TransitionEffect` with the values that are stored. -/
def TransitionEffect.conv (g : Given) (x : TransitionEffect) : TransitionEffect :=
  { x with
    toTrackGroup := x.toTrackGroup.conv g,
    cutpoint := g.into "cutpoint" Py.asInt x.cutpoint,
    left_length := g.into "left_length" Py.asInt x.left_length,
    right_length := g.into "right_length" Py.asInt x.right_length,
    info_version := g.into "info_version" Py.asInt x.info_version,
    info_current := g.into "info_current" Py.asInt x.info_current,
    info_smooth := g.into "info_smooth" Py.asInt x.info_smooth,
    info_color_item := g.into "info_color_item" Py.asInt x.info_color_item,
    info_quality := g.into "info_quality" Py.asInt x.info_quality,
    info_is_reversed := g.into "info_is_reversed" Py.asInt x.info_is_reversed,
    info_aspect_on := g.into "info_aspect_on" Py.asBool x.info_aspect_on,
    keyframes := g.into "keyframes" Py.asRef x.keyframes,
    info_force_software := g.into "info_force_software" Py.asBool x.info_force_software,
    info_never_hardware := g.into "info_never_hardware" Py.asBool x.info_never_hardware,
    trackman := g.intoOpt "trackman" Py.asRef x.trackman }

/-- A `Selector` with the values that are stored. -/
def Selector.conv (g : Given) (x : Selector) : Selector :=
  { x with
    toTrackGroup := x.toTrackGroup.conv g,
    is_ganged := g.into "is_ganged" Py.asBool x.is_ganged,
    selected := g.into "selected" Py.asInt x.selected }

/-- A `Composition` with the values that are stored. -/
def Composition.conv (g : Given) (x : Composition) : Composition :=
  { x with
    toTrackGroup := x.toTrackGroup.conv g,
    mob_type_id := g.into "mob_type_id" Py.asInt x.mob_type_id,
    usage_code := g.into "usage_code" Py.asInt x.usage_code,
    descriptor := g.into "descriptor" Py.asRef x.descriptor }

/-- An object with the values that are stored: what the values given to its properties are converted to. -/
def Obj.conv (g : Given) : Obj → Obj
  | .ATTR x => .ATTR x
  | .PRLS x => .PRLS x
  | .TMCS x => .TMCS x
  | .BVst x => .BVst (x.conv g)
  | .ABIN x => .ABIN (x.conv g)
  | .BINF x => .BINF (x.conv g)
  | .SEQU x => .SEQU (x.conv g)
  | .SCLP x => .SCLP (x.conv g)
  | .TCCP x => .TCCP (x.conv g)
  | .ECCP x => .ECCP (x.conv g)
  | .TRKR x => .TRKR (x.conv g)
  | .PRCL x => .PRCL (x.conv g)
  | .CTRL x => .CTRL (x.conv g)
  | .FILL x => .FILL (x.conv g)
  | .TRKG x => .TRKG (x.conv g)
  | .TKFX x => .TKFX (x.conv g)
  | .PVOL x => .PVOL (x.conv g)
  | .ASPI x => .ASPI (x.conv g)
  | .EQMB x => .EQMB (x.conv g)
  | .MASK x => .MASK (x.conv g)
  | .STRB x => .STRB (x.conv g)
  | .SPED x => .SPED (x.conv g)
  | .REPT x => .REPT (x.conv g)
  | .RSET x => .RSET (x.conv g)
  | .TNFX x => .TNFX (x.conv g)
  | .SLCT x => .SLCT (x.conv g)
  | .CMPO x => .CMPO (x.conv g)
  | .FILE x => .FILE (x.conv g)
  | .WINF x => .WINF (x.conv g)
  | .URLL x => .URLL x
  | .GRFX x => .GRFX (x.conv g)
  | .SHLP x => .SHLP (x.conv g)
  | .CCFX x => .CCFX (x.conv g)
  | .FXPS x => .FXPS (x.conv g)
  | .AVUP x => .AVUP (x.conv g)
  | .PRIT x => .PRIT (x.conv g)
  | .MSML x => .MSML (x.conv g)
  | .APOS x => .APOS (x.conv g)
  | .ABOB x => .ABOB (x.conv g)
  | .DIDP x => .DIDP (x.conv g)
  | .MPGP x => .MPGP (x.conv g)
  | .MCBR x => .MCBR (x.conv g)
  | .MCMR x => .MCMR (x.conv g)
  | .TMBC x => .TMBC (x.conv g)
  | .TKMN x => .TKMN (x.conv g)
  | .TKDS x => .TKDS (x.conv g)
  | .TKPS x => .TKPS (x.conv g)
  | .TKDA x => .TKDA (x.conv g)
  | .TKPA x => .TKPA (x.conv g)
  | .MDES x => .MDES (x.conv g)
  | .MDTP x => .MDTP (x.conv g)
  | .MDFM x => .MDFM (x.conv g)
  | .MDNG x => .MDNG (x.conv g)
  | .MDFL x => .MDFL (x.conv g)
  | .MULD x => .MULD (x.conv g)
  | .WAVE x => .WAVE (x.conv g)
  | .AIFC x => .AIFC (x.conv g)
  | .PCMA x => .PCMA (x.conv g)
  | .MPGA x => .MPGA (x.conv g)
  | .DIDD x => .DIDD (x.conv g)
  | .CDCI x => .CDCI (x.conv g)
  | .MPGI x => .MPGI (x.conv g)
  | .JPED x => .JPED (x.conv g)
  | .RGBA x => .RGBA (x.conv g)
  | .DATD x => .DATD (x.conv g)
  | .ANCD x => .ANCD (x.conv g)

/-- The properties of the helper objects of an object. -/
def Obj.helperKinds : Obj → List (Slot × Kind)
  | .ABIN x => inListK "items" x.items (fun _ => ownK BinItem.kinds) ++
      inListK "sifted_settings" (List.range 6) (fun _ => ownK SiftItem.kinds)
  | .BINF x => inListK "items" x.items (fun _ => ownK BinItem.kinds) ++
      inListK "sifted_settings" (List.range 6) (fun _ => ownK SiftItem.kinds)
  | .PRCL x => inListK "control_points" x.control_points fun p =>
      ownK PCP.kinds ++ inListK "pp" p.pp fun _ => ownK PCPProp.kinds
  | .CTRL x => inListK "control_points" x.control_points fun p =>
      ownK CP.kinds ++ inListK "pp" p.pp fun _ => ownK CPProp.kinds
  | .FXPS x => inListK "parameters" x.parameters fun _ => ownK EffectParam.kinds
  | .ASPI x => inListK "plugins" x.plugins fun p =>
      ownK ASPIPlugin.kinds ++ inListK "chunks" p.chunks fun _ => ownK ASPIPluginChunk.kinds
  | .EQMB x => inListK "bands" x.bands fun _ => ownK EqualizerBand.kinds
  | _ => []

/-- The properties of an object and of its helper objects. -/
def Obj.propKinds (o : Obj) : List (Slot × Kind) := ownK (kinds o.cls) ++ o.helperKinds

/-- `v` is the integer `z`, or the bool that counts as it. -/
def Py.Number (v : Py) (z : Int) : Prop := v = .int z ∨ ∃ b, v = .bool b ∧ z = if b then 1 else 0

/-- The first entries of `v` are the integers `zs`. -/
def Py.Entries (v : Py) (zs : List Int) : Prop :=
  (∃ xs ys, v = .seq (xs ++ ys) ∧ List.Forall₂ Py.Number xs zs) ∨
    ∃ bs cs : Bytes, v = .bytes (bs ++ cs) ∧ zs = bs.map fun b => (b.toNat : Int)

/-- Two values that are stored alike in a property. -/
def Alike : Kind → Py → Py → Prop
  | .int, v, w => ∃ z, v.Number z ∧ w.Number z
  | .bool, v, w => v.Falsy ↔ w.Falsy
  | .text, v, w => v.Falsy ∧ w.Falsy
  | .name, v, w => v.Falsy ∧ w.Falsy
  | .ref, v, w => ∃ r b b', v = .obj r b ∧ w = .obj r b'
  | .rate, v, w => ∃ z : Int, (v.Number z ∨ v = .float (.fin z)) ∧ (w.Number z ∨ w = .float (.fin z))
  | .rect, v, w => ∃ zs, zs.length = 4 ∧ v.Entries zs ∧ w.Entries zs
  | .rgb, v, w => ∃ zs, zs.length = 3 ∧ v.Entries zs ∧ w.Entries zs

/-- `g'` gives each property in `l` the same value as `g`, or one that is stored alike. -/
def Exchanged (g g' : Given) (l : List (Slot × Kind)) : Prop :=
  ∀ s k, (s, k) ∈ l → g s = g' s ∨ ∃ v w, g s = some v ∧ g' s = some w ∧ Alike k v w

end Avb
