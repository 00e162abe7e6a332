import Verif.Lemmas.Unset

/-! The marked writers of all classes (Model/Unset.lean) and what they need. -/

namespace Avb

open Unset

set_option linter.unusedVariables false
set_option linter.unusedSimpArgs false

theorem Setting.write_needs (c : WCtx) (x : Setting) :
    Needs (fun u => x.writeU u c) (x.write c) (
        own ["name", "kind", "attr_count", "attr_type", "attributes"]) := by
  unfold Setting.writeU Setting.write
  needs_all

theorem BinViewSetting.write_needs (c : WCtx) (x : BinViewSetting) :
    Needs (fun u => x.writeU u c) (x.write c) (
        own ["name", "kind", "attr_count", "attr_type", "attributes", "columns"]) := by
  have hp := Setting.write_needs c x.toSetting
  unfold BinViewSetting.writeU BinViewSetting.write
  needs_all

theorem BinItem.write_needs (c : WCtx) (b : BinItem) :
    Needs (fun u => b.writeU u c) (b.write c) (
        own ["mob", "x", "y", "keyframe", "user_placed"]) := by
  unfold BinItem.writeU BinItem.write
  needs_all

theorem SiftItem.write_needs (c : WCtx) (x : SiftItem) :
    Needs (fun u => x.writeU u c) (x.write c) (
        own ["method", "string", "column"]) := by
  unfold SiftItem.writeU SiftItem.write
  needs_all

theorem sift_needs (c : WCtx) (l : List SiftItem) :
    Needs (fun u => forW (List.range' 0 6) fun i => do
        let s ← Wr.nth l i
        s.writeU (u.at "sifted_settings" i) c)
      (forW (List.range' 0 6) fun i => do
        let s ← Wr.nth l i
        s.write c)
      (inList "sifted_settings" (List.range 6) fun _ => own siftNames) := by
  have h : ∀ xs : List Nat, Needs (fun u => forW xs fun i => do
        let s ← Wr.nth l i
        s.writeU (u.at "sifted_settings" i) c)
      (forW xs fun i => do
        let s ← Wr.nth l i
        s.write c)
      (xs.flatMap fun i => (own siftNames).map fun s => (("sifted_settings", i) :: s.1, s.2)) := by
    intro xs
    induction xs with
    | nil => exact Needs.plain _
    | cons i xs ih =>
      rw [List.flatMap_cons]
      exact Needs.bind (Needs.bind (l := []) (Needs.plain _)
        fun s => Needs.at_ "sifted_settings" i (SiftItem.write_needs c s)) fun _ => ih
  exact Needs.congr (h _) rfl

theorem Bin.writeBody_needs (c : WCtx) (x : Bin) :
    Needs (fun u => x.writeBodyU u c) (x.writeBody c) (
        own ["items", "large_bin", "view_setting", "uid"] ++
        (inList "items" x.items fun p => own binItemNames) ++
        own ["display_mask", "display_mode", "sifted", "sifted_settings"] ++
        (inList "sifted_settings" (List.range 6) fun _ => own siftNames) ++
        own ["sort_columns", "mac_font", "mac_font_size", "mac_image_scale", "home_rect", "background_color",
        "forground_color", "ql_image_scale", "attributes", "was_iconic"]) := by
  have hh := Needs.forWi (list := "items") (fun e => BinItem.write_needs c e) x.items
  have hs := sift_needs c x.sifted_settings
  unfold Bin.writeBodyU Bin.writeBody
  needs_all

theorem Bin.write_needs (c : WCtx) (x : Bin) :
    Needs (fun u => x.writeU u c) (x.write c) (
        own ["items", "large_bin", "view_setting", "uid"] ++
        (inList "items" x.items fun p => own binItemNames) ++
        own ["display_mask", "display_mode", "sifted", "sifted_settings"] ++
        (inList "sifted_settings" (List.range 6) fun _ => own siftNames) ++
        own ["sort_columns", "mac_font", "mac_font_size", "mac_image_scale", "home_rect", "background_color",
        "forground_color", "ql_image_scale", "attributes", "was_iconic"]) := by
  have hq := Bin.writeBody_needs c x
  unfold Bin.writeU Bin.write
  needs_all

theorem BinFirst.write_needs (c : WCtx) (x : BinFirst) :
    Needs (fun u => x.writeU u c) (x.write c) (
        own ["items", "large_bin", "view_setting", "uid"] ++
        (inList "items" x.toBin.items fun p => own binItemNames) ++
        own ["display_mask", "display_mode", "sifted", "sifted_settings"] ++
        (inList "sifted_settings" (List.range 6) fun _ => own siftNames) ++
        own ["sort_columns", "mac_font", "mac_font_size", "mac_image_scale", "home_rect", "background_color",
        "forground_color", "ql_image_scale", "attributes", "was_iconic", "unknown_s32"]) := by
  have hp := Bin.writeBody_needs c x.toBin
  unfold BinFirst.writeU BinFirst.write
  needs_all

theorem Component.write_needs (c : WCtx) (x : Component) :
    Needs (fun u => x.writeU u c) (x.write c) (
        own ["left_bob", "right_bob", "media_kind_id", "edit_rate", "name", "effect_id", "attributes",
        "session_attrs", "precomputed"]) := by
  unfold Component.writeU Component.write
  needs_all

theorem Sequence.write_needs (c : WCtx) (x : Sequence) :
    Needs (fun u => x.writeU u c) (x.write c) (
        own ["left_bob", "right_bob", "media_kind_id", "edit_rate", "name", "effect_id", "attributes",
        "session_attrs", "precomputed", "components"]) := by
  have hp := Component.write_needs c x.toComponent
  unfold Sequence.writeU Sequence.write
  needs_all

theorem Clip.write_needs (c : WCtx) (x : Clip) :
    Needs (fun u => x.writeU u c) (x.write c) (
        own ["left_bob", "right_bob", "media_kind_id", "edit_rate", "name", "effect_id", "attributes",
        "session_attrs", "precomputed", "length"]) := by
  have hp := Component.write_needs c x.toComponent
  unfold Clip.writeU Clip.write
  needs_all

theorem SourceClip.write_needs (c : WCtx) (x : SourceClip) :
    Needs (fun u => x.writeU u c) (x.write c) (
        own ["left_bob", "right_bob", "media_kind_id", "edit_rate", "name", "effect_id", "attributes",
        "session_attrs", "precomputed", "length", "mob_id", "track_id", "start_time"]) := by
  have hp := Clip.write_needs c x.toClip
  unfold SourceClip.writeU SourceClip.write
  needs_all

theorem Timecode.write_needs (c : WCtx) (x : Timecode) :
    Needs (fun u => x.writeU u c) (x.write c) (
        own ["left_bob", "right_bob", "media_kind_id", "edit_rate", "name", "effect_id", "attributes",
        "session_attrs", "precomputed", "length", "flags", "fps", "start"]) := by
  have hp := Clip.write_needs c x.toClip
  unfold Timecode.writeU Timecode.write
  needs_all

theorem Edgecode.write_needs (c : WCtx) (x : Edgecode) :
    Needs (fun u => x.writeU u c) (x.write c) (
        own ["left_bob", "right_bob", "media_kind_id", "edit_rate", "name", "effect_id", "attributes",
        "session_attrs", "precomputed", "length", "header", "film_kind", "code_format", "base_perf",
        "start_ec"]) := by
  have hp := Clip.write_needs c x.toClip
  unfold Edgecode.writeU Edgecode.write
  needs_all

theorem TrackRef.write_needs (c : WCtx) (x : TrackRef) :
    Needs (fun u => x.writeU u c) (x.write c) (
        own ["left_bob", "right_bob", "media_kind_id", "edit_rate", "name", "effect_id", "attributes",
        "session_attrs", "precomputed", "length", "relative_scope", "relative_track"]) := by
  have hp := Clip.write_needs c x.toClip
  unfold TrackRef.writeU TrackRef.write
  needs_all

theorem PCPProp.writeValue_needs (c : WCtx) (x : PCPProp) :
    Needs (fun u => x.writeValueU u c) (x.writeValue c) (
        own ["value"]) := by
  unfold PCPProp.writeValueU PCPProp.writeValue
  refine Needs.ite (Needs.need (Needs.plain _)) (Needs.ite (Needs.need (Needs.plain _)) (Needs.failing _ _))

theorem PCPProp.write_needs (c : WCtx) (x : PCPProp) :
    Needs (fun u => x.writeU u c) (x.write c) (
        own ["code", "type", "value"]) := by
  have hq := PCPProp.writeValue_needs c x
  unfold PCPProp.writeU PCPProp.write
  needs_all

theorem PCP.writeValue_needs (c : WCtx) (value_type : Int) (x : PCP) :
    Needs (fun u => x.writeValueU u c value_type) (x.writeValue c value_type) (
        own ["value"]) := by
  unfold PCP.writeValueU PCP.writeValue
  refine Needs.ite (Needs.need (Needs.plain _)) (Needs.ite (Needs.need (Needs.plain _))
    (Needs.ite (Needs.need (Needs.plain _)) (Needs.failing _ _)))

theorem PCP.write_needs (c : WCtx) (value_type : Int) (x : PCP) :
    Needs (fun u => x.writeU u c value_type) (x.write c value_type) (
        own ["offset", "timescale", "value", "pp"] ++
        (inList "pp" x.pp fun p => own pointPropNames)) := by
  have hq := PCP.writeValue_needs c value_type x
  have hh := Needs.forWi (list := "pp") (fun e => PCPProp.write_needs c e) x.pp
  unfold PCP.writeU PCP.write
  needs_all

theorem ParamClip.write_needs (c : WCtx) (x : ParamClip) :
    Needs (fun u => x.writeU u c) (x.write c) (
        own ["left_bob", "right_bob", "media_kind_id", "edit_rate", "name", "effect_id", "attributes",
        "session_attrs", "precomputed", "length", "interp_kind", "value_type", "control_points"] ++
        (inList "control_points" x.control_points fun p => own pointNames ++ inList "pp" p.pp fun _ => own pointPropNames)) := by
  have hp := Clip.write_needs c x.toClip
  have hh := Needs.forWi (list := "control_points") (fun e => PCP.write_needs c x.value_type e) x.control_points
  unfold ParamClip.writeU ParamClip.write
  needs_all

theorem CPProp.write_needs (c : WCtx) (x : CPProp) :
    Needs (fun u => x.writeU u c) (x.write c) (
        own ["code", "value"]) := by
  unfold CPProp.writeU CPProp.write
  needs_all

theorem CP.write_needs (c : WCtx) (x : CP) :
    Needs (fun u => x.writeU u c) (x.write c) (
        own ["offset", "time_scale", "value", "pp"] ++
        (inList "pp" x.pp fun p => own controlPropNames)) := by
  have hh := Needs.forWi (list := "pp") (fun e => CPProp.write_needs c e) x.pp
  unfold CP.writeU CP.write
  needs_all

theorem ControlClip.write_needs (c : WCtx) (x : ControlClip) :
    Needs (fun u => x.writeU u c) (x.write c) (
        own ["left_bob", "right_bob", "media_kind_id", "edit_rate", "name", "effect_id", "attributes",
        "session_attrs", "precomputed", "length", "interp_kind", "control_points"] ++
        (inList "control_points" x.control_points fun p => own controlNames ++ inList "pp" p.pp fun _ => own controlPropNames)) := by
  have hp := Clip.write_needs c x.toClip
  have hh := Needs.forWi (list := "control_points") (fun e => CP.write_needs c e) x.control_points
  unfold ControlClip.writeU ControlClip.write
  needs_all

theorem Filler.write_needs (c : WCtx) (x : Filler) :
    Needs (fun u => x.writeU u c) (x.write c) (
        own ["left_bob", "right_bob", "media_kind_id", "edit_rate", "name", "effect_id", "attributes",
        "session_attrs", "precomputed", "length"]) := by
  have hp := Clip.write_needs c x.toClip
  unfold Filler.writeU Filler.write
  needs_all

theorem MediaDescriptor.writeBody_needs (c : WCtx) (x : MediaDescriptor) :
    Needs (fun u => x.writeBodyU u c) (x.writeBody c) (
        own ["mob_kind", "locator", "intermediate", "physical_media"]) := by
  unfold MediaDescriptor.writeBodyU MediaDescriptor.writeBody
  needs_all

theorem MediaDescriptor.write_needs (c : WCtx) (x : MediaDescriptor) :
    Needs (fun u => x.writeU u c) (x.write c) (
        own ["mob_kind", "locator", "intermediate", "physical_media"]) := by
  have hq := MediaDescriptor.writeBody_needs c x
  unfold MediaDescriptor.writeU MediaDescriptor.write
  needs_all

theorem TapeDescriptor.write_needs (c : WCtx) (x : TapeDescriptor) :
    Needs (fun u => x.writeU u c) (x.write c) (
        own ["mob_kind", "locator", "intermediate", "physical_media", "cframe"]) := by
  have hp := MediaDescriptor.writeBody_needs c x.toMediaDescriptor
  unfold TapeDescriptor.writeU TapeDescriptor.write
  needs_all

theorem FilmDescriptor.write_needs (c : WCtx) (x : FilmDescriptor) :
    Needs (fun u => x.writeU u c) (x.write c) (
        own ["mob_kind", "locator", "intermediate", "physical_media"]) := by
  have hp := MediaDescriptor.writeBody_needs c x.toMediaDescriptor
  unfold FilmDescriptor.writeU FilmDescriptor.write
  needs_all

theorem NagraDescriptor.write_needs (c : WCtx) (x : NagraDescriptor) :
    Needs (fun u => x.writeU u c) (x.write c) (
        own ["mob_kind", "locator", "intermediate", "physical_media"]) := by
  have hp := MediaDescriptor.writeBody_needs c x.toMediaDescriptor
  unfold NagraDescriptor.writeU NagraDescriptor.write
  needs_all

theorem MediaFileDescriptor.writeBody_needs (c : WCtx) (x : MediaFileDescriptor) :
    Needs (fun u => x.writeBodyU u c) (x.writeBody c) (
        own ["mob_kind", "locator", "intermediate", "physical_media", "edit_rate", "length", "is_omfi",
        "data_offset"]) := by
  have hp := MediaDescriptor.writeBody_needs c x.toMediaDescriptor
  unfold MediaFileDescriptor.writeBodyU MediaFileDescriptor.writeBody
  needs_all

theorem MediaFileDescriptor.write_needs (c : WCtx) (x : MediaFileDescriptor) :
    Needs (fun u => x.writeU u c) (x.write c) (
        own ["mob_kind", "locator", "intermediate", "physical_media", "edit_rate", "length", "is_omfi",
        "data_offset"]) := by
  have hq := MediaFileDescriptor.writeBody_needs c x
  unfold MediaFileDescriptor.writeU MediaFileDescriptor.write
  needs_all

theorem MultiDescriptor.write_needs (c : WCtx) (x : MultiDescriptor) :
    Needs (fun u => x.writeU u c) (x.write c) (
        own ["mob_kind", "locator", "intermediate", "physical_media", "edit_rate", "length", "is_omfi",
        "data_offset", "descriptors"]) := by
  have hp := MediaFileDescriptor.writeBody_needs c x.toMediaFileDescriptor
  unfold MultiDescriptor.writeU MultiDescriptor.write
  needs_all

theorem WaveDescriptor.write_needs (c : WCtx) (x : WaveDescriptor) :
    Needs (fun u => x.writeU u c) (x.write c) (
        own ["mob_kind", "locator", "intermediate", "physical_media", "edit_rate", "length", "is_omfi",
        "data_offset", "summary"]) := by
  have hp := MediaFileDescriptor.writeBody_needs c x.toMediaFileDescriptor
  unfold WaveDescriptor.writeU WaveDescriptor.write
  needs_all

theorem AIFCDescriptor.write_needs (c : WCtx) (x : AIFCDescriptor) :
    Needs (fun u => x.writeU u c) (x.write c) (
        own ["mob_kind", "locator", "intermediate", "physical_media", "edit_rate", "length", "is_omfi",
        "data_offset", "summary"]) := by
  have hp := MediaFileDescriptor.writeBody_needs c x.toMediaFileDescriptor
  unfold AIFCDescriptor.writeU AIFCDescriptor.write
  needs_all

theorem PCMADescriptor.write_needs (c : WCtx) (x : PCMADescriptor) :
    Needs (fun u => x.writeU u c) (x.write c) (
        own ["mob_kind", "locator", "intermediate", "physical_media", "edit_rate", "length", "is_omfi",
        "data_offset", "channels", "quantization_bits", "sample_rate", "locked", "audio_ref_level",
        "electro_spatial_formulation", "dial_norm", "coding_format", "block_align", "sequence_offset",
        "average_bps", "has_peak_envelope_data", "peak_envelope_version", "peak_envelope_format",
        "points_per_peak_value", "peak_envelope_block_size", "peak_channel_count", "peak_frame_count",
        "peak_of_peaks_offset", "peak_envelope_timestamp"]) := by
  have hp := MediaFileDescriptor.writeBody_needs c x.toMediaFileDescriptor
  unfold PCMADescriptor.writeU PCMADescriptor.write
  needs_all

theorem MPGADescriptor.write_needs (c : WCtx) (x : MPGADescriptor) :
    Needs (fun u => x.writeU u c) (x.write c) (
        own ["mob_kind", "locator", "intermediate", "physical_media", "edit_rate", "length", "is_omfi",
        "data_offset", "channels", "quantization_bits", "sample_rate", "locked", "audio_ref_level",
        "electro_spatial_formulation", "dial_norm", "coding_format", "bit_rate"]) := by
  have hp := MediaFileDescriptor.writeBody_needs c x.toMediaFileDescriptor
  unfold MPGADescriptor.writeU MPGADescriptor.write
  needs_all

theorem DIDDescriptor.writeBody_needs (c : WCtx) (x : DIDDescriptor) :
    Needs (fun u => x.writeBodyU u c) (x.writeBody c) (
        own ["mob_kind", "locator", "intermediate", "physical_media", "edit_rate", "length", "is_omfi",
        "data_offset", "stored_height", "stored_width", "sampled_height", "sampled_width",
        "sampled_x_offset", "sampled_y_offset", "display_height", "display_width", "display_x_offset",
        "display_y_offset", "frame_layout", "aspect_ratio", "line_map", "alpha_transparency",
        "uniformness", "did_image_size", "next_did_desc", "compress_method", "resolution_id",
        "image_alignment_factor"]) := by
  have hp := MediaFileDescriptor.writeBody_needs c x.toMediaFileDescriptor
  unfold DIDDescriptor.writeBodyU DIDDescriptor.writeBody
  needs_all

theorem DIDDescriptor.write_needs (c : WCtx) (x : DIDDescriptor) :
    Needs (fun u => x.writeU u c) (x.write c) (
        own ["mob_kind", "locator", "intermediate", "physical_media", "edit_rate", "length", "is_omfi",
        "data_offset", "stored_height", "stored_width", "sampled_height", "sampled_width",
        "sampled_x_offset", "sampled_y_offset", "display_height", "display_width", "display_x_offset",
        "display_y_offset", "frame_layout", "aspect_ratio", "line_map", "alpha_transparency",
        "uniformness", "did_image_size", "next_did_desc", "compress_method", "resolution_id",
        "image_alignment_factor"]) := by
  have hq := DIDDescriptor.writeBody_needs c x
  unfold DIDDescriptor.writeU DIDDescriptor.write
  needs_all

theorem CDCIDescriptor.writeBody_needs (c : WCtx) (x : CDCIDescriptor) :
    Needs (fun u => x.writeBodyU u c) (x.writeBody c) (
        own ["mob_kind", "locator", "intermediate", "physical_media", "edit_rate", "length", "is_omfi",
        "data_offset", "stored_height", "stored_width", "sampled_height", "sampled_width",
        "sampled_x_offset", "sampled_y_offset", "display_height", "display_width", "display_x_offset",
        "display_y_offset", "frame_layout", "aspect_ratio", "line_map", "alpha_transparency",
        "uniformness", "did_image_size", "next_did_desc", "compress_method", "resolution_id",
        "image_alignment_factor", "horizontal_subsampling", "vertical_subsampling", "component_width",
        "color_sitting", "black_ref_level", "white_ref_level", "color_range", "frame_index_offset"]) := by
  have hp := DIDDescriptor.writeBody_needs c x.toDIDDescriptor
  unfold CDCIDescriptor.writeBodyU CDCIDescriptor.writeBody
  needs_all

theorem CDCIDescriptor.write_needs (c : WCtx) (x : CDCIDescriptor) :
    Needs (fun u => x.writeU u c) (x.write c) (
        own ["mob_kind", "locator", "intermediate", "physical_media", "edit_rate", "length", "is_omfi",
        "data_offset", "stored_height", "stored_width", "sampled_height", "sampled_width",
        "sampled_x_offset", "sampled_y_offset", "display_height", "display_width", "display_x_offset",
        "display_y_offset", "frame_layout", "aspect_ratio", "line_map", "alpha_transparency",
        "uniformness", "did_image_size", "next_did_desc", "compress_method", "resolution_id",
        "image_alignment_factor", "horizontal_subsampling", "vertical_subsampling", "component_width",
        "color_sitting", "black_ref_level", "white_ref_level", "color_range", "frame_index_offset"]) := by
  have hq := CDCIDescriptor.writeBody_needs c x
  unfold CDCIDescriptor.writeU CDCIDescriptor.write
  needs_all

theorem MPGIDescriptor.write_needs (c : WCtx) (x : MPGIDescriptor) :
    Needs (fun u => x.writeU u c) (x.write c) (
        own ["mob_kind", "locator", "intermediate", "physical_media", "edit_rate", "length", "is_omfi",
        "data_offset", "stored_height", "stored_width", "sampled_height", "sampled_width",
        "sampled_x_offset", "sampled_y_offset", "display_height", "display_width", "display_x_offset",
        "display_y_offset", "frame_layout", "aspect_ratio", "line_map", "alpha_transparency",
        "uniformness", "did_image_size", "next_did_desc", "compress_method", "resolution_id",
        "image_alignment_factor", "horizontal_subsampling", "vertical_subsampling", "component_width",
        "color_sitting", "black_ref_level", "white_ref_level", "color_range", "frame_index_offset",
        "mpeg_version", "profile", "gop_structure", "stream_type", "random_access", "leading_discard",
        "trailing_discard", "min_gop_length", "max_gop_length", "sequence_hdr"]) := by
  have hp := CDCIDescriptor.writeBody_needs c x.toCDCIDescriptor
  unfold MPGIDescriptor.writeU MPGIDescriptor.write
  needs_all

theorem JPEGDescriptor.write_needs (c : WCtx) (x : JPEGDescriptor) :
    Needs (fun u => x.writeU u c) (x.write c) (
        own ["mob_kind", "locator", "intermediate", "physical_media", "edit_rate", "length", "is_omfi",
        "data_offset", "stored_height", "stored_width", "sampled_height", "sampled_width",
        "sampled_x_offset", "sampled_y_offset", "display_height", "display_width", "display_x_offset",
        "display_y_offset", "frame_layout", "aspect_ratio", "line_map", "alpha_transparency",
        "uniformness", "did_image_size", "next_did_desc", "compress_method", "resolution_id",
        "image_alignment_factor", "horizontal_subsampling", "vertical_subsampling", "component_width",
        "color_sitting", "black_ref_level", "white_ref_level", "color_range", "frame_index_offset",
        "jpeg_table_id", "jpeg_frame_index_offset", "quantization_tables"]) := by
  have hp := CDCIDescriptor.writeBody_needs c x.toCDCIDescriptor
  unfold JPEGDescriptor.writeU JPEGDescriptor.write
  needs_all

theorem RGBADescriptor.write_needs (c : WCtx) (x : RGBADescriptor) :
    Needs (fun u => x.writeU u c) (x.write c) (
        own ["mob_kind", "locator", "intermediate", "physical_media", "edit_rate", "length", "is_omfi",
        "data_offset", "stored_height", "stored_width", "sampled_height", "sampled_width",
        "sampled_x_offset", "sampled_y_offset", "display_height", "display_width", "display_x_offset",
        "display_y_offset", "frame_layout", "aspect_ratio", "line_map", "alpha_transparency",
        "uniformness", "did_image_size", "next_did_desc", "compress_method", "resolution_id",
        "image_alignment_factor", "pixel_layout"]) := by
  have hp := DIDDescriptor.writeBody_needs c x.toDIDDescriptor
  unfold RGBADescriptor.writeU RGBADescriptor.write
  needs_all

theorem DataDescriptor.write_needs (c : WCtx) (x : DataDescriptor) :
    Needs (fun u => x.writeU u c) (x.write c) (
        own ["mob_kind", "locator", "intermediate", "physical_media", "edit_rate", "length", "is_omfi",
        "data_offset", "is_offset_to_frame_indexes_valid", "offset_to_frame_indexes",
        "first_frame_offset", "min_sample_size", "max_sample_size"]) := by
  have hp := MediaFileDescriptor.writeBody_needs c x.toMediaFileDescriptor
  unfold DataDescriptor.writeU DataDescriptor.write
  needs_all

theorem ANCDataDescriptor.write_needs (c : WCtx) (x : ANCDataDescriptor) :
    Needs (fun u => x.writeU u c) (x.write c) (
        own ["mob_kind", "locator", "intermediate", "physical_media", "edit_rate", "length", "is_omfi",
        "data_offset", "is_offset_to_frame_indexes_valid", "offset_to_frame_indexes",
        "first_frame_offset", "min_sample_size", "max_sample_size", "manifest_element_count"]) := by
  have hp := DataDescriptor.write_needs c x.toDataDescriptor
  unfold ANCDataDescriptor.writeU ANCDataDescriptor.write
  needs_all

theorem FileLocator.write_needs (c : WCtx) (x : FileLocator) :
    Needs (fun u => x.writeU u c) (x.write c) (
        own ["path"]) := by
  unfold FileLocator.writeU FileLocator.write
  needs_all

theorem GraphicEffect.write_needs (c : WCtx) (x : GraphicEffect) :
    Needs (fun u => x.writeU u c) (x.write c) (
        own ["pict_data"]) := by
  unfold GraphicEffect.writeU GraphicEffect.write
  needs_all

theorem ShapeList.write_needs (c : WCtx) (x : ShapeList) :
    Needs (fun u => x.writeU u c) (x.write c) (
        own ["shape_data"]) := by
  unfold ShapeList.writeU ShapeList.write
  needs_all

theorem ColorCorrectionEffect.write_needs (c : WCtx) (x : ColorCorrectionEffect) :
    Needs (fun u => x.writeU u c) (x.write c) (
        own ["color_correction"]) := by
  unfold ColorCorrectionEffect.writeU ColorCorrectionEffect.write
  needs_all

theorem EffectParam.write_needs (c : WCtx) (p : EffectParam) :
    Needs (fun u => p.writeU u c) (p.write c) (
        own ["percent_time", "level", "pos_x", "floor_x", "ceil_x", "pos_y", "floor_y", "ceil_y", "scale_x",
        "scale_y", "crop_left", "crop_right", "crop_top", "crop_bottom", "box", "box_xscale",
        "box_yscale", "box_xpos", "box_ypos", "border_width", "border_soft", "splill_gain2",
        "splill_gain", "splill_soft2", "splill_soft", "enable_key_flags", "colors", "user_param",
        "selected"]) := by
  unfold EffectParam.writeU EffectParam.write
  needs_all

theorem EffectParamList.write_needs (c : WCtx) (x : EffectParamList) :
    Needs (fun u => x.writeU u c) (x.write c) (
        own ["orig_length", "window_offset", "parameters", "keyframe_size"] ++
        (inList "parameters" x.parameters fun p => own effectParamNames)) := by
  have hh := Needs.forWi (list := "parameters") (fun e => EffectParam.write_needs c e) x.parameters
  unfold EffectParamList.writeU EffectParamList.write
  needs_all

theorem CFUserParam.write_needs (c : WCtx) (x : CFUserParam) :
    Needs (fun u => x.writeU u c) (x.write c) (
        own ["uuid", "data"]) := by
  unfold CFUserParam.writeU CFUserParam.write
  needs_all

theorem ParameterItem.writeValue_needs (c : WCtx) (x : ParameterItem) :
    Needs (fun u => x.writeValueU u c) (x.writeValue c) (
        own ["value"]) := by
  unfold ParameterItem.writeValueU ParameterItem.writeValue
  refine Needs.ite (Needs.need (Needs.plain _)) (Needs.ite (Needs.need (Needs.plain _))
    (Needs.ite (Needs.need (Needs.plain _)) (Needs.failing _ _)))

theorem ParameterItem.write_needs (c : WCtx) (x : ParameterItem) :
    Needs (fun u => x.writeU u c) (x.write c) (
        own ["uuid", "value_type", "value", "name", "enable", "control_track"]) := by
  have hq := ParameterItem.writeValue_needs c x
  unfold ParameterItem.writeU ParameterItem.write
  needs_all

theorem MSMLocator.write_needs (c : WCtx) (x : MSMLocator) :
    Needs (fun u => x.writeU u c) (x.write c) (
        own ["mob_id", "last_known_volume"]) := by
  unfold MSMLocator.writeU MSMLocator.write
  needs_all

theorem Position.writeBody_needs (c : WCtx) (x : Position) :
    Needs (fun u => x.writeBodyU u c) (x.writeBody c) (
        own ["mob_id"]) := by
  unfold Position.writeBodyU Position.writeBody
  needs_all

theorem Position.write_needs (c : WCtx) (x : Position) :
    Needs (fun u => x.writeU u c) (x.write c) (
        own ["mob_id"]) := by
  have hq := Position.writeBody_needs c x
  unfold Position.writeU Position.write
  needs_all

theorem BOBPosition.writeBody_needs (c : WCtx) (x : BOBPosition) :
    Needs (fun u => x.writeBodyU u c) (x.writeBody c) (
        own ["mob_id", "sample_num", "length", "track_type", "track_index"]) := by
  have hp := Position.writeBody_needs c x.toPosition
  unfold BOBPosition.writeBodyU BOBPosition.writeBody
  needs_all

theorem BOBPosition.write_needs (c : WCtx) (x : BOBPosition) :
    Needs (fun u => x.writeU u c) (x.write c) (
        own ["mob_id", "sample_num", "length", "track_type", "track_index"]) := by
  have hq := BOBPosition.writeBody_needs c x
  unfold BOBPosition.writeU BOBPosition.write
  needs_all

theorem DIDPosition.writeBody_needs (c : WCtx) (x : DIDPosition) :
    Needs (fun u => x.writeBodyU u c) (x.writeBody c) (
        own ["mob_id", "sample_num", "length", "track_type", "track_index", "strip", "offset", "byte_length",
        "spos_invalid"]) := by
  have hp := BOBPosition.writeBody_needs c x.toBOBPosition
  unfold DIDPosition.writeBodyU DIDPosition.writeBody
  needs_all

theorem DIDPosition.write_needs (c : WCtx) (x : DIDPosition) :
    Needs (fun u => x.writeU u c) (x.write c) (
        own ["mob_id", "sample_num", "length", "track_type", "track_index", "strip", "offset", "byte_length",
        "spos_invalid"]) := by
  have hq := DIDPosition.writeBody_needs c x
  unfold DIDPosition.writeU DIDPosition.write
  needs_all

theorem MPGPosition.write_needs (c : WCtx) (x : MPGPosition) :
    Needs (fun u => x.writeU u c) (x.write c) (
        own ["mob_id", "sample_num", "length", "track_type", "track_index", "strip", "offset", "byte_length",
        "spos_invalid", "trailing_discards", "need_seq_hdr", "fields"]) := by
  have hp := DIDPosition.writeBody_needs c x.toDIDPosition
  unfold MPGPosition.writeU MPGPosition.write
  needs_all

theorem BinRef.write_needs (c : WCtx) (x : BinRef) :
    Needs (fun u => x.writeU u c) (x.write c) (
        own ["uid_high", "uid_low", "name", "name_utf8"]) := by
  unfold BinRef.writeU BinRef.write
  needs_all

theorem MobRef.writeBody_needs (c : WCtx) (x : MobRef) :
    Needs (fun u => x.writeBodyU u c) (x.writeBody c) (
        own ["mob_id", "position"]) := by
  unfold MobRef.writeBodyU MobRef.writeBody
  needs_all

theorem MobRef.write_needs (c : WCtx) (x : MobRef) :
    Needs (fun u => x.writeU u c) (x.write c) (
        own ["mob_id", "position"]) := by
  have hq := MobRef.writeBody_needs c x
  unfold MobRef.writeU MobRef.write
  needs_all

theorem Marker.write_needs (c : WCtx) (x : Marker) :
    Needs (fun u => x.writeU u c) (x.write c) (
        own ["mob_id", "position", "comp_offset", "attributes", "color"]) := by
  have hp := MobRef.writeBody_needs c x.toMobRef
  unfold Marker.writeU Marker.write
  needs_all

theorem TrackerManager.write_needs (c : WCtx) (x : TrackerManager) :
    Needs (fun u => x.writeU u c) (x.write c) (
        own ["data_slots", "param_slots"]) := by
  unfold TrackerManager.writeU TrackerManager.write
  needs_all

theorem TrackerDataSlot.write_needs (c : WCtx) (x : TrackerDataSlot) :
    Needs (fun u => x.writeU u c) (x.write c) (
        own ["tracker_data"]) := by
  unfold TrackerDataSlot.writeU TrackerDataSlot.write
  needs_all

theorem TrackerParameterSlot.write_needs (c : WCtx) (x : TrackerParameterSlot) :
    Needs (fun u => x.writeU u c) (x.write c) (
        own ["settings", "params"]) := by
  unfold TrackerParameterSlot.writeU TrackerParameterSlot.write
  needs_all

theorem TrackerData.write_needs (c : WCtx) (x : TrackerData) :
    Needs (fun u => x.writeU u c) (x.write c) (
        own ["settings", "clip_version", "clips"]) := by
  unfold TrackerData.writeU TrackerData.write
  needs_all

theorem TrackerParameter.write_needs (c : WCtx) (x : TrackerParameter) :
    Needs (fun u => x.writeU u c) (x.write c) (
        own ["settings"]) := by
  unfold TrackerParameter.writeU TrackerParameter.write
  needs_all

theorem TrackGroup.write_needs (c : WCtx) (x : TrackGroup) :
    Needs (fun u => x.writeU u c) (x.write c) (
        own ["left_bob", "right_bob", "media_kind_id", "edit_rate", "name", "effect_id", "attributes",
        "session_attrs", "precomputed", "mc_mode", "length", "num_scalars", "tracks"]) := by
  have hp := Component.write_needs c x.toComponent
  unfold TrackGroup.writeU TrackGroup.write
  needs_all

theorem TrackEffect.writeBody_needs (c : WCtx) (x : TrackEffect) :
    Needs (fun u => x.writeBodyU u c) (x.writeBody c) (
        own ["left_bob", "right_bob", "media_kind_id", "edit_rate", "name", "effect_id", "attributes",
        "session_attrs", "precomputed", "mc_mode", "length", "num_scalars", "tracks", "left_length",
        "right_length", "info_version", "info_current", "info_smooth", "info_color_item", "info_quality",
        "info_is_reversed", "info_aspect_on", "keyframes", "info_force_software", "info_never_hardware"]) := by
  have hp := TrackGroup.write_needs c x.toTrackGroup
  unfold TrackEffect.writeBodyU TrackEffect.writeBody
  needs_all

theorem TrackEffect.write_needs (c : WCtx) (x : TrackEffect) :
    Needs (fun u => x.writeU u c) (x.write c) (
        own ["left_bob", "right_bob", "media_kind_id", "edit_rate", "name", "effect_id", "attributes",
        "session_attrs", "precomputed", "mc_mode", "length", "num_scalars", "tracks", "left_length",
        "right_length", "info_version", "info_current", "info_smooth", "info_color_item", "info_quality",
        "info_is_reversed", "info_aspect_on", "keyframes", "info_force_software", "info_never_hardware"]) := by
  have hq := TrackEffect.writeBody_needs c x
  unfold TrackEffect.writeU TrackEffect.write
  needs_all

theorem PanVolumeEffect.write_needs (c : WCtx) (x : PanVolumeEffect) :
    Needs (fun u => x.writeU u c) (x.write c) (
        own ["left_bob", "right_bob", "media_kind_id", "edit_rate", "name", "effect_id", "attributes",
        "session_attrs", "precomputed", "mc_mode", "length", "num_scalars", "tracks", "left_length",
        "right_length", "info_version", "info_current", "info_smooth", "info_color_item", "info_quality",
        "info_is_reversed", "info_aspect_on", "keyframes", "info_force_software", "info_never_hardware",
        "level", "pan", "suppress_validation", "level_set", "pan_set"]) := by
  have hp := TrackEffect.writeBody_needs c x.toTrackEffect
  unfold PanVolumeEffect.writeU PanVolumeEffect.write
  needs_all

theorem ASPIPluginChunk.write_needs (c : WCtx) (x : ASPIPluginChunk) :
    Needs (fun u => x.writeU u c) (x.write c) (
        own ["data", "version", "manufacturer_id", "product_id", "plugin_id", "chunk_id", "name"]) := by
  unfold ASPIPluginChunk.writeU ASPIPluginChunk.write
  needs_all

theorem ASPIPlugin.write_needs (c : WCtx) (x : ASPIPlugin) :
    Needs (fun u => x.writeU u c) (x.write c) (
        own ["name", "manufacturer_id", "product_id", "plugin_id", "chunks"] ++
        (inList "chunks" x.chunks fun p => own chunkNames)) := by
  have hh := Needs.forWi (list := "chunks") (fun e => ASPIPluginChunk.write_needs c e) x.chunks
  unfold ASPIPlugin.writeU ASPIPlugin.write
  needs_all

theorem AudioSuitePluginEffect.write_needs (c : WCtx) (x : AudioSuitePluginEffect) :
    Needs (fun u => x.writeU u c) (x.write c) (
        own ["left_bob", "right_bob", "media_kind_id", "edit_rate", "name", "effect_id", "attributes",
        "session_attrs", "precomputed", "mc_mode", "length", "num_scalars", "tracks", "left_length",
        "right_length", "info_version", "info_current", "info_smooth", "info_color_item", "info_quality",
        "info_is_reversed", "info_aspect_on", "keyframes", "info_force_software", "info_never_hardware",
        "plugins"] ++
        (inList "plugins" x.plugins fun p => own pluginNames ++ inList "chunks" p.chunks fun _ => own chunkNames)) := by
  have hp := TrackEffect.writeBody_needs c x.toTrackEffect
  have hh := Needs.forWi (list := "plugins") (fun e => ASPIPlugin.write_needs c e) x.plugins
  unfold AudioSuitePluginEffect.writeU AudioSuitePluginEffect.write
  needs_all

theorem EqualizerBand.write_needs (c : WCtx) (x : EqualizerBand) :
    Needs (fun u => x.writeU u c) (x.write c) (
        own ["type", "freq", "gain", "q", "enable"]) := by
  unfold EqualizerBand.writeU EqualizerBand.write
  needs_all

theorem EqualizerMultiBand.write_needs (c : WCtx) (x : EqualizerMultiBand) :
    Needs (fun u => x.writeU u c) (x.write c) (
        own ["left_bob", "right_bob", "media_kind_id", "edit_rate", "name", "effect_id", "attributes",
        "session_attrs", "precomputed", "mc_mode", "length", "num_scalars", "tracks", "left_length",
        "right_length", "info_version", "info_current", "info_smooth", "info_color_item", "info_quality",
        "info_is_reversed", "info_aspect_on", "keyframes", "info_force_software", "info_never_hardware",
        "bands"] ++
        (inList "bands" x.bands fun p => own bandNames) ++
        own ["effect_enable", "filter_name"]) := by
  have hp := TrackEffect.writeBody_needs c x.toTrackEffect
  have hh := Needs.forWi (list := "bands") (fun e => EqualizerBand.write_needs c e) x.bands
  unfold EqualizerMultiBand.writeU EqualizerMultiBand.write
  needs_all

theorem TimeWarp.write_needs (c : WCtx) (x : TimeWarp) :
    Needs (fun u => x.writeU u c) (x.write c) (
        own ["left_bob", "right_bob", "media_kind_id", "edit_rate", "name", "effect_id", "attributes",
        "session_attrs", "precomputed", "mc_mode", "length", "num_scalars", "tracks", "phase_offset"]) := by
  have hp := TrackGroup.write_needs c x.toTrackGroup
  unfold TimeWarp.writeU TimeWarp.write
  needs_all

theorem CaptureMask.write_needs (c : WCtx) (x : CaptureMask) :
    Needs (fun u => x.writeU u c) (x.write c) (
        own ["left_bob", "right_bob", "media_kind_id", "edit_rate", "name", "effect_id", "attributes",
        "session_attrs", "precomputed", "mc_mode", "length", "num_scalars", "tracks", "phase_offset",
        "is_double", "mask_bits"]) := by
  have hp := TimeWarp.write_needs c x.toTimeWarp
  unfold CaptureMask.writeU CaptureMask.write
  needs_all

theorem StrobeEffect.write_needs (c : WCtx) (x : StrobeEffect) :
    Needs (fun u => x.writeU u c) (x.write c) (
        own ["left_bob", "right_bob", "media_kind_id", "edit_rate", "name", "effect_id", "attributes",
        "session_attrs", "precomputed", "mc_mode", "length", "num_scalars", "tracks", "phase_offset",
        "strobe_value"]) := by
  have hp := TimeWarp.write_needs c x.toTimeWarp
  unfold StrobeEffect.writeU StrobeEffect.write
  needs_all

theorem MotionEffect.write_needs (c : WCtx) (x : MotionEffect) :
    Needs (fun u => x.writeU u c) (x.write c) (
        own ["left_bob", "right_bob", "media_kind_id", "edit_rate", "name", "effect_id", "attributes",
        "session_attrs", "precomputed", "mc_mode", "length", "num_scalars", "tracks", "phase_offset",
        "speed_ratio"]) := by
  have hp := TimeWarp.write_needs c x.toTimeWarp
  unfold MotionEffect.writeU MotionEffect.write
  needs_all

theorem Repeat.write_needs (c : WCtx) (x : Repeat) :
    Needs (fun u => x.writeU u c) (x.write c) (
        own ["left_bob", "right_bob", "media_kind_id", "edit_rate", "name", "effect_id", "attributes",
        "session_attrs", "precomputed", "mc_mode", "length", "num_scalars", "tracks", "phase_offset"]) := by
  have hp := TimeWarp.write_needs c x.toTimeWarp
  unfold Repeat.writeU Repeat.write
  needs_all

theorem EssenceGroup.write_needs (c : WCtx) (x : EssenceGroup) :
    Needs (fun u => x.writeU u c) (x.write c) (
        own ["left_bob", "right_bob", "media_kind_id", "edit_rate", "name", "effect_id", "attributes",
        "session_attrs", "precomputed", "mc_mode", "length", "num_scalars", "tracks"]) := by
  have hp := TrackGroup.write_needs c x.toTrackGroup
  unfold EssenceGroup.writeU EssenceGroup.write
  needs_all

theorem TransitionEffect.write_needs (c : WCtx) (x : TransitionEffect) :
    Needs (fun u => x.writeU u c) (x.write c) (
        own ["left_bob", "right_bob", "media_kind_id", "edit_rate", "name", "effect_id", "attributes",
        "session_attrs", "precomputed", "mc_mode", "length", "num_scalars", "tracks", "cutpoint",
        "left_length", "right_length", "info_version", "info_current", "info_smooth", "info_color_item",
        "info_quality", "info_is_reversed", "info_aspect_on", "keyframes", "info_force_software",
        "info_never_hardware"]) := by
  have hp := TrackGroup.write_needs c x.toTrackGroup
  unfold TransitionEffect.writeU TransitionEffect.write
  needs_all

theorem Selector.write_needs (c : WCtx) (x : Selector) :
    Needs (fun u => x.writeU u c) (x.write c) (
        own ["left_bob", "right_bob", "media_kind_id", "edit_rate", "name", "effect_id", "attributes",
        "session_attrs", "precomputed", "mc_mode", "length", "num_scalars", "tracks", "is_ganged",
        "selected"]) := by
  have hp := TrackGroup.write_needs c x.toTrackGroup
  unfold Selector.writeU Selector.write
  needs_all

theorem Composition.write_needs (c : WCtx) (x : Composition) :
    Needs (fun u => x.writeU u c) (x.write c) (
        own ["left_bob", "right_bob", "media_kind_id", "edit_rate", "name", "effect_id", "attributes",
        "session_attrs", "precomputed", "mc_mode", "length", "num_scalars", "tracks", "mob_id",
        "last_modified", "mob_type_id", "usage_code", "descriptor"]) := by
  have hp := TrackGroup.write_needs c x.toTrackGroup
  unfold Composition.writeU Composition.write
  needs_all

end Avb
