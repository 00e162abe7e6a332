import Verif.Model.Obj

/-!
How much a loaded value holds: the elements of its lists, the characters of its strings and the bytes of
its byte strings.  Numbers, references and identifiers have a fixed size and count nothing.
-/

namespace Avb

/-- Values that hold lists, strings or byte strings. -/
class Size (α : Type) where
  size : α → Nat

export Size (size)

/-- A fixed size. -/
instance : Size Int := ⟨fun _ => 0⟩
/-- A fixed size. -/
instance : Size Nat := ⟨fun _ => 0⟩
/-- A fixed size. -/
instance : Size Bool := ⟨fun _ => 0⟩
/-- A fixed size. -/
instance : Size Char := ⟨fun _ => 0⟩
/-- A fixed size. -/
instance : Size UInt8 := ⟨fun _ => 0⟩
/-- A fixed size. -/
instance : Size Unit := ⟨fun _ => 0⟩
/-- A fixed size. -/
instance : Size Rate := ⟨fun _ => 0⟩
/-- A fixed size. -/
instance : Size F64 := ⟨fun _ => 0⟩
/-- A fixed size. -/
instance : Size UUID := ⟨fun _ => 0⟩
/-- A fixed size. -/
instance : Size MobID := ⟨fun _ => 0⟩
/-- A fixed size. -/
instance : Size Rect := ⟨fun _ => 0⟩
/-- A fixed size. -/
instance : Size RGB := ⟨fun _ => 0⟩
/-- A fixed size. -/
instance : Size PVal := ⟨fun _ => 0⟩
/-- Both parts. -/
instance {α β : Type} [Size α] [Size β] : Size (α × β) := ⟨fun p => size p.1 + size p.2⟩
/-- Nothing, or the value. -/
instance {α : Type} [Size α] : Size (Option α) := ⟨fun o => match o with | none => 0 | some a => size a⟩
/-- The elements, and what they hold.  Strings are lists of characters, byte strings lists of bytes. -/
instance {α : Type} [Size α] : Size (List α) := ⟨fun l => l.length + (l.map size).sum⟩
/-- The text or the bytes of an attribute. -/
instance : Size AttrVal := ⟨fun v => match v with
  | .int _ => 0
  | .str t => size t
  | .obj _ => 0
  | .bob b => size b
  | .raw b => size b⟩

/-- All properties. -/
instance : Size Component := ⟨fun x =>
    size x.left_bob + size x.right_bob + size x.media_kind_id + size x.edit_rate +
    size x.name + size x.effect_id + size x.attributes + size x.session_attrs +
    size x.precomputed + size x.param_list⟩
/-- All properties. -/
instance : Size Sequence := ⟨fun x =>
    size x.toComponent + size x.components⟩
/-- All properties. -/
instance : Size Clip := ⟨fun x =>
    size x.toComponent + size x.length⟩
/-- All properties. -/
instance : Size SourceClip := ⟨fun x =>
    size x.toClip + size x.track_id + size x.start_time + size x.mob_id⟩
/-- All properties. -/
instance : Size Timecode := ⟨fun x =>
    size x.toClip + size x.flags + size x.fps + size x.start⟩
/-- All properties. -/
instance : Size Edgecode := ⟨fun x =>
    size x.toClip + size x.header + size x.film_kind + size x.code_format + size x.base_perf +
    size x.start_ec⟩
/-- All properties. -/
instance : Size TrackRef := ⟨fun x =>
    size x.toClip + size x.relative_scope + size x.relative_track⟩
/-- All properties. -/
instance : Size PCPProp := ⟨fun x =>
    size x.code + size x.type + size x.value⟩
/-- All properties. -/
instance : Size PCP := ⟨fun x =>
    size x.offset_num + size x.offset_den + size x.timescale + size x.value + size x.pp⟩
/-- All properties. -/
instance : Size ParamClip := ⟨fun x =>
    size x.toClip + size x.interp_kind + size x.value_type + size x.extrap_kind +
    size x.control_points + size x.fields⟩
/-- All properties. -/
instance : Size CPProp := ⟨fun x =>
    size x.code + size x.value_a + size x.value_b⟩
/-- All properties. -/
instance : Size CP := ⟨fun x =>
    size x.offset_a + size x.offset_b + size x.time_scale + size x.value_a + size x.value_b +
    size x.pp⟩
/-- All properties. -/
instance : Size ControlClip := ⟨fun x =>
    size x.toClip + size x.interp_kind + size x.control_points⟩
/-- All properties. -/
instance : Size Filler := ⟨fun x =>
    size x.toClip⟩
/-- All properties. -/
instance : Size Track := ⟨fun x =>
    size x.index + size x.attributes + size x.session_attr + size x.component +
    size x.filler_proxy + size x.bob_data + size x.control_code + size x.control_sub_code +
    size x.start_pos + size x.read_only + size x.lock_number⟩
/-- All properties. -/
instance : Size TrackGroup := ⟨fun x =>
    size x.toComponent + size x.mc_mode + size x.length + size x.num_scalars + size x.tracks⟩
/-- All properties. -/
instance : Size TrackEffect := ⟨fun x =>
    size x.toTrackGroup + size x.left_length + size x.right_length + size x.info_version +
    size x.info_current + size x.info_smooth + size x.info_color_item + size x.info_quality +
    size x.info_is_reversed + size x.info_aspect_on + size x.keyframes +
    size x.info_force_software + size x.info_never_hardware + size x.trackman⟩
/-- All properties. -/
instance : Size PanVolumeEffect := ⟨fun x =>
    size x.toTrackEffect + size x.level + size x.pan + size x.suppress_validation +
    size x.level_set + size x.pan_set + size x.supports_seperate_gain +
    size x.is_trim_gain_effect⟩
/-- All properties. -/
instance : Size ASPIPluginChunk := ⟨fun x =>
    size x.version + size x.manufacturer_id + size x.product_id + size x.plugin_id +
    size x.chunk_id + size x.name + size x.data⟩
/-- All properties. -/
instance : Size ASPIPlugin := ⟨fun x =>
    size x.name + size x.manufacturer_id + size x.product_id + size x.plugin_id + size x.chunks⟩
/-- All properties. -/
instance : Size AudioSuitePluginEffect := ⟨fun x =>
    size x.toTrackEffect + size x.plugins + size x.mob_id + size x.mark_in + size x.mark_out +
    size x.tracks_to_affect + size x.rendering_mode + size x.padding_secs + size x.preset_path⟩
/-- All properties. -/
instance : Size EqualizerBand := ⟨fun x =>
    size x.type + size x.freq + size x.gain + size x.q + size x.enable⟩
/-- All properties. -/
instance : Size EqualizerMultiBand := ⟨fun x =>
    size x.toTrackEffect + size x.bands + size x.effect_enable + size x.filter_name⟩
/-- All properties. -/
instance : Size TimeWarp := ⟨fun x =>
    size x.toTrackGroup + size x.phase_offset⟩
/-- All properties. -/
instance : Size CaptureMask := ⟨fun x =>
    size x.toTimeWarp + size x.is_double + size x.mask_bits⟩
/-- All properties. -/
instance : Size StrobeEffect := ⟨fun x =>
    size x.toTimeWarp + size x.strobe_value⟩
/-- All properties. -/
instance : Size MotionEffect := ⟨fun x =>
    size x.toTimeWarp + size x.speed_num + size x.speed_den + size x.offset_adjust +
    size x.source_param_list + size x.new_source_calculation⟩
/-- All properties. -/
instance : Size Repeat := ⟨fun x =>
    size x.toTimeWarp⟩
/-- All properties. -/
instance : Size EssenceGroup := ⟨fun x =>
    size x.toTrackGroup + size x.rep_set_type⟩
/-- All properties. -/
instance : Size TransitionEffect := ⟨fun x =>
    size x.toTrackGroup + size x.cutpoint + size x.left_length + size x.right_length +
    size x.info_version + size x.info_current + size x.info_smooth + size x.info_color_item +
    size x.info_quality + size x.info_is_reversed + size x.info_aspect_on + size x.keyframes +
    size x.info_force_software + size x.info_never_hardware + size x.trackman⟩
/-- All properties. -/
instance : Size Selector := ⟨fun x =>
    size x.toTrackGroup + size x.is_ganged + size x.selected⟩
/-- All properties. -/
instance : Size Composition := ⟨fun x =>
    size x.toTrackGroup + size x.last_modified + size x.mob_type_id + size x.usage_code +
    size x.descriptor + size x.creation_time + size x.mob_id⟩
/-- All properties. -/
instance : Size FileLocator := ⟨fun x =>
    size x.path + size x.path_posix + size x.path_utf8 + size x.path2_utf8⟩
/-- All properties. -/
instance : Size URLLocator := ⟨fun _ =>
    0⟩
/-- All properties. -/
instance : Size GraphicEffect := ⟨fun x =>
    size x.pict_data⟩
/-- All properties. -/
instance : Size ShapeList := ⟨fun x =>
    size x.shape_data⟩
/-- All properties. -/
instance : Size ColorCorrectionEffect := ⟨fun x =>
    size x.color_correction⟩
/-- All properties. -/
instance : Size EffectParam := ⟨fun x =>
    size x.percent_time + size x.level + size x.pos_x + size x.floor_x + size x.ceil_x +
    size x.pos_y + size x.floor_y + size x.ceil_y + size x.scale_x + size x.scale_y +
    size x.crop_left + size x.crop_right + size x.crop_top + size x.crop_bottom + size x.box +
    size x.box_xscale + size x.box_yscale + size x.box_xpos + size x.box_ypos +
    size x.border_width + size x.border_soft + size x.splill_gain2 + size x.splill_gain +
    size x.splill_soft2 + size x.splill_soft + size x.enable_key_flags + size x.colors +
    size x.user_param + size x.selected⟩
/-- All properties. -/
instance : Size EffectParamList := ⟨fun x =>
    size x.orig_length + size x.window_offset + size x.keyframe_size + size x.parameters⟩
/-- All properties. -/
instance : Size CFUserParam := ⟨fun x =>
    size x.byte_order + size x.uuid + size x.data⟩
/-- All properties. -/
instance : Size ParameterItem := ⟨fun x =>
    size x.uuid + size x.value_type + size x.value + size x.name + size x.enable +
    size x.control_track + size x.contribs_to_sig⟩
/-- All properties. -/
instance : Size MSMLocator := ⟨fun x =>
    size x.last_known_volume + size x.domain_type + size x.mob_id +
    size x.last_known_volume_utf8⟩
/-- All properties. -/
instance : Size Position := ⟨fun x =>
    size x.mob_id⟩
/-- All properties. -/
instance : Size BOBPosition := ⟨fun x =>
    size x.toPosition + size x.sample_num + size x.length + size x.track_type +
    size x.track_index⟩
/-- All properties. -/
instance : Size DIDPosition := ⟨fun x =>
    size x.toBOBPosition + size x.strip + size x.offset + size x.byte_length +
    size x.spos_invalid⟩
/-- All properties. -/
instance : Size MPGPosition := ⟨fun x =>
    size x.toDIDPosition + size x.trailing_discards + size x.need_seq_hdr + size x.fields⟩
/-- All properties. -/
instance : Size BinRef := ⟨fun x =>
    size x.uid_high + size x.uid_low + size x.name + size x.name_utf8⟩
/-- All properties. -/
instance : Size MobRef := ⟨fun x =>
    size x.position + size x.mob_id⟩
/-- All properties. -/
instance : Size Marker := ⟨fun x =>
    size x.toMobRef + size x.comp_offset + size x.attributes + size x.color +
    size x.handled_codes⟩
/-- All properties. -/
instance : Size TrackerManager := ⟨fun x =>
    size x.data_slots + size x.param_slots⟩
/-- All properties. -/
instance : Size TrackerDataSlot := ⟨fun x =>
    size x.tracker_data + size x.track_fg⟩
/-- All properties. -/
instance : Size TrackerParameterSlot := ⟨fun x =>
    size x.settings + size x.params⟩
/-- All properties. -/
instance : Size TrackerData := ⟨fun x =>
    size x.settings + size x.clip_version + size x.clips + size x.offset_tracking +
    size x.smoothing + size x.jitter_removal + size x.filter_amount + size x.clip5 +
    size x.clip6⟩
/-- All properties. -/
instance : Size TrackerParameter := ⟨fun x =>
    size x.settings⟩
/-- All properties. -/
instance : Size MediaDescriptor := ⟨fun x =>
    size x.mob_kind + size x.locator + size x.intermediate + size x.physical_media +
    size x.uuid + size x.wchar + size x.attributes⟩
/-- All properties. -/
instance : Size TapeDescriptor := ⟨fun x =>
    size x.toMediaDescriptor + size x.cframe⟩
/-- All properties. -/
instance : Size FilmDescriptor := ⟨fun x =>
    size x.toMediaDescriptor⟩
/-- All properties. -/
instance : Size NagraDescriptor := ⟨fun x =>
    size x.toMediaDescriptor⟩
/-- All properties. -/
instance : Size MediaFileDescriptor := ⟨fun x =>
    size x.toMediaDescriptor + size x.edit_rate + size x.length + size x.is_omfi +
    size x.data_offset⟩
/-- All properties. -/
instance : Size MultiDescriptor := ⟨fun x =>
    size x.toMediaFileDescriptor + size x.descriptors⟩
/-- All properties. -/
instance : Size WaveDescriptor := ⟨fun x =>
    size x.toMediaFileDescriptor + size x.summary⟩
/-- All properties. -/
instance : Size AIFCDescriptor := ⟨fun x =>
    size x.toMediaFileDescriptor + size x.summary + size x.data_pos⟩
/-- All properties. -/
instance : Size PCMADescriptor := ⟨fun x =>
    size x.toMediaFileDescriptor + size x.channels + size x.quantization_bits +
    size x.sample_rate + size x.locked + size x.audio_ref_level +
    size x.electro_spatial_formulation + size x.dial_norm + size x.coding_format +
    size x.block_align + size x.sequence_offset + size x.average_bps +
    size x.has_peak_envelope_data + size x.peak_envelope_version +
    size x.peak_envelope_format + size x.points_per_peak_value +
    size x.peak_envelope_block_size + size x.peak_channel_count + size x.peak_frame_count +
    size x.peak_of_peaks_offset + size x.peak_envelope_timestamp + size x.ebu_timestamp +
    size x.timecode_framerate⟩
/-- All properties. -/
instance : Size MPGADescriptor := ⟨fun x =>
    size x.toMediaFileDescriptor + size x.channels + size x.quantization_bits +
    size x.sample_rate + size x.locked + size x.audio_ref_level +
    size x.electro_spatial_formulation + size x.dial_norm + size x.coding_format +
    size x.bit_rate + size x.sub_frame_alignment + size x.origin⟩
/-- All properties. -/
instance : Size DIDDescriptor := ⟨fun x =>
    size x.toMediaFileDescriptor + size x.stored_height + size x.stored_width +
    size x.sampled_height + size x.sampled_width + size x.sampled_x_offset +
    size x.sampled_y_offset + size x.display_height + size x.display_width +
    size x.display_x_offset + size x.display_y_offset + size x.frame_layout +
    size x.aspect_ratio + size x.line_map + size x.alpha_transparency + size x.uniformness +
    size x.did_image_size + size x.next_did_desc + size x.compress_method +
    size x.resolution_id + size x.image_alignment_factor + size x.frame_index_byte_order +
    size x.frame_sample_size + size x.first_frame_offset + size x.client_fill_start +
    size x.client_fill_end + size x.offset_to_rle_frame_index + size x.frame_start_offset +
    size x.valid_box + size x.essence_box + size x.source_box + size x.framing_box +
    size x.reformatting_option + size x.transfer_characteristic + size x.color_primaries +
    size x.coding_equations + size x.essence_compression + size x.essence_element_size_kind +
    size x.frame_checked_with_mapper⟩
/-- All properties. -/
instance : Size CDCIDescriptor := ⟨fun x =>
    size x.toDIDDescriptor + size x.horizontal_subsampling + size x.vertical_subsampling +
    size x.component_width + size x.color_sitting + size x.black_ref_level +
    size x.white_ref_level + size x.color_range + size x.frame_index_offset +
    size x.alpha_sampled_width + size x.ignore_bw⟩
/-- All properties. -/
instance : Size MPGIDescriptor := ⟨fun x =>
    size x.toCDCIDescriptor + size x.mpeg_version + size x.profile + size x.gop_structure +
    size x.stream_type + size x.random_access + size x.leading_discard +
    size x.trailing_discard + size x.min_gop_length + size x.max_gop_length +
    size x.sequence_hdr⟩
/-- All properties. -/
instance : Size JPEGDescriptor := ⟨fun x =>
    size x.toCDCIDescriptor + size x.jpeg_table_id + size x.jpeg_frame_index_offset +
    size x.quantization_tables + size x.image_start_align⟩
/-- All properties. -/
instance : Size RGBADescriptor := ⟨fun x =>
    size x.toDIDDescriptor + size x.pixel_layout + size x.frame_index_offset +
    size x.has_comp_min_ref + size x.comp_min_ref + size x.has_comp_max_ref +
    size x.comp_max_ref + size x.alpha_min_ref + size x.alpha_max_ref⟩
/-- All properties. -/
instance : Size DataDescriptor := ⟨fun x =>
    size x.toMediaFileDescriptor + size x.is_offset_to_frame_indexes_valid +
    size x.offset_to_frame_indexes + size x.first_frame_offset + size x.min_sample_size +
    size x.max_sample_size⟩
/-- All properties. -/
instance : Size ANCDataDescriptor := ⟨fun x =>
    size x.toDataDescriptor + size x.manifest_element_count⟩
/-- All properties. -/
instance : Size Attributes := ⟨fun x =>
    size x.items⟩
/-- All properties. -/
instance : Size ParameterList := ⟨fun x =>
    size x.items⟩
/-- All properties. -/
instance : Size TimeCrumbList := ⟨fun x =>
    size x.items⟩
/-- All properties. -/
instance : Size Setting := ⟨fun x =>
    size x.name + size x.kind + size x.attr_count + size x.attr_type + size x.attributes⟩
/-- All properties. -/
instance : Size BinColumn := ⟨fun x =>
    size x.title + size x.format + size x.type + size x.hidden⟩
/-- All properties. -/
instance : Size FormatDescriptor := ⟨fun x =>
    size x.vcid_free_column_id + size x.format_descriptor⟩
/-- All properties. -/
instance : Size BinViewSetting := ⟨fun x =>
    size x.toSetting + size x.columns + size x.format_descriptors⟩
/-- All properties. -/
instance : Size BinItem := ⟨fun x =>
    size x.mob + size x.x + size x.y + size x.keyframe + size x.user_placed⟩
/-- All properties. -/
instance : Size SiftItem := ⟨fun x =>
    size x.method + size x.string + size x.column⟩
/-- All properties. -/
instance : Size Bin := ⟨fun x =>
    size x.large_bin + size x.view_setting + size x.uid + size x.items + size x.display_mask +
    size x.display_mode + size x.sifted + size x.sifted_settings + size x.sort_columns +
    size x.mac_font + size x.mac_font_size + size x.mac_image_scale + size x.home_rect +
    size x.background_color + size x.forground_color + size x.ql_image_scale +
    size x.attributes + size x.was_iconic⟩
/-- All properties. -/
instance : Size BinFirst := ⟨fun x =>
    size x.toBin + size x.unknown_s32⟩

/-- What a loaded object holds. -/
def Obj.size : Obj → Nat
  | .ATTR x => Size.size x
  | .PRLS x => Size.size x
  | .TMCS x => Size.size x
  | .BVst x => Size.size x
  | .ABIN x => Size.size x
  | .BINF x => Size.size x
  | .SEQU x => Size.size x
  | .SCLP x => Size.size x
  | .TCCP x => Size.size x
  | .ECCP x => Size.size x
  | .TRKR x => Size.size x
  | .PRCL x => Size.size x
  | .CTRL x => Size.size x
  | .FILL x => Size.size x
  | .TRKG x => Size.size x
  | .TKFX x => Size.size x
  | .PVOL x => Size.size x
  | .ASPI x => Size.size x
  | .EQMB x => Size.size x
  | .MASK x => Size.size x
  | .STRB x => Size.size x
  | .SPED x => Size.size x
  | .REPT x => Size.size x
  | .RSET x => Size.size x
  | .TNFX x => Size.size x
  | .SLCT x => Size.size x
  | .CMPO x => Size.size x
  | .FILE x => Size.size x
  | .WINF x => Size.size x
  | .URLL x => Size.size x
  | .GRFX x => Size.size x
  | .SHLP x => Size.size x
  | .CCFX x => Size.size x
  | .FXPS x => Size.size x
  | .AVUP x => Size.size x
  | .PRIT x => Size.size x
  | .MSML x => Size.size x
  | .APOS x => Size.size x
  | .ABOB x => Size.size x
  | .DIDP x => Size.size x
  | .MPGP x => Size.size x
  | .MCBR x => Size.size x
  | .MCMR x => Size.size x
  | .TMBC x => Size.size x
  | .TKMN x => Size.size x
  | .TKDS x => Size.size x
  | .TKPS x => Size.size x
  | .TKDA x => Size.size x
  | .TKPA x => Size.size x
  | .MDES x => Size.size x
  | .MDTP x => Size.size x
  | .MDFM x => Size.size x
  | .MDNG x => Size.size x
  | .MDFL x => Size.size x
  | .MULD x => Size.size x
  | .WAVE x => Size.size x
  | .AIFC x => Size.size x
  | .PCMA x => Size.size x
  | .MPGA x => Size.size x
  | .DIDD x => Size.size x
  | .CDCI x => Size.size x
  | .MPGI x => Size.size x
  | .JPED x => Size.size x
  | .RGBA x => Size.size x
  | .DATD x => Size.size x
  | .ANCD x => Size.size x

end Avb
