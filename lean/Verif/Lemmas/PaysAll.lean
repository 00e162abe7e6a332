import Verif.Lemmas.Pays

/-
What the readers give is no larger than the bytes they passed, in the order of the model files.
-/

namespace Avb

theorem Component.size_eq (x : Component) : size x =
    size x.left_bob + size x.right_bob + size x.media_kind_id + size x.edit_rate +
    size x.name + size x.effect_id + size x.attributes + size x.session_attrs +
    size x.precomputed + size x.param_list := rfl
theorem Sequence.size_eq (x : Sequence) : size x =
    size x.toComponent + size x.components := rfl
theorem Clip.size_eq (x : Clip) : size x =
    size x.toComponent + size x.length := rfl
theorem SourceClip.size_eq (x : SourceClip) : size x =
    size x.toClip + size x.track_id + size x.start_time + size x.mob_id := rfl
theorem Timecode.size_eq (x : Timecode) : size x =
    size x.toClip + size x.flags + size x.fps + size x.start := rfl
theorem Edgecode.size_eq (x : Edgecode) : size x =
    size x.toClip + size x.header + size x.film_kind + size x.code_format + size x.base_perf +
    size x.start_ec := rfl
theorem TrackRef.size_eq (x : TrackRef) : size x =
    size x.toClip + size x.relative_scope + size x.relative_track := rfl
theorem PCPProp.size_eq (x : PCPProp) : size x =
    size x.code + size x.type + size x.value := rfl
theorem PCP.size_eq (x : PCP) : size x =
    size x.offset_num + size x.offset_den + size x.timescale + size x.value + size x.pp := rfl
theorem ParamClip.size_eq (x : ParamClip) : size x =
    size x.toClip + size x.interp_kind + size x.value_type + size x.extrap_kind +
    size x.control_points + size x.fields := rfl
theorem CPProp.size_eq (x : CPProp) : size x =
    size x.code + size x.value_a + size x.value_b := rfl
theorem CP.size_eq (x : CP) : size x =
    size x.offset_a + size x.offset_b + size x.time_scale + size x.value_a + size x.value_b +
    size x.pp := rfl
theorem ControlClip.size_eq (x : ControlClip) : size x =
    size x.toClip + size x.interp_kind + size x.control_points := rfl
theorem Filler.size_eq (x : Filler) : size x =
    size x.toClip := rfl
theorem Track.size_eq (x : Track) : size x =
    size x.index + size x.attributes + size x.session_attr + size x.component +
    size x.filler_proxy + size x.bob_data + size x.control_code + size x.control_sub_code +
    size x.start_pos + size x.read_only + size x.lock_number := rfl
theorem TrackGroup.size_eq (x : TrackGroup) : size x =
    size x.toComponent + size x.mc_mode + size x.length + size x.num_scalars + size x.tracks := rfl
theorem TrackEffect.size_eq (x : TrackEffect) : size x =
    size x.toTrackGroup + size x.left_length + size x.right_length + size x.info_version +
    size x.info_current + size x.info_smooth + size x.info_color_item + size x.info_quality +
    size x.info_is_reversed + size x.info_aspect_on + size x.keyframes +
    size x.info_force_software + size x.info_never_hardware + size x.trackman := rfl
theorem PanVolumeEffect.size_eq (x : PanVolumeEffect) : size x =
    size x.toTrackEffect + size x.level + size x.pan + size x.suppress_validation +
    size x.level_set + size x.pan_set + size x.supports_seperate_gain +
    size x.is_trim_gain_effect := rfl
theorem ASPIPluginChunk.size_eq (x : ASPIPluginChunk) : size x =
    size x.version + size x.manufacturer_id + size x.product_id + size x.plugin_id +
    size x.chunk_id + size x.name + size x.data := rfl
theorem ASPIPlugin.size_eq (x : ASPIPlugin) : size x =
    size x.name + size x.manufacturer_id + size x.product_id + size x.plugin_id + size x.chunks := rfl
theorem AudioSuitePluginEffect.size_eq (x : AudioSuitePluginEffect) : size x =
    size x.toTrackEffect + size x.plugins + size x.mob_id + size x.mark_in + size x.mark_out +
    size x.tracks_to_affect + size x.rendering_mode + size x.padding_secs + size x.preset_path := rfl
theorem EqualizerBand.size_eq (x : EqualizerBand) : size x =
    size x.type + size x.freq + size x.gain + size x.q + size x.enable := rfl
theorem EqualizerMultiBand.size_eq (x : EqualizerMultiBand) : size x =
    size x.toTrackEffect + size x.bands + size x.effect_enable + size x.filter_name := rfl
theorem TimeWarp.size_eq (x : TimeWarp) : size x =
    size x.toTrackGroup + size x.phase_offset := rfl
theorem CaptureMask.size_eq (x : CaptureMask) : size x =
    size x.toTimeWarp + size x.is_double + size x.mask_bits := rfl
theorem StrobeEffect.size_eq (x : StrobeEffect) : size x =
    size x.toTimeWarp + size x.strobe_value := rfl
theorem MotionEffect.size_eq (x : MotionEffect) : size x =
    size x.toTimeWarp + size x.speed_num + size x.speed_den + size x.offset_adjust +
    size x.source_param_list + size x.new_source_calculation := rfl
theorem Repeat.size_eq (x : Repeat) : size x =
    size x.toTimeWarp := rfl
theorem EssenceGroup.size_eq (x : EssenceGroup) : size x =
    size x.toTrackGroup + size x.rep_set_type := rfl
theorem TransitionEffect.size_eq (x : TransitionEffect) : size x =
    size x.toTrackGroup + size x.cutpoint + size x.left_length + size x.right_length +
    size x.info_version + size x.info_current + size x.info_smooth + size x.info_color_item +
    size x.info_quality + size x.info_is_reversed + size x.info_aspect_on + size x.keyframes +
    size x.info_force_software + size x.info_never_hardware + size x.trackman := rfl
theorem Selector.size_eq (x : Selector) : size x =
    size x.toTrackGroup + size x.is_ganged + size x.selected := rfl
theorem Composition.size_eq (x : Composition) : size x =
    size x.toTrackGroup + size x.last_modified + size x.mob_type_id + size x.usage_code +
    size x.descriptor + size x.creation_time + size x.mob_id := rfl
theorem FileLocator.size_eq (x : FileLocator) : size x =
    size x.path + size x.path_posix + size x.path_utf8 + size x.path2_utf8 := rfl
theorem URLLocator.size_eq (_x : URLLocator) : size _x =
    0 := rfl
theorem GraphicEffect.size_eq (x : GraphicEffect) : size x =
    size x.pict_data := rfl
theorem ShapeList.size_eq (x : ShapeList) : size x =
    size x.shape_data := rfl
theorem ColorCorrectionEffect.size_eq (x : ColorCorrectionEffect) : size x =
    size x.color_correction := rfl
theorem EffectParam.size_eq (x : EffectParam) : size x =
    size x.percent_time + size x.level + size x.pos_x + size x.floor_x + size x.ceil_x +
    size x.pos_y + size x.floor_y + size x.ceil_y + size x.scale_x + size x.scale_y +
    size x.crop_left + size x.crop_right + size x.crop_top + size x.crop_bottom + size x.box +
    size x.box_xscale + size x.box_yscale + size x.box_xpos + size x.box_ypos +
    size x.border_width + size x.border_soft + size x.splill_gain2 + size x.splill_gain +
    size x.splill_soft2 + size x.splill_soft + size x.enable_key_flags + size x.colors +
    size x.user_param + size x.selected := rfl
theorem EffectParamList.size_eq (x : EffectParamList) : size x =
    size x.orig_length + size x.window_offset + size x.keyframe_size + size x.parameters := rfl
theorem CFUserParam.size_eq (x : CFUserParam) : size x =
    size x.byte_order + size x.uuid + size x.data := rfl
theorem ParameterItem.size_eq (x : ParameterItem) : size x =
    size x.uuid + size x.value_type + size x.value + size x.name + size x.enable +
    size x.control_track + size x.contribs_to_sig := rfl
theorem MSMLocator.size_eq (x : MSMLocator) : size x =
    size x.last_known_volume + size x.domain_type + size x.mob_id +
    size x.last_known_volume_utf8 := rfl
theorem Position.size_eq (x : Position) : size x =
    size x.mob_id := rfl
theorem BOBPosition.size_eq (x : BOBPosition) : size x =
    size x.toPosition + size x.sample_num + size x.length + size x.track_type +
    size x.track_index := rfl
theorem DIDPosition.size_eq (x : DIDPosition) : size x =
    size x.toBOBPosition + size x.strip + size x.offset + size x.byte_length +
    size x.spos_invalid := rfl
theorem MPGPosition.size_eq (x : MPGPosition) : size x =
    size x.toDIDPosition + size x.trailing_discards + size x.need_seq_hdr + size x.fields := rfl
theorem BinRef.size_eq (x : BinRef) : size x =
    size x.uid_high + size x.uid_low + size x.name + size x.name_utf8 := rfl
theorem MobRef.size_eq (x : MobRef) : size x =
    size x.position + size x.mob_id := rfl
theorem Marker.size_eq (x : Marker) : size x =
    size x.toMobRef + size x.comp_offset + size x.attributes + size x.color +
    size x.handled_codes := rfl
theorem TrackerManager.size_eq (x : TrackerManager) : size x =
    size x.data_slots + size x.param_slots := rfl
theorem TrackerDataSlot.size_eq (x : TrackerDataSlot) : size x =
    size x.tracker_data + size x.track_fg := rfl
theorem TrackerParameterSlot.size_eq (x : TrackerParameterSlot) : size x =
    size x.settings + size x.params := rfl
theorem TrackerData.size_eq (x : TrackerData) : size x =
    size x.settings + size x.clip_version + size x.clips + size x.offset_tracking +
    size x.smoothing + size x.jitter_removal + size x.filter_amount + size x.clip5 +
    size x.clip6 := rfl
theorem TrackerParameter.size_eq (x : TrackerParameter) : size x =
    size x.settings := rfl
theorem MediaDescriptor.size_eq (x : MediaDescriptor) : size x =
    size x.mob_kind + size x.locator + size x.intermediate + size x.physical_media +
    size x.uuid + size x.wchar + size x.attributes := rfl
theorem TapeDescriptor.size_eq (x : TapeDescriptor) : size x =
    size x.toMediaDescriptor + size x.cframe := rfl
theorem FilmDescriptor.size_eq (x : FilmDescriptor) : size x =
    size x.toMediaDescriptor := rfl
theorem NagraDescriptor.size_eq (x : NagraDescriptor) : size x =
    size x.toMediaDescriptor := rfl
theorem MediaFileDescriptor.size_eq (x : MediaFileDescriptor) : size x =
    size x.toMediaDescriptor + size x.edit_rate + size x.length + size x.is_omfi +
    size x.data_offset := rfl
theorem MultiDescriptor.size_eq (x : MultiDescriptor) : size x =
    size x.toMediaFileDescriptor + size x.descriptors := rfl
theorem WaveDescriptor.size_eq (x : WaveDescriptor) : size x =
    size x.toMediaFileDescriptor + size x.summary := rfl
theorem AIFCDescriptor.size_eq (x : AIFCDescriptor) : size x =
    size x.toMediaFileDescriptor + size x.summary + size x.data_pos := rfl
theorem PCMADescriptor.size_eq (x : PCMADescriptor) : size x =
    size x.toMediaFileDescriptor + size x.channels + size x.quantization_bits +
    size x.sample_rate + size x.locked + size x.audio_ref_level +
    size x.electro_spatial_formulation + size x.dial_norm + size x.coding_format +
    size x.block_align + size x.sequence_offset + size x.average_bps +
    size x.has_peak_envelope_data + size x.peak_envelope_version +
    size x.peak_envelope_format + size x.points_per_peak_value +
    size x.peak_envelope_block_size + size x.peak_channel_count + size x.peak_frame_count +
    size x.peak_of_peaks_offset + size x.peak_envelope_timestamp + size x.ebu_timestamp +
    size x.timecode_framerate := rfl
theorem MPGADescriptor.size_eq (x : MPGADescriptor) : size x =
    size x.toMediaFileDescriptor + size x.channels + size x.quantization_bits +
    size x.sample_rate + size x.locked + size x.audio_ref_level +
    size x.electro_spatial_formulation + size x.dial_norm + size x.coding_format +
    size x.bit_rate + size x.sub_frame_alignment + size x.origin := rfl
theorem DIDDescriptor.size_eq (x : DIDDescriptor) : size x =
    size x.toMediaFileDescriptor + size x.stored_height + size x.stored_width +
    size x.sampled_height + size x.sampled_width + size x.sampled_x_offset +
    size x.sampled_y_offset + size x.display_height + size x.display_width +
    size x.display_x_offset + size x.display_y_offset + size x.frame_layout +
    size x.aspect_ratio + size x.line_map + size x.alpha_transparency + size x.uniformness +
    size x.did_image_size + size x.next_did_desc + size x.compress_method +
    size x.resolution_id + size x.image_alignment_factor + size x.frame_index_byte_order +
    size x.frame_sample_size + size x.first_frame_offset + size x.client_fill_start +
    size x.client_fill_end + size x.offset_to_rle_frame_index + size x.frame_start_offset +
    size x.valid_box + size x.essence_box + size x.source_box + size x.framing_box +
    size x.reformatting_option + size x.transfer_characteristic + size x.color_primaries +
    size x.coding_equations + size x.essence_compression + size x.essence_element_size_kind +
    size x.frame_checked_with_mapper := rfl
theorem CDCIDescriptor.size_eq (x : CDCIDescriptor) : size x =
    size x.toDIDDescriptor + size x.horizontal_subsampling + size x.vertical_subsampling +
    size x.component_width + size x.color_sitting + size x.black_ref_level +
    size x.white_ref_level + size x.color_range + size x.frame_index_offset +
    size x.alpha_sampled_width + size x.ignore_bw := rfl
theorem MPGIDescriptor.size_eq (x : MPGIDescriptor) : size x =
    size x.toCDCIDescriptor + size x.mpeg_version + size x.profile + size x.gop_structure +
    size x.stream_type + size x.random_access + size x.leading_discard +
    size x.trailing_discard + size x.min_gop_length + size x.max_gop_length +
    size x.sequence_hdr := rfl
theorem JPEGDescriptor.size_eq (x : JPEGDescriptor) : size x =
    size x.toCDCIDescriptor + size x.jpeg_table_id + size x.jpeg_frame_index_offset +
    size x.quantization_tables + size x.image_start_align := rfl
theorem RGBADescriptor.size_eq (x : RGBADescriptor) : size x =
    size x.toDIDDescriptor + size x.pixel_layout + size x.frame_index_offset +
    size x.has_comp_min_ref + size x.comp_min_ref + size x.has_comp_max_ref +
    size x.comp_max_ref + size x.alpha_min_ref + size x.alpha_max_ref := rfl
theorem DataDescriptor.size_eq (x : DataDescriptor) : size x =
    size x.toMediaFileDescriptor + size x.is_offset_to_frame_indexes_valid +
    size x.offset_to_frame_indexes + size x.first_frame_offset + size x.min_sample_size +
    size x.max_sample_size := rfl
theorem ANCDataDescriptor.size_eq (x : ANCDataDescriptor) : size x =
    size x.toDataDescriptor + size x.manifest_element_count := rfl
theorem Attributes.size_eq (x : Attributes) : size x =
    size x.items := rfl
theorem ParameterList.size_eq (x : ParameterList) : size x =
    size x.items := rfl
theorem TimeCrumbList.size_eq (x : TimeCrumbList) : size x =
    size x.items := rfl
theorem Setting.size_eq (x : Setting) : size x =
    size x.name + size x.kind + size x.attr_count + size x.attr_type + size x.attributes := rfl
theorem BinColumn.size_eq (x : BinColumn) : size x =
    size x.title + size x.format + size x.type + size x.hidden := rfl
theorem FormatDescriptor.size_eq (x : FormatDescriptor) : size x =
    size x.vcid_free_column_id + size x.format_descriptor := rfl
theorem BinViewSetting.size_eq (x : BinViewSetting) : size x =
    size x.toSetting + size x.columns + size x.format_descriptors := rfl
theorem BinItem.size_eq (x : BinItem) : size x =
    size x.mob + size x.x + size x.y + size x.keyframe + size x.user_placed := rfl
theorem SiftItem.size_eq (x : SiftItem) : size x =
    size x.method + size x.string + size x.column := rfl
theorem Bin.size_eq (x : Bin) : size x =
    size x.large_bin + size x.view_setting + size x.uid + size x.items + size x.display_mask +
    size x.display_mode + size x.sifted + size x.sifted_settings + size x.sort_columns +
    size x.mac_font + size x.mac_font_size + size x.mac_image_scale + size x.home_rect +
    size x.background_color + size x.forground_color + size x.ql_image_scale +
    size x.attributes + size x.was_iconic := rfl
theorem BinFirst.size_eq (x : BinFirst) : size x =
    size x.toBin + size x.unknown_s32 := rfl

/-- Compare what is known about sizes. -/
macro "sizes" : tactic => `(tactic| (
  (try simp only [size_int, size_nat, size_bool, size_rate, size_f64, size_uuid, size_mobid, size_rect, size_rgb,
    size_pval, size_u8, size_points, size_bytes, List.length_zipWith, size_pair, size_none,
    size_some, size_nil, size_cons, size_append, size_orNone, size_attr_int, size_attr_str,
    size_attr_obj, size_attr_bob, IntTy.width, Component.size_eq, Sequence.size_eq, Clip.size_eq,
    SourceClip.size_eq, Timecode.size_eq, Edgecode.size_eq, TrackRef.size_eq, PCPProp.size_eq,
    PCP.size_eq, ParamClip.size_eq, CPProp.size_eq, CP.size_eq, ControlClip.size_eq,
    Filler.size_eq, Track.size_eq, TrackGroup.size_eq, TrackEffect.size_eq,
    PanVolumeEffect.size_eq, ASPIPluginChunk.size_eq, ASPIPlugin.size_eq,
    AudioSuitePluginEffect.size_eq, EqualizerBand.size_eq, EqualizerMultiBand.size_eq,
    TimeWarp.size_eq, CaptureMask.size_eq, StrobeEffect.size_eq, MotionEffect.size_eq,
    Repeat.size_eq, EssenceGroup.size_eq, TransitionEffect.size_eq, Selector.size_eq,
    Composition.size_eq, FileLocator.size_eq, URLLocator.size_eq, GraphicEffect.size_eq,
    ShapeList.size_eq, ColorCorrectionEffect.size_eq, EffectParam.size_eq, EffectParamList.size_eq,
    CFUserParam.size_eq, ParameterItem.size_eq, MSMLocator.size_eq, Position.size_eq,
    BOBPosition.size_eq, DIDPosition.size_eq, MPGPosition.size_eq, BinRef.size_eq, MobRef.size_eq,
    Marker.size_eq, TrackerManager.size_eq, TrackerDataSlot.size_eq, TrackerParameterSlot.size_eq,
    TrackerData.size_eq, TrackerParameter.size_eq, MediaDescriptor.size_eq, TapeDescriptor.size_eq,
    FilmDescriptor.size_eq, NagraDescriptor.size_eq, MediaFileDescriptor.size_eq,
    MultiDescriptor.size_eq, WaveDescriptor.size_eq, AIFCDescriptor.size_eq,
    PCMADescriptor.size_eq, MPGADescriptor.size_eq, DIDDescriptor.size_eq, CDCIDescriptor.size_eq,
    MPGIDescriptor.size_eq, JPEGDescriptor.size_eq, RGBADescriptor.size_eq, DataDescriptor.size_eq,
    ANCDataDescriptor.size_eq, Attributes.size_eq, ParameterList.size_eq, TimeCrumbList.size_eq,
    Setting.size_eq, BinColumn.size_eq, FormatDescriptor.size_eq, BinViewSetting.size_eq,
    BinItem.size_eq, SiftItem.size_eq, Bin.size_eq, BinFirst.size_eq] at *) <;> omega))

/-- Walk through a reader, keeping what is known about sizes. -/
macro "pays" : tactic => `(tactic| (pays_walk <;> sizes))

theorem rBool_pays  : Pays 0 (rBool ) (fun v => size v + 1) := by
  unfold rBool; pays

instance  : IsPays (rBool ) (fun v => size v + 1) := ⟨rBool_pays⟩

theorem rRate_pays {bo : BO} : Pays 0 (rRate bo) (fun v => size v + 1) := by
  unfold rRate; pays

instance {bo : BO} : IsPays (rRate bo) (fun v => size v + 1) := ⟨rRate_pays⟩

theorem rRef_pays {c : RCtx} : Pays 0 (rRef c) (fun v => size v + 1) := by
  unfold rRef; pays

instance {c : RCtx} : IsPays (rRef c) (fun v => size v + 1) := ⟨rRef_pays⟩

theorem rDouble_pays  : Pays 0 (rDouble ) (fun v => size v + 1) := by
  unfold rDouble; pays

instance  : IsPays (rDouble ) (fun v => size v + 1) := ⟨rDouble_pays⟩

theorem rUuid_pays {bo : BO} : Pays 0 (rUuid bo) (fun v => size v + 1) := by
  unfold rUuid; pays

instance {bo : BO} : IsPays (rUuid bo) (fun v => size v + 1) := ⟨rUuid_pays⟩

theorem rRawUuid_pays {bo : BO} : Pays 0 (rRawUuid bo) size := by
  unfold rRawUuid; pays

instance {bo : BO} : IsPays (rRawUuid bo) size := ⟨rRawUuid_pays⟩

theorem rByte_pays  : Pays 0 (rByte ) (fun v => size v + 1) := by
  unfold rByte; pays

instance  : IsPays (rByte ) (fun v => size v + 1) := ⟨rByte_pays⟩

theorem rMobId_pays {bo : BO} : Pays 0 (rMobId bo) (fun v => size v + 1) := by
  unfold rMobId; pays

instance {bo : BO} : IsPays (rMobId bo) (fun v => size v + 1) := ⟨rMobId_pays⟩

theorem rDate_pays {bo : BO} : Pays 0 (rDate bo) (fun v => size v + 1) := by
  unfold rDate; pays

instance {bo : BO} : IsPays (rDate bo) (fun v => size v + 1) := ⟨rDate_pays⟩

theorem rRect_pays {bo : BO} : Pays 0 (rRect bo) (fun v => size v + 1) := by
  unfold rRect; pays

instance {bo : BO} : IsPays (rRect bo) (fun v => size v + 1) := ⟨rRect_pays⟩

theorem rRgb_pays {bo : BO} : Pays 0 (rRgb bo) (fun v => size v + 1) := by
  unfold rRgb; pays

instance {bo : BO} : IsPays (rRgb bo) (fun v => size v + 1) := ⟨rRgb_pays⟩

theorem rFourcc_pays {bo : BO} : Pays 0 (rFourcc bo) size := by
  unfold rFourcc
  refine Pays.bind Pays.fread fun b => ?_
  split
  · refine Pays.pure ?_
    rw [size_bytes, size_bytes, List.length_reverse]
    omega
  · refine Pays.pure ?_
    omega

instance {bo : BO} : IsPays (rFourcc bo) size := ⟨rFourcc_pays⟩

theorem Component.ext_pays {d : RCtx} {tag : Int} {s : Component} : Pays (size s) (Component.ext d tag s) size := by
  unfold Component.ext; pays

instance {d : RCtx} : IsPaysExt (Component.ext d) := ⟨fun _ _ => Component.ext_pays⟩

theorem Component.read_pays {d : RCtx} : Pays 0 (Component.read d) (fun v => size v + 1) := by
  unfold Component.read; pays

instance {d : RCtx} : IsPays (Component.read d) (fun v => size v + 1) := ⟨Component.read_pays⟩

theorem Sequence.read_pays {d : RCtx} : Pays 0 (Sequence.read d) (fun v => size v + 1) := by
  unfold Sequence.read; pays

instance {d : RCtx} : IsPays (Sequence.read d) (fun v => size v + 1) := ⟨Sequence.read_pays⟩

theorem Clip.read_pays {d : RCtx} : Pays 0 (Clip.read d) (fun v => size v + 1) := by
  unfold Clip.read; pays

instance {d : RCtx} : IsPays (Clip.read d) (fun v => size v + 1) := ⟨Clip.read_pays⟩

theorem SourceClip.ext_pays {d : RCtx} {tag : Int} {s : SourceClip} : Pays (size s) (SourceClip.ext d tag s) size := by
  unfold SourceClip.ext; pays

instance {d : RCtx} : IsPaysExt (SourceClip.ext d) := ⟨fun _ _ => SourceClip.ext_pays⟩

theorem SourceClip.read_pays {d : RCtx} : Pays 0 (SourceClip.read d) (fun v => size v + 1) := by
  unfold SourceClip.read; pays

instance {d : RCtx} : IsPays (SourceClip.read d) (fun v => size v + 1) := ⟨SourceClip.read_pays⟩

theorem Timecode.read_pays {d : RCtx} : Pays 0 (Timecode.read d) (fun v => size v + 1) := by
  unfold Timecode.read; pays

instance {d : RCtx} : IsPays (Timecode.read d) (fun v => size v + 1) := ⟨Timecode.read_pays⟩

theorem Edgecode.read_pays {d : RCtx} : Pays 0 (Edgecode.read d) (fun v => size v + 1) := by
  unfold Edgecode.read; pays

instance {d : RCtx} : IsPays (Edgecode.read d) (fun v => size v + 1) := ⟨Edgecode.read_pays⟩

theorem TrackRef.read_pays {d : RCtx} : Pays 0 (TrackRef.read d) (fun v => size v + 1) := by
  unfold TrackRef.read; pays

instance {d : RCtx} : IsPays (TrackRef.read d) (fun v => size v + 1) := ⟨TrackRef.read_pays⟩

theorem PCPProp.readValue_pays {d : RCtx} {type : Int} : Pays 0 (PCPProp.readValue d type) (fun v => size v + 1) := by
  unfold PCPProp.readValue; pays

instance {d : RCtx} {type : Int} : IsPays (PCPProp.readValue d type) (fun v => size v + 1) := ⟨PCPProp.readValue_pays⟩

theorem PCPProp.read_pays {d : RCtx} : Pays 0 (PCPProp.read d) (fun v => size v + 1) := by
  unfold PCPProp.read; pays

instance {d : RCtx} : IsPays (PCPProp.read d) (fun v => size v + 1) := ⟨PCPProp.read_pays⟩

theorem PCP.readValue_pays {d : RCtx} {value_type : Int} : Pays 0 (PCP.readValue d value_type) (fun v => size v + 1) := by
  unfold PCP.readValue; pays

instance {d : RCtx} {value_type : Int} : IsPays (PCP.readValue d value_type) (fun v => size v + 1) := ⟨PCP.readValue_pays⟩

theorem PCP.read_pays {d : RCtx} {value_type : Int} : Pays 0 (PCP.read d value_type) (fun v => size v + 1) := by
  unfold PCP.read; pays

instance {d : RCtx} {value_type : Int} : IsPays (PCP.read d value_type) (fun v => size v + 1) := ⟨PCP.read_pays⟩

theorem ParamClip.ext_pays {d : RCtx} {tag : Int} {s : ParamClip} : Pays (size s) (ParamClip.ext d tag s) size := by
  unfold ParamClip.ext; pays

instance {d : RCtx} : IsPaysExt (ParamClip.ext d) := ⟨fun _ _ => ParamClip.ext_pays⟩

theorem ParamClip.read_pays {d : RCtx} : Pays 0 (ParamClip.read d) (fun v => size v + 1) := by
  unfold ParamClip.read; pays

instance {d : RCtx} : IsPays (ParamClip.read d) (fun v => size v + 1) := ⟨ParamClip.read_pays⟩

theorem CPProp.read_pays {d : RCtx} : Pays 0 (CPProp.read d) (fun v => size v + 1) := by
  unfold CPProp.read; pays

instance {d : RCtx} : IsPays (CPProp.read d) (fun v => size v + 1) := ⟨CPProp.read_pays⟩

theorem CP.read_pays {d : RCtx} : Pays 0 (CP.read d) (fun v => size v + 1) := by
  unfold CP.read; pays

instance {d : RCtx} : IsPays (CP.read d) (fun v => size v + 1) := ⟨CP.read_pays⟩

theorem ControlClip.read_pays {d : RCtx} : Pays 0 (ControlClip.read d) (fun v => size v + 1) := by
  unfold ControlClip.read; pays

instance {d : RCtx} : IsPays (ControlClip.read d) (fun v => size v + 1) := ⟨ControlClip.read_pays⟩

theorem Filler.read_pays {d : RCtx} : Pays 0 (Filler.read d) (fun v => size v + 1) := by
  unfold Filler.read; pays

instance {d : RCtx} : IsPays (Filler.read d) (fun v => size v + 1) := ⟨Filler.read_pays⟩

theorem Track.read_pays {d : RCtx} : Pays 0 (Track.read d) (fun v => size v + 1) := by
  unfold Track.read; pays

instance {d : RCtx} : IsPays (Track.read d) (fun v => size v + 1) := ⟨Track.read_pays⟩

theorem rLock_pays {d : RCtx} : Pays 0 (rLock d) (fun v => size v + 1) := by
  unfold rLock; pays

instance {d : RCtx} : IsPays (rLock d) (fun v => size v + 1) := ⟨rLock_pays⟩

theorem size_locks : ∀ (l : List Track) (ks : List Int),
    size (l.zipWith (fun (t : Track) k => { t with lock_number := some k }) ks) ≤ size l
  | [], ks => by simp [size_nil]
  | t :: l, [] => by simp [size_nil]
  | t :: l, k :: ks => by
    have := size_locks l ks
    rw [List.zipWith_cons_cons, size_cons, size_cons]
    simp only [Track.size_eq, size_some, size_int]
    omega

theorem TrackGroup.ext_pays {d : RCtx} {tag : Int} {s : TrackGroup} :
    Pays (size s) (TrackGroup.ext d tag s) size := by
  unfold TrackGroup.ext
  refine Pays.ite (Pays.bind (Pays.readN IsPays.h (fun _ => ?_) _) fun ks => Pays.pure ?_) Pays.fail
  · sizes
  · have := size_locks s.tracks ks
    simp only [TrackGroup.size_eq]
    omega

instance {d : RCtx} : IsPaysExt (TrackGroup.ext d) := ⟨fun _ _ => TrackGroup.ext_pays⟩

theorem TrackGroup.read_pays {d : RCtx} : Pays 0 (TrackGroup.read d) (fun v => size v + 1) := by
  unfold TrackGroup.read; pays

instance {d : RCtx} : IsPays (TrackGroup.read d) (fun v => size v + 1) := ⟨TrackGroup.read_pays⟩

theorem TrackEffect.ext_pays {d : RCtx} {tag : Int} {s : TrackEffect} : Pays (size s) (TrackEffect.ext d tag s) size := by
  unfold TrackEffect.ext; pays

instance {d : RCtx} : IsPaysExt (TrackEffect.ext d) := ⟨fun _ _ => TrackEffect.ext_pays⟩

theorem TrackEffect.readBody_pays {d : RCtx} : Pays 0 (TrackEffect.readBody d) (fun v => size v + 1) := by
  unfold TrackEffect.readBody; pays

instance {d : RCtx} : IsPays (TrackEffect.readBody d) (fun v => size v + 1) := ⟨TrackEffect.readBody_pays⟩

theorem TrackEffect.read_pays {d : RCtx} : Pays 0 (TrackEffect.read d) (fun v => size v + 1) := by
  unfold TrackEffect.read; pays

instance {d : RCtx} : IsPays (TrackEffect.read d) (fun v => size v + 1) := ⟨TrackEffect.read_pays⟩

theorem PanVolumeEffect.ext_pays {d : RCtx} {tag : Int} {s : PanVolumeEffect} : Pays (size s) (PanVolumeEffect.ext d tag s) size := by
  unfold PanVolumeEffect.ext; pays

instance {d : RCtx} : IsPaysExt (PanVolumeEffect.ext d) := ⟨fun _ _ => PanVolumeEffect.ext_pays⟩

theorem PanVolumeEffect.read_pays {d : RCtx} : Pays 0 (PanVolumeEffect.read d) (fun v => size v + 1) := by
  unfold PanVolumeEffect.read; pays

instance {d : RCtx} : IsPays (PanVolumeEffect.read d) (fun v => size v + 1) := ⟨PanVolumeEffect.read_pays⟩

theorem ASPIPluginChunk.read_pays {d : RCtx} : Pays 0 (ASPIPluginChunk.read d) (fun v => size v + 1) := by
  unfold ASPIPluginChunk.read; pays

instance {d : RCtx} : IsPays (ASPIPluginChunk.read d) (fun v => size v + 1) := ⟨ASPIPluginChunk.read_pays⟩

theorem ASPIPlugin.read_pays {d : RCtx} : Pays 0 (ASPIPlugin.read d) (fun v => size v + 1) := by
  unfold ASPIPlugin.read; pays

instance {d : RCtx} : IsPays (ASPIPlugin.read d) (fun v => size v + 1) := ⟨ASPIPlugin.read_pays⟩

theorem rPresetPath_pays {d : RCtx} : Pays 0 (rPresetPath d) (fun v => size v + 1) := by
  unfold rPresetPath; pays

instance {d : RCtx} : IsPays (rPresetPath d) (fun v => size v + 1) := ⟨rPresetPath_pays⟩

theorem AudioSuitePluginEffect.ext_pays {d : RCtx} {tag : Int} {s : AudioSuitePluginEffect} : Pays (size s) (AudioSuitePluginEffect.ext d tag s) size := by
  unfold AudioSuitePluginEffect.ext; pays

instance {d : RCtx} : IsPaysExt (AudioSuitePluginEffect.ext d) := ⟨fun _ _ => AudioSuitePluginEffect.ext_pays⟩

theorem AudioSuitePluginEffect.read_pays {d : RCtx} : Pays 0 (AudioSuitePluginEffect.read d) (fun v => size v + 1) := by
  unfold AudioSuitePluginEffect.read; pays

instance {d : RCtx} : IsPays (AudioSuitePluginEffect.read d) (fun v => size v + 1) := ⟨AudioSuitePluginEffect.read_pays⟩

theorem EqualizerBand.read_pays {d : RCtx} : Pays 0 (EqualizerBand.read d) (fun v => size v + 1) := by
  unfold EqualizerBand.read; pays

instance {d : RCtx} : IsPays (EqualizerBand.read d) (fun v => size v + 1) := ⟨EqualizerBand.read_pays⟩

theorem EqualizerMultiBand.read_pays {d : RCtx} : Pays 0 (EqualizerMultiBand.read d) (fun v => size v + 1) := by
  unfold EqualizerMultiBand.read; pays

instance {d : RCtx} : IsPays (EqualizerMultiBand.read d) (fun v => size v + 1) := ⟨EqualizerMultiBand.read_pays⟩

theorem TimeWarp.read_pays {d : RCtx} : Pays 0 (TimeWarp.read d) (fun v => size v + 1) := by
  unfold TimeWarp.read; pays

instance {d : RCtx} : IsPays (TimeWarp.read d) (fun v => size v + 1) := ⟨TimeWarp.read_pays⟩

theorem CaptureMask.read_pays {d : RCtx} : Pays 0 (CaptureMask.read d) (fun v => size v + 1) := by
  unfold CaptureMask.read; pays

instance {d : RCtx} : IsPays (CaptureMask.read d) (fun v => size v + 1) := ⟨CaptureMask.read_pays⟩

theorem StrobeEffect.read_pays {d : RCtx} : Pays 0 (StrobeEffect.read d) (fun v => size v + 1) := by
  unfold StrobeEffect.read; pays

instance {d : RCtx} : IsPays (StrobeEffect.read d) (fun v => size v + 1) := ⟨StrobeEffect.read_pays⟩

theorem MotionEffect.ext_pays {d : RCtx} {tag : Int} {s : MotionEffect} : Pays (size s) (MotionEffect.ext d tag s) size := by
  unfold MotionEffect.ext; pays

instance {d : RCtx} : IsPaysExt (MotionEffect.ext d) := ⟨fun _ _ => MotionEffect.ext_pays⟩

theorem MotionEffect.read_pays {d : RCtx} : Pays 0 (MotionEffect.read d) (fun v => size v + 1) := by
  unfold MotionEffect.read; pays

instance {d : RCtx} : IsPays (MotionEffect.read d) (fun v => size v + 1) := ⟨MotionEffect.read_pays⟩

theorem Repeat.read_pays {d : RCtx} : Pays 0 (Repeat.read d) (fun v => size v + 1) := by
  unfold Repeat.read; pays

instance {d : RCtx} : IsPays (Repeat.read d) (fun v => size v + 1) := ⟨Repeat.read_pays⟩

theorem EssenceGroup.ext_pays {d : RCtx} {tag : Int} {s : EssenceGroup} : Pays (size s) (EssenceGroup.ext d tag s) size := by
  unfold EssenceGroup.ext; pays

instance {d : RCtx} : IsPaysExt (EssenceGroup.ext d) := ⟨fun _ _ => EssenceGroup.ext_pays⟩

theorem EssenceGroup.read_pays {d : RCtx} : Pays 0 (EssenceGroup.read d) (fun v => size v + 1) := by
  unfold EssenceGroup.read; pays

instance {d : RCtx} : IsPays (EssenceGroup.read d) (fun v => size v + 1) := ⟨EssenceGroup.read_pays⟩

theorem TransitionEffect.ext_pays {d : RCtx} {tag : Int} {s : TransitionEffect} : Pays (size s) (TransitionEffect.ext d tag s) size := by
  unfold TransitionEffect.ext; pays

instance {d : RCtx} : IsPaysExt (TransitionEffect.ext d) := ⟨fun _ _ => TransitionEffect.ext_pays⟩

theorem TransitionEffect.read_pays {d : RCtx} : Pays 0 (TransitionEffect.read d) (fun v => size v + 1) := by
  unfold TransitionEffect.read; pays

instance {d : RCtx} : IsPays (TransitionEffect.read d) (fun v => size v + 1) := ⟨TransitionEffect.read_pays⟩

theorem Selector.read_pays {d : RCtx} : Pays 0 (Selector.read d) (fun v => size v + 1) := by
  unfold Selector.read; pays

instance {d : RCtx} : IsPays (Selector.read d) (fun v => size v + 1) := ⟨Selector.read_pays⟩

theorem Composition.ext_pays {d : RCtx} {tag : Int} {s : Composition} : Pays (size s) (Composition.ext d tag s) size := by
  unfold Composition.ext; pays

instance {d : RCtx} : IsPaysExt (Composition.ext d) := ⟨fun _ _ => Composition.ext_pays⟩

theorem Composition.read_pays {d : RCtx} : Pays 0 (Composition.read d) (fun v => size v + 1) := by
  unfold Composition.read; pays

instance {d : RCtx} : IsPays (Composition.read d) (fun v => size v + 1) := ⟨Composition.read_pays⟩

theorem FileLocator.ext_pays {d : RCtx} {tag : Int} {s : FileLocator} : Pays (size s) (FileLocator.ext d tag s) size := by
  unfold FileLocator.ext; pays

instance {d : RCtx} : IsPaysExt (FileLocator.ext d) := ⟨fun _ _ => FileLocator.ext_pays⟩

theorem FileLocator.read_pays {d : RCtx} : Pays 0 (FileLocator.read d) (fun v => size v + 1) := by
  unfold FileLocator.read; pays

instance {d : RCtx} : IsPays (FileLocator.read d) (fun v => size v + 1) := ⟨FileLocator.read_pays⟩

theorem URLLocator.read_pays {d : RCtx} : Pays 0 (URLLocator.read d) (fun v => size v + 1) := by
  unfold URLLocator.read; pays

instance {d : RCtx} : IsPays (URLLocator.read d) (fun v => size v + 1) := ⟨URLLocator.read_pays⟩

theorem GraphicEffect.read_pays {d : RCtx} : Pays 0 (GraphicEffect.read d) (fun v => size v + 1) := by
  unfold GraphicEffect.read; pays

instance {d : RCtx} : IsPays (GraphicEffect.read d) (fun v => size v + 1) := ⟨GraphicEffect.read_pays⟩

theorem ShapeList.read_pays {d : RCtx} : Pays 0 (ShapeList.read d) (fun v => size v + 1) := by
  unfold ShapeList.read; pays

instance {d : RCtx} : IsPays (ShapeList.read d) (fun v => size v + 1) := ⟨ShapeList.read_pays⟩

theorem ColorCorrectionEffect.read_pays {d : RCtx} : Pays 0 (ColorCorrectionEffect.read d) (fun v => size v + 1) := by
  unfold ColorCorrectionEffect.read; pays

instance {d : RCtx} : IsPays (ColorCorrectionEffect.read d) (fun v => size v + 1) := ⟨ColorCorrectionEffect.read_pays⟩

theorem EffectParam.read_pays {d : RCtx} : Pays 0 (EffectParam.read d) (fun v => size v + 1) := by
  unfold EffectParam.read; pays

instance {d : RCtx} : IsPays (EffectParam.read d) (fun v => size v + 1) := ⟨EffectParam.read_pays⟩

theorem EffectParamList.read_pays {d : RCtx} : Pays 0 (EffectParamList.read d) (fun v => size v + 1) := by
  unfold EffectParamList.read; pays

instance {d : RCtx} : IsPays (EffectParamList.read d) (fun v => size v + 1) := ⟨EffectParamList.read_pays⟩

theorem CFUserParam.read_pays {d : RCtx} : Pays 0 (CFUserParam.read d) (fun v => size v + 1) := by
  unfold CFUserParam.read; pays

instance {d : RCtx} : IsPays (CFUserParam.read d) (fun v => size v + 1) := ⟨CFUserParam.read_pays⟩

theorem ParameterItem.readValue_pays {d : RCtx} {value_type : Int} : Pays 0 (ParameterItem.readValue d value_type) (fun v => size v + 1) := by
  unfold ParameterItem.readValue; pays

instance {d : RCtx} {value_type : Int} : IsPays (ParameterItem.readValue d value_type) (fun v => size v + 1) := ⟨ParameterItem.readValue_pays⟩

theorem ParameterItem.ext_pays {d : RCtx} {tag : Int} {s : ParameterItem} : Pays (size s) (ParameterItem.ext d tag s) size := by
  unfold ParameterItem.ext; pays

instance {d : RCtx} : IsPaysExt (ParameterItem.ext d) := ⟨fun _ _ => ParameterItem.ext_pays⟩

theorem ParameterItem.read_pays {d : RCtx} : Pays 0 (ParameterItem.read d) (fun v => size v + 1) := by
  unfold ParameterItem.read; pays

instance {d : RCtx} : IsPays (ParameterItem.read d) (fun v => size v + 1) := ⟨ParameterItem.read_pays⟩

theorem MSMLocator.ext_pays {d : RCtx} {tag : Int} {s : MSMLocator} : Pays (size s) (MSMLocator.ext d tag s) size := by
  unfold MSMLocator.ext; pays

instance {d : RCtx} : IsPaysExt (MSMLocator.ext d) := ⟨fun _ _ => MSMLocator.ext_pays⟩

theorem MSMLocator.read_pays {d : RCtx} : Pays 0 (MSMLocator.read d) (fun v => size v + 1) := by
  unfold MSMLocator.read; pays

instance {d : RCtx} : IsPays (MSMLocator.read d) (fun v => size v + 1) := ⟨MSMLocator.read_pays⟩

theorem Position.ext_pays {d : RCtx} {tag : Int} {s : Position} : Pays (size s) (Position.ext d tag s) size := by
  unfold Position.ext; pays

instance {d : RCtx} : IsPaysExt (Position.ext d) := ⟨fun _ _ => Position.ext_pays⟩

theorem Position.readBody_pays {d : RCtx} : Pays 0 (Position.readBody d) (fun v => size v + 1) := by
  unfold Position.readBody; pays

instance {d : RCtx} : IsPays (Position.readBody d) (fun v => size v + 1) := ⟨Position.readBody_pays⟩

theorem Position.read_pays {d : RCtx} : Pays 0 (Position.read d) (fun v => size v + 1) := by
  unfold Position.read; pays

instance {d : RCtx} : IsPays (Position.read d) (fun v => size v + 1) := ⟨Position.read_pays⟩

theorem BOBPosition.readBody_pays {d : RCtx} : Pays 0 (BOBPosition.readBody d) (fun v => size v + 1) := by
  unfold BOBPosition.readBody; pays

instance {d : RCtx} : IsPays (BOBPosition.readBody d) (fun v => size v + 1) := ⟨BOBPosition.readBody_pays⟩

theorem BOBPosition.read_pays {d : RCtx} : Pays 0 (BOBPosition.read d) (fun v => size v + 1) := by
  unfold BOBPosition.read; pays

instance {d : RCtx} : IsPays (BOBPosition.read d) (fun v => size v + 1) := ⟨BOBPosition.read_pays⟩

theorem DIDPosition.readBody_pays {d : RCtx} : Pays 0 (DIDPosition.readBody d) (fun v => size v + 1) := by
  unfold DIDPosition.readBody; pays

instance {d : RCtx} : IsPays (DIDPosition.readBody d) (fun v => size v + 1) := ⟨DIDPosition.readBody_pays⟩

theorem DIDPosition.read_pays {d : RCtx} : Pays 0 (DIDPosition.read d) (fun v => size v + 1) := by
  unfold DIDPosition.read; pays

instance {d : RCtx} : IsPays (DIDPosition.read d) (fun v => size v + 1) := ⟨DIDPosition.read_pays⟩

theorem MPGPosition.readField_pays {d : RCtx} : Pays 0 (MPGPosition.readField d) (fun v => size v + 1) := by
  unfold MPGPosition.readField; pays

instance {d : RCtx} : IsPays (MPGPosition.readField d) (fun v => size v + 1) := ⟨MPGPosition.readField_pays⟩

theorem MPGPosition.readFields_pays {d : RCtx} : Pays 0 (MPGPosition.readFields d) (fun v => size v + 1) := by
  unfold MPGPosition.readFields; pays

instance {d : RCtx} : IsPays (MPGPosition.readFields d) (fun v => size v + 1) := ⟨MPGPosition.readFields_pays⟩

theorem MPGPosition.read_pays {d : RCtx} : Pays 0 (MPGPosition.read d) (fun v => size v + 1) := by
  unfold MPGPosition.read; pays

instance {d : RCtx} : IsPays (MPGPosition.read d) (fun v => size v + 1) := ⟨MPGPosition.read_pays⟩

theorem BinRef.ext_pays {d : RCtx} {tag : Int} {s : BinRef} : Pays (size s) (BinRef.ext d tag s) size := by
  unfold BinRef.ext; pays

instance {d : RCtx} : IsPaysExt (BinRef.ext d) := ⟨fun _ _ => BinRef.ext_pays⟩

theorem BinRef.read_pays {d : RCtx} : Pays 0 (BinRef.read d) (fun v => size v + 1) := by
  unfold BinRef.read; pays

instance {d : RCtx} : IsPays (BinRef.read d) (fun v => size v + 1) := ⟨BinRef.read_pays⟩

theorem MobRef.ext_pays {d : RCtx} {tag : Int} {s : MobRef} : Pays (size s) (MobRef.ext d tag s) size := by
  unfold MobRef.ext; pays

instance {d : RCtx} : IsPaysExt (MobRef.ext d) := ⟨fun _ _ => MobRef.ext_pays⟩

theorem MobRef.readBody_pays {d : RCtx} : Pays 0 (MobRef.readBody d) (fun v => size v + 1) := by
  unfold MobRef.readBody; pays

instance {d : RCtx} : IsPays (MobRef.readBody d) (fun v => size v + 1) := ⟨MobRef.readBody_pays⟩

theorem MobRef.read_pays {d : RCtx} : Pays 0 (MobRef.read d) (fun v => size v + 1) := by
  unfold MobRef.read; pays

instance {d : RCtx} : IsPays (MobRef.read d) (fun v => size v + 1) := ⟨MobRef.read_pays⟩

theorem Marker.ext_pays {d : RCtx} {tag : Int} {s : Marker} : Pays (size s) (Marker.ext d tag s) size := by
  unfold Marker.ext; pays

instance {d : RCtx} : IsPaysExt (Marker.ext d) := ⟨fun _ _ => Marker.ext_pays⟩

theorem Marker.read_pays {d : RCtx} : Pays 0 (Marker.read d) (fun v => size v + 1) := by
  unfold Marker.read; pays

instance {d : RCtx} : IsPays (Marker.read d) (fun v => size v + 1) := ⟨Marker.read_pays⟩

theorem TrackerManager.read_pays {d : RCtx} : Pays 0 (TrackerManager.read d) (fun v => size v + 1) := by
  unfold TrackerManager.read; pays

instance {d : RCtx} : IsPays (TrackerManager.read d) (fun v => size v + 1) := ⟨TrackerManager.read_pays⟩

theorem TrackerDataSlot.ext_pays {d : RCtx} {tag : Int} {s : TrackerDataSlot} : Pays (size s) (TrackerDataSlot.ext d tag s) size := by
  unfold TrackerDataSlot.ext; pays

instance {d : RCtx} : IsPaysExt (TrackerDataSlot.ext d) := ⟨fun _ _ => TrackerDataSlot.ext_pays⟩

theorem TrackerDataSlot.read_pays {d : RCtx} : Pays 0 (TrackerDataSlot.read d) (fun v => size v + 1) := by
  unfold TrackerDataSlot.read; pays

instance {d : RCtx} : IsPays (TrackerDataSlot.read d) (fun v => size v + 1) := ⟨TrackerDataSlot.read_pays⟩

theorem TrackerParameterSlot.read_pays {d : RCtx} : Pays 0 (TrackerParameterSlot.read d) (fun v => size v + 1) := by
  unfold TrackerParameterSlot.read; pays

instance {d : RCtx} : IsPays (TrackerParameterSlot.read d) (fun v => size v + 1) := ⟨TrackerParameterSlot.read_pays⟩

theorem TrackerData.ext_pays {d : RCtx} {tag : Int} {s : TrackerData} : Pays (size s) (TrackerData.ext d tag s) size := by
  unfold TrackerData.ext; pays

instance {d : RCtx} : IsPaysExt (TrackerData.ext d) := ⟨fun _ _ => TrackerData.ext_pays⟩

theorem TrackerData.read_pays {d : RCtx} : Pays 0 (TrackerData.read d) (fun v => size v + 1) := by
  unfold TrackerData.read; pays

instance {d : RCtx} : IsPays (TrackerData.read d) (fun v => size v + 1) := ⟨TrackerData.read_pays⟩

theorem TrackerParameter.read_pays {d : RCtx} : Pays 0 (TrackerParameter.read d) (fun v => size v + 1) := by
  unfold TrackerParameter.read; pays

instance {d : RCtx} : IsPays (TrackerParameter.read d) (fun v => size v + 1) := ⟨TrackerParameter.read_pays⟩

theorem MediaDescriptor.ext_pays {d : RCtx} {tag : Int} {s : MediaDescriptor} : Pays (size s) (MediaDescriptor.ext d tag s) size := by
  unfold MediaDescriptor.ext; pays

instance {d : RCtx} : IsPaysExt (MediaDescriptor.ext d) := ⟨fun _ _ => MediaDescriptor.ext_pays⟩

theorem MediaDescriptor.readBody_pays {d : RCtx} : Pays 0 (MediaDescriptor.readBody d) (fun v => size v + 1) := by
  unfold MediaDescriptor.readBody; pays

instance {d : RCtx} : IsPays (MediaDescriptor.readBody d) (fun v => size v + 1) := ⟨MediaDescriptor.readBody_pays⟩

theorem MediaDescriptor.read_pays {d : RCtx} : Pays 0 (MediaDescriptor.read d) (fun v => size v + 1) := by
  unfold MediaDescriptor.read; pays

instance {d : RCtx} : IsPays (MediaDescriptor.read d) (fun v => size v + 1) := ⟨MediaDescriptor.read_pays⟩

theorem TapeDescriptor.read_pays {d : RCtx} : Pays 0 (TapeDescriptor.read d) (fun v => size v + 1) := by
  unfold TapeDescriptor.read; pays

instance {d : RCtx} : IsPays (TapeDescriptor.read d) (fun v => size v + 1) := ⟨TapeDescriptor.read_pays⟩

theorem FilmDescriptor.read_pays {d : RCtx} : Pays 0 (FilmDescriptor.read d) (fun v => size v + 1) := by
  unfold FilmDescriptor.read; pays

instance {d : RCtx} : IsPays (FilmDescriptor.read d) (fun v => size v + 1) := ⟨FilmDescriptor.read_pays⟩

theorem NagraDescriptor.read_pays {d : RCtx} : Pays 0 (NagraDescriptor.read d) (fun v => size v + 1) := by
  unfold NagraDescriptor.read; pays

instance {d : RCtx} : IsPays (NagraDescriptor.read d) (fun v => size v + 1) := ⟨NagraDescriptor.read_pays⟩

theorem MediaFileDescriptor.readBody_pays {d : RCtx} : Pays 0 (MediaFileDescriptor.readBody d) (fun v => size v + 1) := by
  unfold MediaFileDescriptor.readBody; pays

instance {d : RCtx} : IsPays (MediaFileDescriptor.readBody d) (fun v => size v + 1) := ⟨MediaFileDescriptor.readBody_pays⟩

theorem MediaFileDescriptor.read_pays {d : RCtx} : Pays 0 (MediaFileDescriptor.read d) (fun v => size v + 1) := by
  unfold MediaFileDescriptor.read; pays

instance {d : RCtx} : IsPays (MediaFileDescriptor.read d) (fun v => size v + 1) := ⟨MediaFileDescriptor.read_pays⟩

theorem MultiDescriptor.read_pays {d : RCtx} : Pays 0 (MultiDescriptor.read d) (fun v => size v + 1) := by
  unfold MultiDescriptor.read; pays

instance {d : RCtx} : IsPays (MultiDescriptor.read d) (fun v => size v + 1) := ⟨MultiDescriptor.read_pays⟩

theorem WaveDescriptor.read_pays {d : RCtx} : Pays 0 (WaveDescriptor.read d) (fun v => size v + 1) := by
  unfold WaveDescriptor.read; pays

instance {d : RCtx} : IsPays (WaveDescriptor.read d) (fun v => size v + 1) := ⟨WaveDescriptor.read_pays⟩

theorem AIFCDescriptor.ext_pays {d : RCtx} {tag : Int} {s : AIFCDescriptor} : Pays (size s) (AIFCDescriptor.ext d tag s) size := by
  unfold AIFCDescriptor.ext; pays

instance {d : RCtx} : IsPaysExt (AIFCDescriptor.ext d) := ⟨fun _ _ => AIFCDescriptor.ext_pays⟩

theorem AIFCDescriptor.read_pays {d : RCtx} : Pays 0 (AIFCDescriptor.read d) (fun v => size v + 1) := by
  unfold AIFCDescriptor.read; pays

instance {d : RCtx} : IsPays (AIFCDescriptor.read d) (fun v => size v + 1) := ⟨AIFCDescriptor.read_pays⟩

theorem PCMADescriptor.ext_pays {d : RCtx} {tag : Int} {s : PCMADescriptor} : Pays (size s) (PCMADescriptor.ext d tag s) size := by
  unfold PCMADescriptor.ext; pays

instance {d : RCtx} : IsPaysExt (PCMADescriptor.ext d) := ⟨fun _ _ => PCMADescriptor.ext_pays⟩

theorem PCMADescriptor.read_pays {d : RCtx} : Pays 0 (PCMADescriptor.read d) (fun v => size v + 1) := by
  unfold PCMADescriptor.read; pays

instance {d : RCtx} : IsPays (PCMADescriptor.read d) (fun v => size v + 1) := ⟨PCMADescriptor.read_pays⟩

theorem MPGADescriptor.ext_pays {d : RCtx} {tag : Int} {s : MPGADescriptor} : Pays (size s) (MPGADescriptor.ext d tag s) size := by
  unfold MPGADescriptor.ext; pays

instance {d : RCtx} : IsPaysExt (MPGADescriptor.ext d) := ⟨fun _ _ => MPGADescriptor.ext_pays⟩

theorem MPGADescriptor.read_pays {d : RCtx} : Pays 0 (MPGADescriptor.read d) (fun v => size v + 1) := by
  unfold MPGADescriptor.read; pays

instance {d : RCtx} : IsPays (MPGADescriptor.read d) (fun v => size v + 1) := ⟨MPGADescriptor.read_pays⟩

theorem rPoint_pays {d : RCtx} : Pays 0 (rPoint d) (fun v => size v + 1) := by
  unfold rPoint; pays

instance {d : RCtx} : IsPays (rPoint d) (fun v => size v + 1) := ⟨rPoint_pays⟩

theorem rBox_pays {d : RCtx} : Pays 0 (rBox d) size := by
  unfold rBox; pays

instance {d : RCtx} : IsPays (rBox d) size := ⟨rBox_pays⟩

theorem DIDDescriptor.ext_pays {d : RCtx} {tag : Int} {s : DIDDescriptor} : Pays (size s) (DIDDescriptor.ext d tag s) size := by
  unfold DIDDescriptor.ext; pays

instance {d : RCtx} : IsPaysExt (DIDDescriptor.ext d) := ⟨fun _ _ => DIDDescriptor.ext_pays⟩

theorem DIDDescriptor.readBody_pays {d : RCtx} : Pays 0 (DIDDescriptor.readBody d) (fun v => size v + 1) := by
  unfold DIDDescriptor.readBody; pays

instance {d : RCtx} : IsPays (DIDDescriptor.readBody d) (fun v => size v + 1) := ⟨DIDDescriptor.readBody_pays⟩

theorem DIDDescriptor.read_pays {d : RCtx} : Pays 0 (DIDDescriptor.read d) (fun v => size v + 1) := by
  unfold DIDDescriptor.read; pays

instance {d : RCtx} : IsPays (DIDDescriptor.read d) (fun v => size v + 1) := ⟨DIDDescriptor.read_pays⟩

theorem CDCIDescriptor.ext_pays {d : RCtx} {tag : Int} {s : CDCIDescriptor} : Pays (size s) (CDCIDescriptor.ext d tag s) size := by
  unfold CDCIDescriptor.ext; pays

instance {d : RCtx} : IsPaysExt (CDCIDescriptor.ext d) := ⟨fun _ _ => CDCIDescriptor.ext_pays⟩

theorem CDCIDescriptor.readBody_pays {d : RCtx} : Pays 0 (CDCIDescriptor.readBody d) (fun v => size v + 1) := by
  unfold CDCIDescriptor.readBody; pays

instance {d : RCtx} : IsPays (CDCIDescriptor.readBody d) (fun v => size v + 1) := ⟨CDCIDescriptor.readBody_pays⟩

theorem CDCIDescriptor.read_pays {d : RCtx} : Pays 0 (CDCIDescriptor.read d) (fun v => size v + 1) := by
  unfold CDCIDescriptor.read; pays

instance {d : RCtx} : IsPays (CDCIDescriptor.read d) (fun v => size v + 1) := ⟨CDCIDescriptor.read_pays⟩

theorem MPGIDescriptor.read_pays {d : RCtx} : Pays 0 (MPGIDescriptor.read d) (fun v => size v + 1) := by
  unfold MPGIDescriptor.read; pays

instance {d : RCtx} : IsPays (MPGIDescriptor.read d) (fun v => size v + 1) := ⟨MPGIDescriptor.read_pays⟩

theorem JPEGDescriptor.ext_pays {d : RCtx} {tag : Int} {s : JPEGDescriptor} : Pays (size s) (JPEGDescriptor.ext d tag s) size := by
  unfold JPEGDescriptor.ext; pays

instance {d : RCtx} : IsPaysExt (JPEGDescriptor.ext d) := ⟨fun _ _ => JPEGDescriptor.ext_pays⟩

theorem JPEGDescriptor.read_pays {d : RCtx} : Pays 0 (JPEGDescriptor.read d) (fun v => size v + 1) := by
  unfold JPEGDescriptor.read; pays

instance {d : RCtx} : IsPays (JPEGDescriptor.read d) (fun v => size v + 1) := ⟨JPEGDescriptor.read_pays⟩

theorem RGBADescriptor.ext_pays {d : RCtx} {tag : Int} {s : RGBADescriptor} : Pays (size s) (RGBADescriptor.ext d tag s) size := by
  unfold RGBADescriptor.ext; pays

instance {d : RCtx} : IsPaysExt (RGBADescriptor.ext d) := ⟨fun _ _ => RGBADescriptor.ext_pays⟩

theorem RGBADescriptor.read_pays {d : RCtx} : Pays 0 (RGBADescriptor.read d) (fun v => size v + 1) := by
  unfold RGBADescriptor.read; pays

instance {d : RCtx} : IsPays (RGBADescriptor.read d) (fun v => size v + 1) := ⟨RGBADescriptor.read_pays⟩

theorem DataDescriptor.read_pays {d : RCtx} : Pays 0 (DataDescriptor.read d) (fun v => size v + 1) := by
  unfold DataDescriptor.read; pays

instance {d : RCtx} : IsPays (DataDescriptor.read d) (fun v => size v + 1) := ⟨DataDescriptor.read_pays⟩

theorem ANCDataDescriptor.read_pays {d : RCtx} : Pays 0 (ANCDataDescriptor.read d) (fun v => size v + 1) := by
  unfold ANCDataDescriptor.read; pays

instance {d : RCtx} : IsPays (ANCDataDescriptor.read d) (fun v => size v + 1) := ⟨ANCDataDescriptor.read_pays⟩

theorem Attributes.readItem_pays {d : RCtx} : Pays 0 (Attributes.readItem d) (fun v => size v + 1) := by
  unfold Attributes.readItem; pays

instance {d : RCtx} : IsPays (Attributes.readItem d) (fun v => size v + 1) := ⟨Attributes.readItem_pays⟩

theorem size_dictSet {k : Text} {v : AttrVal} : ∀ l : List (Text × AttrVal),
    size (dictSet l k v) ≤ size l + (size (k, v) + 1)
  | [] => by
    unfold dictSet
    rw [size_cons, size_nil]
    omega
  | p :: l => by
    unfold dictSet
    have := size_dictSet (k := k) (v := v) l
    split
    · rw [size_cons, size_cons]; omega
    · rw [size_cons, size_cons]; omega

theorem size_fold : ∀ (l a : List (Text × AttrVal)),
    size (l.foldl (fun l p => dictSet l p.1 p.2) a) ≤ size a + size l
  | [], a => by simp [size_nil]
  | p :: l, a => by
    have h1 := size_fold l (dictSet a p.1 p.2)
    have h2 : size (dictSet a p.1 p.2) ≤ size a + (size p + 1) := size_dictSet a
    rw [List.foldl_cons, size_cons]
    omega

theorem Attributes.read_pays {d : RCtx} : Pays 0 (Attributes.read d) (fun v => size v + 1) := by
  unfold Attributes.read
  refine Pays.bind IsPays.h fun _ => Pays.bind IsPays.h fun _ => Pays.bind IsPays.h fun _ =>
    Pays.bind (Pays.readN IsPays.h (fun _ => Nat.le_refl _) _) fun l => Pays.bind IsPays.h fun _ =>
    Pays.pure ?_
  have h := size_fold l []
  rw [size_nil] at h
  rw [Attributes.size_eq]
  dsimp only
  omega

instance {d : RCtx} : IsPays (Attributes.read d) (fun v => size v + 1) := ⟨Attributes.read_pays⟩

theorem ParameterList.read_pays {d : RCtx} : Pays 0 (ParameterList.read d) (fun v => size v + 1) := by
  unfold ParameterList.read; pays

instance {d : RCtx} : IsPays (ParameterList.read d) (fun v => size v + 1) := ⟨ParameterList.read_pays⟩

theorem TimeCrumbList.read_pays {d : RCtx} : Pays 0 (TimeCrumbList.read d) (fun v => size v + 1) := by
  unfold TimeCrumbList.read; pays

instance {d : RCtx} : IsPays (TimeCrumbList.read d) (fun v => size v + 1) := ⟨TimeCrumbList.read_pays⟩

theorem Setting.read_pays {d : RCtx} : Pays 0 (Setting.read d) (fun v => size v + 1) := by
  unfold Setting.read; pays

instance {d : RCtx} : IsPays (Setting.read d) (fun v => size v + 1) := ⟨Setting.read_pays⟩

theorem BinColumn.read_pays {d : RCtx} : Pays 0 (BinColumn.read d) (fun v => size v + 1) := by
  unfold BinColumn.read; pays

instance {d : RCtx} : IsPays (BinColumn.read d) (fun v => size v + 1) := ⟨BinColumn.read_pays⟩

theorem Pays.bindDecode {β : Type} {c : Nat} {e : Enc} {b : Bytes} {er : Err} {k : Text → Rd β} {s : β → Nat}
    (h : ∀ t : Text, t.length ≤ b.length → Pays c (k t) s) :
    Pays c (Rd.ofOption (decodeText e b) er >>= k) s := by
  cases hd : decodeText e b with
  | none =>
    intro bs v rest hr
    cases hr
  | some t =>
    intro bs v rest hr
    exact h t (decodeText_length hd) bs v rest hr

theorem FormatDescriptor.read_pays {d : RCtx} :
    Pays 0 (FormatDescriptor.read d) (fun v => size v + 1) := by
  unfold FormatDescriptor.read
  refine Pays.bind IsPays.h fun _ => Pays.bind IsPays.h fun _ => Pays.bind IsPays.h fun _ =>
    Pays.bind IsPays.h fun _ => Pays.bind IsPays.h fun _ => Pays.bind IsPays.h fun _ =>
    Pays.bind IsPays.h fun b => Pays.bindDecode fun t ht => Pays.pure ?_
  rw [FormatDescriptor.size_eq, size_bytes, size_text, size_int]
  dsimp only
  omega

instance {d : RCtx} : IsPays (FormatDescriptor.read d) (fun v => size v + 1) :=
  ⟨FormatDescriptor.read_pays⟩

theorem BinViewSetting.ext_pays {d : RCtx} {tag : Int} {s : BinViewSetting} : Pays (size s) (BinViewSetting.ext d tag s) size := by
  unfold BinViewSetting.ext; pays

instance {d : RCtx} : IsPaysExt (BinViewSetting.ext d) := ⟨fun _ _ => BinViewSetting.ext_pays⟩

theorem BinViewSetting.read_pays {d : RCtx} : Pays 0 (BinViewSetting.read d) (fun v => size v + 1) := by
  unfold BinViewSetting.read; pays

instance {d : RCtx} : IsPays (BinViewSetting.read d) (fun v => size v + 1) := ⟨BinViewSetting.read_pays⟩

theorem BinItem.read_pays {d : RCtx} : Pays 0 (BinItem.read d) (fun v => size v + 1) := by
  unfold BinItem.read; pays

instance {d : RCtx} : IsPays (BinItem.read d) (fun v => size v + 1) := ⟨BinItem.read_pays⟩

theorem SiftItem.read_pays {d : RCtx} : Pays 0 (SiftItem.read d) (fun v => size v + 1) := by
  unfold SiftItem.read; pays

instance {d : RCtx} : IsPays (SiftItem.read d) (fun v => size v + 1) := ⟨SiftItem.read_pays⟩

theorem rSortColumn_pays {d : RCtx} : Pays 0 (rSortColumn d) (fun v => size v + 1) := by
  unfold rSortColumn; pays

instance {d : RCtx} : IsPays (rSortColumn d) (fun v => size v + 1) := ⟨rSortColumn_pays⟩

theorem Bin.readCount_pays {d : RCtx} {version : Int} : Pays 0 (Bin.readCount d version) (fun v => size v + 1) := by
  unfold Bin.readCount; pays

instance {d : RCtx} {version : Int} : IsPays (Bin.readCount d version) (fun v => size v + 1) := ⟨Bin.readCount_pays⟩

theorem Bin.readBody_pays {d : RCtx} : Pays 0 (Bin.readBody d) (fun v => size v + 1) := by
  unfold Bin.readBody; pays

instance {d : RCtx} : IsPays (Bin.readBody d) (fun v => size v + 1) := ⟨Bin.readBody_pays⟩

theorem Bin.read_pays {d : RCtx} : Pays 0 (Bin.read d) (fun v => size v + 1) := by
  unfold Bin.read; pays

instance {d : RCtx} : IsPays (Bin.read d) (fun v => size v + 1) := ⟨Bin.read_pays⟩

theorem BinFirst.read_pays {d : RCtx} : Pays 0 (BinFirst.read d) (fun v => size v + 1) := by
  unfold BinFirst.read; pays

instance {d : RCtx} : IsPays (BinFirst.read d) (fun v => size v + 1) := ⟨BinFirst.read_pays⟩

/-- An object of any class holds no more than the bytes it was read from. -/
theorem Obj.readAs_pays (d : RCtx) (k : Cls) : Pays 0 (Obj.readAs d k) Obj.size := by
  have as : ∀ {α : Type} [Size α] {r : Rd α} {s : α → Nat} [IsPays r s] {f : α → Obj},
      (∀ a, (f a).size ≤ s a) → Pays 0 (r.as f) Obj.size := by
    intro α _ r s hr f hf
    refine Pays.bind hr.h fun a => Pays.pure ?_
    have := hf a
    omega
  cases k <;> exact as fun _ => Nat.le_succ _

end Avb
