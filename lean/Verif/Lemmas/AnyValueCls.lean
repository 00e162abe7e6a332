import Verif.Lemmas.AnyValue

/-! The writers of all classes with any values in the properties (Model/AnyValue.lean), and what they take. -/

namespace Avb

open Unset

set_option linter.unusedVariables false
set_option linter.unusedSimpArgs false

theorem Setting.write_conv (g : Given) (c : WCtx) (x : Setting) :
    Conv g (
        ownK [("name", .text), ("kind", .text), ("attr_count", .int), ("attr_type", .int),
        ("attributes", .ref)])
      (x.writeG g c) ((x.conv g).write c) := by
  unfold Setting.writeG Setting.write Setting.conv
  try dsimp only
  conv_all

theorem BinViewSetting.write_conv (g : Given) (c : WCtx) (x : BinViewSetting) :
    Conv g (
        ownK [("name", .text), ("kind", .text), ("attr_count", .int), ("attr_type", .int),
        ("attributes", .ref)])
      (x.writeG g c) ((x.conv g).write c) := by
  have hp := Setting.write_conv g c x.toSetting
  unfold BinViewSetting.writeG BinViewSetting.write BinViewSetting.conv
  try dsimp only
  conv_all

theorem BinItem.write_conv (g : Given) (c : WCtx) (b : BinItem) :
    Conv g (
        ownK [("mob", .ref), ("x", .int), ("y", .int), ("keyframe", .int)])
      (b.writeG g c) ((b.conv g).write c) := by
  unfold BinItem.writeG BinItem.write BinItem.conv
  try dsimp only
  conv_all

theorem SiftItem.write_conv (g : Given) (c : WCtx) (x : SiftItem) :
    Conv g (
        ownK [("method", .int), ("string", .text), ("column", .text)])
      (x.writeG g c) ((x.conv g).write c) := by
  unfold SiftItem.writeG SiftItem.write SiftItem.conv
  try dsimp only
  conv_all

theorem sift_conv (g : Given) (c : WCtx) (l : List SiftItem) :
    Conv g (inListK "sifted_settings" (List.range 6) fun _ => ownK SiftItem.kinds)
      (forW (List.range' 0 6) fun i => do
        let s ← Wr.nth l i
        s.writeG (g.at "sifted_settings" i) c)
      (forW (List.range' 0 6) fun i => do
        let s ← Wr.nth (convList "sifted_settings" SiftItem.conv g l) i
        s.write c) := by
  have h : ∀ xs : List Nat, Conv g
      (xs.flatMap fun i => (ownK SiftItem.kinds).map fun s => ((("sifted_settings", i) :: s.1.1, s.1.2), s.2))
      (forW xs fun i => do
        let s ← Wr.nth l i
        s.writeG (g.at "sifted_settings" i) c)
      (forW xs fun i => do
        let s ← Wr.nth (convList "sifted_settings" SiftItem.conv g l) i
        s.write c) := by
    intro xs
    induction xs with
    | nil => exact Conv.plain _
    | cons i xs ih =>
      rw [List.flatMap_cons]
      refine Conv.bind ?_ fun _ => ih
      dsimp only
      unfold Wr.nth convList
      rw [convFrom_getElem?, Nat.zero_add]
      cases l[i]? with
      | none =>
        intro r
        constructor
        · intro h; cases h
        · rintro ⟨_, h⟩; cases h
      | some s =>
        have e : ∀ (a : SiftItem) (k : SiftItem → Wr Unit), (Wr.pure a >>= k) = k a := by
          intro a k
          change Wr.bind (Wr.pure a) k = k a
          unfold Wr.pure Wr.bind
          dsimp only
          cases k a with
          | error e => rfl
          | ok p => rfl
        dsimp only [Option.map]
        rw [e, e]
        exact Conv.at_ "sifted_settings" i (SiftItem.write_conv _ c s)
  exact Conv.congr (h _) rfl

theorem Bin.isLarge_conv (g : Given) (x : Bin) : (x.conv g).isLarge = x.isLarge := by
  unfold Bin.isLarge Bin.conv
  simp only [convList_length]

theorem Bin.writeCount_conv (g : Given) (c : WCtx) (x : Bin) : (x.conv g).writeCount c = x.writeCount c := by
  unfold Bin.writeCount
  rw [Bin.isLarge_conv]
  unfold Bin.conv
  simp only [convList_length]

theorem Bin.writeBody_conv (g : Given) (c : WCtx) (x : Bin) :
    Conv g (
        ownK [("view_setting", .ref), ("uid", .int)] ++
        (inListK "items" x.items fun _ => ownK BinItem.kinds) ++
        ownK [("display_mask", .int), ("display_mode", .int), ("sifted", .bool)] ++
        (inListK "sifted_settings" (List.range 6) fun _ => ownK SiftItem.kinds) ++
        ownK [("mac_font", .int), ("mac_font_size", .int), ("mac_image_scale", .int), ("home_rect", .rect),
        ("background_color", .rgb), ("forground_color", .rgb), ("ql_image_scale", .int),
        ("attributes", .ref), ("was_iconic", .bool)])
      (x.writeBodyG g c) ((x.conv g).writeBody c) := by
  have hl := Conv.forWi (g := g) (list := "items") (fun g e => BinItem.write_conv g c e) x.items
  have hs := sift_conv g c x.sifted_settings
  unfold Bin.writeBodyG Bin.writeBody
  rw [Bin.isLarge_conv, Bin.writeCount_conv]
  unfold Bin.conv
  try dsimp only
  conv_all

theorem Bin.write_conv (g : Given) (c : WCtx) (x : Bin) :
    Conv g (
        ownK [("view_setting", .ref), ("uid", .int)] ++
        (inListK "items" x.items fun _ => ownK BinItem.kinds) ++
        ownK [("display_mask", .int), ("display_mode", .int), ("sifted", .bool)] ++
        (inListK "sifted_settings" (List.range 6) fun _ => ownK SiftItem.kinds) ++
        ownK [("mac_font", .int), ("mac_font_size", .int), ("mac_image_scale", .int), ("home_rect", .rect),
        ("background_color", .rgb), ("forground_color", .rgb), ("ql_image_scale", .int),
        ("attributes", .ref), ("was_iconic", .bool)])
      (x.writeG g c) ((x.conv g).write c) := by
  have hq := Bin.writeBody_conv g c x
  unfold Bin.writeG Bin.write Bin.conv
  try dsimp only
  conv_all

theorem BinFirst.write_conv (g : Given) (c : WCtx) (x : BinFirst) :
    Conv g (
        ownK [("view_setting", .ref), ("uid", .int)] ++
        (inListK "items" x.toBin.items fun _ => ownK BinItem.kinds) ++
        ownK [("display_mask", .int), ("display_mode", .int), ("sifted", .bool)] ++
        (inListK "sifted_settings" (List.range 6) fun _ => ownK SiftItem.kinds) ++
        ownK [("mac_font", .int), ("mac_font_size", .int), ("mac_image_scale", .int), ("home_rect", .rect),
        ("background_color", .rgb), ("forground_color", .rgb), ("ql_image_scale", .int),
        ("attributes", .ref), ("was_iconic", .bool), ("unknown_s32", .int)])
      (x.writeG g c) ((x.conv g).write c) := by
  have hp := Bin.writeBody_conv g c x.toBin
  unfold BinFirst.writeG BinFirst.write BinFirst.conv
  try dsimp only
  conv_all

theorem Component.write_conv (g : Given) (c : WCtx) (x : Component) :
    Conv g (
        ownK [("left_bob", .ref), ("right_bob", .ref), ("media_kind_id", .int), ("edit_rate", .rate),
        ("name", .name), ("effect_id", .name), ("attributes", .ref), ("session_attrs", .ref),
        ("precomputed", .ref), ("param_list", .ref)])
      (x.writeG g c) ((x.conv g).write c) := by
  unfold Component.writeG Component.write Component.conv
  try dsimp only
  conv_all

theorem Sequence.write_conv (g : Given) (c : WCtx) (x : Sequence) :
    Conv g (
        ownK [("left_bob", .ref), ("right_bob", .ref), ("media_kind_id", .int), ("edit_rate", .rate),
        ("name", .name), ("effect_id", .name), ("attributes", .ref), ("session_attrs", .ref),
        ("precomputed", .ref), ("param_list", .ref)])
      (x.writeG g c) ((x.conv g).write c) := by
  have hp := Component.write_conv g c x.toComponent
  unfold Sequence.writeG Sequence.write Sequence.conv
  try dsimp only
  conv_all

theorem Clip.write_conv (g : Given) (c : WCtx) (x : Clip) :
    Conv g (
        ownK [("left_bob", .ref), ("right_bob", .ref), ("media_kind_id", .int), ("edit_rate", .rate),
        ("name", .name), ("effect_id", .name), ("attributes", .ref), ("session_attrs", .ref),
        ("precomputed", .ref), ("param_list", .ref), ("length", .int)])
      (x.writeG g c) ((x.conv g).write c) := by
  have hp := Component.write_conv g c x.toComponent
  unfold Clip.writeG Clip.write Clip.conv
  try dsimp only
  conv_all

theorem SourceClip.write_conv (g : Given) (c : WCtx) (x : SourceClip) :
    Conv g (
        ownK [("left_bob", .ref), ("right_bob", .ref), ("media_kind_id", .int), ("edit_rate", .rate),
        ("name", .name), ("effect_id", .name), ("attributes", .ref), ("session_attrs", .ref),
        ("precomputed", .ref), ("param_list", .ref), ("length", .int), ("track_id", .int),
        ("start_time", .int)])
      (x.writeG g c) ((x.conv g).write c) := by
  have hp := Clip.write_conv g c x.toClip
  unfold SourceClip.writeG SourceClip.write SourceClip.conv
  try dsimp only
  conv_all

theorem Timecode.write_conv (g : Given) (c : WCtx) (x : Timecode) :
    Conv g (
        ownK [("left_bob", .ref), ("right_bob", .ref), ("media_kind_id", .int), ("edit_rate", .rate),
        ("name", .name), ("effect_id", .name), ("attributes", .ref), ("session_attrs", .ref),
        ("precomputed", .ref), ("param_list", .ref), ("length", .int), ("flags", .int), ("fps", .int),
        ("start", .int)])
      (x.writeG g c) ((x.conv g).write c) := by
  have hp := Clip.write_conv g c x.toClip
  unfold Timecode.writeG Timecode.write Timecode.conv
  try dsimp only
  conv_all

theorem Edgecode.write_conv (g : Given) (c : WCtx) (x : Edgecode) :
    Conv g (
        ownK [("left_bob", .ref), ("right_bob", .ref), ("media_kind_id", .int), ("edit_rate", .rate),
        ("name", .name), ("effect_id", .name), ("attributes", .ref), ("session_attrs", .ref),
        ("precomputed", .ref), ("param_list", .ref), ("length", .int), ("film_kind", .int),
        ("code_format", .int), ("base_perf", .int), ("start_ec", .int)])
      (x.writeG g c) ((x.conv g).write c) := by
  have hp := Clip.write_conv g c x.toClip
  unfold Edgecode.writeG Edgecode.write Edgecode.conv
  try dsimp only
  conv_all

theorem TrackRef.write_conv (g : Given) (c : WCtx) (x : TrackRef) :
    Conv g (
        ownK [("left_bob", .ref), ("right_bob", .ref), ("media_kind_id", .int), ("edit_rate", .rate),
        ("name", .name), ("effect_id", .name), ("attributes", .ref), ("session_attrs", .ref),
        ("precomputed", .ref), ("param_list", .ref), ("length", .int), ("relative_scope", .int),
        ("relative_track", .int)])
      (x.writeG g c) ((x.conv g).write c) := by
  have hp := Clip.write_conv g c x.toClip
  unfold TrackRef.writeG TrackRef.write TrackRef.conv
  try dsimp only
  conv_all

theorem PCPProp.writeValue_conv (g : Given) (c : WCtx) (x : PCPProp) :
    Conv g (
        ([] : List (Slot × Kind)))
      (x.writeValueG g c) ((x.conv g).writeValue c) := by
  unfold PCPProp.writeValueG PCPProp.writeValue PCPProp.conv
  try dsimp only
  conv_all

theorem PCPProp.write_conv (g : Given) (c : WCtx) (x : PCPProp) :
    Conv g (
        ownK [("code", .int)])
      (x.writeG g c) ((x.conv g).write c) := by
  have hq := PCPProp.writeValue_conv g c x
  unfold PCPProp.writeG PCPProp.write PCPProp.conv
  try dsimp only
  conv_all

theorem PCP.writeValue_conv (g : Given) (c : WCtx) (value_type : Int) (x : PCP) :
    Conv g (
        ([] : List (Slot × Kind)))
      (x.writeValueG g c value_type) ((x.conv g).writeValue c value_type) := by
  unfold PCP.writeValueG PCP.writeValue PCP.conv
  try dsimp only
  try simp only [convList_length]
  conv_all

theorem PCP.write_conv (g : Given) (c : WCtx) (value_type : Int) (x : PCP) :
    Conv g (
        ownK [("timescale", .int)] ++
        (inListK "pp" x.pp fun _ => ownK PCPProp.kinds))
      (x.writeG g c value_type) ((x.conv g).write c value_type) := by
  have hq := PCP.writeValue_conv g c value_type x
  have hl := Conv.forWi (g := g) (list := "pp") (fun g e => PCPProp.write_conv g c e) x.pp
  unfold PCP.writeG PCP.write PCP.conv
  try dsimp only
  try simp only [convList_length]
  conv_all

theorem ParamClip.write_conv (g : Given) (c : WCtx) (x : ParamClip) :
    Conv g (
        ownK [("left_bob", .ref), ("right_bob", .ref), ("media_kind_id", .int), ("edit_rate", .rate),
        ("name", .name), ("effect_id", .name), ("attributes", .ref), ("session_attrs", .ref),
        ("precomputed", .ref), ("param_list", .ref), ("length", .int), ("interp_kind", .int)] ++
        (inListK "control_points" x.control_points fun p => ownK PCP.kinds ++ inListK "pp" p.pp fun _ => ownK PCPProp.kinds) ++
        ownK [("extrap_kind", .int), ("fields", .int)])
      (x.writeG g c) ((x.conv g).write c) := by
  have hp := Clip.write_conv g c x.toClip
  have hl := Conv.forWi (g := g) (list := "control_points") (fun g e => PCP.write_conv g c x.value_type e) x.control_points
  unfold ParamClip.writeG ParamClip.write ParamClip.conv
  try dsimp only
  try simp only [convList_length]
  conv_all

theorem CPProp.write_conv (g : Given) (c : WCtx) (x : CPProp) :
    Conv g (
        ownK [("code", .int)])
      (x.writeG g c) ((x.conv g).write c) := by
  unfold CPProp.writeG CPProp.write CPProp.conv
  try dsimp only
  conv_all

theorem CP.write_conv (g : Given) (c : WCtx) (x : CP) :
    Conv g (
        ownK [("time_scale", .int)] ++
        (inListK "pp" x.pp fun _ => ownK CPProp.kinds))
      (x.writeG g c) ((x.conv g).write c) := by
  have hl := Conv.forWi (g := g) (list := "pp") (fun g e => CPProp.write_conv g c e) x.pp
  unfold CP.writeG CP.write CP.conv
  try dsimp only
  try simp only [convList_length]
  conv_all

theorem ControlClip.write_conv (g : Given) (c : WCtx) (x : ControlClip) :
    Conv g (
        ownK [("left_bob", .ref), ("right_bob", .ref), ("media_kind_id", .int), ("edit_rate", .rate),
        ("name", .name), ("effect_id", .name), ("attributes", .ref), ("session_attrs", .ref),
        ("precomputed", .ref), ("param_list", .ref), ("length", .int), ("interp_kind", .int)] ++
        (inListK "control_points" x.control_points fun p => ownK CP.kinds ++ inListK "pp" p.pp fun _ => ownK CPProp.kinds))
      (x.writeG g c) ((x.conv g).write c) := by
  have hp := Clip.write_conv g c x.toClip
  have hl := Conv.forWi (g := g) (list := "control_points") (fun g e => CP.write_conv g c e) x.control_points
  unfold ControlClip.writeG ControlClip.write ControlClip.conv
  try dsimp only
  try simp only [convList_length]
  conv_all

theorem Filler.write_conv (g : Given) (c : WCtx) (x : Filler) :
    Conv g (
        ownK [("left_bob", .ref), ("right_bob", .ref), ("media_kind_id", .int), ("edit_rate", .rate),
        ("name", .name), ("effect_id", .name), ("attributes", .ref), ("session_attrs", .ref),
        ("precomputed", .ref), ("param_list", .ref), ("length", .int)])
      (x.writeG g c) ((x.conv g).write c) := by
  have hp := Clip.write_conv g c x.toClip
  unfold Filler.writeG Filler.write Filler.conv
  try dsimp only
  conv_all

theorem MediaDescriptor.writeBody_conv (g : Given) (c : WCtx) (x : MediaDescriptor) :
    Conv g (
        ownK [("mob_kind", .int), ("locator", .ref), ("intermediate", .bool), ("physical_media", .ref),
        ("attributes", .ref)])
      (x.writeBodyG g c) ((x.conv g).writeBody c) := by
  unfold MediaDescriptor.writeBodyG MediaDescriptor.writeBody MediaDescriptor.conv
  try dsimp only
  conv_all

theorem MediaDescriptor.write_conv (g : Given) (c : WCtx) (x : MediaDescriptor) :
    Conv g (
        ownK [("mob_kind", .int), ("locator", .ref), ("intermediate", .bool), ("physical_media", .ref),
        ("attributes", .ref)])
      (x.writeG g c) ((x.conv g).write c) := by
  have hq := MediaDescriptor.writeBody_conv g c x
  unfold MediaDescriptor.writeG MediaDescriptor.write MediaDescriptor.conv
  try dsimp only
  conv_all

theorem TapeDescriptor.write_conv (g : Given) (c : WCtx) (x : TapeDescriptor) :
    Conv g (
        ownK [("mob_kind", .int), ("locator", .ref), ("intermediate", .bool), ("physical_media", .ref),
        ("attributes", .ref), ("cframe", .int)])
      (x.writeG g c) ((x.conv g).write c) := by
  have hp := MediaDescriptor.writeBody_conv g c x.toMediaDescriptor
  unfold TapeDescriptor.writeG TapeDescriptor.write TapeDescriptor.conv
  try dsimp only
  conv_all

theorem FilmDescriptor.write_conv (g : Given) (c : WCtx) (x : FilmDescriptor) :
    Conv g (
        ownK [("mob_kind", .int), ("locator", .ref), ("intermediate", .bool), ("physical_media", .ref),
        ("attributes", .ref)])
      (x.writeG g c) ((x.conv g).write c) := by
  have hp := MediaDescriptor.writeBody_conv g c x.toMediaDescriptor
  unfold FilmDescriptor.writeG FilmDescriptor.write FilmDescriptor.conv
  try dsimp only
  conv_all

theorem NagraDescriptor.write_conv (g : Given) (c : WCtx) (x : NagraDescriptor) :
    Conv g (
        ownK [("mob_kind", .int), ("locator", .ref), ("intermediate", .bool), ("physical_media", .ref),
        ("attributes", .ref)])
      (x.writeG g c) ((x.conv g).write c) := by
  have hp := MediaDescriptor.writeBody_conv g c x.toMediaDescriptor
  unfold NagraDescriptor.writeG NagraDescriptor.write NagraDescriptor.conv
  try dsimp only
  conv_all

theorem MediaFileDescriptor.writeBody_conv (g : Given) (c : WCtx) (x : MediaFileDescriptor) :
    Conv g (
        ownK [("mob_kind", .int), ("locator", .ref), ("intermediate", .bool), ("physical_media", .ref),
        ("attributes", .ref), ("edit_rate", .rate), ("length", .int), ("is_omfi", .int),
        ("data_offset", .int)])
      (x.writeBodyG g c) ((x.conv g).writeBody c) := by
  have hp := MediaDescriptor.writeBody_conv g c x.toMediaDescriptor
  unfold MediaFileDescriptor.writeBodyG MediaFileDescriptor.writeBody MediaFileDescriptor.conv
  try dsimp only
  conv_all

theorem MediaFileDescriptor.write_conv (g : Given) (c : WCtx) (x : MediaFileDescriptor) :
    Conv g (
        ownK [("mob_kind", .int), ("locator", .ref), ("intermediate", .bool), ("physical_media", .ref),
        ("attributes", .ref), ("edit_rate", .rate), ("length", .int), ("is_omfi", .int),
        ("data_offset", .int)])
      (x.writeG g c) ((x.conv g).write c) := by
  have hq := MediaFileDescriptor.writeBody_conv g c x
  unfold MediaFileDescriptor.writeG MediaFileDescriptor.write MediaFileDescriptor.conv
  try dsimp only
  conv_all

theorem MultiDescriptor.write_conv (g : Given) (c : WCtx) (x : MultiDescriptor) :
    Conv g (
        ownK [("mob_kind", .int), ("locator", .ref), ("intermediate", .bool), ("physical_media", .ref),
        ("attributes", .ref), ("edit_rate", .rate), ("length", .int), ("is_omfi", .int),
        ("data_offset", .int)])
      (x.writeG g c) ((x.conv g).write c) := by
  have hp := MediaFileDescriptor.writeBody_conv g c x.toMediaFileDescriptor
  unfold MultiDescriptor.writeG MultiDescriptor.write MultiDescriptor.conv
  try dsimp only
  conv_all

theorem WaveDescriptor.write_conv (g : Given) (c : WCtx) (x : WaveDescriptor) :
    Conv g (
        ownK [("mob_kind", .int), ("locator", .ref), ("intermediate", .bool), ("physical_media", .ref),
        ("attributes", .ref), ("edit_rate", .rate), ("length", .int), ("is_omfi", .int),
        ("data_offset", .int)])
      (x.writeG g c) ((x.conv g).write c) := by
  have hp := MediaFileDescriptor.writeBody_conv g c x.toMediaFileDescriptor
  unfold WaveDescriptor.writeG WaveDescriptor.write WaveDescriptor.conv
  try dsimp only
  conv_all

theorem AIFCDescriptor.write_conv (g : Given) (c : WCtx) (x : AIFCDescriptor) :
    Conv g (
        ownK [("mob_kind", .int), ("locator", .ref), ("intermediate", .bool), ("physical_media", .ref),
        ("attributes", .ref), ("edit_rate", .rate), ("length", .int), ("is_omfi", .int),
        ("data_offset", .int), ("data_pos", .int)])
      (x.writeG g c) ((x.conv g).write c) := by
  have hp := MediaFileDescriptor.writeBody_conv g c x.toMediaFileDescriptor
  unfold AIFCDescriptor.writeG AIFCDescriptor.write AIFCDescriptor.conv
  try dsimp only
  conv_all

theorem PCMADescriptor.write_conv (g : Given) (c : WCtx) (x : PCMADescriptor) :
    Conv g (
        ownK [("mob_kind", .int), ("locator", .ref), ("intermediate", .bool), ("physical_media", .ref),
        ("attributes", .ref), ("edit_rate", .rate), ("length", .int), ("is_omfi", .int),
        ("data_offset", .int), ("channels", .int), ("quantization_bits", .int),
        ("sample_rate", .rate), ("locked", .bool), ("audio_ref_level", .int),
        ("electro_spatial_formulation", .int), ("dial_norm", .int), ("coding_format", .int),
        ("block_align", .int), ("sequence_offset", .int), ("average_bps", .int),
        ("has_peak_envelope_data", .bool), ("peak_envelope_version", .int),
        ("peak_envelope_format", .int), ("points_per_peak_value", .int),
        ("peak_envelope_block_size", .int), ("peak_channel_count", .int), ("peak_frame_count", .int),
        ("peak_of_peaks_offset", .int), ("peak_envelope_timestamp", .int), ("ebu_timestamp", .int),
        ("timecode_framerate", .text)])
      (x.writeG g c) ((x.conv g).write c) := by
  have hp := MediaFileDescriptor.writeBody_conv g c x.toMediaFileDescriptor
  unfold PCMADescriptor.writeG PCMADescriptor.write PCMADescriptor.conv
  try dsimp only
  conv_all

theorem MPGADescriptor.write_conv (g : Given) (c : WCtx) (x : MPGADescriptor) :
    Conv g (
        ownK [("mob_kind", .int), ("locator", .ref), ("intermediate", .bool), ("physical_media", .ref),
        ("attributes", .ref), ("edit_rate", .rate), ("length", .int), ("is_omfi", .int),
        ("data_offset", .int), ("channels", .int), ("quantization_bits", .int),
        ("sample_rate", .rate), ("locked", .bool), ("audio_ref_level", .int),
        ("electro_spatial_formulation", .int), ("dial_norm", .int), ("coding_format", .int),
        ("bit_rate", .int), ("sub_frame_alignment", .int), ("origin", .int)])
      (x.writeG g c) ((x.conv g).write c) := by
  have hp := MediaFileDescriptor.writeBody_conv g c x.toMediaFileDescriptor
  unfold MPGADescriptor.writeG MPGADescriptor.write MPGADescriptor.conv
  try dsimp only
  conv_all

theorem DIDDescriptor.writeBody_conv (g : Given) (c : WCtx) (x : DIDDescriptor) :
    Conv g (
        ownK [("mob_kind", .int), ("locator", .ref), ("intermediate", .bool), ("physical_media", .ref),
        ("attributes", .ref), ("edit_rate", .rate), ("length", .int), ("is_omfi", .int),
        ("data_offset", .int), ("stored_height", .int), ("stored_width", .int),
        ("sampled_height", .int), ("sampled_width", .int), ("sampled_x_offset", .int),
        ("sampled_y_offset", .int), ("display_height", .int), ("display_width", .int),
        ("display_x_offset", .int), ("display_y_offset", .int), ("frame_layout", .int),
        ("alpha_transparency", .int), ("uniformness", .bool), ("did_image_size", .int),
        ("next_did_desc", .ref), ("resolution_id", .int), ("image_alignment_factor", .int),
        ("frame_index_byte_order", .int), ("frame_sample_size", .int), ("first_frame_offset", .int),
        ("offset_to_rle_frame_index", .int), ("frame_start_offset", .int),
        ("essence_element_size_kind", .int), ("frame_checked_with_mapper", .bool)])
      (x.writeBodyG g c) ((x.conv g).writeBody c) := by
  have hp := MediaFileDescriptor.writeBody_conv g c x.toMediaFileDescriptor
  unfold DIDDescriptor.writeBodyG DIDDescriptor.writeBody DIDDescriptor.conv
  try dsimp only
  conv_all

theorem DIDDescriptor.write_conv (g : Given) (c : WCtx) (x : DIDDescriptor) :
    Conv g (
        ownK [("mob_kind", .int), ("locator", .ref), ("intermediate", .bool), ("physical_media", .ref),
        ("attributes", .ref), ("edit_rate", .rate), ("length", .int), ("is_omfi", .int),
        ("data_offset", .int), ("stored_height", .int), ("stored_width", .int),
        ("sampled_height", .int), ("sampled_width", .int), ("sampled_x_offset", .int),
        ("sampled_y_offset", .int), ("display_height", .int), ("display_width", .int),
        ("display_x_offset", .int), ("display_y_offset", .int), ("frame_layout", .int),
        ("alpha_transparency", .int), ("uniformness", .bool), ("did_image_size", .int),
        ("next_did_desc", .ref), ("resolution_id", .int), ("image_alignment_factor", .int),
        ("frame_index_byte_order", .int), ("frame_sample_size", .int), ("first_frame_offset", .int),
        ("offset_to_rle_frame_index", .int), ("frame_start_offset", .int),
        ("essence_element_size_kind", .int), ("frame_checked_with_mapper", .bool)])
      (x.writeG g c) ((x.conv g).write c) := by
  have hq := DIDDescriptor.writeBody_conv g c x
  unfold DIDDescriptor.writeG DIDDescriptor.write DIDDescriptor.conv
  try dsimp only
  conv_all

theorem CDCIDescriptor.writeBody_conv (g : Given) (c : WCtx) (x : CDCIDescriptor) :
    Conv g (
        ownK [("mob_kind", .int), ("locator", .ref), ("intermediate", .bool), ("physical_media", .ref),
        ("attributes", .ref), ("edit_rate", .rate), ("length", .int), ("is_omfi", .int),
        ("data_offset", .int), ("stored_height", .int), ("stored_width", .int),
        ("sampled_height", .int), ("sampled_width", .int), ("sampled_x_offset", .int),
        ("sampled_y_offset", .int), ("display_height", .int), ("display_width", .int),
        ("display_x_offset", .int), ("display_y_offset", .int), ("frame_layout", .int),
        ("alpha_transparency", .int), ("uniformness", .bool), ("did_image_size", .int),
        ("next_did_desc", .ref), ("resolution_id", .int), ("image_alignment_factor", .int),
        ("frame_index_byte_order", .int), ("frame_sample_size", .int), ("first_frame_offset", .int),
        ("offset_to_rle_frame_index", .int), ("frame_start_offset", .int),
        ("essence_element_size_kind", .int), ("frame_checked_with_mapper", .bool),
        ("horizontal_subsampling", .int), ("vertical_subsampling", .int), ("component_width", .int),
        ("color_sitting", .int), ("black_ref_level", .int), ("white_ref_level", .int),
        ("color_range", .int), ("frame_index_offset", .int), ("alpha_sampled_width", .int),
        ("ignore_bw", .int)])
      (x.writeBodyG g c) ((x.conv g).writeBody c) := by
  have hp := DIDDescriptor.writeBody_conv g c x.toDIDDescriptor
  unfold CDCIDescriptor.writeBodyG CDCIDescriptor.writeBody CDCIDescriptor.conv
  try dsimp only
  conv_all

theorem CDCIDescriptor.write_conv (g : Given) (c : WCtx) (x : CDCIDescriptor) :
    Conv g (
        ownK [("mob_kind", .int), ("locator", .ref), ("intermediate", .bool), ("physical_media", .ref),
        ("attributes", .ref), ("edit_rate", .rate), ("length", .int), ("is_omfi", .int),
        ("data_offset", .int), ("stored_height", .int), ("stored_width", .int),
        ("sampled_height", .int), ("sampled_width", .int), ("sampled_x_offset", .int),
        ("sampled_y_offset", .int), ("display_height", .int), ("display_width", .int),
        ("display_x_offset", .int), ("display_y_offset", .int), ("frame_layout", .int),
        ("alpha_transparency", .int), ("uniformness", .bool), ("did_image_size", .int),
        ("next_did_desc", .ref), ("resolution_id", .int), ("image_alignment_factor", .int),
        ("frame_index_byte_order", .int), ("frame_sample_size", .int), ("first_frame_offset", .int),
        ("offset_to_rle_frame_index", .int), ("frame_start_offset", .int),
        ("essence_element_size_kind", .int), ("frame_checked_with_mapper", .bool),
        ("horizontal_subsampling", .int), ("vertical_subsampling", .int), ("component_width", .int),
        ("color_sitting", .int), ("black_ref_level", .int), ("white_ref_level", .int),
        ("color_range", .int), ("frame_index_offset", .int), ("alpha_sampled_width", .int),
        ("ignore_bw", .int)])
      (x.writeG g c) ((x.conv g).write c) := by
  have hq := CDCIDescriptor.writeBody_conv g c x
  unfold CDCIDescriptor.writeG CDCIDescriptor.write CDCIDescriptor.conv
  try dsimp only
  conv_all

theorem MPGIDescriptor.write_conv (g : Given) (c : WCtx) (x : MPGIDescriptor) :
    Conv g (
        ownK [("mob_kind", .int), ("locator", .ref), ("intermediate", .bool), ("physical_media", .ref),
        ("attributes", .ref), ("edit_rate", .rate), ("length", .int), ("is_omfi", .int),
        ("data_offset", .int), ("stored_height", .int), ("stored_width", .int),
        ("sampled_height", .int), ("sampled_width", .int), ("sampled_x_offset", .int),
        ("sampled_y_offset", .int), ("display_height", .int), ("display_width", .int),
        ("display_x_offset", .int), ("display_y_offset", .int), ("frame_layout", .int),
        ("alpha_transparency", .int), ("uniformness", .bool), ("did_image_size", .int),
        ("next_did_desc", .ref), ("resolution_id", .int), ("image_alignment_factor", .int),
        ("frame_index_byte_order", .int), ("frame_sample_size", .int), ("first_frame_offset", .int),
        ("offset_to_rle_frame_index", .int), ("frame_start_offset", .int),
        ("essence_element_size_kind", .int), ("frame_checked_with_mapper", .bool),
        ("horizontal_subsampling", .int), ("vertical_subsampling", .int), ("component_width", .int),
        ("color_sitting", .int), ("black_ref_level", .int), ("white_ref_level", .int),
        ("color_range", .int), ("frame_index_offset", .int), ("alpha_sampled_width", .int),
        ("ignore_bw", .int), ("mpeg_version", .int), ("profile", .int), ("gop_structure", .int),
        ("stream_type", .int), ("random_access", .bool), ("leading_discard", .bool),
        ("trailing_discard", .bool), ("min_gop_length", .int), ("max_gop_length", .int)])
      (x.writeG g c) ((x.conv g).write c) := by
  have hp := CDCIDescriptor.writeBody_conv g c x.toCDCIDescriptor
  unfold MPGIDescriptor.writeG MPGIDescriptor.write MPGIDescriptor.conv
  try dsimp only
  conv_all

theorem JPEGDescriptor.write_conv (g : Given) (c : WCtx) (x : JPEGDescriptor) :
    Conv g (
        ownK [("mob_kind", .int), ("locator", .ref), ("intermediate", .bool), ("physical_media", .ref),
        ("attributes", .ref), ("edit_rate", .rate), ("length", .int), ("is_omfi", .int),
        ("data_offset", .int), ("stored_height", .int), ("stored_width", .int),
        ("sampled_height", .int), ("sampled_width", .int), ("sampled_x_offset", .int),
        ("sampled_y_offset", .int), ("display_height", .int), ("display_width", .int),
        ("display_x_offset", .int), ("display_y_offset", .int), ("frame_layout", .int),
        ("alpha_transparency", .int), ("uniformness", .bool), ("did_image_size", .int),
        ("next_did_desc", .ref), ("resolution_id", .int), ("image_alignment_factor", .int),
        ("frame_index_byte_order", .int), ("frame_sample_size", .int), ("first_frame_offset", .int),
        ("offset_to_rle_frame_index", .int), ("frame_start_offset", .int),
        ("essence_element_size_kind", .int), ("frame_checked_with_mapper", .bool),
        ("horizontal_subsampling", .int), ("vertical_subsampling", .int), ("component_width", .int),
        ("color_sitting", .int), ("black_ref_level", .int), ("white_ref_level", .int),
        ("color_range", .int), ("frame_index_offset", .int), ("alpha_sampled_width", .int),
        ("ignore_bw", .int), ("jpeg_table_id", .int), ("jpeg_frame_index_offset", .int),
        ("image_start_align", .int)])
      (x.writeG g c) ((x.conv g).write c) := by
  have hp := CDCIDescriptor.writeBody_conv g c x.toCDCIDescriptor
  unfold JPEGDescriptor.writeG JPEGDescriptor.write JPEGDescriptor.conv
  try dsimp only
  conv_all

theorem RGBADescriptor.write_conv (g : Given) (c : WCtx) (x : RGBADescriptor) :
    Conv g (
        ownK [("mob_kind", .int), ("locator", .ref), ("intermediate", .bool), ("physical_media", .ref),
        ("attributes", .ref), ("edit_rate", .rate), ("length", .int), ("is_omfi", .int),
        ("data_offset", .int), ("stored_height", .int), ("stored_width", .int),
        ("sampled_height", .int), ("sampled_width", .int), ("sampled_x_offset", .int),
        ("sampled_y_offset", .int), ("display_height", .int), ("display_width", .int),
        ("display_x_offset", .int), ("display_y_offset", .int), ("frame_layout", .int),
        ("alpha_transparency", .int), ("uniformness", .bool), ("did_image_size", .int),
        ("next_did_desc", .ref), ("resolution_id", .int), ("image_alignment_factor", .int),
        ("frame_index_byte_order", .int), ("frame_sample_size", .int), ("first_frame_offset", .int),
        ("offset_to_rle_frame_index", .int), ("frame_start_offset", .int),
        ("essence_element_size_kind", .int), ("frame_checked_with_mapper", .bool),
        ("frame_index_offset", .int)])
      (x.writeG g c) ((x.conv g).write c) := by
  have hp := DIDDescriptor.writeBody_conv g c x.toDIDDescriptor
  unfold RGBADescriptor.writeG RGBADescriptor.write RGBADescriptor.conv
  try dsimp only
  conv_all

theorem DataDescriptor.write_conv (g : Given) (c : WCtx) (x : DataDescriptor) :
    Conv g (
        ownK [("mob_kind", .int), ("locator", .ref), ("intermediate", .bool), ("physical_media", .ref),
        ("attributes", .ref), ("edit_rate", .rate), ("length", .int), ("is_omfi", .int),
        ("data_offset", .int), ("is_offset_to_frame_indexes_valid", .bool),
        ("offset_to_frame_indexes", .int), ("first_frame_offset", .int), ("min_sample_size", .int),
        ("max_sample_size", .int)])
      (x.writeG g c) ((x.conv g).write c) := by
  have hp := MediaFileDescriptor.writeBody_conv g c x.toMediaFileDescriptor
  unfold DataDescriptor.writeG DataDescriptor.write DataDescriptor.conv
  try dsimp only
  conv_all

theorem ANCDataDescriptor.write_conv (g : Given) (c : WCtx) (x : ANCDataDescriptor) :
    Conv g (
        ownK [("mob_kind", .int), ("locator", .ref), ("intermediate", .bool), ("physical_media", .ref),
        ("attributes", .ref), ("edit_rate", .rate), ("length", .int), ("is_omfi", .int),
        ("data_offset", .int), ("is_offset_to_frame_indexes_valid", .bool),
        ("offset_to_frame_indexes", .int), ("first_frame_offset", .int), ("min_sample_size", .int),
        ("max_sample_size", .int), ("manifest_element_count", .int)])
      (x.writeG g c) ((x.conv g).write c) := by
  have hp := DataDescriptor.write_conv g c x.toDataDescriptor
  unfold ANCDataDescriptor.writeG ANCDataDescriptor.write ANCDataDescriptor.conv
  try dsimp only
  conv_all

theorem FileLocator.write_conv (g : Given) (c : WCtx) (x : FileLocator) :
    Conv g (
        ownK [("path", .text), ("path_posix", .text), ("path_utf8", .text), ("path2_utf8", .text)])
      (x.writeG g c) ((x.conv g).write c) := by
  unfold FileLocator.writeG FileLocator.write FileLocator.conv
  try dsimp only
  conv_all

theorem GraphicEffect.write_conv (g : Given) (c : WCtx) (x : GraphicEffect) :
    Conv g (
        ([] : List (Slot × Kind)))
      (x.writeG g c) ((x.conv g).write c) := by
  unfold GraphicEffect.writeG GraphicEffect.write GraphicEffect.conv
  try dsimp only
  conv_all

theorem ShapeList.write_conv (g : Given) (c : WCtx) (x : ShapeList) :
    Conv g (
        ([] : List (Slot × Kind)))
      (x.writeG g c) ((x.conv g).write c) := by
  unfold ShapeList.writeG ShapeList.write ShapeList.conv
  try dsimp only
  conv_all

theorem ColorCorrectionEffect.write_conv (g : Given) (c : WCtx) (x : ColorCorrectionEffect) :
    Conv g (
        ([] : List (Slot × Kind)))
      (x.writeG g c) ((x.conv g).write c) := by
  unfold ColorCorrectionEffect.writeG ColorCorrectionEffect.write ColorCorrectionEffect.conv
  try dsimp only
  conv_all

theorem EffectParam.write_conv (g : Given) (c : WCtx) (p : EffectParam) :
    Conv g (
        ownK [("percent_time", .int), ("level", .int), ("pos_x", .int), ("floor_x", .int), ("ceil_x", .int),
        ("pos_y", .int), ("floor_y", .int), ("ceil_y", .int), ("scale_x", .int), ("scale_y", .int),
        ("crop_left", .int), ("crop_right", .int), ("crop_top", .int), ("crop_bottom", .int),
        ("box_xscale", .bool), ("box_yscale", .bool), ("box_xpos", .bool), ("box_ypos", .bool),
        ("border_width", .int), ("border_soft", .int), ("splill_gain2", .int), ("splill_gain", .int),
        ("splill_soft2", .int), ("splill_soft", .int), ("enable_key_flags", .int),
        ("selected", .bool)])
      (p.writeG g c) ((p.conv g).write c) := by
  unfold EffectParam.writeG EffectParam.write EffectParam.conv
  try dsimp only
  conv_all

theorem EffectParamList.write_conv (g : Given) (c : WCtx) (x : EffectParamList) :
    Conv g (
        ownK [("orig_length", .int), ("window_offset", .int), ("keyframe_size", .int)] ++
        (inListK "parameters" x.parameters fun _ => ownK EffectParam.kinds))
      (x.writeG g c) ((x.conv g).write c) := by
  have hl := Conv.forWi (g := g) (list := "parameters") (fun g e => EffectParam.write_conv g c e) x.parameters
  unfold EffectParamList.writeG EffectParamList.write EffectParamList.conv
  try dsimp only
  try simp only [convList_length]
  conv_all

theorem CFUserParam.write_conv (g : Given) (c : WCtx) (x : CFUserParam) :
    Conv g (
        ([] : List (Slot × Kind)))
      (x.writeG g c) ((x.conv g).write c) := by
  unfold CFUserParam.writeG CFUserParam.write CFUserParam.conv
  try dsimp only
  conv_all

theorem ParameterItem.writeValue_conv (g : Given) (c : WCtx) (x : ParameterItem) :
    Conv g (
        ([] : List (Slot × Kind)))
      (x.writeValueG g c) ((x.conv g).writeValue c) := by
  unfold ParameterItem.writeValueG ParameterItem.writeValue ParameterItem.conv
  try dsimp only
  conv_all

theorem ParameterItem.write_conv (g : Given) (c : WCtx) (x : ParameterItem) :
    Conv g (
        ownK [("enable", .bool), ("control_track", .ref), ("contribs_to_sig", .bool)])
      (x.writeG g c) ((x.conv g).write c) := by
  have hq := ParameterItem.writeValue_conv g c x
  unfold ParameterItem.writeG ParameterItem.write ParameterItem.conv
  try dsimp only
  conv_all

theorem MSMLocator.write_conv (g : Given) (c : WCtx) (x : MSMLocator) :
    Conv g (
        ownK [("last_known_volume", .text), ("domain_type", .int), ("last_known_volume_utf8", .text)])
      (x.writeG g c) ((x.conv g).write c) := by
  unfold MSMLocator.writeG MSMLocator.write MSMLocator.conv
  try dsimp only
  conv_all

theorem Position.writeBody_conv (g : Given) (c : WCtx) (x : Position) :
    Conv g (
        ([] : List (Slot × Kind)))
      (x.writeBodyG g c) ((x.conv g).writeBody c) := by
  unfold Position.writeBodyG Position.writeBody Position.conv
  try dsimp only
  conv_all

theorem Position.write_conv (g : Given) (c : WCtx) (x : Position) :
    Conv g (
        ([] : List (Slot × Kind)))
      (x.writeG g c) ((x.conv g).write c) := by
  have hq := Position.writeBody_conv g c x
  unfold Position.writeG Position.write Position.conv
  try dsimp only
  conv_all

theorem BOBPosition.writeBody_conv (g : Given) (c : WCtx) (x : BOBPosition) :
    Conv g (
        ownK [("sample_num", .int), ("length", .int), ("track_type", .int), ("track_index", .int)])
      (x.writeBodyG g c) ((x.conv g).writeBody c) := by
  have hp := Position.writeBody_conv g c x.toPosition
  unfold BOBPosition.writeBodyG BOBPosition.writeBody BOBPosition.conv
  try dsimp only
  conv_all

theorem BOBPosition.write_conv (g : Given) (c : WCtx) (x : BOBPosition) :
    Conv g (
        ownK [("sample_num", .int), ("length", .int), ("track_type", .int), ("track_index", .int)])
      (x.writeG g c) ((x.conv g).write c) := by
  have hq := BOBPosition.writeBody_conv g c x
  unfold BOBPosition.writeG BOBPosition.write BOBPosition.conv
  try dsimp only
  conv_all

theorem DIDPosition.writeBody_conv (g : Given) (c : WCtx) (x : DIDPosition) :
    Conv g (
        ownK [("sample_num", .int), ("length", .int), ("track_type", .int), ("track_index", .int),
        ("strip", .int), ("offset", .int), ("byte_length", .int), ("spos_invalid", .bool)])
      (x.writeBodyG g c) ((x.conv g).writeBody c) := by
  have hp := BOBPosition.writeBody_conv g c x.toBOBPosition
  unfold DIDPosition.writeBodyG DIDPosition.writeBody DIDPosition.conv
  try dsimp only
  conv_all

theorem DIDPosition.write_conv (g : Given) (c : WCtx) (x : DIDPosition) :
    Conv g (
        ownK [("sample_num", .int), ("length", .int), ("track_type", .int), ("track_index", .int),
        ("strip", .int), ("offset", .int), ("byte_length", .int), ("spos_invalid", .bool)])
      (x.writeG g c) ((x.conv g).write c) := by
  have hq := DIDPosition.writeBody_conv g c x
  unfold DIDPosition.writeG DIDPosition.write DIDPosition.conv
  try dsimp only
  conv_all

theorem MPGPosition.write_conv (g : Given) (c : WCtx) (x : MPGPosition) :
    Conv g (
        ownK [("sample_num", .int), ("length", .int), ("track_type", .int), ("track_index", .int),
        ("strip", .int), ("offset", .int), ("byte_length", .int), ("spos_invalid", .bool),
        ("trailing_discards", .int), ("need_seq_hdr", .bool)])
      (x.writeG g c) ((x.conv g).write c) := by
  have hp := DIDPosition.writeBody_conv g c x.toDIDPosition
  unfold MPGPosition.writeG MPGPosition.write MPGPosition.conv
  try dsimp only
  conv_all

theorem BinRef.write_conv (g : Given) (c : WCtx) (x : BinRef) :
    Conv g (
        ownK [("uid_high", .int), ("uid_low", .int), ("name", .text)])
      (x.writeG g c) ((x.conv g).write c) := by
  unfold BinRef.writeG BinRef.write BinRef.conv
  try dsimp only
  conv_all

theorem MobRef.writeBody_conv (g : Given) (c : WCtx) (x : MobRef) :
    Conv g (
        ownK [("position", .int)])
      (x.writeBodyG g c) ((x.conv g).writeBody c) := by
  unfold MobRef.writeBodyG MobRef.writeBody MobRef.conv
  try dsimp only
  conv_all

theorem MobRef.write_conv (g : Given) (c : WCtx) (x : MobRef) :
    Conv g (
        ownK [("position", .int)])
      (x.writeG g c) ((x.conv g).write c) := by
  have hq := MobRef.writeBody_conv g c x
  unfold MobRef.writeG MobRef.write MobRef.conv
  try dsimp only
  conv_all

theorem Marker.write_conv (g : Given) (c : WCtx) (x : Marker) :
    Conv g (
        ownK [("position", .int), ("comp_offset", .int), ("attributes", .ref), ("handled_codes", .bool)])
      (x.writeG g c) ((x.conv g).write c) := by
  have hp := MobRef.writeBody_conv g c x.toMobRef
  unfold Marker.writeG Marker.write Marker.conv
  try dsimp only
  conv_all

theorem TrackerManager.write_conv (g : Given) (c : WCtx) (x : TrackerManager) :
    Conv g (
        ownK [("data_slots", .ref), ("param_slots", .ref)])
      (x.writeG g c) ((x.conv g).write c) := by
  unfold TrackerManager.writeG TrackerManager.write TrackerManager.conv
  try dsimp only
  conv_all

theorem TrackerDataSlot.write_conv (g : Given) (c : WCtx) (x : TrackerDataSlot) :
    Conv g (
        ownK [("track_fg", .bool)])
      (x.writeG g c) ((x.conv g).write c) := by
  unfold TrackerDataSlot.writeG TrackerDataSlot.write TrackerDataSlot.conv
  try dsimp only
  conv_all

theorem TrackerParameterSlot.write_conv (g : Given) (c : WCtx) (x : TrackerParameterSlot) :
    Conv g (
        ([] : List (Slot × Kind)))
      (x.writeG g c) ((x.conv g).write c) := by
  unfold TrackerParameterSlot.writeG TrackerParameterSlot.write TrackerParameterSlot.conv
  try dsimp only
  conv_all

theorem TrackerData.write_conv (g : Given) (c : WCtx) (x : TrackerData) :
    Conv g (
        ownK [("clip_version", .int), ("offset_tracking", .int), ("smoothing", .int),
        ("jitter_removal", .int), ("clip5", .ref), ("clip6", .ref)])
      (x.writeG g c) ((x.conv g).write c) := by
  unfold TrackerData.writeG TrackerData.write TrackerData.conv
  try dsimp only
  conv_all

theorem TrackerParameter.write_conv (g : Given) (c : WCtx) (x : TrackerParameter) :
    Conv g (
        ([] : List (Slot × Kind)))
      (x.writeG g c) ((x.conv g).write c) := by
  unfold TrackerParameter.writeG TrackerParameter.write TrackerParameter.conv
  try dsimp only
  conv_all

theorem TrackGroup.write_conv (g : Given) (c : WCtx) (x : TrackGroup) :
    Conv g (
        ownK [("left_bob", .ref), ("right_bob", .ref), ("media_kind_id", .int), ("edit_rate", .rate),
        ("name", .name), ("effect_id", .name), ("attributes", .ref), ("session_attrs", .ref),
        ("precomputed", .ref), ("param_list", .ref), ("mc_mode", .int), ("length", .int),
        ("num_scalars", .int)])
      (x.writeG g c) ((x.conv g).write c) := by
  have hp := Component.write_conv g c x.toComponent
  unfold TrackGroup.writeG TrackGroup.write TrackGroup.conv
  try dsimp only
  conv_all

theorem TrackEffect.writeBody_conv (g : Given) (c : WCtx) (x : TrackEffect) :
    Conv g (
        ownK [("left_bob", .ref), ("right_bob", .ref), ("media_kind_id", .int), ("edit_rate", .rate),
        ("name", .name), ("effect_id", .name), ("attributes", .ref), ("session_attrs", .ref),
        ("precomputed", .ref), ("param_list", .ref), ("mc_mode", .int), ("length", .int),
        ("num_scalars", .int), ("left_length", .int), ("right_length", .int), ("info_version", .int),
        ("info_current", .int), ("info_smooth", .int), ("info_color_item", .int),
        ("info_quality", .int), ("info_is_reversed", .int), ("info_aspect_on", .bool),
        ("keyframes", .ref), ("info_force_software", .bool), ("info_never_hardware", .bool),
        ("trackman", .ref)])
      (x.writeBodyG g c) ((x.conv g).writeBody c) := by
  have hp := TrackGroup.write_conv g c x.toTrackGroup
  unfold TrackEffect.writeBodyG TrackEffect.writeBody TrackEffect.conv
  try dsimp only
  conv_all

theorem TrackEffect.write_conv (g : Given) (c : WCtx) (x : TrackEffect) :
    Conv g (
        ownK [("left_bob", .ref), ("right_bob", .ref), ("media_kind_id", .int), ("edit_rate", .rate),
        ("name", .name), ("effect_id", .name), ("attributes", .ref), ("session_attrs", .ref),
        ("precomputed", .ref), ("param_list", .ref), ("mc_mode", .int), ("length", .int),
        ("num_scalars", .int), ("left_length", .int), ("right_length", .int), ("info_version", .int),
        ("info_current", .int), ("info_smooth", .int), ("info_color_item", .int),
        ("info_quality", .int), ("info_is_reversed", .int), ("info_aspect_on", .bool),
        ("keyframes", .ref), ("info_force_software", .bool), ("info_never_hardware", .bool),
        ("trackman", .ref)])
      (x.writeG g c) ((x.conv g).write c) := by
  have hq := TrackEffect.writeBody_conv g c x
  unfold TrackEffect.writeG TrackEffect.write TrackEffect.conv
  try dsimp only
  conv_all

theorem PanVolumeEffect.write_conv (g : Given) (c : WCtx) (x : PanVolumeEffect) :
    Conv g (
        ownK [("left_bob", .ref), ("right_bob", .ref), ("media_kind_id", .int), ("edit_rate", .rate),
        ("name", .name), ("effect_id", .name), ("attributes", .ref), ("session_attrs", .ref),
        ("precomputed", .ref), ("param_list", .ref), ("mc_mode", .int), ("length", .int),
        ("num_scalars", .int), ("left_length", .int), ("right_length", .int), ("info_version", .int),
        ("info_current", .int), ("info_smooth", .int), ("info_color_item", .int),
        ("info_quality", .int), ("info_is_reversed", .int), ("info_aspect_on", .bool),
        ("keyframes", .ref), ("info_force_software", .bool), ("info_never_hardware", .bool),
        ("trackman", .ref), ("level", .int), ("pan", .int), ("suppress_validation", .bool),
        ("level_set", .bool), ("pan_set", .bool), ("supports_seperate_gain", .int),
        ("is_trim_gain_effect", .int)])
      (x.writeG g c) ((x.conv g).write c) := by
  have hp := TrackEffect.writeBody_conv g c x.toTrackEffect
  unfold PanVolumeEffect.writeG PanVolumeEffect.write PanVolumeEffect.conv
  try dsimp only
  conv_all

theorem ASPIPluginChunk.write_conv (g : Given) (c : WCtx) (x : ASPIPluginChunk) :
    Conv g (
        ownK [("version", .int), ("manufacturer_id", .int), ("product_id", .int), ("plugin_id", .int),
        ("chunk_id", .int), ("name", .text)])
      (x.writeG g c) ((x.conv g).write c) := by
  unfold ASPIPluginChunk.writeG ASPIPluginChunk.write ASPIPluginChunk.conv
  try dsimp only
  conv_all

theorem ASPIPlugin.write_conv (g : Given) (c : WCtx) (x : ASPIPlugin) :
    Conv g (
        ownK [("name", .text), ("manufacturer_id", .int), ("product_id", .int), ("plugin_id", .int)] ++
        (inListK "chunks" x.chunks fun _ => ownK ASPIPluginChunk.kinds))
      (x.writeG g c) ((x.conv g).write c) := by
  have hl := Conv.forWi (g := g) (list := "chunks") (fun g e => ASPIPluginChunk.write_conv g c e) x.chunks
  unfold ASPIPlugin.writeG ASPIPlugin.write ASPIPlugin.conv
  try dsimp only
  try simp only [convList_length]
  conv_all

theorem AudioSuitePluginEffect.write_conv (g : Given) (c : WCtx) (x : AudioSuitePluginEffect) :
    Conv g (
        ownK [("left_bob", .ref), ("right_bob", .ref), ("media_kind_id", .int), ("edit_rate", .rate),
        ("name", .name), ("effect_id", .name), ("attributes", .ref), ("session_attrs", .ref),
        ("precomputed", .ref), ("param_list", .ref), ("mc_mode", .int), ("length", .int),
        ("num_scalars", .int), ("left_length", .int), ("right_length", .int), ("info_version", .int),
        ("info_current", .int), ("info_smooth", .int), ("info_color_item", .int),
        ("info_quality", .int), ("info_is_reversed", .int), ("info_aspect_on", .bool),
        ("keyframes", .ref), ("info_force_software", .bool), ("info_never_hardware", .bool),
        ("trackman", .ref)] ++
        (inListK "plugins" x.plugins fun p => ownK ASPIPlugin.kinds ++ inListK "chunks" p.chunks fun _ => ownK ASPIPluginChunk.kinds) ++
        ownK [("mark_in", .int), ("mark_out", .int), ("tracks_to_affect", .int), ("rendering_mode", .int),
        ("padding_secs", .int)])
      (x.writeG g c) ((x.conv g).write c) := by
  have hp := TrackEffect.writeBody_conv g c x.toTrackEffect
  have hl := Conv.forWi (g := g) (list := "plugins") (fun g e => ASPIPlugin.write_conv g c e) x.plugins
  unfold AudioSuitePluginEffect.writeG AudioSuitePluginEffect.write AudioSuitePluginEffect.conv
  try dsimp only
  try simp only [convList_length]
  conv_all

theorem EqualizerBand.write_conv (g : Given) (c : WCtx) (x : EqualizerBand) :
    Conv g (
        ownK [("type", .int), ("freq", .int), ("gain", .int), ("q", .int), ("enable", .bool)])
      (x.writeG g c) ((x.conv g).write c) := by
  unfold EqualizerBand.writeG EqualizerBand.write EqualizerBand.conv
  try dsimp only
  conv_all

theorem EqualizerMultiBand.write_conv (g : Given) (c : WCtx) (x : EqualizerMultiBand) :
    Conv g (
        ownK [("left_bob", .ref), ("right_bob", .ref), ("media_kind_id", .int), ("edit_rate", .rate),
        ("name", .name), ("effect_id", .name), ("attributes", .ref), ("session_attrs", .ref),
        ("precomputed", .ref), ("param_list", .ref), ("mc_mode", .int), ("length", .int),
        ("num_scalars", .int), ("left_length", .int), ("right_length", .int), ("info_version", .int),
        ("info_current", .int), ("info_smooth", .int), ("info_color_item", .int),
        ("info_quality", .int), ("info_is_reversed", .int), ("info_aspect_on", .bool),
        ("keyframes", .ref), ("info_force_software", .bool), ("info_never_hardware", .bool),
        ("trackman", .ref)] ++
        (inListK "bands" x.bands fun _ => ownK EqualizerBand.kinds) ++
        ownK [("effect_enable", .bool), ("filter_name", .text)])
      (x.writeG g c) ((x.conv g).write c) := by
  have hp := TrackEffect.writeBody_conv g c x.toTrackEffect
  have hl := Conv.forWi (g := g) (list := "bands") (fun g e => EqualizerBand.write_conv g c e) x.bands
  unfold EqualizerMultiBand.writeG EqualizerMultiBand.write EqualizerMultiBand.conv
  try dsimp only
  try simp only [convList_length]
  conv_all

theorem TimeWarp.write_conv (g : Given) (c : WCtx) (x : TimeWarp) :
    Conv g (
        ownK [("left_bob", .ref), ("right_bob", .ref), ("media_kind_id", .int), ("edit_rate", .rate),
        ("name", .name), ("effect_id", .name), ("attributes", .ref), ("session_attrs", .ref),
        ("precomputed", .ref), ("param_list", .ref), ("mc_mode", .int), ("length", .int),
        ("num_scalars", .int), ("phase_offset", .int)])
      (x.writeG g c) ((x.conv g).write c) := by
  have hp := TrackGroup.write_conv g c x.toTrackGroup
  unfold TimeWarp.writeG TimeWarp.write TimeWarp.conv
  try dsimp only
  conv_all

theorem CaptureMask.write_conv (g : Given) (c : WCtx) (x : CaptureMask) :
    Conv g (
        ownK [("left_bob", .ref), ("right_bob", .ref), ("media_kind_id", .int), ("edit_rate", .rate),
        ("name", .name), ("effect_id", .name), ("attributes", .ref), ("session_attrs", .ref),
        ("precomputed", .ref), ("param_list", .ref), ("mc_mode", .int), ("length", .int),
        ("num_scalars", .int), ("phase_offset", .int), ("is_double", .bool), ("mask_bits", .int)])
      (x.writeG g c) ((x.conv g).write c) := by
  have hp := TimeWarp.write_conv g c x.toTimeWarp
  unfold CaptureMask.writeG CaptureMask.write CaptureMask.conv
  try dsimp only
  conv_all

theorem StrobeEffect.write_conv (g : Given) (c : WCtx) (x : StrobeEffect) :
    Conv g (
        ownK [("left_bob", .ref), ("right_bob", .ref), ("media_kind_id", .int), ("edit_rate", .rate),
        ("name", .name), ("effect_id", .name), ("attributes", .ref), ("session_attrs", .ref),
        ("precomputed", .ref), ("param_list", .ref), ("mc_mode", .int), ("length", .int),
        ("num_scalars", .int), ("phase_offset", .int), ("strobe_value", .int)])
      (x.writeG g c) ((x.conv g).write c) := by
  have hp := TimeWarp.write_conv g c x.toTimeWarp
  unfold StrobeEffect.writeG StrobeEffect.write StrobeEffect.conv
  try dsimp only
  conv_all

theorem MotionEffect.write_conv (g : Given) (c : WCtx) (x : MotionEffect) :
    Conv g (
        ownK [("left_bob", .ref), ("right_bob", .ref), ("media_kind_id", .int), ("edit_rate", .rate),
        ("name", .name), ("effect_id", .name), ("attributes", .ref), ("session_attrs", .ref),
        ("precomputed", .ref), ("param_list", .ref), ("mc_mode", .int), ("length", .int),
        ("num_scalars", .int), ("phase_offset", .int), ("source_param_list", .ref),
        ("new_source_calculation", .bool)])
      (x.writeG g c) ((x.conv g).write c) := by
  have hp := TimeWarp.write_conv g c x.toTimeWarp
  unfold MotionEffect.writeG MotionEffect.write MotionEffect.conv
  try dsimp only
  conv_all

theorem Repeat.write_conv (g : Given) (c : WCtx) (x : Repeat) :
    Conv g (
        ownK [("left_bob", .ref), ("right_bob", .ref), ("media_kind_id", .int), ("edit_rate", .rate),
        ("name", .name), ("effect_id", .name), ("attributes", .ref), ("session_attrs", .ref),
        ("precomputed", .ref), ("param_list", .ref), ("mc_mode", .int), ("length", .int),
        ("num_scalars", .int), ("phase_offset", .int)])
      (x.writeG g c) ((x.conv g).write c) := by
  have hp := TimeWarp.write_conv g c x.toTimeWarp
  unfold Repeat.writeG Repeat.write Repeat.conv
  try dsimp only
  conv_all

theorem EssenceGroup.write_conv (g : Given) (c : WCtx) (x : EssenceGroup) :
    Conv g (
        ownK [("left_bob", .ref), ("right_bob", .ref), ("media_kind_id", .int), ("edit_rate", .rate),
        ("name", .name), ("effect_id", .name), ("attributes", .ref), ("session_attrs", .ref),
        ("precomputed", .ref), ("param_list", .ref), ("mc_mode", .int), ("length", .int),
        ("num_scalars", .int), ("rep_set_type", .int)])
      (x.writeG g c) ((x.conv g).write c) := by
  have hp := TrackGroup.write_conv g c x.toTrackGroup
  unfold EssenceGroup.writeG EssenceGroup.write EssenceGroup.conv
  try dsimp only
  conv_all

theorem TransitionEffect.write_conv (g : Given) (c : WCtx) (x : TransitionEffect) :
    Conv g (
        ownK [("left_bob", .ref), ("right_bob", .ref), ("media_kind_id", .int), ("edit_rate", .rate),
        ("name", .name), ("effect_id", .name), ("attributes", .ref), ("session_attrs", .ref),
        ("precomputed", .ref), ("param_list", .ref), ("mc_mode", .int), ("length", .int),
        ("num_scalars", .int), ("cutpoint", .int), ("left_length", .int), ("right_length", .int),
        ("info_version", .int), ("info_current", .int), ("info_smooth", .int),
        ("info_color_item", .int), ("info_quality", .int), ("info_is_reversed", .int),
        ("info_aspect_on", .bool), ("keyframes", .ref), ("info_force_software", .bool),
        ("info_never_hardware", .bool), ("trackman", .ref)])
      (x.writeG g c) ((x.conv g).write c) := by
  have hp := TrackGroup.write_conv g c x.toTrackGroup
  unfold TransitionEffect.writeG TransitionEffect.write TransitionEffect.conv
  try dsimp only
  conv_all

theorem Selector.write_conv (g : Given) (c : WCtx) (x : Selector) :
    Conv g (
        ownK [("left_bob", .ref), ("right_bob", .ref), ("media_kind_id", .int), ("edit_rate", .rate),
        ("name", .name), ("effect_id", .name), ("attributes", .ref), ("session_attrs", .ref),
        ("precomputed", .ref), ("param_list", .ref), ("mc_mode", .int), ("length", .int),
        ("num_scalars", .int), ("is_ganged", .bool), ("selected", .int)])
      (x.writeG g c) ((x.conv g).write c) := by
  have hp := TrackGroup.write_conv g c x.toTrackGroup
  unfold Selector.writeG Selector.write Selector.conv
  try dsimp only
  conv_all

theorem Composition.write_conv (g : Given) (c : WCtx) (x : Composition) :
    Conv g (
        ownK [("left_bob", .ref), ("right_bob", .ref), ("media_kind_id", .int), ("edit_rate", .rate),
        ("name", .name), ("effect_id", .name), ("attributes", .ref), ("session_attrs", .ref),
        ("precomputed", .ref), ("param_list", .ref), ("mc_mode", .int), ("length", .int),
        ("num_scalars", .int), ("mob_type_id", .int), ("usage_code", .int), ("descriptor", .ref)])
      (x.writeG g c) ((x.conv g).write c) := by
  have hp := TrackGroup.write_conv g c x.toTrackGroup
  unfold Composition.writeG Composition.write Composition.conv
  try dsimp only
  conv_all

end Avb
