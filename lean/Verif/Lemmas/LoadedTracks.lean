import Verif.Lemmas.LoadedComp
import Verif.Props.Limits

/-
src/avb/trackgroups.py: what the readers give can be written again.
-/

namespace Avb

/-- What is known of the track group part of a loaded object. -/
def TrackGroup.Good (c : WCtx) (x : TrackGroup) : Prop :=
  (Wr.Ok (x.write c) ↔ RateFits x.edit_rate) ∧ (∀ p ∈ x.texts, TextIn p.1 p.2) ∧
  x.toComponent.Stored

section
variable {c : WCtx} {d : RCtx}

theorem Post.opt {α : Type} {r : Rd α} {P : α → Prop} (h : Post r P) {b : Bool} :
    Post (Rd.opt b r) (OptIn P) := by
  unfold Rd.opt
  refine Post.ite ?_ (Post.pure trivial)
  exact Post.bindP h fun a ha => Post.pure ha

theorem Track.ok (hc : ∀ r, Wr.Ok (wRef c r)) {t : Track} (h0 : OptIn (InTy .s16) t.index)
    (h5 : OptIn (InTy .s16) t.control_code) (h6 : OptIn (InTy .s16) t.control_sub_code)
    (h7 : OptIn (InTy .s32) t.start_pos) : Wr.Ok (t.write c) := by
  have hlt := t.flags_lt
  have hi : ∀ {ty o}, OptIn (InTy ty) o → ∀ v, o = some v → Wr.Ok (wInt c.bo ty v) :=
    fun h v hv => Wr.ok_int'.2 (OptIn.iff.1 h v hv)
  unfold Track.write
  simp only [Wr.ok_bind, Track.testBit_flags]
  refine ⟨?_, ?_, ?_, ?_, ?_, ?_, ?_, ?_, ?_, ?_, ?_, ?_⟩
  · exact Wr.ok_guard.2 (and_unknown_flags hlt)
  · exact Wr.ok_int.2 ⟨by simp [IntTy.lo, IntTy.signed], by
      simp only [IntTy.hi, IntTy.signed, IntTy.width]; norm_num; omega⟩
  · exact Wr.ok_flagged rfl (hi h0)
  · exact Wr.ok_flagged rfl fun a _ => hc a
  · exact Wr.ok_flagged rfl fun a _ => hc a
  · exact Wr.ok_flagged rfl fun a _ => hc a
  · exact Wr.ok_flagged rfl fun a _ => hc a
  · exact Wr.ok_flagged rfl fun a _ => hc a
  · exact Wr.ok_flagged rfl (hi h5)
  · exact Wr.ok_flagged rfl (hi h6)
  · exact Wr.ok_flagged rfl (hi h7)
  · exact Wr.ok_flagged rfl fun a _ => Wr.ok_bool

theorem Track.good (hc : ∀ r, Wr.Ok (wRef c r)) : Post (Track.read d) fun x => Wr.Ok (x.write c) := by
  unfold Track.read
  walk
  refine Post.bindP (Post.opt (Post.int _)) fun _ h0 => ?_
  refine Post.bindP (Post.opt Post.all) fun _ _ => ?_
  refine Post.bindP (Post.opt Post.all) fun _ _ => ?_
  refine Post.bindP (Post.opt Post.all) fun _ _ => ?_
  refine Post.bindP (Post.opt Post.all) fun _ _ => ?_
  refine Post.bindP (Post.opt Post.all) fun _ _ => ?_
  refine Post.bindP (Post.opt (Post.int _)) fun _ h5 => ?_
  refine Post.bindP (Post.opt (Post.int _)) fun _ h6 => ?_
  refine Post.bindP (Post.opt (Post.int _)) fun _ h7 => ?_
  refine Post.bindP (Post.opt Post.all) fun _ _ => ?_
  refine Post.bind fun _ => Post.bind fun _ => ?_
  exact Post.pure (Track.ok hc h0 h5 h6 h7)

theorem Track.good_lock (hc : ∀ r, Wr.Ok (wRef c r)) :
    Post (Track.read d) fun x => Wr.Ok (x.write c) ∧ Wr.Ok (wLock c x) := by
  intro bs v rest h
  refine ⟨Track.good hc bs v rest h, ?_⟩
  have : v.lock_number = none := by
    revert h
    revert bs v rest
    show Post (Track.read d) fun v => v.lock_number = none
    unfold Track.read
    iterate 11 refine Post.bind fun _ => ?_
    refine Post.bind fun _ => Post.bind fun _ => ?_
    exact Post.pure rfl
  ok [wLock]

theorem TrackGroup.good (hc : ∀ r, Wr.Ok (wRef c r)) : Post (TrackGroup.read d) (TrackGroup.Good c) := by
  refine Post.bindP (Component.good hc) fun base hb => ?_
  obtain ⟨h1, h2, h3⟩ := hb
  walk
  rename_i mc_mode _ length _ num_scalars _ n hn
  refine Post.bindP (Post.list (Track.good_lock hc)) fun tracks hl => ?_
  have hlen := hl.1 _ hn
  refine (Post.iterExt (P := fun s => ∃ ts, s =
    { toComponent := base, mc_mode, length, num_scalars, tracks := ts } ∧ ts.length = tracks.length ∧
    ∀ t ∈ ts, Wr.Ok (t.write c) ∧ Wr.Ok (wLock c t)) ?_ ⟨tracks, rfl, rfl, hl.2⟩).mono ?_
  · rintro t _ ⟨ts, rfl, g1, g2⟩
    unfold TrackGroup.ext
    refine Post.ite ?_ Post.fail
    have hk : Post (rLock d) (InTy .s16) := by
      unfold rLock
      walk
      exact Post.int _
    refine Post.bindP (Post.readN' hk _) fun ls hls => ?_
    refine Post.pure ⟨_, rfl, by simp [hls.1, g1], ?_⟩
    intro t ht
    rw [List.mem_iff_getElem] at ht
    obtain ⟨i, hi, rfl⟩ := ht
    simp only [List.length_zipWith] at hi
    simp only [List.getElem_zipWith]
    refine ⟨(g2 ts[i] (List.getElem_mem _)).1, ?_⟩
    have := hls.2 ls[i] (List.getElem_mem _)
    ok [wLock]
  · rintro _ ⟨ts, rfl, g1, g2⟩
    rw [← g1] at hlen
    refine ⟨?_, h2, h3⟩
    ok [TrackGroup.write]

theorem TrackGroup.back (hc : ∀ r, Wr.Ok (wRef c r)) : Post (TrackGroup.read d) fun x => (Obj.TRKG x).Back c := by
  refine (TrackGroup.good hc).mono fun x hx => ?_
  obtain ⟨h1, h2, h3⟩ := hx
  back [TrackGroup.Stored]

theorem TrackEffect.good (hc : ∀ r, Wr.Ok (wRef c r)) : Post (TrackEffect.readBody d) fun x =>
    (Wr.Ok (x.writeBody c) ↔ RateFits x.edit_rate) ∧ (∀ p ∈ x.texts, TextIn p.1 p.2) ∧
    x.toComponent.Stored := by
  refine Post.bindP (TrackGroup.good hc) fun base hb => ?_
  obtain ⟨h1, h2, h3⟩ := hb
  walk
  rename_i left_length _ right_length _ info_version _ info_current _ info_smooth _
      info_color_item _ info_quality _ info_is_reversed _ info_aspect_on _ keyframes _
      info_force_software _ info_never_hardware _
  refine (Post.iterExt (P := fun s => ∃ o, s =
    { toTrackGroup := base, left_length, right_length, info_version, info_current, info_smooth,
      info_color_item, info_quality, info_is_reversed, info_aspect_on, keyframes,
      info_force_software, info_never_hardware, trackman := o }) ?_ ⟨_, rfl⟩).mono ?_
  · rintro t _ ⟨o, rfl⟩
    unfold TrackEffect.ext
    refine Post.ite ?_ Post.fail
    walk
    exact Post.pure ⟨_, rfl⟩
  · rintro _ ⟨o, rfl⟩
    refine ⟨?_, h2, h3⟩
    ok [TrackEffect.writeBody]

theorem TrackEffect.back (hc : ∀ r, Wr.Ok (wRef c r)) : Post (TrackEffect.read d) fun x => (Obj.TKFX x).Back c := by
  refine Post.bindP (TrackEffect.good hc) fun x hx => ?_
  obtain ⟨h1, h2, h3⟩ := hx
  walk
  refine Post.pure ?_
  back [TrackEffect.write, TrackGroup.Stored]

theorem PanVolumeEffect.back (hc : ∀ r, Wr.Ok (wRef c r)) :
    Post (PanVolumeEffect.read d) fun x => (Obj.PVOL x).Back c := by
  refine Post.bindP (TrackEffect.good hc) fun base hx => ?_
  obtain ⟨h1, h2, h3⟩ := hx
  walk
  rename_i level _ pan _ suppress_validation _ level_set _ pan_set _
  refine Post.bindP (Post.iterExt (P := fun s => ∃ o1 o2, s =
    { toTrackEffect := base, level, pan, suppress_validation, level_set, pan_set,
      supports_seperate_gain := o1, is_trim_gain_effect := o2 } ∧
    OptIn (InTy .s32) o1 ∧ OptIn (InTy .s32) o2) ?_ ⟨none, none, rfl, trivial, trivial⟩) ?_
  · rintro t _ ⟨o1, o2, rfl, g1, g2⟩
    unfold PanVolumeEffect.ext
    refine Post.ite ?_ (Post.ite ?_ Post.fail)
    all_goals
      walk
      exact Post.pure ⟨_, _, rfl, by assumption, by assumption⟩
  · rintro _ ⟨o1, o2, rfl, g1, g2⟩
    walk
    refine Post.pure ?_
    back [PanVolumeEffect.write, TrackGroup.Stored]

theorem EqualizerBand.good : Post (EqualizerBand.read d) fun x => Wr.Ok (x.write c) := by
  unfold EqualizerBand.read
  walk
  refine Post.pure ?_
  ok [EqualizerBand.write]

theorem EqualizerMultiBand.back (hc : ∀ r, Wr.Ok (wRef c r)) :
    Post (EqualizerMultiBand.read d) fun x => (Obj.EQMB x).Back c := by
  refine Post.bindP (TrackEffect.good hc) fun base hx => ?_
  obtain ⟨h1, h2, h3⟩ := hx
  walk
  refine Post.bindP (Post.list (EqualizerBand.good (c := c))) fun l hl => ?_
  walk
  refine Post.pure ?_
  refine ⟨?_, ?_, ?_⟩
  · ok [Obj.write, EqualizerMultiBand.write, Obj.Resavable, Obj.rates, Obj.texts, Component.rates,
      EqualizerMultiBand.allTexts, Component.texts_mac]
  · intro p hp
    rcases List.mem_append.1 hp with hp | hp
    · exact h2 p hp
    · cases List.mem_singleton.1 hp
      assumption
  · exact fun hl => ⟨h3, hl⟩

theorem TimeWarp.good (hc : ∀ r, Wr.Ok (wRef c r)) : Post (TimeWarp.read d) fun x =>
    (Wr.Ok (x.write c) ↔ RateFits x.edit_rate) ∧ (∀ p ∈ x.texts, TextIn p.1 p.2) ∧
    x.toComponent.Stored := by
  refine Post.bindP (TrackGroup.good hc) fun base hb => ?_
  obtain ⟨h1, h2, h3⟩ := hb
  walk
  refine Post.pure ⟨?_, h2, h3⟩
  ok [TimeWarp.write]

theorem CaptureMask.back (hc : ∀ r, Wr.Ok (wRef c r)) :
    Post (CaptureMask.read d) fun x => (Obj.MASK x).Back c := by
  refine Post.bindP (TimeWarp.good hc) fun base hx => ?_
  obtain ⟨h1, h2, h3⟩ := hx
  walk
  refine Post.pure ?_
  back [CaptureMask.write, TrackGroup.Stored]

theorem StrobeEffect.back (hc : ∀ r, Wr.Ok (wRef c r)) :
    Post (StrobeEffect.read d) fun x => (Obj.STRB x).Back c := by
  refine Post.bindP (TimeWarp.good hc) fun base hx => ?_
  obtain ⟨h1, h2, h3⟩ := hx
  walk
  refine Post.pure ?_
  back [StrobeEffect.write, TrackGroup.Stored]

theorem MotionEffect.back (hc : ∀ r, Wr.Ok (wRef c r)) :
    Post (MotionEffect.read d) fun x => (Obj.SPED x).Back c := by
  refine Post.bindP (TimeWarp.good hc) fun base hx => ?_
  obtain ⟨h1, h2, h3⟩ := hx
  walk
  rename_i speed_num _ speed_den _
  refine Post.bindP (Post.iterExt (P := fun s => ∃ o1 o2 o3, s =
    { toTimeWarp := base, speed_num, speed_den, offset_adjust := o1, source_param_list := o2,
      new_source_calculation := o3 }) ?_ ⟨none, none, none, rfl⟩) ?_
  · rintro t _ ⟨o1, o2, o3, rfl⟩
    unfold MotionEffect.ext
    refine Post.ite ?_ (Post.ite ?_ (Post.ite ?_ Post.fail))
    all_goals
      walk
      exact Post.pure ⟨_, _, _, rfl⟩
  · rintro _ ⟨o1, o2, o3, rfl⟩
    walk
    refine Post.pure ?_
    back [MotionEffect.write, TrackGroup.Stored]

theorem Repeat.back (hc : ∀ r, Wr.Ok (wRef c r)) : Post (Repeat.read d) fun x => (Obj.REPT x).Back c := by
  refine Post.bindP (TimeWarp.good hc) fun base hx => ?_
  obtain ⟨h1, h2, h3⟩ := hx
  walk
  refine Post.pure ?_
  back [Repeat.write, TrackGroup.Stored]

theorem EssenceGroup.back (hc : ∀ r, Wr.Ok (wRef c r)) :
    Post (EssenceGroup.read d) fun x => (Obj.RSET x).Back c := by
  refine Post.bindP (TrackGroup.good hc) fun base hx => ?_
  obtain ⟨h1, h2, h3⟩ := hx
  walk
  refine Post.bindP (Post.iterExt (P := fun s => ∃ o, s =
    { toTrackGroup := base, rep_set_type := o } ∧ OptIn (InTy .s32) o) ?_ ⟨none, rfl, trivial⟩) ?_
  · rintro t _ ⟨o, rfl, g⟩
    unfold EssenceGroup.ext
    refine Post.ite ?_ Post.fail
    walk
    exact Post.pure ⟨_, rfl, by assumption⟩
  · rintro _ ⟨o, rfl, g⟩
    walk
    refine Post.pure ?_
    back [EssenceGroup.write, TrackGroup.Stored]

theorem TransitionEffect.back (hc : ∀ r, Wr.Ok (wRef c r)) :
    Post (TransitionEffect.read d) fun x => (Obj.TNFX x).Back c := by
  refine Post.bindP (TrackGroup.good hc) fun base hb => ?_
  obtain ⟨h1, h2, h3⟩ := hb
  walk
  rename_i cutpoint _ _ _ _ _ left_length _ right_length _ info_version _ info_current _ info_smooth _
      info_color_item _ info_quality _ info_is_reversed _ info_aspect_on _ keyframes _
      info_force_software _ info_never_hardware _
  refine Post.bindP (Post.iterExt (P := fun s => ∃ o, s =
    { toTrackGroup := base, cutpoint, left_length, right_length, info_version, info_current,
      info_smooth, info_color_item, info_quality, info_is_reversed, info_aspect_on, keyframes,
      info_force_software, info_never_hardware, trackman := o }) ?_ ⟨_, rfl⟩) ?_
  · rintro t _ ⟨o, rfl⟩
    unfold TransitionEffect.ext
    refine Post.ite ?_ Post.fail
    walk
    exact Post.pure ⟨_, rfl⟩
  · rintro _ ⟨o, rfl⟩
    walk
    refine Post.pure ?_
    back [TransitionEffect.write, TrackGroup.Stored]

theorem Selector.back (hc : ∀ r, Wr.Ok (wRef c r)) : Post (Selector.read d) fun x => (Obj.SLCT x).Back c := by
  refine Post.bindP (TrackGroup.good hc) fun base hx => ?_
  obtain ⟨h1, h2, h3⟩ := hx
  walk
  refine Post.pure ?_
  back [Selector.write, TrackGroup.Stored]

theorem Composition.back (hc : ∀ r, Wr.Ok (wRef c r)) :
    Post (Composition.read d) fun x => (Obj.CMPO x).Back c := by
  refine Post.bindP (TrackGroup.good hc) fun base hx => ?_
  obtain ⟨h1, h2, h3⟩ := hx
  walk
  rename_i last_modified _ mob_type_id _ usage_code _ descriptor _
  refine Post.bindP (Post.iterExt (P := fun s => ∃ o1 o2, s =
    { toTrackGroup := base, last_modified, mob_type_id, usage_code, descriptor,
      creation_time := o1, mob_id := o2 } ∧ OptIn (InTy .u32) o1) ?_ ⟨none, none, rfl, trivial⟩) ?_
  · rintro t _ ⟨o1, o2, rfl, g⟩
    unfold Composition.ext
    refine Post.ite ?_ (Post.ite ?_ Post.fail)
    all_goals
      walk
      exact Post.pure ⟨_, _, rfl, by assumption⟩
  · rintro _ ⟨o1, o2, rfl, g⟩
    walk
    refine Post.pure ?_
    cases o2 <;> back [Composition.write, TrackGroup.Stored, wDate]

end


theorem first4 {l : Bytes} (h : 4 ≤ l.length) : l.take 4 = [l[0]!, l[1]!, l[2]!, l[3]!] := by
  match l, h with
  | _ :: _ :: _ :: _ :: _, _ => rfl

theorem first2 {l : Bytes} (h : 2 ≤ l.length) : l.take 2 = [l[0]!, l[1]!] := by
  match l, h with
  | _ :: _ :: _, _ => rfl

theorem MobID.lo_eq (m : MobID) : m.lo = ((m.bytes[16]!.toNat + 256 * (m.bytes[17]!.toNat +
    256 * (m.bytes[18]!.toNat + 256 * m.bytes[19]!.toNat)) : Nat) : Int) := by
  have h := m.len
  have h4 : (m.bytes.drop 16).take 4 = [m.bytes[16]!, m.bytes[17]!, m.bytes[18]!, m.bytes[19]!] := by
    rw [first4 (by simp; omega)]
    simp
  unfold MobID.lo MobID.material UUID.timeLow
  have : (swapUuid (m.bytes.drop 16)).take 4 = ((m.bytes.drop 16).take 4).reverse := by
    unfold swapUuid
    rw [List.append_assoc, List.append_assoc, List.take_left' (by simp; omega)]
  rw [this, h4]
  rfl

theorem MobID.hi_eq (m : MobID) : m.hi = ((m.bytes[20]!.toNat + 256 * (m.bytes[21]!.toNat +
    256 * (m.bytes[22]!.toNat + 256 * m.bytes[23]!.toNat)) : Nat) : Int) := by
  have h := m.len
  have h4 : (m.bytes.drop 20).take 2 = [m.bytes[20]!, m.bytes[21]!] := by
    rw [first2 (by simp; omega)]
    simp
  have h6 : (m.bytes.drop 22).take 2 = [m.bytes[22]!, m.bytes[23]!] := by
    rw [first2 (by simp; omega)]
    simp
  unfold MobID.hi MobID.material UUID.timeMid UUID.timeHi
  have e1 : ((swapUuid (m.bytes.drop 16)).drop 4).take 2 = ((m.bytes.drop 20).take 2).reverse := by
    unfold swapUuid
    rw [List.append_assoc, List.append_assoc, List.drop_left' (by simp; omega),
      List.take_left' (by simp; omega), List.drop_drop]
  have e2 : ((swapUuid (m.bytes.drop 16)).drop 6).take 2 = ((m.bytes.drop 22).take 2).reverse := by
    unfold swapUuid
    rw [List.append_assoc, List.drop_left' (by simp; omega),
      List.take_left' (by simp; omega), List.drop_drop]
  simp only [e1, e2, h4, h6]
  simp only [unpackNat, List.reverse_reverse]
  simp only [leVal]
  push_cast
  ring

theorem MobID.lo_s32 (m : MobID) : InTy .s32 m.lo ↔ m.bytes[19]! < 128 := by
  have hi : InTy .s32 m.lo ↔ -2147483648 ≤ m.lo ∧ m.lo ≤ 2147483647 := Iff.rfl
  rw [hi, m.lo_eq, UInt8.lt_iff_toNat_lt]
  have := m.bytes[16]!.toNat_lt
  have := m.bytes[17]!.toNat_lt
  have := m.bytes[18]!.toNat_lt
  have h : (128 : UInt8).toNat = 128 := rfl
  rw [h]
  omega

theorem MobID.hi_s32 (m : MobID) : InTy .s32 m.hi ↔ m.bytes[23]! < 128 := by
  have hi : InTy .s32 m.hi ↔ -2147483648 ≤ m.hi ∧ m.hi ≤ 2147483647 := Iff.rfl
  rw [hi, m.hi_eq, UInt8.lt_iff_toNat_lt]
  have := m.bytes[20]!.toNat_lt
  have := m.bytes[21]!.toNat_lt
  have := m.bytes[22]!.toNat_lt
  have h : (128 : UInt8).toNat = 128 := rfl
  rw [h]
  omega

section
variable {c : WCtx} {d : RCtx}

theorem ASPIPluginChunk.good : Post (ASPIPluginChunk.read d) fun x =>
    Wr.Ok (x.write c) ∧ TextIn .macroman x.name := by
  unfold ASPIPluginChunk.read
  walk
  refine Post.bindP (Post.fread (by assumption)) fun b hb => ?_
  refine Post.pure ⟨?_, by assumption⟩
  ok [ASPIPluginChunk.write]

theorem ASPIPlugin.good : Post (ASPIPlugin.read d) fun x =>
    Wr.Ok (x.write c) ∧ ∀ p ∈ x.texts, TextIn p.1 p.2 ∧ p.1 = .macroman := by
  unfold ASPIPlugin.read
  walk
  refine Post.bindP (Post.list (ASPIPluginChunk.good (c := c))) fun l hl => ?_
  refine Post.pure ⟨?_, ?_⟩
  · ok [ASPIPlugin.write]
  · ok [ASPIPlugin.texts]

theorem presetPath_good : Post (rPresetPath d) fun b => Wr.Ok (wPresetPath c b) := by
  unfold rPresetPath
  walk
  refine Post.ite ?_ ?_
  · walk
    rename_i n hn _ _
    refine (Post.fread (by have : (0 : Int) ≤ n := hn.1; exact this)).mono fun b hb => ?_
    ok [wPresetPath]
  · refine Post.pure ?_
    ok [wPresetPath]

theorem AudioSuitePluginEffect.back (hc : ∀ r, Wr.Ok (wRef c r)) :
    Post (AudioSuitePluginEffect.read d) fun x => (Obj.ASPI x).Back c := by
  refine Post.bindP (TrackEffect.good hc) fun base hx => ?_
  obtain ⟨h1, h2, h3⟩ := hx
  walk
  refine Post.bindP (ASPIPlugin.good (c := c)) fun plugin hp => ?_
  obtain ⟨hp1, hp2⟩ := hp
  refine Post.bindP (Post.iterExt (P := fun s => ∃ o1 o2 o3 o4 o5 o6 o7, s =
    { toTrackEffect := base, plugins := [plugin], mob_id := o1, mark_in := o2,
      mark_out := o3, tracks_to_affect := o4, rendering_mode := o5, padding_secs := o6,
      preset_path := o7 } ∧ OptIn (InTy .s64) o2 ∧ OptIn (InTy .s64) o3 ∧ OptIn (InTy .s32) o4 ∧
    OptIn (InTy .s32) o5 ∧ OptIn (InTy .s32) o6 ∧ OptIn (fun b => Wr.Ok (wPresetPath c b)) o7) ?_
    ⟨none, none, none, none, none, none, none, rfl, trivial, trivial, trivial, trivial, trivial, trivial⟩) ?_
  · rintro t _ ⟨o1, o2, o3, o4, o5, o6, o7, rfl, g2, g3, g4, g5, g6, g7⟩
    unfold AudioSuitePluginEffect.ext
    iterate 7
      refine Post.ite (by
        walk
        exact Post.pure ⟨_, _, _, _, _, _, _, rfl, by assumption, by assumption, by assumption,
          by assumption, by assumption, by assumption⟩) ?_
    refine Post.ite ?_ Post.fail
    walk
    refine Post.bindP (presetPath_good (c := c)) fun _ _ => ?_
    exact Post.pure ⟨_, _, _, _, _, _, _, rfl, by assumption, by assumption, by assumption,
          by assumption, by assumption, by assumption⟩
  · rintro _ ⟨o1, o2, o3, o4, o5, o6, o7, rfl, g2, g3, g4, g5, g6, g7⟩
    walk
    refine Post.pure ⟨?_, ?_, ?_⟩
    · have hu : ∀ t, (Enc.utf8, t) ∈ plugin.texts ↔ False := fun t =>
        ⟨fun h => (by have := (hp2 _ h).2; cases this), False.elim⟩
      cases o1 <;> ok [Obj.write, AudioSuitePluginEffect.write, Obj.Resavable, Obj.rates, Obj.texts,
        Component.rates, AudioSuitePluginEffect.allTexts, Component.texts_mac,
        MobID.lo_s32, MobID.hi_s32]
    · intro p hp
      rcases List.mem_append.1 hp with hp | hp
      · exact h2 p hp
      · simp only [List.flatMap_cons, List.flatMap_nil, List.append_nil] at hp
        exact (hp2 p hp).1
    · exact fun hl => ⟨h3, hl⟩

end

end Avb
