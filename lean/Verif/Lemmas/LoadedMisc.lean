import Verif.Lemmas.LoadedComp

/-
src/avb/misc.py: what the readers give can be written again.
-/

namespace Avb

section
variable {c : WCtx} {d : RCtx}

theorem FileLocator.good : Post (FileLocator.read d) fun x =>
    (Wr.Ok (x.write c) ↔ ∀ t, (Enc.utf8, t) ∈ x.texts → utf8Bytes t ≤ 65533) ∧
    ∀ p ∈ x.texts, TextIn p.1 p.2 := by
  unfold FileLocator.read
  walk
  rename_i path _
  refine Post.bindP (Post.iterExt (P := fun s => ∃ o1 o2 o3, s =
    { path, path_posix := o1, path_utf8 := o2, path2_utf8 := o3 } ∧
    OptIn (TextIn .macroman) o1 ∧ OptIn (TextIn .utf8) o2 ∧ OptIn (TextIn .utf8) o3) ?_
    ⟨none, none, none, rfl, trivial, trivial, trivial⟩) ?_
  · rintro t _ ⟨o1, o2, o3, rfl, g1, g2, g3⟩
    unfold FileLocator.ext
    refine Post.ite ?_ (Post.ite ?_ (Post.ite ?_ Post.fail))
    all_goals
      walk
      exact Post.pure ⟨_, _, _, rfl, by assumption, by assumption, by assumption⟩
  · rintro _ ⟨o1, o2, o3, rfl, g1, g2, g3⟩
    walk
    refine Post.pure ⟨?_, ?_⟩
    · cases o1 <;> cases o2 <;> cases o3 <;> simp only [OptIn] at g1 g2 g3 <;>
        ok [FileLocator.write, FileLocator.texts, optText, OptIn]
    · cases o1 <;> cases o2 <;> cases o3 <;> simp only [OptIn] at g1 g2 g3 <;>
        ok [FileLocator.texts, optText]

theorem FileLocator.back : Post (FileLocator.read d) fun x =>
    (Obj.FILE x).Back c ∧ (Obj.WINF x).Back c := by
  refine (FileLocator.good (c := c)).mono fun x h => ⟨?_, ?_⟩
  all_goals
    obtain ⟨h1, h2⟩ := h
    back [h1]

theorem URLLocator.back : Post (URLLocator.read d) fun x => (Obj.URLL x).Back c := by
  unfold URLLocator.read
  walk
  refine Post.pure ?_
  back [URLLocator.write]

theorem GraphicEffect.back : Post (GraphicEffect.read d) fun x => (Obj.GRFX x).Back c := by
  unfold GraphicEffect.read
  walk
  refine Post.bind fun _ => ?_
  walk
  refine Post.pure ?_
  back [GraphicEffect.write]

theorem ShapeList.back : Post (ShapeList.read d) fun x => (Obj.SHLP x).Back c := by
  unfold ShapeList.read
  walk
  refine Post.bind fun _ => ?_
  walk
  refine Post.pure ?_
  back [ShapeList.write]

theorem ColorCorrectionEffect.back : Post (ColorCorrectionEffect.read d) fun x => (Obj.CCFX x).Back c := by
  unfold ColorCorrectionEffect.read
  walk
  refine Post.bind fun _ => ?_
  walk
  refine Post.pure ?_
  back [ColorCorrectionEffect.write]

theorem EffectParam.good : Post (EffectParam.read d) fun x => Wr.Ok (x.write c) ∧ x.box.length ≤ 4 := by
  unfold EffectParam.read
  walk
  refine Post.bindP (Post.list (Post.int _)) fun l hl => ?_
  walk
  refine Post.bindP (Post.fread (by assumption)) fun b hb => ?_
  walk
  refine Post.pure ⟨?_, by simp⟩
  ok [EffectParam.write]

theorem EffectParamList.back : Post (EffectParamList.read d) fun x => (Obj.FXPS x).Back c := by
  unfold EffectParamList.read
  walk
  refine Post.bindP (Post.list (EffectParam.good (c := c))) fun l hl => ?_
  walk
  refine Post.pure ?_
  back [EffectParamList.write]

theorem CFUserParam.back : Post (CFUserParam.read d) fun x => (Obj.AVUP x).Back c := by
  unfold CFUserParam.read
  walk
  rename_i v1 h1 v2 h2 _ h3
  rw [h3] at h2
  refine Post.freadk (fun _ _ => rTag_nil) fun b hb => ?_
  have hb' : (b.length : Int) + 4 = v1 := by omega
  walk
  refine Post.pure ?_
  back [CFUserParam.write]

theorem ParameterItem.good_value (hc : ∀ r, Wr.Ok (wRef c r)) {t : Int} :
    Post (ParameterItem.readValue d t) fun v => (∀ x : ParameterItem, x.value_type = t → x.value = v →
      Wr.Ok (x.writeValue c)) ∧ (t = 2 → v.NotInt) := by
  unfold ParameterItem.readValue
  refine Post.ifP (fun h => ?_) fun h1 => Post.ifP (fun h => ?_) fun h2 => Post.ifP (fun h => ?_)
    fun _ => Post.fail
  all_goals
    walk
    subst h
    refine Post.pure ?_
    refine ⟨fun x hx hv => ?_, ?_⟩
    · ok [ParameterItem.writeValue, PVal.wS32, PVal.wDbl, PVal.wRef]
    · simp [PVal.NotInt]

theorem ParameterItem.back (hc : ∀ r, Wr.Ok (wRef c r)) :
    Post (ParameterItem.read d) fun x => (Obj.PRIT x).Back c := by
  unfold ParameterItem.read
  walk
  refine Post.bindP (ParameterItem.good_value hc) fun value hv => ?_
  rename_i uuid _ value_type _
  walk
  rename_i name _ enable _ control_track _
  refine Post.bindP (Post.iterExt (P := fun s => ∃ o, s =
    { uuid, value_type, value, name, enable, control_track, contribs_to_sig := o }) ?_ ⟨_, rfl⟩) ?_
  · rintro t _ ⟨o, rfl⟩
    unfold ParameterItem.ext
    refine Post.ite ?_ Post.fail
    walk
    exact Post.pure ⟨_, rfl⟩
  · rintro _ ⟨o, rfl⟩
    walk
    refine Post.pure ?_
    back [ParameterItem.write, ParameterItem.texts]

theorem MSMLocator.back : Post (MSMLocator.read d) fun x => (Obj.MSML x).Back c := by
  unfold MSMLocator.read
  walk
  rename_i last_known_volume _
  refine Post.bindP (Post.iterExt (P := fun s => ∃ o1 o2 o3, s =
    { last_known_volume, domain_type := o1, mob_id := o2, last_known_volume_utf8 := o3 } ∧
    OptIn (InTy .s32) o1 ∧ OptIn (TextIn .utf8) o3) ?_
    ⟨none, none, none, rfl, trivial, trivial⟩) ?_
  · rintro t _ ⟨o1, o2, o3, rfl, g1, g3⟩
    unfold MSMLocator.ext
    refine Post.ite ?_ (Post.ite ?_ (Post.ite ?_ Post.fail))
    all_goals
      walk
      exact Post.pure ⟨_, _, _, rfl, by assumption, by assumption⟩
  · rintro _ ⟨o1, o2, o3, rfl, g1, g3⟩
    walk
    refine Post.pure ?_
    cases o2 <;> cases o3 <;> simp only [OptIn] at g3 <;>
      back [MSMLocator.write, MSMLocator.texts, optText]

theorem Position.good : Post (Position.readBody d) fun x =>
    Wr.Ok (x.writeBody c) ↔ x.mob_id.isSome := by
  unfold Position.readBody
  walk
  refine (Post.iterExt (P := fun _ => True) (fun _ _ _ => Post.all) trivial).mono ?_
  rintro ⟨o⟩ _
  cases o <;> ok [Position.writeBody]

theorem Position.back : Post (Position.read d) fun x => (Obj.APOS x).Back c := by
  refine Post.bindP (Position.good (c := c)) fun x hx => ?_
  walk
  refine Post.pure ?_
  back [Position.write]

theorem BOBPosition.good : Post (BOBPosition.readBody d) fun x =>
    Wr.Ok (x.writeBody c) ↔ x.mob_id.isSome := by
  refine Post.bindP (Position.good (c := c)) fun x hx => ?_
  walk
  refine Post.pure ?_
  ok [BOBPosition.writeBody]

theorem BOBPosition.back : Post (BOBPosition.read d) fun x => (Obj.ABOB x).Back c := by
  refine Post.bindP (BOBPosition.good (c := c)) fun x hx => ?_
  walk
  refine Post.pure ?_
  back [BOBPosition.write]

theorem DIDPosition.good : Post (DIDPosition.readBody d) fun x =>
    Wr.Ok (x.writeBody c) ↔ x.mob_id.isSome := by
  refine Post.bindP (BOBPosition.good (c := c)) fun x hx => ?_
  walk
  refine Post.pure ?_
  ok [DIDPosition.writeBody]

theorem DIDPosition.back : Post (DIDPosition.read d) fun x => (Obj.DIDP x).Back c := by
  refine Post.bindP (DIDPosition.good (c := c)) fun x hx => ?_
  walk
  refine Post.pure ?_
  back [DIDPosition.write]

theorem MPGPosition.good_fields : Post (MPGPosition.readFields d) fun l =>
    Wr.Ok (MPGPosition.writeFields c l) ↔ l.length ≤ 16383 := by
  unfold MPGPosition.readFields
  walk
  refine Post.ite ?_ ?_
  · walk
    have hf : Post (MPGPosition.readField d) fun p => Wr.Ok (MPGPosition.writeField c p) := by
      unfold MPGPosition.readField
      walk
      refine Post.pure ?_
      ok [MPGPosition.writeField]
    refine (Post.list hf).mono fun l hl => ?_
    have hi : ∀ v : Int, InTy .s16 v ↔ -32768 ≤ v ∧ v ≤ 32767 := fun _ => Iff.rfl
    have := hl.1 .s16 (by assumption)
    simp only [MPGPosition.writeFields, Wr.ok_bind, Wr.ok_int', Wr.ok_when, Wr.ok_forW, hi] at this ⊢
    refine ⟨fun h => ?_, fun h => ⟨this, fun _ => ⟨by omega, hl.2⟩⟩⟩
    by_cases h0 : 0 < l.length
    · have := (h.2 h0).1
      omega
    · omega
  · refine Post.pure ?_
    ok [MPGPosition.writeFields]

theorem MPGPosition.back : Post (MPGPosition.read d) fun x => (Obj.MPGP x).Back c := by
  refine Post.bindP (DIDPosition.good (c := c)) fun x hx => ?_
  walk
  refine Post.bindP (MPGPosition.good_fields (c := c)) fun l hl => ?_
  walk
  refine Post.pure ?_
  back [MPGPosition.write]

theorem BinRef.back : Post (BinRef.read d) fun x => (Obj.MCBR x).Back c := by
  unfold BinRef.read
  walk
  rename_i uid_high _ uid_low _ name _
  refine Post.bindP (Post.iterExt (P := fun s => ∃ o, s = { uid_high, uid_low, name, name_utf8 := o } ∧
    OptIn (TextIn .utf8) o) ?_ ⟨none, rfl, trivial⟩) ?_
  · rintro t _ ⟨o, rfl, g⟩
    unfold BinRef.ext
    refine Post.ite ?_ Post.fail
    walk
    exact Post.pure ⟨_, rfl, by assumption⟩
  · rintro _ ⟨o, rfl, g⟩
    walk
    refine Post.pure ?_
    cases o <;> simp only [OptIn] at g <;> back [BinRef.write, BinRef.texts, optText]

theorem MobRef.good : Post (MobRef.readBody d) fun x => Wr.Ok (x.writeBody c) ↔ x.mob_id.isSome := by
  unfold MobRef.readBody
  walk
  rename_i position _
  refine (Post.iterExt (P := fun s => ∃ o, s = { position, mob_id := o }) ?_ ⟨_, rfl⟩).mono ?_
  · rintro t _ ⟨o, rfl⟩
    unfold MobRef.ext
    refine Post.ite ?_ Post.fail
    walk
    exact Post.pure ⟨_, rfl⟩
  · rintro _ ⟨o, rfl⟩
    cases o <;> ok [MobRef.writeBody]

theorem MobRef.back : Post (MobRef.read d) fun x => (Obj.MCMR x).Back c := by
  refine Post.bindP (MobRef.good (c := c)) fun x hx => ?_
  walk
  refine Post.pure ?_
  back [MobRef.write]

theorem Marker.back (hc : ∀ r, Wr.Ok (wRef c r)) : Post (Marker.read d) fun x => (Obj.TMBC x).Back c := by
  refine Post.bindP (MobRef.good (c := c)) fun base hx => ?_
  walk
  rename_i comp_offset _ attributes _ _ _ _ _
  refine Post.bindP (Post.readN' (Post.int _) 3) fun color hl => ?_
  refine Post.bindP (Post.iterExt (P := fun s => ∃ o, s =
    { toMobRef := base, comp_offset, attributes, color, handled_codes := o }) ?_ ⟨_, rfl⟩) ?_
  · rintro t _ ⟨o, rfl⟩
    unfold Marker.ext
    refine Post.ite ?_ Post.fail
    walk
    exact Post.pure ⟨_, rfl⟩
  · rintro _ ⟨o, rfl⟩
    walk
    refine Post.pure ?_
    back [Marker.write]

theorem TrackerManager.back (hc : ∀ r, Wr.Ok (wRef c r)) :
    Post (TrackerManager.read d) fun x => (Obj.TKMN x).Back c := by
  unfold TrackerManager.read
  walk
  refine Post.pure ?_
  back [TrackerManager.write]

theorem TrackerDataSlot.back (hc : ∀ r, Wr.Ok (wRef c r)) :
    Post (TrackerDataSlot.read d) fun x => (Obj.TKDS x).Back c := by
  unfold TrackerDataSlot.read
  walk
  refine Post.bindP (Post.list Post.all) fun tracker_data hl => ?_
  refine Post.bindP (Post.iterExt (P := fun s => ∃ o, s = { tracker_data, track_fg := o }) ?_ ⟨_, rfl⟩) ?_
  · rintro t _ ⟨o, rfl⟩
    unfold TrackerDataSlot.ext
    refine Post.ite ?_ Post.fail
    walk
    exact Post.pure ⟨_, rfl⟩
  · rintro _ ⟨o, rfl⟩
    walk
    refine Post.pure ?_
    back [TrackerDataSlot.write]

theorem TrackerParameterSlot.back (hc : ∀ r, Wr.Ok (wRef c r)) :
    Post (TrackerParameterSlot.read d) fun x => (Obj.TKPS x).Back c := by
  unfold TrackerParameterSlot.read
  walk
  refine Post.bindP (Post.fread (by assumption)) fun b hb => ?_
  walk
  refine Post.bindP (Post.list Post.all) fun params hl => ?_
  walk
  refine Post.pure ?_
  back [TrackerParameterSlot.write]

theorem TrackerParameter.back : Post (TrackerParameter.read d) fun x => (Obj.TKPA x).Back c := by
  unfold TrackerParameter.read
  walk
  refine Post.bindP (Post.fread (by assumption)) fun b hb => ?_
  walk
  refine Post.pure ?_
  back [TrackerParameter.write]

theorem TrackerData.back (hc : ∀ r, Wr.Ok (wRef c r)) :
    Post (TrackerData.read d) fun x => (Obj.TKDA x).Back c := by
  unfold TrackerData.read
  walk
  refine Post.freadk (fun _ _ => rInt_nil) fun settings hb => ?_
  subst hb
  walk
  rename_i clip_version _ _ _
  refine Post.bindP (Post.list Post.all) fun clips hl => ?_
  refine Post.bindP (Post.iterExt (P := fun s => ∃ o1 o2 o3 o4 o5 o6, s =
    { settings, clip_version, clips, offset_tracking := o1, smoothing := o2,
      jitter_removal := o3, filter_amount := o4, clip5 := o5, clip6 := o6 } ∧
    OptIn (InTy .u32) o1 ∧ OptIn (InTy .u32) o2 ∧ OptIn (InTy .u32) o3) ?_
    ⟨none, none, none, none, none, none, rfl, trivial, trivial, trivial⟩) ?_
  · rintro t _ ⟨o1, o2, o3, o4, o5, o6, rfl, g1, g2, g3⟩
    unfold TrackerData.ext
    repeat' apply Post.ite
    all_goals first
    | exact Post.fail
    | walk
      exact Post.pure ⟨_, _, _, _, _, _, rfl, by assumption, by assumption, by assumption⟩
  · rintro _ ⟨o1, o2, o3, o4, o5, o6, rfl, g1, g2, g3⟩
    walk
    refine Post.pure ?_
    back [TrackerData.write]

end

end Avb
