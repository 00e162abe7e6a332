import Verif.Lemmas.Rel

/-
`WRel` for every writer, in the order of the model files.
-/

set_option linter.unusedSimpArgs false

namespace Avb

variable {c c' : WCtx}

/-- A reference is in the list of references of its owner. -/
macro "vmem" n:ident : tactic => `(tactic| first
  | assumption
  | (simp [$n:ident, optProp, *]; done)
  | (simp [$n:ident, optProp, *]; first
      | exact ⟨_, ‹_›, ‹_›⟩
      | exact Or.inr ⟨_, ‹_›, ‹_›⟩
      | exact ⟨_, _, ‹_›, ‹_›⟩
      | exact Or.inr (Or.inl ⟨_, ‹_›, rfl⟩)))

theorem wName_rel {name : Option Text} : WRel (wName c name)
    (wName c' name) := by
  unfold wName; rel

instance {name : Option Text} : IsRel (wName c name)
    (wName c' name) := ⟨wName_rel⟩

theorem Component.write_rel {x : Component}
    (hr : VisitsRel c c' x.visits) :
    WRel (Component.write c x) (Component.write c' x) := by
  unfold Component.write; rel
  all_goals first
    | exact WRel.ref (hr (.prop _) (by vmem Component.visits))
    | exact WRel.ref (hr (.item _) (by vmem Component.visits))

theorem Sequence.write_rel {x : Sequence}
    (hr : VisitsRel c c' x.visits) :
    WRel (Sequence.write c x) (Sequence.write c' x) := by
  unfold Sequence.write; rel
  all_goals first
    | exact Component.write_rel fun _ _ => hr _ (by vmem Sequence.visits)
    | exact WRel.ref (hr (.prop _) (by vmem Sequence.visits))
    | exact WRel.ref (hr (.item _) (by vmem Sequence.visits))

theorem Clip.write_rel {x : Clip}
    (hr : VisitsRel c c' x.visits) :
    WRel (Clip.write c x) (Clip.write c' x) := by
  unfold Clip.write; rel
  all_goals first
    | exact Component.write_rel fun _ _ => hr _ (by vmem Component.visits)
    | exact WRel.ref (hr (.prop _) (by vmem Component.visits))
    | exact WRel.ref (hr (.item _) (by vmem Component.visits))

theorem SourceClip.write_rel {x : SourceClip}
    (hr : VisitsRel c c' x.visits) :
    WRel (SourceClip.write c x) (SourceClip.write c' x) := by
  unfold SourceClip.write; rel
  all_goals first
    | exact Clip.write_rel fun _ _ => hr _ (by vmem Component.visits)
    | exact WRel.ref (hr (.prop _) (by vmem Component.visits))
    | exact WRel.ref (hr (.item _) (by vmem Component.visits))

theorem Timecode.write_rel {x : Timecode}
    (hr : VisitsRel c c' x.visits) :
    WRel (Timecode.write c x) (Timecode.write c' x) := by
  unfold Timecode.write; rel
  all_goals first
    | exact Clip.write_rel fun _ _ => hr _ (by vmem Component.visits)
    | exact WRel.ref (hr (.prop _) (by vmem Component.visits))
    | exact WRel.ref (hr (.item _) (by vmem Component.visits))

theorem Edgecode.write_rel {x : Edgecode}
    (hr : VisitsRel c c' x.visits) :
    WRel (Edgecode.write c x) (Edgecode.write c' x) := by
  unfold Edgecode.write; rel
  all_goals first
    | exact Clip.write_rel fun _ _ => hr _ (by vmem Component.visits)
    | exact WRel.ref (hr (.prop _) (by vmem Component.visits))
    | exact WRel.ref (hr (.item _) (by vmem Component.visits))

theorem TrackRef.write_rel {x : TrackRef}
    (hr : VisitsRel c c' x.visits) :
    WRel (TrackRef.write c x) (TrackRef.write c' x) := by
  unfold TrackRef.write; rel
  all_goals first
    | exact Clip.write_rel fun _ _ => hr _ (by vmem Component.visits)
    | exact WRel.ref (hr (.prop _) (by vmem Component.visits))
    | exact WRel.ref (hr (.item _) (by vmem Component.visits))

theorem PVal.wS32_rel {bo bo' : BO} {x : PVal} : WRel (PVal.wS32 bo x)
    (PVal.wS32 bo' x) := by
  cases x <;> first | exact WRel.int | exact WRel.fail

instance {bo bo' : BO} {x : PVal} : IsRel (PVal.wS32 bo x)
    (PVal.wS32 bo' x) := ⟨PVal.wS32_rel⟩

theorem PVal.wDbl_rel {x : PVal} : WRel (PVal.wDbl x)
    (PVal.wDbl x) := by
  cases x <;> first | exact WRel.refl | exact WRel.fail

instance {x : PVal} : IsRel (PVal.wDbl x)
    (PVal.wDbl x) := ⟨PVal.wDbl_rel⟩

theorem PVal.wRef_rel {x : PVal}
    (hr : VisitsRel c c' x.visits) :
    WRel (PVal.wRef c x) (PVal.wRef c' x) := by
  cases x
  · exact WRel.fail
  · exact WRel.fail
  · exact WRel.ref (hr (.prop _) (by simp [PVal.visits]))

theorem PCPProp.writeValue_rel {x : PCPProp} : WRel (PCPProp.writeValue c x)
    (PCPProp.writeValue c' x) := by
  unfold PCPProp.writeValue; rel

instance {x : PCPProp} : IsRel (PCPProp.writeValue c x)
    (PCPProp.writeValue c' x) := ⟨PCPProp.writeValue_rel⟩

theorem PCPProp.write_rel {x : PCPProp} : WRel (PCPProp.write c x)
    (PCPProp.write c' x) := by
  unfold PCPProp.write; rel

instance {x : PCPProp} : IsRel (PCPProp.write c x)
    (PCPProp.write c' x) := ⟨PCPProp.write_rel⟩

theorem PCP.writeValue_rel {value_type : Int} {x : PCP}
    (hr : VisitsRel c c' x.value.visits) :
    WRel (PCP.writeValue c value_type x) (PCP.writeValue c' value_type x) := by
  unfold PCP.writeValue; rel
  all_goals first
    | exact PVal.wRef_rel fun _ _ => hr _ (by vmem None.visits)
    | exact WRel.ref (hr (.prop _) (by vmem None.visits))
    | exact WRel.ref (hr (.item _) (by vmem None.visits))

theorem PCP.write_rel {value_type : Int} {x : PCP}
    (hr : VisitsRel c c' x.value.visits) :
    WRel (PCP.write c value_type x) (PCP.write c' value_type x) := by
  unfold PCP.write; rel
  all_goals first
    | exact PCP.writeValue_rel hr
    | exact WRel.ref (hr (.prop _) (by vmem None.visits))
    | exact WRel.ref (hr (.item _) (by vmem None.visits))

theorem ParamClip.write_rel {x : ParamClip}
    (hr : VisitsRel c c' x.visits) :
    WRel (ParamClip.write c x) (ParamClip.write c' x) := by
  unfold ParamClip.write; rel
  all_goals first
    | exact Clip.write_rel fun _ _ => hr _ (by vmem ParamClip.visits)
    | exact PCP.write_rel fun _ _ => hr _ (by vmem ParamClip.visits)
    | exact WRel.ref (hr (.prop _) (by vmem ParamClip.visits))
    | exact WRel.ref (hr (.item _) (by vmem ParamClip.visits))

theorem CPProp.write_rel {x : CPProp} : WRel (CPProp.write c x)
    (CPProp.write c' x) := by
  unfold CPProp.write; rel

instance {x : CPProp} : IsRel (CPProp.write c x)
    (CPProp.write c' x) := ⟨CPProp.write_rel⟩

theorem CP.write_rel {x : CP} : WRel (CP.write c x)
    (CP.write c' x) := by
  unfold CP.write; rel

instance {x : CP} : IsRel (CP.write c x)
    (CP.write c' x) := ⟨CP.write_rel⟩

theorem ControlClip.write_rel {x : ControlClip}
    (hr : VisitsRel c c' x.visits) :
    WRel (ControlClip.write c x) (ControlClip.write c' x) := by
  unfold ControlClip.write; rel
  all_goals first
    | exact Clip.write_rel fun _ _ => hr _ (by vmem Component.visits)
    | exact WRel.ref (hr (.prop _) (by vmem Component.visits))
    | exact WRel.ref (hr (.item _) (by vmem Component.visits))

theorem Filler.write_rel {x : Filler}
    (hr : VisitsRel c c' x.visits) :
    WRel (Filler.write c x) (Filler.write c' x) := by
  unfold Filler.write; rel
  all_goals first
    | exact Clip.write_rel fun _ _ => hr _ (by vmem Component.visits)
    | exact WRel.ref (hr (.prop _) (by vmem Component.visits))
    | exact WRel.ref (hr (.item _) (by vmem Component.visits))

theorem Track.write_rel {x : Track}
    (hr : VisitsRel c c' x.visits) :
    WRel (Track.write c x) (Track.write c' x) := by
  unfold Track.write; rel
  all_goals first
    | exact WRel.ref (hr (.prop _) (by vmem Track.visits))
    | exact WRel.ref (hr (.item _) (by vmem Track.visits))

theorem wLock_rel {x : Track} : WRel (wLock c x)
    (wLock c' x) := by
  unfold wLock; rel

instance {x : Track} : IsRel (wLock c x)
    (wLock c' x) := ⟨wLock_rel⟩

theorem TrackGroup.write_rel {x : TrackGroup}
    (hr : VisitsRel c c' x.visits) :
    WRel (TrackGroup.write c x) (TrackGroup.write c' x) := by
  unfold TrackGroup.write; rel
  all_goals first
    | exact Component.write_rel fun _ _ => hr _ (by vmem TrackGroup.visits)
    | exact Track.write_rel fun _ _ => hr _ (by vmem TrackGroup.visits)
    | exact WRel.ref (hr (.prop _) (by vmem TrackGroup.visits))
    | exact WRel.ref (hr (.item _) (by vmem TrackGroup.visits))

theorem TrackEffect.writeBody_rel {x : TrackEffect}
    (hr : VisitsRel c c' x.visits) :
    WRel (TrackEffect.writeBody c x) (TrackEffect.writeBody c' x) := by
  unfold TrackEffect.writeBody; rel
  all_goals first
    | exact TrackGroup.write_rel fun _ _ => hr _ (by vmem TrackEffect.visits)
    | exact WRel.ref (hr (.prop _) (by vmem TrackEffect.visits))
    | exact WRel.ref (hr (.item _) (by vmem TrackEffect.visits))

theorem TrackEffect.write_rel {x : TrackEffect}
    (hr : VisitsRel c c' x.visits) :
    WRel (TrackEffect.write c x) (TrackEffect.write c' x) := by
  unfold TrackEffect.write; rel
  all_goals first
    | exact TrackEffect.writeBody_rel hr
    | exact WRel.ref (hr (.prop _) (by vmem TrackEffect.visits))
    | exact WRel.ref (hr (.item _) (by vmem TrackEffect.visits))

theorem PanVolumeEffect.write_rel {x : PanVolumeEffect}
    (hr : VisitsRel c c' x.visits) :
    WRel (PanVolumeEffect.write c x) (PanVolumeEffect.write c' x) := by
  unfold PanVolumeEffect.write; rel
  all_goals first
    | exact TrackEffect.writeBody_rel fun _ _ => hr _ (by vmem TrackEffect.visits)
    | exact WRel.ref (hr (.prop _) (by vmem TrackEffect.visits))
    | exact WRel.ref (hr (.item _) (by vmem TrackEffect.visits))

theorem ASPIPluginChunk.write_rel {x : ASPIPluginChunk} : WRel (ASPIPluginChunk.write c x)
    (ASPIPluginChunk.write c' x) := by
  unfold ASPIPluginChunk.write; rel

instance {x : ASPIPluginChunk} : IsRel (ASPIPluginChunk.write c x)
    (ASPIPluginChunk.write c' x) := ⟨ASPIPluginChunk.write_rel⟩

theorem ASPIPlugin.write_rel {x : ASPIPlugin} : WRel (ASPIPlugin.write c x)
    (ASPIPlugin.write c' x) := by
  unfold ASPIPlugin.write; rel

instance {x : ASPIPlugin} : IsRel (ASPIPlugin.write c x)
    (ASPIPlugin.write c' x) := ⟨ASPIPlugin.write_rel⟩

theorem wPresetPath_rel {v : Bytes} : WRel (wPresetPath c v)
    (wPresetPath c' v) := by
  unfold wPresetPath; rel

instance {v : Bytes} : IsRel (wPresetPath c v)
    (wPresetPath c' v) := ⟨wPresetPath_rel⟩

theorem AudioSuitePluginEffect.write_rel {x : AudioSuitePluginEffect}
    (hr : VisitsRel c c' x.visits) :
    WRel (AudioSuitePluginEffect.write c x) (AudioSuitePluginEffect.write c' x) := by
  unfold AudioSuitePluginEffect.write; rel
  all_goals first
    | exact TrackEffect.writeBody_rel fun _ _ => hr _ (by vmem TrackEffect.visits)
    | exact WRel.ref (hr (.prop _) (by vmem TrackEffect.visits))
    | exact WRel.ref (hr (.item _) (by vmem TrackEffect.visits))

theorem EqualizerBand.write_rel {x : EqualizerBand} : WRel (EqualizerBand.write c x)
    (EqualizerBand.write c' x) := by
  unfold EqualizerBand.write; rel

instance {x : EqualizerBand} : IsRel (EqualizerBand.write c x)
    (EqualizerBand.write c' x) := ⟨EqualizerBand.write_rel⟩

theorem EqualizerMultiBand.write_rel {x : EqualizerMultiBand}
    (hr : VisitsRel c c' x.visits) :
    WRel (EqualizerMultiBand.write c x) (EqualizerMultiBand.write c' x) := by
  unfold EqualizerMultiBand.write; rel
  all_goals first
    | exact TrackEffect.writeBody_rel fun _ _ => hr _ (by vmem TrackEffect.visits)
    | exact WRel.ref (hr (.prop _) (by vmem TrackEffect.visits))
    | exact WRel.ref (hr (.item _) (by vmem TrackEffect.visits))

theorem TimeWarp.write_rel {x : TimeWarp}
    (hr : VisitsRel c c' x.visits) :
    WRel (TimeWarp.write c x) (TimeWarp.write c' x) := by
  unfold TimeWarp.write; rel
  all_goals first
    | exact TrackGroup.write_rel fun _ _ => hr _ (by vmem TrackGroup.visits)
    | exact WRel.ref (hr (.prop _) (by vmem TrackGroup.visits))
    | exact WRel.ref (hr (.item _) (by vmem TrackGroup.visits))

theorem CaptureMask.write_rel {x : CaptureMask}
    (hr : VisitsRel c c' x.visits) :
    WRel (CaptureMask.write c x) (CaptureMask.write c' x) := by
  unfold CaptureMask.write; rel
  all_goals first
    | exact TimeWarp.write_rel fun _ _ => hr _ (by vmem TrackGroup.visits)
    | exact WRel.ref (hr (.prop _) (by vmem TrackGroup.visits))
    | exact WRel.ref (hr (.item _) (by vmem TrackGroup.visits))

theorem StrobeEffect.write_rel {x : StrobeEffect}
    (hr : VisitsRel c c' x.visits) :
    WRel (StrobeEffect.write c x) (StrobeEffect.write c' x) := by
  unfold StrobeEffect.write; rel
  all_goals first
    | exact TimeWarp.write_rel fun _ _ => hr _ (by vmem TrackGroup.visits)
    | exact WRel.ref (hr (.prop _) (by vmem TrackGroup.visits))
    | exact WRel.ref (hr (.item _) (by vmem TrackGroup.visits))

theorem MotionEffect.write_rel {x : MotionEffect}
    (hr : VisitsRel c c' x.visits) :
    WRel (MotionEffect.write c x) (MotionEffect.write c' x) := by
  unfold MotionEffect.write; rel
  all_goals first
    | exact TimeWarp.write_rel fun _ _ => hr _ (by vmem MotionEffect.visits)
    | exact WRel.ref (hr (.prop _) (by vmem MotionEffect.visits))
    | exact WRel.ref (hr (.item _) (by vmem MotionEffect.visits))

theorem Repeat.write_rel {x : Repeat}
    (hr : VisitsRel c c' x.visits) :
    WRel (Repeat.write c x) (Repeat.write c' x) := by
  unfold Repeat.write; rel
  all_goals first
    | exact TimeWarp.write_rel fun _ _ => hr _ (by vmem TrackGroup.visits)
    | exact WRel.ref (hr (.prop _) (by vmem TrackGroup.visits))
    | exact WRel.ref (hr (.item _) (by vmem TrackGroup.visits))

theorem EssenceGroup.write_rel {x : EssenceGroup}
    (hr : VisitsRel c c' x.visits) :
    WRel (EssenceGroup.write c x) (EssenceGroup.write c' x) := by
  unfold EssenceGroup.write; rel
  all_goals first
    | exact TrackGroup.write_rel fun _ _ => hr _ (by vmem TrackGroup.visits)
    | exact WRel.ref (hr (.prop _) (by vmem TrackGroup.visits))
    | exact WRel.ref (hr (.item _) (by vmem TrackGroup.visits))

theorem TransitionEffect.write_rel {x : TransitionEffect}
    (hr : VisitsRel c c' x.visits) :
    WRel (TransitionEffect.write c x) (TransitionEffect.write c' x) := by
  unfold TransitionEffect.write; rel
  all_goals first
    | exact TrackGroup.write_rel fun _ _ => hr _ (by vmem TransitionEffect.visits)
    | exact WRel.ref (hr (.prop _) (by vmem TransitionEffect.visits))
    | exact WRel.ref (hr (.item _) (by vmem TransitionEffect.visits))

theorem Selector.write_rel {x : Selector}
    (hr : VisitsRel c c' x.visits) :
    WRel (Selector.write c x) (Selector.write c' x) := by
  unfold Selector.write; rel
  all_goals first
    | exact TrackGroup.write_rel fun _ _ => hr _ (by vmem TrackGroup.visits)
    | exact WRel.ref (hr (.prop _) (by vmem TrackGroup.visits))
    | exact WRel.ref (hr (.item _) (by vmem TrackGroup.visits))

theorem Composition.write_rel {x : Composition}
    (hr : VisitsRel c c' x.visits) :
    WRel (Composition.write c x) (Composition.write c' x) := by
  unfold Composition.write; rel
  all_goals first
    | exact TrackGroup.write_rel fun _ _ => hr _ (by vmem Composition.visits)
    | exact WRel.ref (hr (.prop _) (by vmem Composition.visits))
    | exact WRel.ref (hr (.item _) (by vmem Composition.visits))

theorem FileLocator.write_rel {x : FileLocator} : WRel (FileLocator.write c x)
    (FileLocator.write c' x) := by
  unfold FileLocator.write; rel

instance {x : FileLocator} : IsRel (FileLocator.write c x)
    (FileLocator.write c' x) := ⟨FileLocator.write_rel⟩

theorem URLLocator.write_rel {_x : URLLocator} : WRel (URLLocator.write c _x)
    (URLLocator.write c' _x) := by
  unfold URLLocator.write; rel

instance {_x : URLLocator} : IsRel (URLLocator.write c _x)
    (URLLocator.write c' _x) := ⟨URLLocator.write_rel⟩

theorem GraphicEffect.write_rel {x : GraphicEffect} : WRel (GraphicEffect.write c x)
    (GraphicEffect.write c' x) := by
  unfold GraphicEffect.write; rel

instance {x : GraphicEffect} : IsRel (GraphicEffect.write c x)
    (GraphicEffect.write c' x) := ⟨GraphicEffect.write_rel⟩

theorem ShapeList.write_rel {x : ShapeList} : WRel (ShapeList.write c x)
    (ShapeList.write c' x) := by
  unfold ShapeList.write; rel

instance {x : ShapeList} : IsRel (ShapeList.write c x)
    (ShapeList.write c' x) := ⟨ShapeList.write_rel⟩

theorem ColorCorrectionEffect.write_rel {x : ColorCorrectionEffect} : WRel (ColorCorrectionEffect.write c x)
    (ColorCorrectionEffect.write c' x) := by
  unfold ColorCorrectionEffect.write; rel

instance {x : ColorCorrectionEffect} : IsRel (ColorCorrectionEffect.write c x)
    (ColorCorrectionEffect.write c' x) := ⟨ColorCorrectionEffect.write_rel⟩

theorem EffectParam.write_rel {p : EffectParam} : WRel (EffectParam.write c p)
    (EffectParam.write c' p) := by
  unfold EffectParam.write; rel

instance {p : EffectParam} : IsRel (EffectParam.write c p)
    (EffectParam.write c' p) := ⟨EffectParam.write_rel⟩

theorem EffectParamList.write_rel {x : EffectParamList} : WRel (EffectParamList.write c x)
    (EffectParamList.write c' x) := by
  unfold EffectParamList.write; rel

instance {x : EffectParamList} : IsRel (EffectParamList.write c x)
    (EffectParamList.write c' x) := ⟨EffectParamList.write_rel⟩

theorem CFUserParam.write_rel {x : CFUserParam} : WRel (CFUserParam.write c x)
    (CFUserParam.write c' x) := by
  unfold CFUserParam.write; rel

instance {x : CFUserParam} : IsRel (CFUserParam.write c x)
    (CFUserParam.write c' x) := ⟨CFUserParam.write_rel⟩

theorem ParameterItem.writeValue_rel {x : ParameterItem}
    (hr : VisitsRel c c' x.visits) :
    WRel (ParameterItem.writeValue c x) (ParameterItem.writeValue c' x) := by
  unfold ParameterItem.writeValue; rel
  all_goals first
    | exact PVal.wRef_rel fun _ _ => hr _ (by vmem ParameterItem.visits)
    | exact WRel.ref (hr (.prop _) (by vmem ParameterItem.visits))
    | exact WRel.ref (hr (.item _) (by vmem ParameterItem.visits))

theorem ParameterItem.write_rel {x : ParameterItem}
    (hr : VisitsRel c c' x.visits) :
    WRel (ParameterItem.write c x) (ParameterItem.write c' x) := by
  unfold ParameterItem.write; rel
  all_goals first
    | exact ParameterItem.writeValue_rel hr
    | exact WRel.ref (hr (.prop _) (by vmem ParameterItem.visits))
    | exact WRel.ref (hr (.item _) (by vmem ParameterItem.visits))

theorem MSMLocator.write_rel {x : MSMLocator} : WRel (MSMLocator.write c x)
    (MSMLocator.write c' x) := by
  unfold MSMLocator.write; rel

instance {x : MSMLocator} : IsRel (MSMLocator.write c x)
    (MSMLocator.write c' x) := ⟨MSMLocator.write_rel⟩

theorem Position.writeBody_rel {x : Position} : WRel (Position.writeBody c x)
    (Position.writeBody c' x) := by
  unfold Position.writeBody; rel

instance {x : Position} : IsRel (Position.writeBody c x)
    (Position.writeBody c' x) := ⟨Position.writeBody_rel⟩

theorem Position.write_rel {x : Position} : WRel (Position.write c x)
    (Position.write c' x) := by
  unfold Position.write; rel

instance {x : Position} : IsRel (Position.write c x)
    (Position.write c' x) := ⟨Position.write_rel⟩

theorem BOBPosition.writeBody_rel {x : BOBPosition} : WRel (BOBPosition.writeBody c x)
    (BOBPosition.writeBody c' x) := by
  unfold BOBPosition.writeBody; rel

instance {x : BOBPosition} : IsRel (BOBPosition.writeBody c x)
    (BOBPosition.writeBody c' x) := ⟨BOBPosition.writeBody_rel⟩

theorem BOBPosition.write_rel {x : BOBPosition} : WRel (BOBPosition.write c x)
    (BOBPosition.write c' x) := by
  unfold BOBPosition.write; rel

instance {x : BOBPosition} : IsRel (BOBPosition.write c x)
    (BOBPosition.write c' x) := ⟨BOBPosition.write_rel⟩

theorem DIDPosition.writeBody_rel {x : DIDPosition} : WRel (DIDPosition.writeBody c x)
    (DIDPosition.writeBody c' x) := by
  unfold DIDPosition.writeBody; rel

instance {x : DIDPosition} : IsRel (DIDPosition.writeBody c x)
    (DIDPosition.writeBody c' x) := ⟨DIDPosition.writeBody_rel⟩

theorem DIDPosition.write_rel {x : DIDPosition} : WRel (DIDPosition.write c x)
    (DIDPosition.write c' x) := by
  unfold DIDPosition.write; rel

instance {x : DIDPosition} : IsRel (DIDPosition.write c x)
    (DIDPosition.write c' x) := ⟨DIDPosition.write_rel⟩

theorem MPGPosition.writeField_rel {p : Int × Int} : WRel (MPGPosition.writeField c p)
    (MPGPosition.writeField c' p) := by
  unfold MPGPosition.writeField; rel

instance {p : Int × Int} : IsRel (MPGPosition.writeField c p)
    (MPGPosition.writeField c' p) := ⟨MPGPosition.writeField_rel⟩

theorem MPGPosition.writeFields_rel {fields : List (Int × Int)} : WRel (MPGPosition.writeFields c fields)
    (MPGPosition.writeFields c' fields) := by
  unfold MPGPosition.writeFields; rel

instance {fields : List (Int × Int)} : IsRel (MPGPosition.writeFields c fields)
    (MPGPosition.writeFields c' fields) := ⟨MPGPosition.writeFields_rel⟩

theorem MPGPosition.write_rel {x : MPGPosition} : WRel (MPGPosition.write c x)
    (MPGPosition.write c' x) := by
  unfold MPGPosition.write; rel

instance {x : MPGPosition} : IsRel (MPGPosition.write c x)
    (MPGPosition.write c' x) := ⟨MPGPosition.write_rel⟩

theorem BinRef.write_rel {x : BinRef} : WRel (BinRef.write c x)
    (BinRef.write c' x) := by
  unfold BinRef.write; rel

instance {x : BinRef} : IsRel (BinRef.write c x)
    (BinRef.write c' x) := ⟨BinRef.write_rel⟩

theorem MobRef.writeBody_rel {x : MobRef} : WRel (MobRef.writeBody c x)
    (MobRef.writeBody c' x) := by
  unfold MobRef.writeBody; rel

instance {x : MobRef} : IsRel (MobRef.writeBody c x)
    (MobRef.writeBody c' x) := ⟨MobRef.writeBody_rel⟩

theorem MobRef.write_rel {x : MobRef} : WRel (MobRef.write c x)
    (MobRef.write c' x) := by
  unfold MobRef.write; rel

instance {x : MobRef} : IsRel (MobRef.write c x)
    (MobRef.write c' x) := ⟨MobRef.write_rel⟩

theorem Marker.write_rel {x : Marker}
    (hr : VisitsRel c c' x.visits) :
    WRel (Marker.write c x) (Marker.write c' x) := by
  unfold Marker.write; rel
  all_goals first
    | exact MobRef.writeBody_rel fun _ _ => hr _ (by vmem Marker.visits)
    | exact WRel.ref (hr (.prop _) (by vmem Marker.visits))
    | exact WRel.ref (hr (.item _) (by vmem Marker.visits))

theorem TrackerManager.write_rel {x : TrackerManager}
    (hr : VisitsRel c c' x.visits) :
    WRel (TrackerManager.write c x) (TrackerManager.write c' x) := by
  unfold TrackerManager.write; rel
  all_goals first
    | exact WRel.ref (hr (.prop _) (by vmem TrackerManager.visits))
    | exact WRel.ref (hr (.item _) (by vmem TrackerManager.visits))

theorem TrackerDataSlot.write_rel {x : TrackerDataSlot}
    (hr : VisitsRel c c' x.visits) :
    WRel (TrackerDataSlot.write c x) (TrackerDataSlot.write c' x) := by
  unfold TrackerDataSlot.write; rel
  all_goals first
    | exact WRel.ref (hr (.prop _) (by vmem TrackerDataSlot.visits))
    | exact WRel.ref (hr (.item _) (by vmem TrackerDataSlot.visits))

theorem TrackerParameterSlot.write_rel {x : TrackerParameterSlot}
    (hr : VisitsRel c c' x.visits) :
    WRel (TrackerParameterSlot.write c x) (TrackerParameterSlot.write c' x) := by
  unfold TrackerParameterSlot.write; rel
  all_goals first
    | exact WRel.ref (hr (.prop _) (by vmem TrackerParameterSlot.visits))
    | exact WRel.ref (hr (.item _) (by vmem TrackerParameterSlot.visits))

theorem TrackerData.write_rel {x : TrackerData}
    (hr : VisitsRel c c' x.visits) :
    WRel (TrackerData.write c x) (TrackerData.write c' x) := by
  unfold TrackerData.write; rel
  all_goals first
    | exact WRel.ref (hr (.prop _) (by vmem TrackerData.visits))
    | exact WRel.ref (hr (.item _) (by vmem TrackerData.visits))

theorem TrackerParameter.write_rel {x : TrackerParameter} : WRel (TrackerParameter.write c x)
    (TrackerParameter.write c' x) := by
  unfold TrackerParameter.write; rel

instance {x : TrackerParameter} : IsRel (TrackerParameter.write c x)
    (TrackerParameter.write c' x) := ⟨TrackerParameter.write_rel⟩

theorem MediaDescriptor.writeBody_rel {x : MediaDescriptor}
    (hr : VisitsRel c c' x.visits) :
    WRel (MediaDescriptor.writeBody c x) (MediaDescriptor.writeBody c' x) := by
  unfold MediaDescriptor.writeBody; rel
  all_goals first
    | exact WRel.ref (hr (.prop _) (by vmem MediaDescriptor.visits))
    | exact WRel.ref (hr (.item _) (by vmem MediaDescriptor.visits))

theorem MediaDescriptor.write_rel {x : MediaDescriptor}
    (hr : VisitsRel c c' x.visits) :
    WRel (MediaDescriptor.write c x) (MediaDescriptor.write c' x) := by
  unfold MediaDescriptor.write; rel
  all_goals first
    | exact MediaDescriptor.writeBody_rel hr
    | exact WRel.ref (hr (.prop _) (by vmem MediaDescriptor.visits))
    | exact WRel.ref (hr (.item _) (by vmem MediaDescriptor.visits))

theorem TapeDescriptor.write_rel {x : TapeDescriptor}
    (hr : VisitsRel c c' x.visits) :
    WRel (TapeDescriptor.write c x) (TapeDescriptor.write c' x) := by
  unfold TapeDescriptor.write; rel
  all_goals first
    | exact MediaDescriptor.writeBody_rel fun _ _ => hr _ (by vmem MediaDescriptor.visits)
    | exact WRel.ref (hr (.prop _) (by vmem MediaDescriptor.visits))
    | exact WRel.ref (hr (.item _) (by vmem MediaDescriptor.visits))

theorem FilmDescriptor.write_rel {x : FilmDescriptor}
    (hr : VisitsRel c c' x.visits) :
    WRel (FilmDescriptor.write c x) (FilmDescriptor.write c' x) := by
  unfold FilmDescriptor.write; rel
  all_goals first
    | exact MediaDescriptor.writeBody_rel fun _ _ => hr _ (by vmem MediaDescriptor.visits)
    | exact WRel.ref (hr (.prop _) (by vmem MediaDescriptor.visits))
    | exact WRel.ref (hr (.item _) (by vmem MediaDescriptor.visits))

theorem NagraDescriptor.write_rel {x : NagraDescriptor}
    (hr : VisitsRel c c' x.visits) :
    WRel (NagraDescriptor.write c x) (NagraDescriptor.write c' x) := by
  unfold NagraDescriptor.write; rel
  all_goals first
    | exact MediaDescriptor.writeBody_rel fun _ _ => hr _ (by vmem MediaDescriptor.visits)
    | exact WRel.ref (hr (.prop _) (by vmem MediaDescriptor.visits))
    | exact WRel.ref (hr (.item _) (by vmem MediaDescriptor.visits))

theorem MediaFileDescriptor.writeBody_rel {x : MediaFileDescriptor}
    (hr : VisitsRel c c' x.visits) :
    WRel (MediaFileDescriptor.writeBody c x) (MediaFileDescriptor.writeBody c' x) := by
  unfold MediaFileDescriptor.writeBody; rel
  all_goals first
    | exact MediaDescriptor.writeBody_rel fun _ _ => hr _ (by vmem MediaDescriptor.visits)
    | exact WRel.ref (hr (.prop _) (by vmem MediaDescriptor.visits))
    | exact WRel.ref (hr (.item _) (by vmem MediaDescriptor.visits))

theorem MediaFileDescriptor.write_rel {x : MediaFileDescriptor}
    (hr : VisitsRel c c' x.visits) :
    WRel (MediaFileDescriptor.write c x) (MediaFileDescriptor.write c' x) := by
  unfold MediaFileDescriptor.write; rel
  all_goals first
    | exact MediaFileDescriptor.writeBody_rel hr
    | exact WRel.ref (hr (.prop _) (by vmem MediaDescriptor.visits))
    | exact WRel.ref (hr (.item _) (by vmem MediaDescriptor.visits))

theorem MultiDescriptor.write_rel {x : MultiDescriptor}
    (hr : VisitsRel c c' x.visits) :
    WRel (MultiDescriptor.write c x) (MultiDescriptor.write c' x) := by
  unfold MultiDescriptor.write; rel
  all_goals first
    | exact MediaFileDescriptor.writeBody_rel fun _ _ => hr _ (by vmem MultiDescriptor.visits)
    | exact WRel.ref (hr (.prop _) (by vmem MultiDescriptor.visits))
    | exact WRel.ref (hr (.item _) (by vmem MultiDescriptor.visits))

theorem WaveDescriptor.write_rel {x : WaveDescriptor}
    (hr : VisitsRel c c' x.visits) :
    WRel (WaveDescriptor.write c x) (WaveDescriptor.write c' x) := by
  unfold WaveDescriptor.write; rel
  all_goals first
    | exact MediaFileDescriptor.writeBody_rel fun _ _ => hr _ (by vmem MediaDescriptor.visits)
    | exact WRel.ref (hr (.prop _) (by vmem MediaDescriptor.visits))
    | exact WRel.ref (hr (.item _) (by vmem MediaDescriptor.visits))

theorem AIFCDescriptor.write_rel {x : AIFCDescriptor}
    (hr : VisitsRel c c' x.visits) :
    WRel (AIFCDescriptor.write c x) (AIFCDescriptor.write c' x) := by
  unfold AIFCDescriptor.write; rel
  all_goals first
    | exact MediaFileDescriptor.writeBody_rel fun _ _ => hr _ (by vmem MediaDescriptor.visits)
    | exact WRel.ref (hr (.prop _) (by vmem MediaDescriptor.visits))
    | exact WRel.ref (hr (.item _) (by vmem MediaDescriptor.visits))

theorem PCMADescriptor.write_rel {x : PCMADescriptor}
    (hr : VisitsRel c c' x.visits) :
    WRel (PCMADescriptor.write c x) (PCMADescriptor.write c' x) := by
  unfold PCMADescriptor.write; rel
  all_goals first
    | exact MediaFileDescriptor.writeBody_rel fun _ _ => hr _ (by vmem MediaDescriptor.visits)
    | exact WRel.ref (hr (.prop _) (by vmem MediaDescriptor.visits))
    | exact WRel.ref (hr (.item _) (by vmem MediaDescriptor.visits))

theorem MPGADescriptor.write_rel {x : MPGADescriptor}
    (hr : VisitsRel c c' x.visits) :
    WRel (MPGADescriptor.write c x) (MPGADescriptor.write c' x) := by
  unfold MPGADescriptor.write; rel
  all_goals first
    | exact MediaFileDescriptor.writeBody_rel fun _ _ => hr _ (by vmem MediaDescriptor.visits)
    | exact WRel.ref (hr (.prop _) (by vmem MediaDescriptor.visits))
    | exact WRel.ref (hr (.item _) (by vmem MediaDescriptor.visits))

theorem wPoint_rel {p : Int × Int} : WRel (wPoint c p)
    (wPoint c' p) := by
  unfold wPoint; rel

instance {p : Int × Int} : IsRel (wPoint c p)
    (wPoint c' p) := ⟨wPoint_rel⟩

theorem wBox_rel {b : Box} : WRel (wBox c b)
    (wBox c' b) := by
  unfold wBox; rel

instance {b : Box} : IsRel (wBox c b)
    (wBox c' b) := ⟨wBox_rel⟩

theorem DIDDescriptor.writeBody_rel {x : DIDDescriptor}
    (hr : VisitsRel c c' x.visits) :
    WRel (DIDDescriptor.writeBody c x) (DIDDescriptor.writeBody c' x) := by
  unfold DIDDescriptor.writeBody; rel
  all_goals first
    | exact MediaFileDescriptor.writeBody_rel fun _ _ => hr _ (by vmem DIDDescriptor.visits)
    | exact WRel.ref (hr (.prop _) (by vmem DIDDescriptor.visits))
    | exact WRel.ref (hr (.item _) (by vmem DIDDescriptor.visits))

theorem DIDDescriptor.write_rel {x : DIDDescriptor}
    (hr : VisitsRel c c' x.visits) :
    WRel (DIDDescriptor.write c x) (DIDDescriptor.write c' x) := by
  unfold DIDDescriptor.write; rel
  all_goals first
    | exact DIDDescriptor.writeBody_rel hr
    | exact WRel.ref (hr (.prop _) (by vmem DIDDescriptor.visits))
    | exact WRel.ref (hr (.item _) (by vmem DIDDescriptor.visits))

theorem CDCIDescriptor.writeBody_rel {x : CDCIDescriptor}
    (hr : VisitsRel c c' x.visits) :
    WRel (CDCIDescriptor.writeBody c x) (CDCIDescriptor.writeBody c' x) := by
  unfold CDCIDescriptor.writeBody; rel
  all_goals first
    | exact DIDDescriptor.writeBody_rel fun _ _ => hr _ (by vmem DIDDescriptor.visits)
    | exact WRel.ref (hr (.prop _) (by vmem DIDDescriptor.visits))
    | exact WRel.ref (hr (.item _) (by vmem DIDDescriptor.visits))

theorem CDCIDescriptor.write_rel {x : CDCIDescriptor}
    (hr : VisitsRel c c' x.visits) :
    WRel (CDCIDescriptor.write c x) (CDCIDescriptor.write c' x) := by
  unfold CDCIDescriptor.write; rel
  all_goals first
    | exact CDCIDescriptor.writeBody_rel hr
    | exact WRel.ref (hr (.prop _) (by vmem DIDDescriptor.visits))
    | exact WRel.ref (hr (.item _) (by vmem DIDDescriptor.visits))

theorem MPGIDescriptor.write_rel {x : MPGIDescriptor}
    (hr : VisitsRel c c' x.visits) :
    WRel (MPGIDescriptor.write c x) (MPGIDescriptor.write c' x) := by
  unfold MPGIDescriptor.write; rel
  all_goals first
    | exact CDCIDescriptor.writeBody_rel fun _ _ => hr _ (by vmem DIDDescriptor.visits)
    | exact WRel.ref (hr (.prop _) (by vmem DIDDescriptor.visits))
    | exact WRel.ref (hr (.item _) (by vmem DIDDescriptor.visits))

theorem JPEGDescriptor.write_rel {x : JPEGDescriptor}
    (hr : VisitsRel c c' x.visits) :
    WRel (JPEGDescriptor.write c x) (JPEGDescriptor.write c' x) := by
  unfold JPEGDescriptor.write; rel
  all_goals first
    | exact CDCIDescriptor.writeBody_rel fun _ _ => hr _ (by vmem DIDDescriptor.visits)
    | exact WRel.ref (hr (.prop _) (by vmem DIDDescriptor.visits))
    | exact WRel.ref (hr (.item _) (by vmem DIDDescriptor.visits))

theorem encodePixelLayout_rel {layout : List (Int × Int)} : WRel (encodePixelLayout layout)
    (encodePixelLayout layout) := by
  unfold encodePixelLayout; rel

instance {layout : List (Int × Int)} : IsRel (encodePixelLayout layout)
    (encodePixelLayout layout) := ⟨encodePixelLayout_rel⟩

theorem RGBADescriptor.write_rel {x : RGBADescriptor}
    (hr : VisitsRel c c' x.visits) :
    WRel (RGBADescriptor.write c x) (RGBADescriptor.write c' x) := by
  unfold RGBADescriptor.write; rel
  all_goals first
    | exact DIDDescriptor.writeBody_rel fun _ _ => hr _ (by vmem DIDDescriptor.visits)
    | exact WRel.ref (hr (.prop _) (by vmem DIDDescriptor.visits))
    | exact WRel.ref (hr (.item _) (by vmem DIDDescriptor.visits))

theorem DataDescriptor.write_rel {x : DataDescriptor}
    (hr : VisitsRel c c' x.visits) :
    WRel (DataDescriptor.write c x) (DataDescriptor.write c' x) := by
  unfold DataDescriptor.write; rel
  all_goals first
    | exact MediaFileDescriptor.writeBody_rel fun _ _ => hr _ (by vmem MediaDescriptor.visits)
    | exact WRel.ref (hr (.prop _) (by vmem MediaDescriptor.visits))
    | exact WRel.ref (hr (.item _) (by vmem MediaDescriptor.visits))

theorem ANCDataDescriptor.write_rel {x : ANCDataDescriptor}
    (hr : VisitsRel c c' x.visits) :
    WRel (ANCDataDescriptor.write c x) (ANCDataDescriptor.write c' x) := by
  unfold ANCDataDescriptor.write; rel
  all_goals first
    | exact DataDescriptor.write_rel fun _ _ => hr _ (by vmem MediaDescriptor.visits)
    | exact WRel.ref (hr (.prop _) (by vmem MediaDescriptor.visits))
    | exact WRel.ref (hr (.item _) (by vmem MediaDescriptor.visits))

theorem Attributes.writeItem_rel {p : Text × AttrVal}
    (hr : VisitsRel c c' p.2.visits) :
    WRel (Attributes.writeItem c p) (Attributes.writeItem c' p) := by
  obtain ⟨n, v⟩ := p
  cases v <;> unfold Attributes.writeItem <;> rel
  · exact WRel.ref (hr (.prop _) (by simp [AttrVal.visits]))

theorem Attributes.write_rel {x : Attributes}
    (hr : VisitsRel c c' x.visits) :
    WRel (Attributes.write c x) (Attributes.write c' x) := by
  unfold Attributes.write; rel
  all_goals first
    | exact Attributes.writeItem_rel fun _ _ => hr _ (by vmem Attributes.visits)
    | exact WRel.ref (hr (.prop _) (by vmem Attributes.visits))
    | exact WRel.ref (hr (.item _) (by vmem Attributes.visits))

theorem ParameterList.write_rel {x : ParameterList}
    (hr : VisitsRel c c' x.visits) :
    WRel (ParameterList.write c x) (ParameterList.write c' x) := by
  unfold ParameterList.write; rel
  all_goals first
    | exact WRel.ref (hr (.prop _) (by vmem ParameterList.visits))
    | exact WRel.ref (hr (.item _) (by vmem ParameterList.visits))

theorem TimeCrumbList.write_rel {x : TimeCrumbList}
    (hr : VisitsRel c c' x.visits) :
    WRel (TimeCrumbList.write c x) (TimeCrumbList.write c' x) := by
  unfold TimeCrumbList.write; rel
  all_goals first
    | exact WRel.ref (hr (.prop _) (by vmem TimeCrumbList.visits))
    | exact WRel.ref (hr (.item _) (by vmem TimeCrumbList.visits))

theorem Setting.write_rel {x : Setting}
    (hr : RefRel c c' x.attributes) :
    WRel (Setting.write c x) (Setting.write c' x) := by
  unfold Setting.write; rel
  all_goals first
    | exact WRel.ref hr

theorem BinColumn.write_rel {x : BinColumn} : WRel (BinColumn.write c x)
    (BinColumn.write c' x) := by
  unfold BinColumn.write; rel

instance {x : BinColumn} : IsRel (BinColumn.write c x)
    (BinColumn.write c' x) := ⟨BinColumn.write_rel⟩

theorem FormatDescriptor.write_rel {x : FormatDescriptor} : WRel (FormatDescriptor.write c x)
    (FormatDescriptor.write c' x) := by
  unfold FormatDescriptor.write; rel

instance {x : FormatDescriptor} : IsRel (FormatDescriptor.write c x)
    (FormatDescriptor.write c' x) := ⟨FormatDescriptor.write_rel⟩

theorem BinViewSetting.write_rel {x : BinViewSetting}
    (hr : VisitsRel c c' x.visits) :
    WRel (BinViewSetting.write c x) (BinViewSetting.write c' x) := by
  unfold BinViewSetting.write; rel
  all_goals first
    | exact Setting.write_rel (hr (.prop _) (by vmem BinViewSetting.visits))
    | exact WRel.ref (hr (.prop _) (by vmem BinViewSetting.visits))
    | exact WRel.ref (hr (.item _) (by vmem BinViewSetting.visits))

theorem BinItem.write_rel {b : BinItem}
    (hr : RefRel c c' b.mob) :
    WRel (BinItem.write c b) (BinItem.write c' b) := by
  unfold BinItem.write; rel
  all_goals first
    | exact WRel.ref hr

theorem SiftItem.write_rel {x : SiftItem} : WRel (SiftItem.write c x)
    (SiftItem.write c' x) := by
  unfold SiftItem.write; rel

instance {x : SiftItem} : IsRel (SiftItem.write c x)
    (SiftItem.write c' x) := ⟨SiftItem.write_rel⟩

theorem wSortColumn_rel {p : Int × Text} : WRel (wSortColumn c p)
    (wSortColumn c' p) := by
  unfold wSortColumn; rel

instance {p : Int × Text} : IsRel (wSortColumn c p)
    (wSortColumn c' p) := ⟨wSortColumn_rel⟩

theorem Bin.writeCount_rel {x : Bin} : WRel (Bin.writeCount c x)
    (Bin.writeCount c' x) := by
  unfold Bin.writeCount; rel

instance {x : Bin} : IsRel (Bin.writeCount c x)
    (Bin.writeCount c' x) := ⟨Bin.writeCount_rel⟩

theorem Bin.writeBody_rel {x : Bin}
    (hr : VisitsRel c c' x.visits) :
    WRel (Bin.writeBody c x) (Bin.writeBody c' x) := by
  unfold Bin.writeBody; rel
  all_goals first
    | exact BinItem.write_rel (hr (.prop _) (by vmem Bin.visits))
    | exact WRel.ref (hr (.prop _) (by vmem Bin.visits))
    | exact WRel.ref (hr (.item _) (by vmem Bin.visits))

theorem Bin.write_rel {x : Bin}
    (hr : VisitsRel c c' x.visits) :
    WRel (Bin.write c x) (Bin.write c' x) := by
  unfold Bin.write; rel
  all_goals first
    | exact Bin.writeBody_rel hr
    | exact WRel.ref (hr (.prop _) (by vmem Bin.visits))
    | exact WRel.ref (hr (.item _) (by vmem Bin.visits))

theorem BinFirst.write_rel {x : BinFirst}
    (hr : VisitsRel c c' x.visits) :
    WRel (BinFirst.write c x) (BinFirst.write c' x) := by
  unfold BinFirst.write; rel
  all_goals first
    | exact Bin.writeBody_rel fun _ _ => hr _ (by vmem Bin.visits)
    | exact WRel.ref (hr (.prop _) (by vmem Bin.visits))
    | exact WRel.ref (hr (.item _) (by vmem Bin.visits))

theorem Obj.write_rel {x : Obj} (hr : VisitsRel c c' x.visits) :
    WRel (x.write c) (x.write c') := by
  cases x
  case ATTR x => exact Attributes.write_rel hr
  case PRLS x => exact ParameterList.write_rel hr
  case TMCS x => exact TimeCrumbList.write_rel hr
  case BVst x => exact BinViewSetting.write_rel hr
  case ABIN x => exact Bin.write_rel hr
  case BINF x => exact BinFirst.write_rel hr
  case SEQU x => exact Sequence.write_rel hr
  case SCLP x => exact SourceClip.write_rel hr
  case TCCP x => exact Timecode.write_rel hr
  case ECCP x => exact Edgecode.write_rel hr
  case TRKR x => exact TrackRef.write_rel hr
  case PRCL x => exact ParamClip.write_rel hr
  case CTRL x => exact ControlClip.write_rel hr
  case FILL x => exact Filler.write_rel hr
  case TRKG x => exact TrackGroup.write_rel hr
  case TKFX x => exact TrackEffect.write_rel hr
  case PVOL x => exact PanVolumeEffect.write_rel hr
  case ASPI x => exact AudioSuitePluginEffect.write_rel hr
  case EQMB x => exact EqualizerMultiBand.write_rel hr
  case MASK x => exact CaptureMask.write_rel hr
  case STRB x => exact StrobeEffect.write_rel hr
  case SPED x => exact MotionEffect.write_rel hr
  case REPT x => exact Repeat.write_rel hr
  case RSET x => exact EssenceGroup.write_rel hr
  case TNFX x => exact TransitionEffect.write_rel hr
  case SLCT x => exact Selector.write_rel hr
  case CMPO x => exact Composition.write_rel hr
  case FILE x => exact FileLocator.write_rel
  case WINF x => exact FileLocator.write_rel
  case URLL x => exact URLLocator.write_rel (c := c) (c' := c') (_x := x)
  case GRFX x => exact GraphicEffect.write_rel
  case SHLP x => exact ShapeList.write_rel
  case CCFX x => exact ColorCorrectionEffect.write_rel
  case FXPS x => exact EffectParamList.write_rel
  case AVUP x => exact CFUserParam.write_rel
  case PRIT x => exact ParameterItem.write_rel hr
  case MSML x => exact MSMLocator.write_rel
  case APOS x => exact Position.write_rel
  case ABOB x => exact BOBPosition.write_rel
  case DIDP x => exact DIDPosition.write_rel
  case MPGP x => exact MPGPosition.write_rel
  case MCBR x => exact BinRef.write_rel
  case MCMR x => exact MobRef.write_rel
  case TMBC x => exact Marker.write_rel hr
  case TKMN x => exact TrackerManager.write_rel hr
  case TKDS x => exact TrackerDataSlot.write_rel hr
  case TKPS x => exact TrackerParameterSlot.write_rel hr
  case TKDA x => exact TrackerData.write_rel hr
  case TKPA x => exact TrackerParameter.write_rel
  case MDES x => exact MediaDescriptor.write_rel hr
  case MDTP x => exact TapeDescriptor.write_rel hr
  case MDFM x => exact FilmDescriptor.write_rel hr
  case MDNG x => exact NagraDescriptor.write_rel hr
  case MDFL x => exact MediaFileDescriptor.write_rel hr
  case MULD x => exact MultiDescriptor.write_rel hr
  case WAVE x => exact WaveDescriptor.write_rel hr
  case AIFC x => exact AIFCDescriptor.write_rel hr
  case PCMA x => exact PCMADescriptor.write_rel hr
  case MPGA x => exact MPGADescriptor.write_rel hr
  case DIDD x => exact DIDDescriptor.write_rel hr
  case CDCI x => exact CDCIDescriptor.write_rel hr
  case MPGI x => exact MPGIDescriptor.write_rel hr
  case JPED x => exact JPEGDescriptor.write_rel hr
  case RGBA x => exact RGBADescriptor.write_rel hr
  case DATD x => exact DataDescriptor.write_rel hr
  case ANCD x => exact ANCDataDescriptor.write_rel hr

end Avb
