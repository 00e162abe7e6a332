import Verif.Lemmas.Raises
import Verif.Model.File

/-
`Raises` for every reader, in the order of the model files.
-/

namespace Avb

variable {x : Bool}

theorem rBool_raises  : Raises x (rBool) := by
  unfold rBool; raises

instance  : IsRaises x (rBool) := ⟨rBool_raises⟩

theorem rStr_raises {bo : BO} {e : Enc} : Raises x (rStr bo e) := by
  unfold rStr; raises

instance {bo : BO} {e : Enc} : IsRaises x (rStr bo e) := ⟨rStr_raises⟩

theorem decodeRate_error {m e : Int} {err : Err} (h : decodeRate m e = .error err) : err = .overflow := by
  unfold decodeRate at h
  dsimp only at h
  split at h
  · split at h <;> cases h
    rfl
  · cases h

theorem rRate_raises {bo : BO} : Raises x (rRate bo) := by
  unfold rRate
  refine RaisesIn.bind (RaisesIn.int .struct) fun m => RaisesIn.bind (RaisesIn.int .struct) fun e => ?_
  split
  · exact RaisesIn.pure
  · rename_i h
    rw [decodeRate_error h]
    exact RaisesIn.fail .overflow

instance {bo : BO} : IsRaises x (rRate bo) := ⟨rRate_raises⟩

theorem rRef_raises {c : RCtx} : Raises x (rRef c) := by
  unfold rRef; raises

instance {c : RCtx} : IsRaises x (rRef c) := ⟨rRef_raises⟩

theorem rDouble_raises  : Raises x (rDouble) := by
  unfold rDouble; raises

instance  : IsRaises x (rDouble) := ⟨rDouble_raises⟩

theorem rUuid_raises {bo : BO} : Raises x (rUuid bo) := by
  unfold rUuid; raises

instance {bo : BO} : IsRaises x (rUuid bo) := ⟨rUuid_raises⟩

theorem rRawUuid_raises {bo : BO} : Raises x (rRawUuid bo) := by
  unfold rRawUuid; raises

instance {bo : BO} : IsRaises x (rRawUuid bo) := ⟨rRawUuid_raises⟩

theorem rByte_raises  : Raises x (rByte) := by
  unfold rByte; raises

instance  : IsRaises x (rByte) := ⟨rByte_raises⟩

theorem rMobId_raises {bo : BO} : Raises x (rMobId bo) := by
  unfold rMobId; raises

instance {bo : BO} : IsRaises x (rMobId bo) := ⟨rMobId_raises⟩

theorem rDate_raises {bo : BO} : Raises x (rDate bo) := by
  unfold rDate; raises

instance {bo : BO} : IsRaises x (rDate bo) := ⟨rDate_raises⟩

theorem rRect_raises {bo : BO} : Raises x (rRect bo) := by
  unfold rRect; raises

instance {bo : BO} : IsRaises x (rRect bo) := ⟨rRect_raises⟩

theorem rRgb_raises {bo : BO} : Raises x (rRgb bo) := by
  unfold rRgb; raises

instance {bo : BO} : IsRaises x (rRgb bo) := ⟨rRgb_raises⟩

theorem rFourcc_raises {bo : BO} : Raises x (rFourcc bo) := by
  unfold rFourcc; raises

instance {bo : BO} : IsRaises x (rFourcc bo) := ⟨rFourcc_raises⟩

theorem Component.ext_raises {d : RCtx} {tag : Int} {s : Component} : Raises x (Component.ext d tag s) := by
  unfold Component.ext; raises

instance {d : RCtx} {tag : Int} {s : Component} : IsRaises x (Component.ext d tag s) := ⟨Component.ext_raises⟩

theorem Component.read_raises {d : RCtx} : Raises x (Component.read d) := by
  unfold Component.read; raises

instance {d : RCtx} : IsRaises x (Component.read d) := ⟨Component.read_raises⟩

theorem Sequence.read_raises {d : RCtx} : Raises x (Sequence.read d) := by
  unfold Sequence.read; raises

instance {d : RCtx} : IsRaises x (Sequence.read d) := ⟨Sequence.read_raises⟩

theorem Clip.read_raises {d : RCtx} : Raises x (Clip.read d) := by
  unfold Clip.read; raises

instance {d : RCtx} : IsRaises x (Clip.read d) := ⟨Clip.read_raises⟩

theorem SourceClip.ext_raises {d : RCtx} {tag : Int} {s : SourceClip} : Raises x (SourceClip.ext d tag s) := by
  unfold SourceClip.ext; raises

instance {d : RCtx} {tag : Int} {s : SourceClip} : IsRaises x (SourceClip.ext d tag s) := ⟨SourceClip.ext_raises⟩

theorem SourceClip.read_raises {d : RCtx} : Raises x (SourceClip.read d) := by
  unfold SourceClip.read; raises

instance {d : RCtx} : IsRaises x (SourceClip.read d) := ⟨SourceClip.read_raises⟩

theorem Timecode.read_raises {d : RCtx} : Raises x (Timecode.read d) := by
  unfold Timecode.read; raises

instance {d : RCtx} : IsRaises x (Timecode.read d) := ⟨Timecode.read_raises⟩

theorem Edgecode.read_raises {d : RCtx} : Raises x (Edgecode.read d) := by
  unfold Edgecode.read; raises

instance {d : RCtx} : IsRaises x (Edgecode.read d) := ⟨Edgecode.read_raises⟩

theorem TrackRef.read_raises {d : RCtx} : Raises x (TrackRef.read d) := by
  unfold TrackRef.read; raises

instance {d : RCtx} : IsRaises x (TrackRef.read d) := ⟨TrackRef.read_raises⟩

theorem PCPProp.readValue_raises {d : RCtx} {type : Int} : Raises x (PCPProp.readValue d type) := by
  unfold PCPProp.readValue; raises

instance {d : RCtx} {type : Int} : IsRaises x (PCPProp.readValue d type) := ⟨PCPProp.readValue_raises⟩

theorem PCPProp.read_raises {d : RCtx} : Raises x (PCPProp.read d) := by
  unfold PCPProp.read; raises

instance {d : RCtx} : IsRaises x (PCPProp.read d) := ⟨PCPProp.read_raises⟩

theorem PCP.readValue_raises {d : RCtx} {value_type : Int} : Raises x (PCP.readValue d value_type) := by
  unfold PCP.readValue; raises

instance {d : RCtx} {value_type : Int} : IsRaises x (PCP.readValue d value_type) := ⟨PCP.readValue_raises⟩

theorem PCP.read_raises {d : RCtx} {value_type : Int} : Raises x (PCP.read d value_type) := by
  unfold PCP.read; raises

instance {d : RCtx} {value_type : Int} : IsRaises x (PCP.read d value_type) := ⟨PCP.read_raises⟩

theorem ParamClip.ext_raises {d : RCtx} {tag : Int} {s : ParamClip} : Raises x (ParamClip.ext d tag s) := by
  unfold ParamClip.ext; raises

instance {d : RCtx} {tag : Int} {s : ParamClip} : IsRaises x (ParamClip.ext d tag s) := ⟨ParamClip.ext_raises⟩

theorem ParamClip.read_raises {d : RCtx} : Raises x (ParamClip.read d) := by
  unfold ParamClip.read; raises

instance {d : RCtx} : IsRaises x (ParamClip.read d) := ⟨ParamClip.read_raises⟩

theorem CPProp.read_raises {d : RCtx} : Raises x (CPProp.read d) := by
  unfold CPProp.read; raises

instance {d : RCtx} : IsRaises x (CPProp.read d) := ⟨CPProp.read_raises⟩

theorem CP.read_raises {d : RCtx} : Raises x (CP.read d) := by
  unfold CP.read; raises

instance {d : RCtx} : IsRaises x (CP.read d) := ⟨CP.read_raises⟩

theorem ControlClip.read_raises {d : RCtx} : Raises x (ControlClip.read d) := by
  unfold ControlClip.read; raises

instance {d : RCtx} : IsRaises x (ControlClip.read d) := ⟨ControlClip.read_raises⟩

theorem Filler.read_raises {d : RCtx} : Raises x (Filler.read d) := by
  unfold Filler.read; raises

instance {d : RCtx} : IsRaises x (Filler.read d) := ⟨Filler.read_raises⟩

theorem Track.read_raises {d : RCtx} : Raises x (Track.read d) := by
  unfold Track.read; raises

instance {d : RCtx} : IsRaises x (Track.read d) := ⟨Track.read_raises⟩

theorem rLock_raises {d : RCtx} : Raises x (rLock d) := by
  unfold rLock; raises

instance {d : RCtx} : IsRaises x (rLock d) := ⟨rLock_raises⟩

theorem TrackGroup.ext_raises {d : RCtx} {tag : Int} {s : TrackGroup} : Raises x (TrackGroup.ext d tag s) := by
  unfold TrackGroup.ext; raises

instance {d : RCtx} {tag : Int} {s : TrackGroup} : IsRaises x (TrackGroup.ext d tag s) := ⟨TrackGroup.ext_raises⟩

theorem TrackGroup.read_raises {d : RCtx} : Raises x (TrackGroup.read d) := by
  unfold TrackGroup.read; raises

instance {d : RCtx} : IsRaises x (TrackGroup.read d) := ⟨TrackGroup.read_raises⟩

theorem TrackEffect.ext_raises {d : RCtx} {tag : Int} {s : TrackEffect} : Raises x (TrackEffect.ext d tag s) := by
  unfold TrackEffect.ext; raises

instance {d : RCtx} {tag : Int} {s : TrackEffect} : IsRaises x (TrackEffect.ext d tag s) := ⟨TrackEffect.ext_raises⟩

theorem TrackEffect.readBody_raises {d : RCtx} : Raises x (TrackEffect.readBody d) := by
  unfold TrackEffect.readBody; raises

instance {d : RCtx} : IsRaises x (TrackEffect.readBody d) := ⟨TrackEffect.readBody_raises⟩

theorem TrackEffect.read_raises {d : RCtx} : Raises x (TrackEffect.read d) := by
  unfold TrackEffect.read; raises

instance {d : RCtx} : IsRaises x (TrackEffect.read d) := ⟨TrackEffect.read_raises⟩

theorem PanVolumeEffect.ext_raises {d : RCtx} {tag : Int} {s : PanVolumeEffect} : Raises x (PanVolumeEffect.ext d tag s) := by
  unfold PanVolumeEffect.ext; raises

instance {d : RCtx} {tag : Int} {s : PanVolumeEffect} : IsRaises x (PanVolumeEffect.ext d tag s) := ⟨PanVolumeEffect.ext_raises⟩

theorem PanVolumeEffect.read_raises {d : RCtx} : Raises x (PanVolumeEffect.read d) := by
  unfold PanVolumeEffect.read; raises

instance {d : RCtx} : IsRaises x (PanVolumeEffect.read d) := ⟨PanVolumeEffect.read_raises⟩

theorem ASPIPluginChunk.read_raises {d : RCtx} : Raises x (ASPIPluginChunk.read d) := by
  unfold ASPIPluginChunk.read; raises

instance {d : RCtx} : IsRaises x (ASPIPluginChunk.read d) := ⟨ASPIPluginChunk.read_raises⟩

theorem ASPIPlugin.read_raises {d : RCtx} : Raises x (ASPIPlugin.read d) := by
  unfold ASPIPlugin.read; raises

instance {d : RCtx} : IsRaises x (ASPIPlugin.read d) := ⟨ASPIPlugin.read_raises⟩

theorem rPresetPath_raises {d : RCtx} : Raises x (rPresetPath d) := by
  unfold rPresetPath; raises

instance {d : RCtx} : IsRaises x (rPresetPath d) := ⟨rPresetPath_raises⟩

theorem AudioSuitePluginEffect.ext_raises {d : RCtx} {tag : Int} {s : AudioSuitePluginEffect} : Raises x (AudioSuitePluginEffect.ext d tag s) := by
  unfold AudioSuitePluginEffect.ext; raises

instance {d : RCtx} {tag : Int} {s : AudioSuitePluginEffect} : IsRaises x (AudioSuitePluginEffect.ext d tag s) := ⟨AudioSuitePluginEffect.ext_raises⟩

theorem AudioSuitePluginEffect.read_raises {d : RCtx} : Raises x (AudioSuitePluginEffect.read d) := by
  unfold AudioSuitePluginEffect.read; raises

instance {d : RCtx} : IsRaises x (AudioSuitePluginEffect.read d) := ⟨AudioSuitePluginEffect.read_raises⟩

theorem EqualizerBand.read_raises {d : RCtx} : Raises x (EqualizerBand.read d) := by
  unfold EqualizerBand.read; raises

instance {d : RCtx} : IsRaises x (EqualizerBand.read d) := ⟨EqualizerBand.read_raises⟩

theorem EqualizerMultiBand.read_raises {d : RCtx} : Raises x (EqualizerMultiBand.read d) := by
  unfold EqualizerMultiBand.read; raises

instance {d : RCtx} : IsRaises x (EqualizerMultiBand.read d) := ⟨EqualizerMultiBand.read_raises⟩

theorem TimeWarp.read_raises {d : RCtx} : Raises x (TimeWarp.read d) := by
  unfold TimeWarp.read; raises

instance {d : RCtx} : IsRaises x (TimeWarp.read d) := ⟨TimeWarp.read_raises⟩

theorem CaptureMask.read_raises {d : RCtx} : Raises x (CaptureMask.read d) := by
  unfold CaptureMask.read; raises

instance {d : RCtx} : IsRaises x (CaptureMask.read d) := ⟨CaptureMask.read_raises⟩

theorem StrobeEffect.read_raises {d : RCtx} : Raises x (StrobeEffect.read d) := by
  unfold StrobeEffect.read; raises

instance {d : RCtx} : IsRaises x (StrobeEffect.read d) := ⟨StrobeEffect.read_raises⟩

theorem MotionEffect.ext_raises {d : RCtx} {tag : Int} {s : MotionEffect} : Raises x (MotionEffect.ext d tag s) := by
  unfold MotionEffect.ext; raises

instance {d : RCtx} {tag : Int} {s : MotionEffect} : IsRaises x (MotionEffect.ext d tag s) := ⟨MotionEffect.ext_raises⟩

theorem MotionEffect.read_raises {d : RCtx} : Raises x (MotionEffect.read d) := by
  unfold MotionEffect.read; raises

instance {d : RCtx} : IsRaises x (MotionEffect.read d) := ⟨MotionEffect.read_raises⟩

theorem Repeat.read_raises {d : RCtx} : Raises x (Repeat.read d) := by
  unfold Repeat.read; raises

instance {d : RCtx} : IsRaises x (Repeat.read d) := ⟨Repeat.read_raises⟩

theorem EssenceGroup.ext_raises {d : RCtx} {tag : Int} {s : EssenceGroup} : Raises x (EssenceGroup.ext d tag s) := by
  unfold EssenceGroup.ext; raises

instance {d : RCtx} {tag : Int} {s : EssenceGroup} : IsRaises x (EssenceGroup.ext d tag s) := ⟨EssenceGroup.ext_raises⟩

theorem EssenceGroup.read_raises {d : RCtx} : Raises x (EssenceGroup.read d) := by
  unfold EssenceGroup.read; raises

instance {d : RCtx} : IsRaises x (EssenceGroup.read d) := ⟨EssenceGroup.read_raises⟩

theorem TransitionEffect.ext_raises {d : RCtx} {tag : Int} {s : TransitionEffect} : Raises x (TransitionEffect.ext d tag s) := by
  unfold TransitionEffect.ext; raises

instance {d : RCtx} {tag : Int} {s : TransitionEffect} : IsRaises x (TransitionEffect.ext d tag s) := ⟨TransitionEffect.ext_raises⟩

theorem TransitionEffect.read_raises {d : RCtx} : Raises x (TransitionEffect.read d) := by
  unfold TransitionEffect.read; raises

instance {d : RCtx} : IsRaises x (TransitionEffect.read d) := ⟨TransitionEffect.read_raises⟩

theorem Selector.read_raises {d : RCtx} : Raises x (Selector.read d) := by
  unfold Selector.read; raises

instance {d : RCtx} : IsRaises x (Selector.read d) := ⟨Selector.read_raises⟩

theorem Composition.ext_raises {d : RCtx} {tag : Int} {s : Composition} : Raises x (Composition.ext d tag s) := by
  unfold Composition.ext; raises

instance {d : RCtx} {tag : Int} {s : Composition} : IsRaises x (Composition.ext d tag s) := ⟨Composition.ext_raises⟩

theorem Composition.read_raises {d : RCtx} : Raises x (Composition.read d) := by
  unfold Composition.read; raises

instance {d : RCtx} : IsRaises x (Composition.read d) := ⟨Composition.read_raises⟩

theorem FileLocator.ext_raises {d : RCtx} {tag : Int} {s : FileLocator} : Raises x (FileLocator.ext d tag s) := by
  unfold FileLocator.ext; raises

instance {d : RCtx} {tag : Int} {s : FileLocator} : IsRaises x (FileLocator.ext d tag s) := ⟨FileLocator.ext_raises⟩

theorem FileLocator.read_raises {d : RCtx} : Raises x (FileLocator.read d) := by
  unfold FileLocator.read; raises

instance {d : RCtx} : IsRaises x (FileLocator.read d) := ⟨FileLocator.read_raises⟩

theorem URLLocator.read_raises {_d : RCtx} : Raises x (URLLocator.read _d) := by
  unfold URLLocator.read; raises

instance {_d : RCtx} : IsRaises x (URLLocator.read _d) := ⟨URLLocator.read_raises⟩

theorem GraphicEffect.read_raises {d : RCtx} : Raises x (GraphicEffect.read d) := by
  unfold GraphicEffect.read; raises

instance {d : RCtx} : IsRaises x (GraphicEffect.read d) := ⟨GraphicEffect.read_raises⟩

theorem ShapeList.read_raises {d : RCtx} : Raises x (ShapeList.read d) := by
  unfold ShapeList.read; raises

instance {d : RCtx} : IsRaises x (ShapeList.read d) := ⟨ShapeList.read_raises⟩

theorem ColorCorrectionEffect.read_raises {d : RCtx} : Raises x (ColorCorrectionEffect.read d) := by
  unfold ColorCorrectionEffect.read; raises

instance {d : RCtx} : IsRaises x (ColorCorrectionEffect.read d) := ⟨ColorCorrectionEffect.read_raises⟩

theorem EffectParam.read_raises {d : RCtx} : Raises x (EffectParam.read d) := by
  unfold EffectParam.read; raises

instance {d : RCtx} : IsRaises x (EffectParam.read d) := ⟨EffectParam.read_raises⟩

theorem EffectParamList.read_raises {d : RCtx} : Raises x (EffectParamList.read d) := by
  unfold EffectParamList.read; raises

instance {d : RCtx} : IsRaises x (EffectParamList.read d) := ⟨EffectParamList.read_raises⟩

theorem CFUserParam.read_raises {d : RCtx} : Raises x (CFUserParam.read d) := by
  unfold CFUserParam.read; raises

instance {d : RCtx} : IsRaises x (CFUserParam.read d) := ⟨CFUserParam.read_raises⟩

theorem ParameterItem.readValue_raises {d : RCtx} {value_type : Int} : Raises x (ParameterItem.readValue d value_type) := by
  unfold ParameterItem.readValue; raises

instance {d : RCtx} {value_type : Int} : IsRaises x (ParameterItem.readValue d value_type) := ⟨ParameterItem.readValue_raises⟩

theorem ParameterItem.ext_raises {_d : RCtx} {tag : Int} {s : ParameterItem} : Raises x (ParameterItem.ext _d tag s) := by
  unfold ParameterItem.ext; raises

instance {_d : RCtx} {tag : Int} {s : ParameterItem} : IsRaises x (ParameterItem.ext _d tag s) := ⟨ParameterItem.ext_raises⟩

theorem ParameterItem.read_raises {d : RCtx} : Raises x (ParameterItem.read d) := by
  unfold ParameterItem.read; raises

instance {d : RCtx} : IsRaises x (ParameterItem.read d) := ⟨ParameterItem.read_raises⟩

theorem MSMLocator.ext_raises {d : RCtx} {tag : Int} {s : MSMLocator} : Raises x (MSMLocator.ext d tag s) := by
  unfold MSMLocator.ext; raises

instance {d : RCtx} {tag : Int} {s : MSMLocator} : IsRaises x (MSMLocator.ext d tag s) := ⟨MSMLocator.ext_raises⟩

theorem MSMLocator.read_raises {d : RCtx} : Raises x (MSMLocator.read d) := by
  unfold MSMLocator.read; raises

instance {d : RCtx} : IsRaises x (MSMLocator.read d) := ⟨MSMLocator.read_raises⟩

theorem Position.ext_raises {d : RCtx} {tag : Int} {s : Position} : Raises x (Position.ext d tag s) := by
  unfold Position.ext; raises

instance {d : RCtx} {tag : Int} {s : Position} : IsRaises x (Position.ext d tag s) := ⟨Position.ext_raises⟩

theorem Position.readBody_raises {d : RCtx} : Raises x (Position.readBody d) := by
  unfold Position.readBody; raises

instance {d : RCtx} : IsRaises x (Position.readBody d) := ⟨Position.readBody_raises⟩

theorem Position.read_raises {d : RCtx} : Raises x (Position.read d) := by
  unfold Position.read; raises

instance {d : RCtx} : IsRaises x (Position.read d) := ⟨Position.read_raises⟩

theorem BOBPosition.readBody_raises {d : RCtx} : Raises x (BOBPosition.readBody d) := by
  unfold BOBPosition.readBody; raises

instance {d : RCtx} : IsRaises x (BOBPosition.readBody d) := ⟨BOBPosition.readBody_raises⟩

theorem BOBPosition.read_raises {d : RCtx} : Raises x (BOBPosition.read d) := by
  unfold BOBPosition.read; raises

instance {d : RCtx} : IsRaises x (BOBPosition.read d) := ⟨BOBPosition.read_raises⟩

theorem DIDPosition.readBody_raises {d : RCtx} : Raises x (DIDPosition.readBody d) := by
  unfold DIDPosition.readBody; raises

instance {d : RCtx} : IsRaises x (DIDPosition.readBody d) := ⟨DIDPosition.readBody_raises⟩

theorem DIDPosition.read_raises {d : RCtx} : Raises x (DIDPosition.read d) := by
  unfold DIDPosition.read; raises

instance {d : RCtx} : IsRaises x (DIDPosition.read d) := ⟨DIDPosition.read_raises⟩

theorem MPGPosition.readField_raises {d : RCtx} : Raises x (MPGPosition.readField d) := by
  unfold MPGPosition.readField; raises

instance {d : RCtx} : IsRaises x (MPGPosition.readField d) := ⟨MPGPosition.readField_raises⟩

theorem MPGPosition.readFields_raises {d : RCtx} : Raises x (MPGPosition.readFields d) := by
  unfold MPGPosition.readFields; raises

instance {d : RCtx} : IsRaises x (MPGPosition.readFields d) := ⟨MPGPosition.readFields_raises⟩

theorem MPGPosition.read_raises {d : RCtx} : Raises x (MPGPosition.read d) := by
  unfold MPGPosition.read; raises

instance {d : RCtx} : IsRaises x (MPGPosition.read d) := ⟨MPGPosition.read_raises⟩

theorem BinRef.ext_raises {d : RCtx} {tag : Int} {s : BinRef} : Raises x (BinRef.ext d tag s) := by
  unfold BinRef.ext; raises

instance {d : RCtx} {tag : Int} {s : BinRef} : IsRaises x (BinRef.ext d tag s) := ⟨BinRef.ext_raises⟩

theorem BinRef.read_raises {d : RCtx} : Raises x (BinRef.read d) := by
  unfold BinRef.read; raises

instance {d : RCtx} : IsRaises x (BinRef.read d) := ⟨BinRef.read_raises⟩

theorem MobRef.ext_raises {d : RCtx} {tag : Int} {s : MobRef} : Raises x (MobRef.ext d tag s) := by
  unfold MobRef.ext; raises

instance {d : RCtx} {tag : Int} {s : MobRef} : IsRaises x (MobRef.ext d tag s) := ⟨MobRef.ext_raises⟩

theorem MobRef.readBody_raises {d : RCtx} : Raises x (MobRef.readBody d) := by
  unfold MobRef.readBody; raises

instance {d : RCtx} : IsRaises x (MobRef.readBody d) := ⟨MobRef.readBody_raises⟩

theorem MobRef.read_raises {d : RCtx} : Raises x (MobRef.read d) := by
  unfold MobRef.read; raises

instance {d : RCtx} : IsRaises x (MobRef.read d) := ⟨MobRef.read_raises⟩

theorem Marker.ext_raises {_d : RCtx} {tag : Int} {s : Marker} : Raises x (Marker.ext _d tag s) := by
  unfold Marker.ext; raises

instance {_d : RCtx} {tag : Int} {s : Marker} : IsRaises x (Marker.ext _d tag s) := ⟨Marker.ext_raises⟩

theorem Marker.read_raises {d : RCtx} : Raises x (Marker.read d) := by
  unfold Marker.read; raises

instance {d : RCtx} : IsRaises x (Marker.read d) := ⟨Marker.read_raises⟩

theorem TrackerManager.read_raises {d : RCtx} : Raises x (TrackerManager.read d) := by
  unfold TrackerManager.read; raises

instance {d : RCtx} : IsRaises x (TrackerManager.read d) := ⟨TrackerManager.read_raises⟩

theorem TrackerDataSlot.ext_raises {_d : RCtx} {tag : Int} {s : TrackerDataSlot} : Raises x (TrackerDataSlot.ext _d tag s) := by
  unfold TrackerDataSlot.ext; raises

instance {_d : RCtx} {tag : Int} {s : TrackerDataSlot} : IsRaises x (TrackerDataSlot.ext _d tag s) := ⟨TrackerDataSlot.ext_raises⟩

theorem TrackerDataSlot.read_raises {d : RCtx} : Raises x (TrackerDataSlot.read d) := by
  unfold TrackerDataSlot.read; raises

instance {d : RCtx} : IsRaises x (TrackerDataSlot.read d) := ⟨TrackerDataSlot.read_raises⟩

theorem TrackerParameterSlot.read_raises {d : RCtx} : Raises x (TrackerParameterSlot.read d) := by
  unfold TrackerParameterSlot.read; raises

instance {d : RCtx} : IsRaises x (TrackerParameterSlot.read d) := ⟨TrackerParameterSlot.read_raises⟩

theorem TrackerData.ext_raises {d : RCtx} {tag : Int} {s : TrackerData} : Raises x (TrackerData.ext d tag s) := by
  unfold TrackerData.ext; raises

instance {d : RCtx} {tag : Int} {s : TrackerData} : IsRaises x (TrackerData.ext d tag s) := ⟨TrackerData.ext_raises⟩

theorem TrackerData.read_raises {d : RCtx} : Raises x (TrackerData.read d) := by
  unfold TrackerData.read; raises

instance {d : RCtx} : IsRaises x (TrackerData.read d) := ⟨TrackerData.read_raises⟩

theorem TrackerParameter.read_raises {d : RCtx} : Raises x (TrackerParameter.read d) := by
  unfold TrackerParameter.read; raises

instance {d : RCtx} : IsRaises x (TrackerParameter.read d) := ⟨TrackerParameter.read_raises⟩

theorem MediaDescriptor.ext_raises {d : RCtx} {tag : Int} {s : MediaDescriptor} : Raises x (MediaDescriptor.ext d tag s) := by
  unfold MediaDescriptor.ext; raises

instance {d : RCtx} {tag : Int} {s : MediaDescriptor} : IsRaises x (MediaDescriptor.ext d tag s) := ⟨MediaDescriptor.ext_raises⟩

theorem MediaDescriptor.readBody_raises {d : RCtx} : Raises x (MediaDescriptor.readBody d) := by
  unfold MediaDescriptor.readBody; raises

instance {d : RCtx} : IsRaises x (MediaDescriptor.readBody d) := ⟨MediaDescriptor.readBody_raises⟩

theorem MediaDescriptor.read_raises {d : RCtx} : Raises x (MediaDescriptor.read d) := by
  unfold MediaDescriptor.read; raises

instance {d : RCtx} : IsRaises x (MediaDescriptor.read d) := ⟨MediaDescriptor.read_raises⟩

theorem TapeDescriptor.read_raises {d : RCtx} : Raises x (TapeDescriptor.read d) := by
  unfold TapeDescriptor.read; raises

instance {d : RCtx} : IsRaises x (TapeDescriptor.read d) := ⟨TapeDescriptor.read_raises⟩

theorem FilmDescriptor.read_raises {d : RCtx} : Raises x (FilmDescriptor.read d) := by
  unfold FilmDescriptor.read; raises

instance {d : RCtx} : IsRaises x (FilmDescriptor.read d) := ⟨FilmDescriptor.read_raises⟩

theorem NagraDescriptor.read_raises {d : RCtx} : Raises x (NagraDescriptor.read d) := by
  unfold NagraDescriptor.read; raises

instance {d : RCtx} : IsRaises x (NagraDescriptor.read d) := ⟨NagraDescriptor.read_raises⟩

theorem MediaFileDescriptor.readBody_raises {d : RCtx} : Raises x (MediaFileDescriptor.readBody d) := by
  unfold MediaFileDescriptor.readBody; raises

instance {d : RCtx} : IsRaises x (MediaFileDescriptor.readBody d) := ⟨MediaFileDescriptor.readBody_raises⟩

theorem MediaFileDescriptor.read_raises {d : RCtx} : Raises x (MediaFileDescriptor.read d) := by
  unfold MediaFileDescriptor.read; raises

instance {d : RCtx} : IsRaises x (MediaFileDescriptor.read d) := ⟨MediaFileDescriptor.read_raises⟩

theorem MultiDescriptor.read_raises {d : RCtx} : Raises x (MultiDescriptor.read d) := by
  unfold MultiDescriptor.read; raises

instance {d : RCtx} : IsRaises x (MultiDescriptor.read d) := ⟨MultiDescriptor.read_raises⟩

theorem WaveDescriptor.read_raises {d : RCtx} : Raises x (WaveDescriptor.read d) := by
  unfold WaveDescriptor.read; raises

instance {d : RCtx} : IsRaises x (WaveDescriptor.read d) := ⟨WaveDescriptor.read_raises⟩

theorem AIFCDescriptor.ext_raises {d : RCtx} {tag : Int} {s : AIFCDescriptor} : Raises x (AIFCDescriptor.ext d tag s) := by
  unfold AIFCDescriptor.ext; raises

instance {d : RCtx} {tag : Int} {s : AIFCDescriptor} : IsRaises x (AIFCDescriptor.ext d tag s) := ⟨AIFCDescriptor.ext_raises⟩

theorem AIFCDescriptor.read_raises {d : RCtx} : Raises x (AIFCDescriptor.read d) := by
  unfold AIFCDescriptor.read; raises

instance {d : RCtx} : IsRaises x (AIFCDescriptor.read d) := ⟨AIFCDescriptor.read_raises⟩

theorem PCMADescriptor.ext_raises {d : RCtx} {tag : Int} {s : PCMADescriptor} : Raises x (PCMADescriptor.ext d tag s) := by
  unfold PCMADescriptor.ext; raises

instance {d : RCtx} {tag : Int} {s : PCMADescriptor} : IsRaises x (PCMADescriptor.ext d tag s) := ⟨PCMADescriptor.ext_raises⟩

theorem PCMADescriptor.read_raises {d : RCtx} : Raises x (PCMADescriptor.read d) := by
  unfold PCMADescriptor.read; raises

instance {d : RCtx} : IsRaises x (PCMADescriptor.read d) := ⟨PCMADescriptor.read_raises⟩

theorem MPGADescriptor.ext_raises {d : RCtx} {tag : Int} {s : MPGADescriptor} : Raises x (MPGADescriptor.ext d tag s) := by
  unfold MPGADescriptor.ext; raises

instance {d : RCtx} {tag : Int} {s : MPGADescriptor} : IsRaises x (MPGADescriptor.ext d tag s) := ⟨MPGADescriptor.ext_raises⟩

theorem MPGADescriptor.read_raises {d : RCtx} : Raises x (MPGADescriptor.read d) := by
  unfold MPGADescriptor.read; raises

instance {d : RCtx} : IsRaises x (MPGADescriptor.read d) := ⟨MPGADescriptor.read_raises⟩

theorem rPoint_raises {d : RCtx} : Raises x (rPoint d) := by
  unfold rPoint; raises

instance {d : RCtx} : IsRaises x (rPoint d) := ⟨rPoint_raises⟩

theorem rBox_raises {d : RCtx} : Raises x (rBox d) := by
  unfold rBox; raises

instance {d : RCtx} : IsRaises x (rBox d) := ⟨rBox_raises⟩

theorem DIDDescriptor.ext_raises {d : RCtx} {tag : Int} {s : DIDDescriptor} : Raises x (DIDDescriptor.ext d tag s) := by
  unfold DIDDescriptor.ext; raises

instance {d : RCtx} {tag : Int} {s : DIDDescriptor} : IsRaises x (DIDDescriptor.ext d tag s) := ⟨DIDDescriptor.ext_raises⟩

theorem DIDDescriptor.readBody_raises {d : RCtx} : Raises x (DIDDescriptor.readBody d) := by
  unfold DIDDescriptor.readBody; raises

instance {d : RCtx} : IsRaises x (DIDDescriptor.readBody d) := ⟨DIDDescriptor.readBody_raises⟩

theorem DIDDescriptor.read_raises {d : RCtx} : Raises x (DIDDescriptor.read d) := by
  unfold DIDDescriptor.read; raises

instance {d : RCtx} : IsRaises x (DIDDescriptor.read d) := ⟨DIDDescriptor.read_raises⟩

theorem CDCIDescriptor.ext_raises {d : RCtx} {tag : Int} {s : CDCIDescriptor} : Raises x (CDCIDescriptor.ext d tag s) := by
  unfold CDCIDescriptor.ext; raises

instance {d : RCtx} {tag : Int} {s : CDCIDescriptor} : IsRaises x (CDCIDescriptor.ext d tag s) := ⟨CDCIDescriptor.ext_raises⟩

theorem CDCIDescriptor.readBody_raises {d : RCtx} : Raises x (CDCIDescriptor.readBody d) := by
  unfold CDCIDescriptor.readBody; raises

instance {d : RCtx} : IsRaises x (CDCIDescriptor.readBody d) := ⟨CDCIDescriptor.readBody_raises⟩

theorem CDCIDescriptor.read_raises {d : RCtx} : Raises x (CDCIDescriptor.read d) := by
  unfold CDCIDescriptor.read; raises

instance {d : RCtx} : IsRaises x (CDCIDescriptor.read d) := ⟨CDCIDescriptor.read_raises⟩

theorem MPGIDescriptor.read_raises {d : RCtx} : Raises x (MPGIDescriptor.read d) := by
  unfold MPGIDescriptor.read; raises

instance {d : RCtx} : IsRaises x (MPGIDescriptor.read d) := ⟨MPGIDescriptor.read_raises⟩

theorem JPEGDescriptor.ext_raises {d : RCtx} {tag : Int} {s : JPEGDescriptor} : Raises x (JPEGDescriptor.ext d tag s) := by
  unfold JPEGDescriptor.ext; raises

instance {d : RCtx} {tag : Int} {s : JPEGDescriptor} : IsRaises x (JPEGDescriptor.ext d tag s) := ⟨JPEGDescriptor.ext_raises⟩

theorem JPEGDescriptor.read_raises {d : RCtx} : Raises x (JPEGDescriptor.read d) := by
  unfold JPEGDescriptor.read; raises

instance {d : RCtx} : IsRaises x (JPEGDescriptor.read d) := ⟨JPEGDescriptor.read_raises⟩

theorem RGBADescriptor.ext_raises {d : RCtx} {tag : Int} {s : RGBADescriptor} : Raises x (RGBADescriptor.ext d tag s) := by
  unfold RGBADescriptor.ext; raises

instance {d : RCtx} {tag : Int} {s : RGBADescriptor} : IsRaises x (RGBADescriptor.ext d tag s) := ⟨RGBADescriptor.ext_raises⟩

theorem RGBADescriptor.read_raises {d : RCtx} : Raises x (RGBADescriptor.read d) := by
  unfold RGBADescriptor.read; raises

instance {d : RCtx} : IsRaises x (RGBADescriptor.read d) := ⟨RGBADescriptor.read_raises⟩

theorem DataDescriptor.read_raises {d : RCtx} : Raises x (DataDescriptor.read d) := by
  unfold DataDescriptor.read; raises

instance {d : RCtx} : IsRaises x (DataDescriptor.read d) := ⟨DataDescriptor.read_raises⟩

theorem ANCDataDescriptor.read_raises {d : RCtx} : Raises x (ANCDataDescriptor.read d) := by
  unfold ANCDataDescriptor.read; raises

instance {d : RCtx} : IsRaises x (ANCDataDescriptor.read d) := ⟨ANCDataDescriptor.read_raises⟩

theorem Attributes.readItem_raises {d : RCtx} : Raises true (Attributes.readItem d) := by
  unfold Attributes.readItem; raises

instance {d : RCtx} : IsRaises true (Attributes.readItem d) := ⟨Attributes.readItem_raises⟩

theorem Attributes.read_raises {d : RCtx} : Raises true (Attributes.read d) := by
  unfold Attributes.read; raises

instance {d : RCtx} : IsRaises true (Attributes.read d) := ⟨Attributes.read_raises⟩

theorem ParameterList.read_raises {d : RCtx} : Raises x (ParameterList.read d) := by
  unfold ParameterList.read; raises

instance {d : RCtx} : IsRaises x (ParameterList.read d) := ⟨ParameterList.read_raises⟩

theorem TimeCrumbList.read_raises {d : RCtx} : Raises x (TimeCrumbList.read d) := by
  unfold TimeCrumbList.read; raises

instance {d : RCtx} : IsRaises x (TimeCrumbList.read d) := ⟨TimeCrumbList.read_raises⟩

theorem Setting.read_raises {d : RCtx} : Raises x (Setting.read d) := by
  unfold Setting.read; raises

instance {d : RCtx} : IsRaises x (Setting.read d) := ⟨Setting.read_raises⟩

theorem BinColumn.read_raises {d : RCtx} : Raises x (BinColumn.read d) := by
  unfold BinColumn.read; raises

instance {d : RCtx} : IsRaises x (BinColumn.read d) := ⟨BinColumn.read_raises⟩

theorem FormatDescriptor.read_raises {d : RCtx} : Raises x (FormatDescriptor.read d) := by
  unfold FormatDescriptor.read; raises

instance {d : RCtx} : IsRaises x (FormatDescriptor.read d) := ⟨FormatDescriptor.read_raises⟩

theorem BinViewSetting.ext_raises {d : RCtx} {tag : Int} {s : BinViewSetting} : Raises x (BinViewSetting.ext d tag s) := by
  unfold BinViewSetting.ext; raises

instance {d : RCtx} {tag : Int} {s : BinViewSetting} : IsRaises x (BinViewSetting.ext d tag s) := ⟨BinViewSetting.ext_raises⟩

theorem BinViewSetting.read_raises {d : RCtx} : Raises x (BinViewSetting.read d) := by
  unfold BinViewSetting.read; raises

instance {d : RCtx} : IsRaises x (BinViewSetting.read d) := ⟨BinViewSetting.read_raises⟩

theorem BinItem.read_raises {d : RCtx} : Raises x (BinItem.read d) := by
  unfold BinItem.read; raises

instance {d : RCtx} : IsRaises x (BinItem.read d) := ⟨BinItem.read_raises⟩

theorem SiftItem.read_raises {d : RCtx} : Raises x (SiftItem.read d) := by
  unfold SiftItem.read; raises

instance {d : RCtx} : IsRaises x (SiftItem.read d) := ⟨SiftItem.read_raises⟩

theorem rSortColumn_raises {d : RCtx} : Raises x (rSortColumn d) := by
  unfold rSortColumn; raises

instance {d : RCtx} : IsRaises x (rSortColumn d) := ⟨rSortColumn_raises⟩

theorem Bin.readCount_raises {d : RCtx} {version : Int} : Raises x (Bin.readCount d version) := by
  unfold Bin.readCount; raises

instance {d : RCtx} {version : Int} : IsRaises x (Bin.readCount d version) := ⟨Bin.readCount_raises⟩

theorem Bin.readBody_raises {d : RCtx} : Raises x (Bin.readBody d) := by
  unfold Bin.readBody; raises

instance {d : RCtx} : IsRaises x (Bin.readBody d) := ⟨Bin.readBody_raises⟩

theorem Bin.read_raises {d : RCtx} : Raises x (Bin.read d) := by
  unfold Bin.read; raises

instance {d : RCtx} : IsRaises x (Bin.read d) := ⟨Bin.read_raises⟩

theorem BinFirst.read_raises {d : RCtx} : Raises x (BinFirst.read d) := by
  unfold BinFirst.read; raises

instance {d : RCtx} : IsRaises x (BinFirst.read d) := ⟨BinFirst.read_raises⟩

theorem RaisesIn.as {α : Type} {r : Rd α} {f : α → Obj} (h : Raises x r) : Raises x (r.as f) :=
  RaisesIn.bind h fun _ => RaisesIn.pure

theorem Obj.readAs_raises (d : RCtx) (k : Cls) : Raises (decide (k = .ATTR)) (Obj.readAs d k) := by
  cases k
  case ATTR => exact RaisesIn.as (Attributes.read_raises (d := d))
  all_goals exact RaisesIn.as IsRaises.h

theorem rStr_mac {E : Err → Prop} {bo : BO} (h0 : E .struct) : RaisesIn E (rStr bo .macroman) := by
  unfold rStr
  refine RaisesIn.bind (RaisesIn.int h0) fun n => RaisesIn.ite RaisesIn.pure ?_
  exact RaisesIn.bind RaisesIn.fread fun s => RaisesIn.pure

theorem rFourcc_raisesIn {E : Err → Prop} {bo : BO} : RaisesIn E (rFourcc bo) := by
  unfold rFourcc
  refine RaisesIn.bind RaisesIn.fread fun d => ?_
  cases bo <;> exact RaisesIn.pure

theorem readHeader_raises {E : Err → Prop} {bo : BO} (h0 : E .struct) (h1 : E .assertion) :
    RaisesIn E (readHeader bo) := by
  unfold readHeader rDate
  repeat' with_reducible first
    | exact RaisesIn.pure
    | exact RaisesIn.int h0
    | exact RaisesIn.guard h1
    | exact RaisesIn.fread
    | exact rStr_mac h0
    | exact rFourcc_raisesIn
    | refine RaisesIn.bind ?_ fun _ => ?_

theorem scanChunks_raises {E : Err → Prop} {bo : BO} (h0 : E .struct) {n pos : Nat} {bs : Bytes}
    {e : Err} (h : scanChunks bo n pos bs = .error e) : E e := by
  induction n generalizing pos bs with
  | zero => cases h
  | succ n ih =>
    unfold scanChunks at h
    split at h
    · rename_i h1
      cases h
      exact (RaisesIn.bind RaisesIn.fread fun _ => RaisesIn.int h0) _ _ h1
    · split at h
      · rename_i h2
        cases h
        exact ih h2
      · cases h

end Avb
