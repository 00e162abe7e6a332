import Verif.Lemmas.Mono
import Verif.Model.Obj

/-
`Mono` for every reader, in the order of the model files.
-/

namespace Avb

theorem rBool_mono  : Mono (rBool) := by
  unfold rBool; mono

instance  : IsMono (rBool) := ⟨rBool_mono⟩

theorem rStr_mono {bo : BO} {e : Enc} : Mono (rStr bo e) := by
  unfold rStr; mono

instance {bo : BO} {e : Enc} : IsMono (rStr bo e) := ⟨rStr_mono⟩

theorem rRate_mono {bo : BO} : Mono (rRate bo) := by
  unfold rRate; mono

instance {bo : BO} : IsMono (rRate bo) := ⟨rRate_mono⟩

theorem rRef_mono {c : RCtx} : Mono (rRef c) := by
  unfold rRef; mono

instance {c : RCtx} : IsMono (rRef c) := ⟨rRef_mono⟩

theorem rDouble_mono  : Mono (rDouble) := by
  unfold rDouble; mono

instance  : IsMono (rDouble) := ⟨rDouble_mono⟩

theorem rUuid_mono {bo : BO} : Mono (rUuid bo) := by
  unfold rUuid; mono

instance {bo : BO} : IsMono (rUuid bo) := ⟨rUuid_mono⟩

theorem rRawUuid_mono {bo : BO} : Mono (rRawUuid bo) := by
  unfold rRawUuid; mono

instance {bo : BO} : IsMono (rRawUuid bo) := ⟨rRawUuid_mono⟩

theorem rByte_mono  : Mono (rByte) := by
  unfold rByte; mono

instance  : IsMono (rByte) := ⟨rByte_mono⟩

theorem rMobId_mono {bo : BO} : Mono (rMobId bo) := by
  unfold rMobId; mono

instance {bo : BO} : IsMono (rMobId bo) := ⟨rMobId_mono⟩

theorem rDate_mono {bo : BO} : Mono (rDate bo) := by
  unfold rDate; mono

instance {bo : BO} : IsMono (rDate bo) := ⟨rDate_mono⟩

theorem rRect_mono {bo : BO} : Mono (rRect bo) := by
  unfold rRect; mono

instance {bo : BO} : IsMono (rRect bo) := ⟨rRect_mono⟩

theorem rRgb_mono {bo : BO} : Mono (rRgb bo) := by
  unfold rRgb; mono

instance {bo : BO} : IsMono (rRgb bo) := ⟨rRgb_mono⟩

theorem rFourcc_mono {bo : BO} : Mono (rFourcc bo) := by
  unfold rFourcc; mono

instance {bo : BO} : IsMono (rFourcc bo) := ⟨rFourcc_mono⟩

theorem Component.ext_mono {d : RCtx} {tag : Int} {s : Component} : Mono (Component.ext d tag s) := by
  unfold Component.ext; mono

instance {d : RCtx} {tag : Int} {s : Component} : IsMono (Component.ext d tag s) := ⟨Component.ext_mono⟩

theorem Component.read_mono {d : RCtx} : Mono (Component.read d) := by
  unfold Component.read; mono

instance {d : RCtx} : IsMono (Component.read d) := ⟨Component.read_mono⟩

theorem Sequence.read_mono {d : RCtx} : Mono (Sequence.read d) := by
  unfold Sequence.read; mono

instance {d : RCtx} : IsMono (Sequence.read d) := ⟨Sequence.read_mono⟩

theorem Clip.read_mono {d : RCtx} : Mono (Clip.read d) := by
  unfold Clip.read; mono

instance {d : RCtx} : IsMono (Clip.read d) := ⟨Clip.read_mono⟩

theorem SourceClip.ext_mono {d : RCtx} {tag : Int} {s : SourceClip} : Mono (SourceClip.ext d tag s) := by
  unfold SourceClip.ext; mono

instance {d : RCtx} {tag : Int} {s : SourceClip} : IsMono (SourceClip.ext d tag s) := ⟨SourceClip.ext_mono⟩

theorem SourceClip.read_mono {d : RCtx} : Mono (SourceClip.read d) := by
  unfold SourceClip.read; mono

instance {d : RCtx} : IsMono (SourceClip.read d) := ⟨SourceClip.read_mono⟩

theorem Timecode.read_mono {d : RCtx} : Mono (Timecode.read d) := by
  unfold Timecode.read; mono

instance {d : RCtx} : IsMono (Timecode.read d) := ⟨Timecode.read_mono⟩

theorem Edgecode.read_mono {d : RCtx} : Mono (Edgecode.read d) := by
  unfold Edgecode.read; mono

instance {d : RCtx} : IsMono (Edgecode.read d) := ⟨Edgecode.read_mono⟩

theorem TrackRef.read_mono {d : RCtx} : Mono (TrackRef.read d) := by
  unfold TrackRef.read; mono

instance {d : RCtx} : IsMono (TrackRef.read d) := ⟨TrackRef.read_mono⟩

theorem PCPProp.readValue_mono {d : RCtx} {type : Int} : Mono (PCPProp.readValue d type) := by
  unfold PCPProp.readValue; mono

instance {d : RCtx} {type : Int} : IsMono (PCPProp.readValue d type) := ⟨PCPProp.readValue_mono⟩

theorem PCPProp.read_mono {d : RCtx} : Mono (PCPProp.read d) := by
  unfold PCPProp.read; mono

instance {d : RCtx} : IsMono (PCPProp.read d) := ⟨PCPProp.read_mono⟩

theorem PCP.readValue_mono {d : RCtx} {value_type : Int} : Mono (PCP.readValue d value_type) := by
  unfold PCP.readValue; mono

instance {d : RCtx} {value_type : Int} : IsMono (PCP.readValue d value_type) := ⟨PCP.readValue_mono⟩

theorem PCP.read_mono {d : RCtx} {value_type : Int} : Mono (PCP.read d value_type) := by
  unfold PCP.read; mono

instance {d : RCtx} {value_type : Int} : IsMono (PCP.read d value_type) := ⟨PCP.read_mono⟩

theorem ParamClip.ext_mono {d : RCtx} {tag : Int} {s : ParamClip} : Mono (ParamClip.ext d tag s) := by
  unfold ParamClip.ext; mono

instance {d : RCtx} {tag : Int} {s : ParamClip} : IsMono (ParamClip.ext d tag s) := ⟨ParamClip.ext_mono⟩

theorem ParamClip.read_mono {d : RCtx} : Mono (ParamClip.read d) := by
  unfold ParamClip.read; mono

instance {d : RCtx} : IsMono (ParamClip.read d) := ⟨ParamClip.read_mono⟩

theorem CPProp.read_mono {d : RCtx} : Mono (CPProp.read d) := by
  unfold CPProp.read; mono

instance {d : RCtx} : IsMono (CPProp.read d) := ⟨CPProp.read_mono⟩

theorem CP.read_mono {d : RCtx} : Mono (CP.read d) := by
  unfold CP.read; mono

instance {d : RCtx} : IsMono (CP.read d) := ⟨CP.read_mono⟩

theorem ControlClip.read_mono {d : RCtx} : Mono (ControlClip.read d) := by
  unfold ControlClip.read; mono

instance {d : RCtx} : IsMono (ControlClip.read d) := ⟨ControlClip.read_mono⟩

theorem Filler.read_mono {d : RCtx} : Mono (Filler.read d) := by
  unfold Filler.read; mono

instance {d : RCtx} : IsMono (Filler.read d) := ⟨Filler.read_mono⟩

theorem Track.read_mono {d : RCtx} : Mono (Track.read d) := by
  unfold Track.read; mono

instance {d : RCtx} : IsMono (Track.read d) := ⟨Track.read_mono⟩

theorem rLock_mono {d : RCtx} : Mono (rLock d) := by
  unfold rLock; mono

instance {d : RCtx} : IsMono (rLock d) := ⟨rLock_mono⟩

theorem TrackGroup.ext_mono {d : RCtx} {tag : Int} {s : TrackGroup} : Mono (TrackGroup.ext d tag s) := by
  unfold TrackGroup.ext; mono

instance {d : RCtx} {tag : Int} {s : TrackGroup} : IsMono (TrackGroup.ext d tag s) := ⟨TrackGroup.ext_mono⟩

theorem TrackGroup.read_mono {d : RCtx} : Mono (TrackGroup.read d) := by
  unfold TrackGroup.read; mono

instance {d : RCtx} : IsMono (TrackGroup.read d) := ⟨TrackGroup.read_mono⟩

theorem TrackEffect.ext_mono {d : RCtx} {tag : Int} {s : TrackEffect} : Mono (TrackEffect.ext d tag s) := by
  unfold TrackEffect.ext; mono

instance {d : RCtx} {tag : Int} {s : TrackEffect} : IsMono (TrackEffect.ext d tag s) := ⟨TrackEffect.ext_mono⟩

theorem TrackEffect.readBody_mono {d : RCtx} : Mono (TrackEffect.readBody d) := by
  unfold TrackEffect.readBody; mono

instance {d : RCtx} : IsMono (TrackEffect.readBody d) := ⟨TrackEffect.readBody_mono⟩

theorem TrackEffect.read_mono {d : RCtx} : Mono (TrackEffect.read d) := by
  unfold TrackEffect.read; mono

instance {d : RCtx} : IsMono (TrackEffect.read d) := ⟨TrackEffect.read_mono⟩

theorem PanVolumeEffect.ext_mono {d : RCtx} {tag : Int} {s : PanVolumeEffect} : Mono (PanVolumeEffect.ext d tag s) := by
  unfold PanVolumeEffect.ext; mono

instance {d : RCtx} {tag : Int} {s : PanVolumeEffect} : IsMono (PanVolumeEffect.ext d tag s) := ⟨PanVolumeEffect.ext_mono⟩

theorem PanVolumeEffect.read_mono {d : RCtx} : Mono (PanVolumeEffect.read d) := by
  unfold PanVolumeEffect.read; mono

instance {d : RCtx} : IsMono (PanVolumeEffect.read d) := ⟨PanVolumeEffect.read_mono⟩

theorem ASPIPluginChunk.read_mono {d : RCtx} : Mono (ASPIPluginChunk.read d) := by
  unfold ASPIPluginChunk.read; mono

instance {d : RCtx} : IsMono (ASPIPluginChunk.read d) := ⟨ASPIPluginChunk.read_mono⟩

theorem ASPIPlugin.read_mono {d : RCtx} : Mono (ASPIPlugin.read d) := by
  unfold ASPIPlugin.read; mono

instance {d : RCtx} : IsMono (ASPIPlugin.read d) := ⟨ASPIPlugin.read_mono⟩

theorem rPresetPath_mono {d : RCtx} : Mono (rPresetPath d) := by
  unfold rPresetPath; mono

instance {d : RCtx} : IsMono (rPresetPath d) := ⟨rPresetPath_mono⟩

theorem AudioSuitePluginEffect.ext_mono {d : RCtx} {tag : Int} {s : AudioSuitePluginEffect} : Mono (AudioSuitePluginEffect.ext d tag s) := by
  unfold AudioSuitePluginEffect.ext; mono

instance {d : RCtx} {tag : Int} {s : AudioSuitePluginEffect} : IsMono (AudioSuitePluginEffect.ext d tag s) := ⟨AudioSuitePluginEffect.ext_mono⟩

theorem AudioSuitePluginEffect.read_mono {d : RCtx} : Mono (AudioSuitePluginEffect.read d) := by
  unfold AudioSuitePluginEffect.read; mono

instance {d : RCtx} : IsMono (AudioSuitePluginEffect.read d) := ⟨AudioSuitePluginEffect.read_mono⟩

theorem EqualizerBand.read_mono {d : RCtx} : Mono (EqualizerBand.read d) := by
  unfold EqualizerBand.read; mono

instance {d : RCtx} : IsMono (EqualizerBand.read d) := ⟨EqualizerBand.read_mono⟩

theorem EqualizerMultiBand.read_mono {d : RCtx} : Mono (EqualizerMultiBand.read d) := by
  unfold EqualizerMultiBand.read; mono

instance {d : RCtx} : IsMono (EqualizerMultiBand.read d) := ⟨EqualizerMultiBand.read_mono⟩

theorem TimeWarp.read_mono {d : RCtx} : Mono (TimeWarp.read d) := by
  unfold TimeWarp.read; mono

instance {d : RCtx} : IsMono (TimeWarp.read d) := ⟨TimeWarp.read_mono⟩

theorem CaptureMask.read_mono {d : RCtx} : Mono (CaptureMask.read d) := by
  unfold CaptureMask.read; mono

instance {d : RCtx} : IsMono (CaptureMask.read d) := ⟨CaptureMask.read_mono⟩

theorem StrobeEffect.read_mono {d : RCtx} : Mono (StrobeEffect.read d) := by
  unfold StrobeEffect.read; mono

instance {d : RCtx} : IsMono (StrobeEffect.read d) := ⟨StrobeEffect.read_mono⟩

theorem MotionEffect.ext_mono {d : RCtx} {tag : Int} {s : MotionEffect} : Mono (MotionEffect.ext d tag s) := by
  unfold MotionEffect.ext; mono

instance {d : RCtx} {tag : Int} {s : MotionEffect} : IsMono (MotionEffect.ext d tag s) := ⟨MotionEffect.ext_mono⟩

theorem MotionEffect.read_mono {d : RCtx} : Mono (MotionEffect.read d) := by
  unfold MotionEffect.read; mono

instance {d : RCtx} : IsMono (MotionEffect.read d) := ⟨MotionEffect.read_mono⟩

theorem Repeat.read_mono {d : RCtx} : Mono (Repeat.read d) := by
  unfold Repeat.read; mono

instance {d : RCtx} : IsMono (Repeat.read d) := ⟨Repeat.read_mono⟩

theorem EssenceGroup.ext_mono {d : RCtx} {tag : Int} {s : EssenceGroup} : Mono (EssenceGroup.ext d tag s) := by
  unfold EssenceGroup.ext; mono

instance {d : RCtx} {tag : Int} {s : EssenceGroup} : IsMono (EssenceGroup.ext d tag s) := ⟨EssenceGroup.ext_mono⟩

theorem EssenceGroup.read_mono {d : RCtx} : Mono (EssenceGroup.read d) := by
  unfold EssenceGroup.read; mono

instance {d : RCtx} : IsMono (EssenceGroup.read d) := ⟨EssenceGroup.read_mono⟩

theorem TransitionEffect.ext_mono {d : RCtx} {tag : Int} {s : TransitionEffect} : Mono (TransitionEffect.ext d tag s) := by
  unfold TransitionEffect.ext; mono

instance {d : RCtx} {tag : Int} {s : TransitionEffect} : IsMono (TransitionEffect.ext d tag s) := ⟨TransitionEffect.ext_mono⟩

theorem TransitionEffect.read_mono {d : RCtx} : Mono (TransitionEffect.read d) := by
  unfold TransitionEffect.read; mono

instance {d : RCtx} : IsMono (TransitionEffect.read d) := ⟨TransitionEffect.read_mono⟩

theorem Selector.read_mono {d : RCtx} : Mono (Selector.read d) := by
  unfold Selector.read; mono

instance {d : RCtx} : IsMono (Selector.read d) := ⟨Selector.read_mono⟩

theorem Composition.ext_mono {d : RCtx} {tag : Int} {s : Composition} : Mono (Composition.ext d tag s) := by
  unfold Composition.ext; mono

instance {d : RCtx} {tag : Int} {s : Composition} : IsMono (Composition.ext d tag s) := ⟨Composition.ext_mono⟩

theorem Composition.read_mono {d : RCtx} : Mono (Composition.read d) := by
  unfold Composition.read; mono

instance {d : RCtx} : IsMono (Composition.read d) := ⟨Composition.read_mono⟩

theorem FileLocator.ext_mono {d : RCtx} {tag : Int} {s : FileLocator} : Mono (FileLocator.ext d tag s) := by
  unfold FileLocator.ext; mono

instance {d : RCtx} {tag : Int} {s : FileLocator} : IsMono (FileLocator.ext d tag s) := ⟨FileLocator.ext_mono⟩

theorem FileLocator.read_mono {d : RCtx} : Mono (FileLocator.read d) := by
  unfold FileLocator.read; mono

instance {d : RCtx} : IsMono (FileLocator.read d) := ⟨FileLocator.read_mono⟩

theorem URLLocator.read_mono {_d : RCtx} : Mono (URLLocator.read _d) := by
  unfold URLLocator.read; mono

instance {_d : RCtx} : IsMono (URLLocator.read _d) := ⟨URLLocator.read_mono⟩

theorem GraphicEffect.read_mono {d : RCtx} : Mono (GraphicEffect.read d) := by
  unfold GraphicEffect.read; mono

instance {d : RCtx} : IsMono (GraphicEffect.read d) := ⟨GraphicEffect.read_mono⟩

theorem ShapeList.read_mono {d : RCtx} : Mono (ShapeList.read d) := by
  unfold ShapeList.read; mono

instance {d : RCtx} : IsMono (ShapeList.read d) := ⟨ShapeList.read_mono⟩

theorem ColorCorrectionEffect.read_mono {d : RCtx} : Mono (ColorCorrectionEffect.read d) := by
  unfold ColorCorrectionEffect.read; mono

instance {d : RCtx} : IsMono (ColorCorrectionEffect.read d) := ⟨ColorCorrectionEffect.read_mono⟩

theorem EffectParam.read_mono {d : RCtx} : Mono (EffectParam.read d) := by
  unfold EffectParam.read; mono

instance {d : RCtx} : IsMono (EffectParam.read d) := ⟨EffectParam.read_mono⟩

theorem EffectParamList.read_mono {d : RCtx} : Mono (EffectParamList.read d) := by
  unfold EffectParamList.read; mono

instance {d : RCtx} : IsMono (EffectParamList.read d) := ⟨EffectParamList.read_mono⟩

theorem CFUserParam.read_mono {d : RCtx} : Mono (CFUserParam.read d) := by
  unfold CFUserParam.read; mono

instance {d : RCtx} : IsMono (CFUserParam.read d) := ⟨CFUserParam.read_mono⟩

theorem ParameterItem.readValue_mono {d : RCtx} {value_type : Int} : Mono (ParameterItem.readValue d value_type) := by
  unfold ParameterItem.readValue; mono

instance {d : RCtx} {value_type : Int} : IsMono (ParameterItem.readValue d value_type) := ⟨ParameterItem.readValue_mono⟩

theorem ParameterItem.ext_mono {_d : RCtx} {tag : Int} {s : ParameterItem} : Mono (ParameterItem.ext _d tag s) := by
  unfold ParameterItem.ext; mono

instance {_d : RCtx} {tag : Int} {s : ParameterItem} : IsMono (ParameterItem.ext _d tag s) := ⟨ParameterItem.ext_mono⟩

theorem ParameterItem.read_mono {d : RCtx} : Mono (ParameterItem.read d) := by
  unfold ParameterItem.read; mono

instance {d : RCtx} : IsMono (ParameterItem.read d) := ⟨ParameterItem.read_mono⟩

theorem MSMLocator.ext_mono {d : RCtx} {tag : Int} {s : MSMLocator} : Mono (MSMLocator.ext d tag s) := by
  unfold MSMLocator.ext; mono

instance {d : RCtx} {tag : Int} {s : MSMLocator} : IsMono (MSMLocator.ext d tag s) := ⟨MSMLocator.ext_mono⟩

theorem MSMLocator.read_mono {d : RCtx} : Mono (MSMLocator.read d) := by
  unfold MSMLocator.read; mono

instance {d : RCtx} : IsMono (MSMLocator.read d) := ⟨MSMLocator.read_mono⟩

theorem Position.ext_mono {d : RCtx} {tag : Int} {s : Position} : Mono (Position.ext d tag s) := by
  unfold Position.ext; mono

instance {d : RCtx} {tag : Int} {s : Position} : IsMono (Position.ext d tag s) := ⟨Position.ext_mono⟩

theorem Position.readBody_mono {d : RCtx} : Mono (Position.readBody d) := by
  unfold Position.readBody; mono

instance {d : RCtx} : IsMono (Position.readBody d) := ⟨Position.readBody_mono⟩

theorem Position.read_mono {d : RCtx} : Mono (Position.read d) := by
  unfold Position.read; mono

instance {d : RCtx} : IsMono (Position.read d) := ⟨Position.read_mono⟩

theorem BOBPosition.readBody_mono {d : RCtx} : Mono (BOBPosition.readBody d) := by
  unfold BOBPosition.readBody; mono

instance {d : RCtx} : IsMono (BOBPosition.readBody d) := ⟨BOBPosition.readBody_mono⟩

theorem BOBPosition.read_mono {d : RCtx} : Mono (BOBPosition.read d) := by
  unfold BOBPosition.read; mono

instance {d : RCtx} : IsMono (BOBPosition.read d) := ⟨BOBPosition.read_mono⟩

theorem DIDPosition.readBody_mono {d : RCtx} : Mono (DIDPosition.readBody d) := by
  unfold DIDPosition.readBody; mono

instance {d : RCtx} : IsMono (DIDPosition.readBody d) := ⟨DIDPosition.readBody_mono⟩

theorem DIDPosition.read_mono {d : RCtx} : Mono (DIDPosition.read d) := by
  unfold DIDPosition.read; mono

instance {d : RCtx} : IsMono (DIDPosition.read d) := ⟨DIDPosition.read_mono⟩

theorem MPGPosition.readField_mono {d : RCtx} : Mono (MPGPosition.readField d) := by
  unfold MPGPosition.readField; mono

instance {d : RCtx} : IsMono (MPGPosition.readField d) := ⟨MPGPosition.readField_mono⟩

theorem MPGPosition.readFields_mono {d : RCtx} : Mono (MPGPosition.readFields d) := by
  unfold MPGPosition.readFields; mono

instance {d : RCtx} : IsMono (MPGPosition.readFields d) := ⟨MPGPosition.readFields_mono⟩

theorem MPGPosition.read_mono {d : RCtx} : Mono (MPGPosition.read d) := by
  unfold MPGPosition.read; mono

instance {d : RCtx} : IsMono (MPGPosition.read d) := ⟨MPGPosition.read_mono⟩

theorem BinRef.ext_mono {d : RCtx} {tag : Int} {s : BinRef} : Mono (BinRef.ext d tag s) := by
  unfold BinRef.ext; mono

instance {d : RCtx} {tag : Int} {s : BinRef} : IsMono (BinRef.ext d tag s) := ⟨BinRef.ext_mono⟩

theorem BinRef.read_mono {d : RCtx} : Mono (BinRef.read d) := by
  unfold BinRef.read; mono

instance {d : RCtx} : IsMono (BinRef.read d) := ⟨BinRef.read_mono⟩

theorem MobRef.ext_mono {d : RCtx} {tag : Int} {s : MobRef} : Mono (MobRef.ext d tag s) := by
  unfold MobRef.ext; mono

instance {d : RCtx} {tag : Int} {s : MobRef} : IsMono (MobRef.ext d tag s) := ⟨MobRef.ext_mono⟩

theorem MobRef.readBody_mono {d : RCtx} : Mono (MobRef.readBody d) := by
  unfold MobRef.readBody; mono

instance {d : RCtx} : IsMono (MobRef.readBody d) := ⟨MobRef.readBody_mono⟩

theorem MobRef.read_mono {d : RCtx} : Mono (MobRef.read d) := by
  unfold MobRef.read; mono

instance {d : RCtx} : IsMono (MobRef.read d) := ⟨MobRef.read_mono⟩

theorem Marker.ext_mono {_d : RCtx} {tag : Int} {s : Marker} : Mono (Marker.ext _d tag s) := by
  unfold Marker.ext; mono

instance {_d : RCtx} {tag : Int} {s : Marker} : IsMono (Marker.ext _d tag s) := ⟨Marker.ext_mono⟩

theorem Marker.read_mono {d : RCtx} : Mono (Marker.read d) := by
  unfold Marker.read; mono

instance {d : RCtx} : IsMono (Marker.read d) := ⟨Marker.read_mono⟩

theorem TrackerManager.read_mono {d : RCtx} : Mono (TrackerManager.read d) := by
  unfold TrackerManager.read; mono

instance {d : RCtx} : IsMono (TrackerManager.read d) := ⟨TrackerManager.read_mono⟩

theorem TrackerDataSlot.ext_mono {_d : RCtx} {tag : Int} {s : TrackerDataSlot} : Mono (TrackerDataSlot.ext _d tag s) := by
  unfold TrackerDataSlot.ext; mono

instance {_d : RCtx} {tag : Int} {s : TrackerDataSlot} : IsMono (TrackerDataSlot.ext _d tag s) := ⟨TrackerDataSlot.ext_mono⟩

theorem TrackerDataSlot.read_mono {d : RCtx} : Mono (TrackerDataSlot.read d) := by
  unfold TrackerDataSlot.read; mono

instance {d : RCtx} : IsMono (TrackerDataSlot.read d) := ⟨TrackerDataSlot.read_mono⟩

theorem TrackerParameterSlot.read_mono {d : RCtx} : Mono (TrackerParameterSlot.read d) := by
  unfold TrackerParameterSlot.read; mono

instance {d : RCtx} : IsMono (TrackerParameterSlot.read d) := ⟨TrackerParameterSlot.read_mono⟩

theorem TrackerData.ext_mono {d : RCtx} {tag : Int} {s : TrackerData} : Mono (TrackerData.ext d tag s) := by
  unfold TrackerData.ext; mono

instance {d : RCtx} {tag : Int} {s : TrackerData} : IsMono (TrackerData.ext d tag s) := ⟨TrackerData.ext_mono⟩

theorem TrackerData.read_mono {d : RCtx} : Mono (TrackerData.read d) := by
  unfold TrackerData.read; mono

instance {d : RCtx} : IsMono (TrackerData.read d) := ⟨TrackerData.read_mono⟩

theorem TrackerParameter.read_mono {d : RCtx} : Mono (TrackerParameter.read d) := by
  unfold TrackerParameter.read; mono

instance {d : RCtx} : IsMono (TrackerParameter.read d) := ⟨TrackerParameter.read_mono⟩

theorem MediaDescriptor.ext_mono {d : RCtx} {tag : Int} {s : MediaDescriptor} : Mono (MediaDescriptor.ext d tag s) := by
  unfold MediaDescriptor.ext; mono

instance {d : RCtx} {tag : Int} {s : MediaDescriptor} : IsMono (MediaDescriptor.ext d tag s) := ⟨MediaDescriptor.ext_mono⟩

theorem MediaDescriptor.readBody_mono {d : RCtx} : Mono (MediaDescriptor.readBody d) := by
  unfold MediaDescriptor.readBody; mono

instance {d : RCtx} : IsMono (MediaDescriptor.readBody d) := ⟨MediaDescriptor.readBody_mono⟩

theorem MediaDescriptor.read_mono {d : RCtx} : Mono (MediaDescriptor.read d) := by
  unfold MediaDescriptor.read; mono

instance {d : RCtx} : IsMono (MediaDescriptor.read d) := ⟨MediaDescriptor.read_mono⟩

theorem TapeDescriptor.read_mono {d : RCtx} : Mono (TapeDescriptor.read d) := by
  unfold TapeDescriptor.read; mono

instance {d : RCtx} : IsMono (TapeDescriptor.read d) := ⟨TapeDescriptor.read_mono⟩

theorem FilmDescriptor.read_mono {d : RCtx} : Mono (FilmDescriptor.read d) := by
  unfold FilmDescriptor.read; mono

instance {d : RCtx} : IsMono (FilmDescriptor.read d) := ⟨FilmDescriptor.read_mono⟩

theorem NagraDescriptor.read_mono {d : RCtx} : Mono (NagraDescriptor.read d) := by
  unfold NagraDescriptor.read; mono

instance {d : RCtx} : IsMono (NagraDescriptor.read d) := ⟨NagraDescriptor.read_mono⟩

theorem MediaFileDescriptor.readBody_mono {d : RCtx} : Mono (MediaFileDescriptor.readBody d) := by
  unfold MediaFileDescriptor.readBody; mono

instance {d : RCtx} : IsMono (MediaFileDescriptor.readBody d) := ⟨MediaFileDescriptor.readBody_mono⟩

theorem MediaFileDescriptor.read_mono {d : RCtx} : Mono (MediaFileDescriptor.read d) := by
  unfold MediaFileDescriptor.read; mono

instance {d : RCtx} : IsMono (MediaFileDescriptor.read d) := ⟨MediaFileDescriptor.read_mono⟩

theorem MultiDescriptor.read_mono {d : RCtx} : Mono (MultiDescriptor.read d) := by
  unfold MultiDescriptor.read; mono

instance {d : RCtx} : IsMono (MultiDescriptor.read d) := ⟨MultiDescriptor.read_mono⟩

theorem WaveDescriptor.read_mono {d : RCtx} : Mono (WaveDescriptor.read d) := by
  unfold WaveDescriptor.read; mono

instance {d : RCtx} : IsMono (WaveDescriptor.read d) := ⟨WaveDescriptor.read_mono⟩

theorem AIFCDescriptor.ext_mono {d : RCtx} {tag : Int} {s : AIFCDescriptor} : Mono (AIFCDescriptor.ext d tag s) := by
  unfold AIFCDescriptor.ext; mono

instance {d : RCtx} {tag : Int} {s : AIFCDescriptor} : IsMono (AIFCDescriptor.ext d tag s) := ⟨AIFCDescriptor.ext_mono⟩

theorem AIFCDescriptor.read_mono {d : RCtx} : Mono (AIFCDescriptor.read d) := by
  unfold AIFCDescriptor.read; mono

instance {d : RCtx} : IsMono (AIFCDescriptor.read d) := ⟨AIFCDescriptor.read_mono⟩

theorem PCMADescriptor.ext_mono {d : RCtx} {tag : Int} {s : PCMADescriptor} : Mono (PCMADescriptor.ext d tag s) := by
  unfold PCMADescriptor.ext; mono

instance {d : RCtx} {tag : Int} {s : PCMADescriptor} : IsMono (PCMADescriptor.ext d tag s) := ⟨PCMADescriptor.ext_mono⟩

theorem PCMADescriptor.read_mono {d : RCtx} : Mono (PCMADescriptor.read d) := by
  unfold PCMADescriptor.read; mono

instance {d : RCtx} : IsMono (PCMADescriptor.read d) := ⟨PCMADescriptor.read_mono⟩

theorem MPGADescriptor.ext_mono {d : RCtx} {tag : Int} {s : MPGADescriptor} : Mono (MPGADescriptor.ext d tag s) := by
  unfold MPGADescriptor.ext; mono

instance {d : RCtx} {tag : Int} {s : MPGADescriptor} : IsMono (MPGADescriptor.ext d tag s) := ⟨MPGADescriptor.ext_mono⟩

theorem MPGADescriptor.read_mono {d : RCtx} : Mono (MPGADescriptor.read d) := by
  unfold MPGADescriptor.read; mono

instance {d : RCtx} : IsMono (MPGADescriptor.read d) := ⟨MPGADescriptor.read_mono⟩

theorem rPoint_mono {d : RCtx} : Mono (rPoint d) := by
  unfold rPoint; mono

instance {d : RCtx} : IsMono (rPoint d) := ⟨rPoint_mono⟩

theorem rBox_mono {d : RCtx} : Mono (rBox d) := by
  unfold rBox; mono

instance {d : RCtx} : IsMono (rBox d) := ⟨rBox_mono⟩

theorem DIDDescriptor.ext_mono {d : RCtx} {tag : Int} {s : DIDDescriptor} : Mono (DIDDescriptor.ext d tag s) := by
  unfold DIDDescriptor.ext; mono

instance {d : RCtx} {tag : Int} {s : DIDDescriptor} : IsMono (DIDDescriptor.ext d tag s) := ⟨DIDDescriptor.ext_mono⟩

theorem DIDDescriptor.readBody_mono {d : RCtx} : Mono (DIDDescriptor.readBody d) := by
  unfold DIDDescriptor.readBody; mono

instance {d : RCtx} : IsMono (DIDDescriptor.readBody d) := ⟨DIDDescriptor.readBody_mono⟩

theorem DIDDescriptor.read_mono {d : RCtx} : Mono (DIDDescriptor.read d) := by
  unfold DIDDescriptor.read; mono

instance {d : RCtx} : IsMono (DIDDescriptor.read d) := ⟨DIDDescriptor.read_mono⟩

theorem CDCIDescriptor.ext_mono {d : RCtx} {tag : Int} {s : CDCIDescriptor} : Mono (CDCIDescriptor.ext d tag s) := by
  unfold CDCIDescriptor.ext; mono

instance {d : RCtx} {tag : Int} {s : CDCIDescriptor} : IsMono (CDCIDescriptor.ext d tag s) := ⟨CDCIDescriptor.ext_mono⟩

theorem CDCIDescriptor.readBody_mono {d : RCtx} : Mono (CDCIDescriptor.readBody d) := by
  unfold CDCIDescriptor.readBody; mono

instance {d : RCtx} : IsMono (CDCIDescriptor.readBody d) := ⟨CDCIDescriptor.readBody_mono⟩

theorem CDCIDescriptor.read_mono {d : RCtx} : Mono (CDCIDescriptor.read d) := by
  unfold CDCIDescriptor.read; mono

instance {d : RCtx} : IsMono (CDCIDescriptor.read d) := ⟨CDCIDescriptor.read_mono⟩

theorem MPGIDescriptor.read_mono {d : RCtx} : Mono (MPGIDescriptor.read d) := by
  unfold MPGIDescriptor.read; mono

instance {d : RCtx} : IsMono (MPGIDescriptor.read d) := ⟨MPGIDescriptor.read_mono⟩

theorem JPEGDescriptor.ext_mono {d : RCtx} {tag : Int} {s : JPEGDescriptor} : Mono (JPEGDescriptor.ext d tag s) := by
  unfold JPEGDescriptor.ext; mono

instance {d : RCtx} {tag : Int} {s : JPEGDescriptor} : IsMono (JPEGDescriptor.ext d tag s) := ⟨JPEGDescriptor.ext_mono⟩

theorem JPEGDescriptor.read_mono {d : RCtx} : Mono (JPEGDescriptor.read d) := by
  unfold JPEGDescriptor.read; mono

instance {d : RCtx} : IsMono (JPEGDescriptor.read d) := ⟨JPEGDescriptor.read_mono⟩

theorem RGBADescriptor.ext_mono {d : RCtx} {tag : Int} {s : RGBADescriptor} : Mono (RGBADescriptor.ext d tag s) := by
  unfold RGBADescriptor.ext; mono

instance {d : RCtx} {tag : Int} {s : RGBADescriptor} : IsMono (RGBADescriptor.ext d tag s) := ⟨RGBADescriptor.ext_mono⟩

theorem RGBADescriptor.read_mono {d : RCtx} : Mono (RGBADescriptor.read d) := by
  unfold RGBADescriptor.read; mono

instance {d : RCtx} : IsMono (RGBADescriptor.read d) := ⟨RGBADescriptor.read_mono⟩

theorem DataDescriptor.read_mono {d : RCtx} : Mono (DataDescriptor.read d) := by
  unfold DataDescriptor.read; mono

instance {d : RCtx} : IsMono (DataDescriptor.read d) := ⟨DataDescriptor.read_mono⟩

theorem ANCDataDescriptor.read_mono {d : RCtx} : Mono (ANCDataDescriptor.read d) := by
  unfold ANCDataDescriptor.read; mono

instance {d : RCtx} : IsMono (ANCDataDescriptor.read d) := ⟨ANCDataDescriptor.read_mono⟩

theorem Attributes.readItem_mono {d : RCtx} : Mono (Attributes.readItem d) := by
  unfold Attributes.readItem; mono

instance {d : RCtx} : IsMono (Attributes.readItem d) := ⟨Attributes.readItem_mono⟩

theorem Attributes.read_mono {d : RCtx} : Mono (Attributes.read d) := by
  unfold Attributes.read; mono

instance {d : RCtx} : IsMono (Attributes.read d) := ⟨Attributes.read_mono⟩

theorem ParameterList.read_mono {d : RCtx} : Mono (ParameterList.read d) := by
  unfold ParameterList.read; mono

instance {d : RCtx} : IsMono (ParameterList.read d) := ⟨ParameterList.read_mono⟩

theorem TimeCrumbList.read_mono {d : RCtx} : Mono (TimeCrumbList.read d) := by
  unfold TimeCrumbList.read; mono

instance {d : RCtx} : IsMono (TimeCrumbList.read d) := ⟨TimeCrumbList.read_mono⟩

theorem Setting.read_mono {d : RCtx} : Mono (Setting.read d) := by
  unfold Setting.read; mono

instance {d : RCtx} : IsMono (Setting.read d) := ⟨Setting.read_mono⟩

theorem BinColumn.read_mono {d : RCtx} : Mono (BinColumn.read d) := by
  unfold BinColumn.read; mono

instance {d : RCtx} : IsMono (BinColumn.read d) := ⟨BinColumn.read_mono⟩

theorem FormatDescriptor.read_mono {d : RCtx} : Mono (FormatDescriptor.read d) := by
  unfold FormatDescriptor.read; mono

instance {d : RCtx} : IsMono (FormatDescriptor.read d) := ⟨FormatDescriptor.read_mono⟩

theorem BinViewSetting.ext_mono {d : RCtx} {tag : Int} {s : BinViewSetting} : Mono (BinViewSetting.ext d tag s) := by
  unfold BinViewSetting.ext; mono

instance {d : RCtx} {tag : Int} {s : BinViewSetting} : IsMono (BinViewSetting.ext d tag s) := ⟨BinViewSetting.ext_mono⟩

theorem BinViewSetting.read_mono {d : RCtx} : Mono (BinViewSetting.read d) := by
  unfold BinViewSetting.read; mono

instance {d : RCtx} : IsMono (BinViewSetting.read d) := ⟨BinViewSetting.read_mono⟩

theorem BinItem.read_mono {d : RCtx} : Mono (BinItem.read d) := by
  unfold BinItem.read; mono

instance {d : RCtx} : IsMono (BinItem.read d) := ⟨BinItem.read_mono⟩

theorem SiftItem.read_mono {d : RCtx} : Mono (SiftItem.read d) := by
  unfold SiftItem.read; mono

instance {d : RCtx} : IsMono (SiftItem.read d) := ⟨SiftItem.read_mono⟩

theorem rSortColumn_mono {d : RCtx} : Mono (rSortColumn d) := by
  unfold rSortColumn; mono

instance {d : RCtx} : IsMono (rSortColumn d) := ⟨rSortColumn_mono⟩

theorem Bin.readCount_mono {d : RCtx} {version : Int} : Mono (Bin.readCount d version) := by
  unfold Bin.readCount; mono

instance {d : RCtx} {version : Int} : IsMono (Bin.readCount d version) := ⟨Bin.readCount_mono⟩

theorem Bin.readBody_mono {d : RCtx} : Mono (Bin.readBody d) := by
  unfold Bin.readBody; mono

instance {d : RCtx} : IsMono (Bin.readBody d) := ⟨Bin.readBody_mono⟩

theorem Bin.read_mono {d : RCtx} : Mono (Bin.read d) := by
  unfold Bin.read; mono

instance {d : RCtx} : IsMono (Bin.read d) := ⟨Bin.read_mono⟩

theorem BinFirst.read_mono {d : RCtx} : Mono (BinFirst.read d) := by
  unfold BinFirst.read; mono

instance {d : RCtx} : IsMono (BinFirst.read d) := ⟨BinFirst.read_mono⟩

theorem Attributes.read_strict (d : RCtx) : Strict (Attributes.read d) := by
  unfold Attributes.read; strict

theorem ParameterList.read_strict (d : RCtx) : Strict (ParameterList.read d) := by
  unfold ParameterList.read; strict

theorem TimeCrumbList.read_strict (d : RCtx) : Strict (TimeCrumbList.read d) := by
  unfold TimeCrumbList.read; strict

theorem BinViewSetting.read_strict (d : RCtx) : Strict (BinViewSetting.read d) := by
  unfold BinViewSetting.read; strict

theorem Bin.read_strict (d : RCtx) : Strict (Bin.read d) := by
  unfold Bin.read; strict

theorem BinFirst.read_strict (d : RCtx) : Strict (BinFirst.read d) := by
  unfold BinFirst.read; strict

theorem Sequence.read_strict (d : RCtx) : Strict (Sequence.read d) := by
  unfold Sequence.read; strict

theorem SourceClip.read_strict (d : RCtx) : Strict (SourceClip.read d) := by
  unfold SourceClip.read; strict

theorem Timecode.read_strict (d : RCtx) : Strict (Timecode.read d) := by
  unfold Timecode.read; strict

theorem Edgecode.read_strict (d : RCtx) : Strict (Edgecode.read d) := by
  unfold Edgecode.read; strict

theorem TrackRef.read_strict (d : RCtx) : Strict (TrackRef.read d) := by
  unfold TrackRef.read; strict

theorem ParamClip.read_strict (d : RCtx) : Strict (ParamClip.read d) := by
  unfold ParamClip.read; strict

theorem ControlClip.read_strict (d : RCtx) : Strict (ControlClip.read d) := by
  unfold ControlClip.read; strict

theorem Filler.read_strict (d : RCtx) : Strict (Filler.read d) := by
  unfold Filler.read; strict

theorem TrackEffect.read_strict (d : RCtx) : Strict (TrackEffect.read d) := by
  unfold TrackEffect.read; strict

theorem PanVolumeEffect.read_strict (d : RCtx) : Strict (PanVolumeEffect.read d) := by
  unfold PanVolumeEffect.read; strict

theorem AudioSuitePluginEffect.read_strict (d : RCtx) : Strict (AudioSuitePluginEffect.read d) := by
  unfold AudioSuitePluginEffect.read; strict

theorem EqualizerMultiBand.read_strict (d : RCtx) : Strict (EqualizerMultiBand.read d) := by
  unfold EqualizerMultiBand.read; strict

theorem CaptureMask.read_strict (d : RCtx) : Strict (CaptureMask.read d) := by
  unfold CaptureMask.read; strict

theorem StrobeEffect.read_strict (d : RCtx) : Strict (StrobeEffect.read d) := by
  unfold StrobeEffect.read; strict

theorem MotionEffect.read_strict (d : RCtx) : Strict (MotionEffect.read d) := by
  unfold MotionEffect.read; strict

theorem Repeat.read_strict (d : RCtx) : Strict (Repeat.read d) := by
  unfold Repeat.read; strict

theorem EssenceGroup.read_strict (d : RCtx) : Strict (EssenceGroup.read d) := by
  unfold EssenceGroup.read; strict

theorem TransitionEffect.read_strict (d : RCtx) : Strict (TransitionEffect.read d) := by
  unfold TransitionEffect.read; strict

theorem Selector.read_strict (d : RCtx) : Strict (Selector.read d) := by
  unfold Selector.read; strict

theorem Composition.read_strict (d : RCtx) : Strict (Composition.read d) := by
  unfold Composition.read; strict

theorem FileLocator.read_strict (d : RCtx) : Strict (FileLocator.read d) := by
  unfold FileLocator.read; strict

theorem URLLocator.read_strict (d : RCtx) : Strict (URLLocator.read d) := by
  unfold URLLocator.read; strict

theorem GraphicEffect.read_strict (d : RCtx) : Strict (GraphicEffect.read d) := by
  unfold GraphicEffect.read; strict

theorem ShapeList.read_strict (d : RCtx) : Strict (ShapeList.read d) := by
  unfold ShapeList.read; strict

theorem ColorCorrectionEffect.read_strict (d : RCtx) : Strict (ColorCorrectionEffect.read d) := by
  unfold ColorCorrectionEffect.read; strict

theorem EffectParamList.read_strict (d : RCtx) : Strict (EffectParamList.read d) := by
  unfold EffectParamList.read; strict

theorem CFUserParam.read_strict (d : RCtx) : Strict (CFUserParam.read d) := by
  unfold CFUserParam.read; strict

theorem ParameterItem.read_strict (d : RCtx) : Strict (ParameterItem.read d) := by
  unfold ParameterItem.read; strict

theorem MSMLocator.read_strict (d : RCtx) : Strict (MSMLocator.read d) := by
  unfold MSMLocator.read; strict

theorem Position.read_strict (d : RCtx) : Strict (Position.read d) := by
  unfold Position.read; strict

theorem BOBPosition.read_strict (d : RCtx) : Strict (BOBPosition.read d) := by
  unfold BOBPosition.read; strict

theorem DIDPosition.read_strict (d : RCtx) : Strict (DIDPosition.read d) := by
  unfold DIDPosition.read; strict

theorem MPGPosition.read_strict (d : RCtx) : Strict (MPGPosition.read d) := by
  unfold MPGPosition.read; strict

theorem BinRef.read_strict (d : RCtx) : Strict (BinRef.read d) := by
  unfold BinRef.read; strict

theorem MobRef.read_strict (d : RCtx) : Strict (MobRef.read d) := by
  unfold MobRef.read; strict

theorem Marker.read_strict (d : RCtx) : Strict (Marker.read d) := by
  unfold Marker.read; strict

theorem TrackerManager.read_strict (d : RCtx) : Strict (TrackerManager.read d) := by
  unfold TrackerManager.read; strict

theorem TrackerDataSlot.read_strict (d : RCtx) : Strict (TrackerDataSlot.read d) := by
  unfold TrackerDataSlot.read; strict

theorem TrackerParameterSlot.read_strict (d : RCtx) : Strict (TrackerParameterSlot.read d) := by
  unfold TrackerParameterSlot.read; strict

theorem TrackerData.read_strict (d : RCtx) : Strict (TrackerData.read d) := by
  unfold TrackerData.read; strict

theorem TrackerParameter.read_strict (d : RCtx) : Strict (TrackerParameter.read d) := by
  unfold TrackerParameter.read; strict

theorem MediaDescriptor.read_strict (d : RCtx) : Strict (MediaDescriptor.read d) := by
  unfold MediaDescriptor.read; strict

theorem TapeDescriptor.read_strict (d : RCtx) : Strict (TapeDescriptor.read d) := by
  unfold TapeDescriptor.read; strict

theorem FilmDescriptor.read_strict (d : RCtx) : Strict (FilmDescriptor.read d) := by
  unfold FilmDescriptor.read; strict

theorem NagraDescriptor.read_strict (d : RCtx) : Strict (NagraDescriptor.read d) := by
  unfold NagraDescriptor.read; strict

theorem MediaFileDescriptor.read_strict (d : RCtx) : Strict (MediaFileDescriptor.read d) := by
  unfold MediaFileDescriptor.read; strict

theorem MultiDescriptor.read_strict (d : RCtx) : Strict (MultiDescriptor.read d) := by
  unfold MultiDescriptor.read; strict

theorem WaveDescriptor.read_strict (d : RCtx) : Strict (WaveDescriptor.read d) := by
  unfold WaveDescriptor.read; strict

theorem AIFCDescriptor.read_strict (d : RCtx) : Strict (AIFCDescriptor.read d) := by
  unfold AIFCDescriptor.read; strict

theorem PCMADescriptor.read_strict (d : RCtx) : Strict (PCMADescriptor.read d) := by
  unfold PCMADescriptor.read; strict

theorem MPGADescriptor.read_strict (d : RCtx) : Strict (MPGADescriptor.read d) := by
  unfold MPGADescriptor.read; strict

theorem DIDDescriptor.read_strict (d : RCtx) : Strict (DIDDescriptor.read d) := by
  unfold DIDDescriptor.read; strict

theorem CDCIDescriptor.read_strict (d : RCtx) : Strict (CDCIDescriptor.read d) := by
  unfold CDCIDescriptor.read; strict

theorem MPGIDescriptor.read_strict (d : RCtx) : Strict (MPGIDescriptor.read d) := by
  unfold MPGIDescriptor.read; strict

theorem JPEGDescriptor.read_strict (d : RCtx) : Strict (JPEGDescriptor.read d) := by
  unfold JPEGDescriptor.read; strict

theorem RGBADescriptor.read_strict (d : RCtx) : Strict (RGBADescriptor.read d) := by
  unfold RGBADescriptor.read; strict

theorem DataDescriptor.read_strict (d : RCtx) : Strict (DataDescriptor.read d) := by
  unfold DataDescriptor.read
  repeat (first | exact Strict.last Strict.int | refine Strict.bind (by mono) fun _ => ?_)

theorem ANCDataDescriptor.read_strict (d : RCtx) : Strict (ANCDataDescriptor.read d) := by
  unfold ANCDataDescriptor.read; strict

theorem Strict.as {α : Type} {r : Rd α} {f : α → Obj} (h : Strict r) : Strict (r.as f) := Strict.last h

theorem Mono.as {α : Type} {r : Rd α} {f : α → Obj} (h : Mono r) : Mono (r.as f) :=
  Mono.bind h fun _ => Mono.pure

theorem Obj.readAs_strict (d : RCtx) (k : Cls) (h1 : k ≠ .TRKG) :
    Strict (Obj.readAs d k) := by
  cases k
  case ATTR => exact Strict.as (Attributes.read_strict d)
  case PRLS => exact Strict.as (ParameterList.read_strict d)
  case TMCS => exact Strict.as (TimeCrumbList.read_strict d)
  case BVst => exact Strict.as (BinViewSetting.read_strict d)
  case ABIN => exact Strict.as (Bin.read_strict d)
  case BINF => exact Strict.as (BinFirst.read_strict d)
  case SEQU => exact Strict.as (Sequence.read_strict d)
  case SCLP => exact Strict.as (SourceClip.read_strict d)
  case TCCP => exact Strict.as (Timecode.read_strict d)
  case ECCP => exact Strict.as (Edgecode.read_strict d)
  case TRKR => exact Strict.as (TrackRef.read_strict d)
  case PRCL => exact Strict.as (ParamClip.read_strict d)
  case CTRL => exact Strict.as (ControlClip.read_strict d)
  case FILL => exact Strict.as (Filler.read_strict d)
  case TRKG => exact absurd rfl h1
  case TKFX => exact Strict.as (TrackEffect.read_strict d)
  case PVOL => exact Strict.as (PanVolumeEffect.read_strict d)
  case ASPI => exact Strict.as (AudioSuitePluginEffect.read_strict d)
  case EQMB => exact Strict.as (EqualizerMultiBand.read_strict d)
  case MASK => exact Strict.as (CaptureMask.read_strict d)
  case STRB => exact Strict.as (StrobeEffect.read_strict d)
  case SPED => exact Strict.as (MotionEffect.read_strict d)
  case REPT => exact Strict.as (Repeat.read_strict d)
  case RSET => exact Strict.as (EssenceGroup.read_strict d)
  case TNFX => exact Strict.as (TransitionEffect.read_strict d)
  case SLCT => exact Strict.as (Selector.read_strict d)
  case CMPO => exact Strict.as (Composition.read_strict d)
  case FILE => exact Strict.as (FileLocator.read_strict d)
  case WINF => exact Strict.as (FileLocator.read_strict d)
  case URLL => exact Strict.as (URLLocator.read_strict d)
  case GRFX => exact Strict.as (GraphicEffect.read_strict d)
  case SHLP => exact Strict.as (ShapeList.read_strict d)
  case CCFX => exact Strict.as (ColorCorrectionEffect.read_strict d)
  case FXPS => exact Strict.as (EffectParamList.read_strict d)
  case AVUP => exact Strict.as (CFUserParam.read_strict d)
  case PRIT => exact Strict.as (ParameterItem.read_strict d)
  case MSML => exact Strict.as (MSMLocator.read_strict d)
  case APOS => exact Strict.as (Position.read_strict d)
  case ABOB => exact Strict.as (BOBPosition.read_strict d)
  case DIDP => exact Strict.as (DIDPosition.read_strict d)
  case MPGP => exact Strict.as (MPGPosition.read_strict d)
  case MCBR => exact Strict.as (BinRef.read_strict d)
  case MCMR => exact Strict.as (MobRef.read_strict d)
  case TMBC => exact Strict.as (Marker.read_strict d)
  case TKMN => exact Strict.as (TrackerManager.read_strict d)
  case TKDS => exact Strict.as (TrackerDataSlot.read_strict d)
  case TKPS => exact Strict.as (TrackerParameterSlot.read_strict d)
  case TKDA => exact Strict.as (TrackerData.read_strict d)
  case TKPA => exact Strict.as (TrackerParameter.read_strict d)
  case MDES => exact Strict.as (MediaDescriptor.read_strict d)
  case MDTP => exact Strict.as (TapeDescriptor.read_strict d)
  case MDFM => exact Strict.as (FilmDescriptor.read_strict d)
  case MDNG => exact Strict.as (NagraDescriptor.read_strict d)
  case MDFL => exact Strict.as (MediaFileDescriptor.read_strict d)
  case MULD => exact Strict.as (MultiDescriptor.read_strict d)
  case WAVE => exact Strict.as (WaveDescriptor.read_strict d)
  case AIFC => exact Strict.as (AIFCDescriptor.read_strict d)
  case PCMA => exact Strict.as (PCMADescriptor.read_strict d)
  case MPGA => exact Strict.as (MPGADescriptor.read_strict d)
  case DIDD => exact Strict.as (DIDDescriptor.read_strict d)
  case CDCI => exact Strict.as (CDCIDescriptor.read_strict d)
  case MPGI => exact Strict.as (MPGIDescriptor.read_strict d)
  case JPED => exact Strict.as (JPEGDescriptor.read_strict d)
  case RGBA => exact Strict.as (RGBADescriptor.read_strict d)
  case DATD => exact Strict.as (DataDescriptor.read_strict d)
  case ANCD => exact Strict.as (ANCDataDescriptor.read_strict d)

theorem Obj.readAs_mono (d : RCtx) (k : Cls) : Mono (Obj.readAs d k) := by
  cases k <;> exact Mono.as IsMono.h

end Avb
