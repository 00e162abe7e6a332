import Verif.Lemmas.Capped
import Verif.Lemmas.WithinAll

/-
`Capped` for every reader, in the order of the model files.
-/

namespace Avb

set_option linter.unusedSectionVars false

variable {bo : BO} {m n : Nat} [Fewer m n]

theorem Component.ext_capped {tag : Int} {s : Component} :
    Capped (Component.ext ⟨bo, m⟩ tag s) (Component.ext ⟨bo, n⟩ tag s) := by
  unfold Component.ext; capped

instance {tag : Int} {s : Component} : IsCapped (Component.ext ⟨bo, m⟩ tag s) (Component.ext ⟨bo, n⟩ tag s) :=
  ⟨Component.ext_capped⟩

theorem Component.read_capped :
    Capped (Component.read ⟨bo, m⟩) (Component.read ⟨bo, n⟩) := by
  unfold Component.read; capped

instance : IsCapped (Component.read ⟨bo, m⟩) (Component.read ⟨bo, n⟩) :=
  ⟨Component.read_capped⟩

theorem Sequence.read_capped :
    Capped (Sequence.read ⟨bo, m⟩) (Sequence.read ⟨bo, n⟩) := by
  unfold Sequence.read; capped

instance : IsCapped (Sequence.read ⟨bo, m⟩) (Sequence.read ⟨bo, n⟩) :=
  ⟨Sequence.read_capped⟩

theorem Clip.read_capped :
    Capped (Clip.read ⟨bo, m⟩) (Clip.read ⟨bo, n⟩) := by
  unfold Clip.read; capped

instance : IsCapped (Clip.read ⟨bo, m⟩) (Clip.read ⟨bo, n⟩) :=
  ⟨Clip.read_capped⟩

theorem SourceClip.ext_capped {tag : Int} {s : SourceClip} :
    Capped (SourceClip.ext ⟨bo, m⟩ tag s) (SourceClip.ext ⟨bo, n⟩ tag s) := by
  unfold SourceClip.ext; capped

instance {tag : Int} {s : SourceClip} : IsCapped (SourceClip.ext ⟨bo, m⟩ tag s) (SourceClip.ext ⟨bo, n⟩ tag s) :=
  ⟨SourceClip.ext_capped⟩

theorem SourceClip.read_capped :
    Capped (SourceClip.read ⟨bo, m⟩) (SourceClip.read ⟨bo, n⟩) := by
  unfold SourceClip.read; capped

instance : IsCapped (SourceClip.read ⟨bo, m⟩) (SourceClip.read ⟨bo, n⟩) :=
  ⟨SourceClip.read_capped⟩

theorem Timecode.read_capped :
    Capped (Timecode.read ⟨bo, m⟩) (Timecode.read ⟨bo, n⟩) := by
  unfold Timecode.read; capped

instance : IsCapped (Timecode.read ⟨bo, m⟩) (Timecode.read ⟨bo, n⟩) :=
  ⟨Timecode.read_capped⟩

theorem Edgecode.read_capped :
    Capped (Edgecode.read ⟨bo, m⟩) (Edgecode.read ⟨bo, n⟩) := by
  unfold Edgecode.read; capped

instance : IsCapped (Edgecode.read ⟨bo, m⟩) (Edgecode.read ⟨bo, n⟩) :=
  ⟨Edgecode.read_capped⟩

theorem TrackRef.read_capped :
    Capped (TrackRef.read ⟨bo, m⟩) (TrackRef.read ⟨bo, n⟩) := by
  unfold TrackRef.read; capped

instance : IsCapped (TrackRef.read ⟨bo, m⟩) (TrackRef.read ⟨bo, n⟩) :=
  ⟨TrackRef.read_capped⟩

theorem PCPProp.readValue_capped {type : Int} :
    Capped (PCPProp.readValue ⟨bo, m⟩ type) (PCPProp.readValue ⟨bo, n⟩ type) := by
  unfold PCPProp.readValue; capped

instance {type : Int} : IsCapped (PCPProp.readValue ⟨bo, m⟩ type) (PCPProp.readValue ⟨bo, n⟩ type) :=
  ⟨PCPProp.readValue_capped⟩

theorem PCPProp.read_capped :
    Capped (PCPProp.read ⟨bo, m⟩) (PCPProp.read ⟨bo, n⟩) := by
  unfold PCPProp.read; capped

instance : IsCapped (PCPProp.read ⟨bo, m⟩) (PCPProp.read ⟨bo, n⟩) :=
  ⟨PCPProp.read_capped⟩

theorem PCP.readValue_capped {value_type : Int} :
    Capped (PCP.readValue ⟨bo, m⟩ value_type) (PCP.readValue ⟨bo, n⟩ value_type) := by
  unfold PCP.readValue; capped

instance {value_type : Int} : IsCapped (PCP.readValue ⟨bo, m⟩ value_type) (PCP.readValue ⟨bo, n⟩ value_type) :=
  ⟨PCP.readValue_capped⟩

theorem PCP.read_capped {value_type : Int} :
    Capped (PCP.read ⟨bo, m⟩ value_type) (PCP.read ⟨bo, n⟩ value_type) := by
  unfold PCP.read; capped

instance {value_type : Int} : IsCapped (PCP.read ⟨bo, m⟩ value_type) (PCP.read ⟨bo, n⟩ value_type) :=
  ⟨PCP.read_capped⟩

theorem ParamClip.ext_capped {tag : Int} {s : ParamClip} :
    Capped (ParamClip.ext ⟨bo, m⟩ tag s) (ParamClip.ext ⟨bo, n⟩ tag s) := by
  unfold ParamClip.ext; capped

instance {tag : Int} {s : ParamClip} : IsCapped (ParamClip.ext ⟨bo, m⟩ tag s) (ParamClip.ext ⟨bo, n⟩ tag s) :=
  ⟨ParamClip.ext_capped⟩

theorem ParamClip.read_capped :
    Capped (ParamClip.read ⟨bo, m⟩) (ParamClip.read ⟨bo, n⟩) := by
  unfold ParamClip.read; capped

instance : IsCapped (ParamClip.read ⟨bo, m⟩) (ParamClip.read ⟨bo, n⟩) :=
  ⟨ParamClip.read_capped⟩

theorem CPProp.read_capped :
    Capped (CPProp.read ⟨bo, m⟩) (CPProp.read ⟨bo, n⟩) := by
  unfold CPProp.read; capped

instance : IsCapped (CPProp.read ⟨bo, m⟩) (CPProp.read ⟨bo, n⟩) :=
  ⟨CPProp.read_capped⟩

theorem CP.read_capped :
    Capped (CP.read ⟨bo, m⟩) (CP.read ⟨bo, n⟩) := by
  unfold CP.read; capped

instance : IsCapped (CP.read ⟨bo, m⟩) (CP.read ⟨bo, n⟩) :=
  ⟨CP.read_capped⟩

theorem ControlClip.read_capped :
    Capped (ControlClip.read ⟨bo, m⟩) (ControlClip.read ⟨bo, n⟩) := by
  unfold ControlClip.read; capped

instance : IsCapped (ControlClip.read ⟨bo, m⟩) (ControlClip.read ⟨bo, n⟩) :=
  ⟨ControlClip.read_capped⟩

theorem Filler.read_capped :
    Capped (Filler.read ⟨bo, m⟩) (Filler.read ⟨bo, n⟩) := by
  unfold Filler.read; capped

instance : IsCapped (Filler.read ⟨bo, m⟩) (Filler.read ⟨bo, n⟩) :=
  ⟨Filler.read_capped⟩

theorem Track.read_capped :
    Capped (Track.read ⟨bo, m⟩) (Track.read ⟨bo, n⟩) := by
  unfold Track.read; capped

instance : IsCapped (Track.read ⟨bo, m⟩) (Track.read ⟨bo, n⟩) :=
  ⟨Track.read_capped⟩

theorem rLock_capped :
    Capped (rLock ⟨bo, m⟩) (rLock ⟨bo, n⟩) := by
  unfold rLock; capped

instance : IsCapped (rLock ⟨bo, m⟩) (rLock ⟨bo, n⟩) :=
  ⟨rLock_capped⟩

theorem TrackGroup.ext_capped {tag : Int} {s : TrackGroup} :
    Capped (TrackGroup.ext ⟨bo, m⟩ tag s) (TrackGroup.ext ⟨bo, n⟩ tag s) := by
  unfold TrackGroup.ext; capped

instance {tag : Int} {s : TrackGroup} : IsCapped (TrackGroup.ext ⟨bo, m⟩ tag s) (TrackGroup.ext ⟨bo, n⟩ tag s) :=
  ⟨TrackGroup.ext_capped⟩

theorem TrackGroup.read_capped :
    Capped (TrackGroup.read ⟨bo, m⟩) (TrackGroup.read ⟨bo, n⟩) := by
  unfold TrackGroup.read; capped

instance : IsCapped (TrackGroup.read ⟨bo, m⟩) (TrackGroup.read ⟨bo, n⟩) :=
  ⟨TrackGroup.read_capped⟩

theorem TrackEffect.ext_capped {tag : Int} {s : TrackEffect} :
    Capped (TrackEffect.ext ⟨bo, m⟩ tag s) (TrackEffect.ext ⟨bo, n⟩ tag s) := by
  unfold TrackEffect.ext; capped

instance {tag : Int} {s : TrackEffect} : IsCapped (TrackEffect.ext ⟨bo, m⟩ tag s) (TrackEffect.ext ⟨bo, n⟩ tag s) :=
  ⟨TrackEffect.ext_capped⟩

theorem TrackEffect.readBody_capped :
    Capped (TrackEffect.readBody ⟨bo, m⟩) (TrackEffect.readBody ⟨bo, n⟩) := by
  unfold TrackEffect.readBody; capped

instance : IsCapped (TrackEffect.readBody ⟨bo, m⟩) (TrackEffect.readBody ⟨bo, n⟩) :=
  ⟨TrackEffect.readBody_capped⟩

theorem TrackEffect.read_capped :
    Capped (TrackEffect.read ⟨bo, m⟩) (TrackEffect.read ⟨bo, n⟩) := by
  unfold TrackEffect.read; capped

instance : IsCapped (TrackEffect.read ⟨bo, m⟩) (TrackEffect.read ⟨bo, n⟩) :=
  ⟨TrackEffect.read_capped⟩

theorem PanVolumeEffect.ext_capped {tag : Int} {s : PanVolumeEffect} :
    Capped (PanVolumeEffect.ext ⟨bo, m⟩ tag s) (PanVolumeEffect.ext ⟨bo, n⟩ tag s) := by
  unfold PanVolumeEffect.ext; capped

instance {tag : Int} {s : PanVolumeEffect} : IsCapped (PanVolumeEffect.ext ⟨bo, m⟩ tag s) (PanVolumeEffect.ext ⟨bo, n⟩ tag s) :=
  ⟨PanVolumeEffect.ext_capped⟩

theorem PanVolumeEffect.read_capped :
    Capped (PanVolumeEffect.read ⟨bo, m⟩) (PanVolumeEffect.read ⟨bo, n⟩) := by
  unfold PanVolumeEffect.read; capped

instance : IsCapped (PanVolumeEffect.read ⟨bo, m⟩) (PanVolumeEffect.read ⟨bo, n⟩) :=
  ⟨PanVolumeEffect.read_capped⟩

theorem ASPIPluginChunk.read_capped :
    Capped (ASPIPluginChunk.read ⟨bo, m⟩) (ASPIPluginChunk.read ⟨bo, n⟩) := by
  unfold ASPIPluginChunk.read; capped

instance : IsCapped (ASPIPluginChunk.read ⟨bo, m⟩) (ASPIPluginChunk.read ⟨bo, n⟩) :=
  ⟨ASPIPluginChunk.read_capped⟩

theorem ASPIPlugin.read_capped :
    Capped (ASPIPlugin.read ⟨bo, m⟩) (ASPIPlugin.read ⟨bo, n⟩) := by
  unfold ASPIPlugin.read; capped

instance : IsCapped (ASPIPlugin.read ⟨bo, m⟩) (ASPIPlugin.read ⟨bo, n⟩) :=
  ⟨ASPIPlugin.read_capped⟩

theorem rPresetPath_capped :
    Capped (rPresetPath ⟨bo, m⟩) (rPresetPath ⟨bo, n⟩) := by
  unfold rPresetPath; capped

instance : IsCapped (rPresetPath ⟨bo, m⟩) (rPresetPath ⟨bo, n⟩) :=
  ⟨rPresetPath_capped⟩

theorem AudioSuitePluginEffect.ext_capped {tag : Int} {s : AudioSuitePluginEffect} :
    Capped (AudioSuitePluginEffect.ext ⟨bo, m⟩ tag s) (AudioSuitePluginEffect.ext ⟨bo, n⟩ tag s) := by
  unfold AudioSuitePluginEffect.ext; capped

instance {tag : Int} {s : AudioSuitePluginEffect} : IsCapped (AudioSuitePluginEffect.ext ⟨bo, m⟩ tag s) (AudioSuitePluginEffect.ext ⟨bo, n⟩ tag s) :=
  ⟨AudioSuitePluginEffect.ext_capped⟩

theorem AudioSuitePluginEffect.read_capped :
    Capped (AudioSuitePluginEffect.read ⟨bo, m⟩) (AudioSuitePluginEffect.read ⟨bo, n⟩) := by
  unfold AudioSuitePluginEffect.read; capped

instance : IsCapped (AudioSuitePluginEffect.read ⟨bo, m⟩) (AudioSuitePluginEffect.read ⟨bo, n⟩) :=
  ⟨AudioSuitePluginEffect.read_capped⟩

theorem EqualizerBand.read_capped :
    Capped (EqualizerBand.read ⟨bo, m⟩) (EqualizerBand.read ⟨bo, n⟩) := by
  unfold EqualizerBand.read; capped

instance : IsCapped (EqualizerBand.read ⟨bo, m⟩) (EqualizerBand.read ⟨bo, n⟩) :=
  ⟨EqualizerBand.read_capped⟩

theorem EqualizerMultiBand.read_capped :
    Capped (EqualizerMultiBand.read ⟨bo, m⟩) (EqualizerMultiBand.read ⟨bo, n⟩) := by
  unfold EqualizerMultiBand.read; capped

instance : IsCapped (EqualizerMultiBand.read ⟨bo, m⟩) (EqualizerMultiBand.read ⟨bo, n⟩) :=
  ⟨EqualizerMultiBand.read_capped⟩

theorem TimeWarp.read_capped :
    Capped (TimeWarp.read ⟨bo, m⟩) (TimeWarp.read ⟨bo, n⟩) := by
  unfold TimeWarp.read; capped

instance : IsCapped (TimeWarp.read ⟨bo, m⟩) (TimeWarp.read ⟨bo, n⟩) :=
  ⟨TimeWarp.read_capped⟩

theorem CaptureMask.read_capped :
    Capped (CaptureMask.read ⟨bo, m⟩) (CaptureMask.read ⟨bo, n⟩) := by
  unfold CaptureMask.read; capped

instance : IsCapped (CaptureMask.read ⟨bo, m⟩) (CaptureMask.read ⟨bo, n⟩) :=
  ⟨CaptureMask.read_capped⟩

theorem StrobeEffect.read_capped :
    Capped (StrobeEffect.read ⟨bo, m⟩) (StrobeEffect.read ⟨bo, n⟩) := by
  unfold StrobeEffect.read; capped

instance : IsCapped (StrobeEffect.read ⟨bo, m⟩) (StrobeEffect.read ⟨bo, n⟩) :=
  ⟨StrobeEffect.read_capped⟩

theorem MotionEffect.ext_capped {tag : Int} {s : MotionEffect} :
    Capped (MotionEffect.ext ⟨bo, m⟩ tag s) (MotionEffect.ext ⟨bo, n⟩ tag s) := by
  unfold MotionEffect.ext; capped

instance {tag : Int} {s : MotionEffect} : IsCapped (MotionEffect.ext ⟨bo, m⟩ tag s) (MotionEffect.ext ⟨bo, n⟩ tag s) :=
  ⟨MotionEffect.ext_capped⟩

theorem MotionEffect.read_capped :
    Capped (MotionEffect.read ⟨bo, m⟩) (MotionEffect.read ⟨bo, n⟩) := by
  unfold MotionEffect.read; capped

instance : IsCapped (MotionEffect.read ⟨bo, m⟩) (MotionEffect.read ⟨bo, n⟩) :=
  ⟨MotionEffect.read_capped⟩

theorem Repeat.read_capped :
    Capped (Repeat.read ⟨bo, m⟩) (Repeat.read ⟨bo, n⟩) := by
  unfold Repeat.read; capped

instance : IsCapped (Repeat.read ⟨bo, m⟩) (Repeat.read ⟨bo, n⟩) :=
  ⟨Repeat.read_capped⟩

theorem EssenceGroup.ext_capped {tag : Int} {s : EssenceGroup} :
    Capped (EssenceGroup.ext ⟨bo, m⟩ tag s) (EssenceGroup.ext ⟨bo, n⟩ tag s) := by
  unfold EssenceGroup.ext; capped

instance {tag : Int} {s : EssenceGroup} : IsCapped (EssenceGroup.ext ⟨bo, m⟩ tag s) (EssenceGroup.ext ⟨bo, n⟩ tag s) :=
  ⟨EssenceGroup.ext_capped⟩

theorem EssenceGroup.read_capped :
    Capped (EssenceGroup.read ⟨bo, m⟩) (EssenceGroup.read ⟨bo, n⟩) := by
  unfold EssenceGroup.read; capped

instance : IsCapped (EssenceGroup.read ⟨bo, m⟩) (EssenceGroup.read ⟨bo, n⟩) :=
  ⟨EssenceGroup.read_capped⟩

theorem TransitionEffect.ext_capped {tag : Int} {s : TransitionEffect} :
    Capped (TransitionEffect.ext ⟨bo, m⟩ tag s) (TransitionEffect.ext ⟨bo, n⟩ tag s) := by
  unfold TransitionEffect.ext; capped

instance {tag : Int} {s : TransitionEffect} : IsCapped (TransitionEffect.ext ⟨bo, m⟩ tag s) (TransitionEffect.ext ⟨bo, n⟩ tag s) :=
  ⟨TransitionEffect.ext_capped⟩

theorem TransitionEffect.read_capped :
    Capped (TransitionEffect.read ⟨bo, m⟩) (TransitionEffect.read ⟨bo, n⟩) := by
  unfold TransitionEffect.read; capped

instance : IsCapped (TransitionEffect.read ⟨bo, m⟩) (TransitionEffect.read ⟨bo, n⟩) :=
  ⟨TransitionEffect.read_capped⟩

theorem Selector.read_capped :
    Capped (Selector.read ⟨bo, m⟩) (Selector.read ⟨bo, n⟩) := by
  unfold Selector.read; capped

instance : IsCapped (Selector.read ⟨bo, m⟩) (Selector.read ⟨bo, n⟩) :=
  ⟨Selector.read_capped⟩

theorem Composition.ext_capped {tag : Int} {s : Composition} :
    Capped (Composition.ext ⟨bo, m⟩ tag s) (Composition.ext ⟨bo, n⟩ tag s) := by
  unfold Composition.ext; capped

instance {tag : Int} {s : Composition} : IsCapped (Composition.ext ⟨bo, m⟩ tag s) (Composition.ext ⟨bo, n⟩ tag s) :=
  ⟨Composition.ext_capped⟩

theorem Composition.read_capped :
    Capped (Composition.read ⟨bo, m⟩) (Composition.read ⟨bo, n⟩) := by
  unfold Composition.read; capped

instance : IsCapped (Composition.read ⟨bo, m⟩) (Composition.read ⟨bo, n⟩) :=
  ⟨Composition.read_capped⟩

theorem FileLocator.ext_capped {tag : Int} {s : FileLocator} :
    Capped (FileLocator.ext ⟨bo, m⟩ tag s) (FileLocator.ext ⟨bo, n⟩ tag s) := by
  unfold FileLocator.ext; capped

instance {tag : Int} {s : FileLocator} : IsCapped (FileLocator.ext ⟨bo, m⟩ tag s) (FileLocator.ext ⟨bo, n⟩ tag s) :=
  ⟨FileLocator.ext_capped⟩

theorem FileLocator.read_capped :
    Capped (FileLocator.read ⟨bo, m⟩) (FileLocator.read ⟨bo, n⟩) := by
  unfold FileLocator.read; capped

instance : IsCapped (FileLocator.read ⟨bo, m⟩) (FileLocator.read ⟨bo, n⟩) :=
  ⟨FileLocator.read_capped⟩

theorem URLLocator.read_capped :
    Capped (URLLocator.read ⟨bo, m⟩) (URLLocator.read ⟨bo, n⟩) := by
  unfold URLLocator.read; capped

instance : IsCapped (URLLocator.read ⟨bo, m⟩) (URLLocator.read ⟨bo, n⟩) :=
  ⟨URLLocator.read_capped⟩

theorem GraphicEffect.read_capped :
    Capped (GraphicEffect.read ⟨bo, m⟩) (GraphicEffect.read ⟨bo, n⟩) := by
  unfold GraphicEffect.read; capped

instance : IsCapped (GraphicEffect.read ⟨bo, m⟩) (GraphicEffect.read ⟨bo, n⟩) :=
  ⟨GraphicEffect.read_capped⟩

theorem ShapeList.read_capped :
    Capped (ShapeList.read ⟨bo, m⟩) (ShapeList.read ⟨bo, n⟩) := by
  unfold ShapeList.read; capped

instance : IsCapped (ShapeList.read ⟨bo, m⟩) (ShapeList.read ⟨bo, n⟩) :=
  ⟨ShapeList.read_capped⟩

theorem ColorCorrectionEffect.read_capped :
    Capped (ColorCorrectionEffect.read ⟨bo, m⟩) (ColorCorrectionEffect.read ⟨bo, n⟩) := by
  unfold ColorCorrectionEffect.read; capped

instance : IsCapped (ColorCorrectionEffect.read ⟨bo, m⟩) (ColorCorrectionEffect.read ⟨bo, n⟩) :=
  ⟨ColorCorrectionEffect.read_capped⟩

theorem EffectParam.read_capped :
    Capped (EffectParam.read ⟨bo, m⟩) (EffectParam.read ⟨bo, n⟩) := by
  unfold EffectParam.read; capped

instance : IsCapped (EffectParam.read ⟨bo, m⟩) (EffectParam.read ⟨bo, n⟩) :=
  ⟨EffectParam.read_capped⟩

theorem EffectParamList.read_capped :
    Capped (EffectParamList.read ⟨bo, m⟩) (EffectParamList.read ⟨bo, n⟩) := by
  unfold EffectParamList.read; capped

instance : IsCapped (EffectParamList.read ⟨bo, m⟩) (EffectParamList.read ⟨bo, n⟩) :=
  ⟨EffectParamList.read_capped⟩

theorem CFUserParam.read_capped :
    Capped (CFUserParam.read ⟨bo, m⟩) (CFUserParam.read ⟨bo, n⟩) := by
  unfold CFUserParam.read; capped

instance : IsCapped (CFUserParam.read ⟨bo, m⟩) (CFUserParam.read ⟨bo, n⟩) :=
  ⟨CFUserParam.read_capped⟩

theorem ParameterItem.readValue_capped {value_type : Int} :
    Capped (ParameterItem.readValue ⟨bo, m⟩ value_type) (ParameterItem.readValue ⟨bo, n⟩ value_type) := by
  unfold ParameterItem.readValue; capped

instance {value_type : Int} : IsCapped (ParameterItem.readValue ⟨bo, m⟩ value_type) (ParameterItem.readValue ⟨bo, n⟩ value_type) :=
  ⟨ParameterItem.readValue_capped⟩

theorem ParameterItem.ext_capped {tag : Int} {s : ParameterItem} :
    Capped (ParameterItem.ext ⟨bo, m⟩ tag s) (ParameterItem.ext ⟨bo, n⟩ tag s) := by
  unfold ParameterItem.ext; capped

instance {tag : Int} {s : ParameterItem} : IsCapped (ParameterItem.ext ⟨bo, m⟩ tag s) (ParameterItem.ext ⟨bo, n⟩ tag s) :=
  ⟨ParameterItem.ext_capped⟩

theorem ParameterItem.read_capped :
    Capped (ParameterItem.read ⟨bo, m⟩) (ParameterItem.read ⟨bo, n⟩) := by
  unfold ParameterItem.read; capped

instance : IsCapped (ParameterItem.read ⟨bo, m⟩) (ParameterItem.read ⟨bo, n⟩) :=
  ⟨ParameterItem.read_capped⟩

theorem MSMLocator.ext_capped {tag : Int} {s : MSMLocator} :
    Capped (MSMLocator.ext ⟨bo, m⟩ tag s) (MSMLocator.ext ⟨bo, n⟩ tag s) := by
  unfold MSMLocator.ext; capped

instance {tag : Int} {s : MSMLocator} : IsCapped (MSMLocator.ext ⟨bo, m⟩ tag s) (MSMLocator.ext ⟨bo, n⟩ tag s) :=
  ⟨MSMLocator.ext_capped⟩

theorem MSMLocator.read_capped :
    Capped (MSMLocator.read ⟨bo, m⟩) (MSMLocator.read ⟨bo, n⟩) := by
  unfold MSMLocator.read; capped

instance : IsCapped (MSMLocator.read ⟨bo, m⟩) (MSMLocator.read ⟨bo, n⟩) :=
  ⟨MSMLocator.read_capped⟩

theorem Position.ext_capped {tag : Int} {s : Position} :
    Capped (Position.ext ⟨bo, m⟩ tag s) (Position.ext ⟨bo, n⟩ tag s) := by
  unfold Position.ext; capped

instance {tag : Int} {s : Position} : IsCapped (Position.ext ⟨bo, m⟩ tag s) (Position.ext ⟨bo, n⟩ tag s) :=
  ⟨Position.ext_capped⟩

theorem Position.readBody_capped :
    Capped (Position.readBody ⟨bo, m⟩) (Position.readBody ⟨bo, n⟩) := by
  unfold Position.readBody; capped

instance : IsCapped (Position.readBody ⟨bo, m⟩) (Position.readBody ⟨bo, n⟩) :=
  ⟨Position.readBody_capped⟩

theorem Position.read_capped :
    Capped (Position.read ⟨bo, m⟩) (Position.read ⟨bo, n⟩) := by
  unfold Position.read; capped

instance : IsCapped (Position.read ⟨bo, m⟩) (Position.read ⟨bo, n⟩) :=
  ⟨Position.read_capped⟩

theorem BOBPosition.readBody_capped :
    Capped (BOBPosition.readBody ⟨bo, m⟩) (BOBPosition.readBody ⟨bo, n⟩) := by
  unfold BOBPosition.readBody; capped

instance : IsCapped (BOBPosition.readBody ⟨bo, m⟩) (BOBPosition.readBody ⟨bo, n⟩) :=
  ⟨BOBPosition.readBody_capped⟩

theorem BOBPosition.read_capped :
    Capped (BOBPosition.read ⟨bo, m⟩) (BOBPosition.read ⟨bo, n⟩) := by
  unfold BOBPosition.read; capped

instance : IsCapped (BOBPosition.read ⟨bo, m⟩) (BOBPosition.read ⟨bo, n⟩) :=
  ⟨BOBPosition.read_capped⟩

theorem DIDPosition.readBody_capped :
    Capped (DIDPosition.readBody ⟨bo, m⟩) (DIDPosition.readBody ⟨bo, n⟩) := by
  unfold DIDPosition.readBody; capped

instance : IsCapped (DIDPosition.readBody ⟨bo, m⟩) (DIDPosition.readBody ⟨bo, n⟩) :=
  ⟨DIDPosition.readBody_capped⟩

theorem DIDPosition.read_capped :
    Capped (DIDPosition.read ⟨bo, m⟩) (DIDPosition.read ⟨bo, n⟩) := by
  unfold DIDPosition.read; capped

instance : IsCapped (DIDPosition.read ⟨bo, m⟩) (DIDPosition.read ⟨bo, n⟩) :=
  ⟨DIDPosition.read_capped⟩

theorem MPGPosition.readField_capped :
    Capped (MPGPosition.readField ⟨bo, m⟩) (MPGPosition.readField ⟨bo, n⟩) := by
  unfold MPGPosition.readField; capped

instance : IsCapped (MPGPosition.readField ⟨bo, m⟩) (MPGPosition.readField ⟨bo, n⟩) :=
  ⟨MPGPosition.readField_capped⟩

theorem MPGPosition.readFields_capped :
    Capped (MPGPosition.readFields ⟨bo, m⟩) (MPGPosition.readFields ⟨bo, n⟩) := by
  unfold MPGPosition.readFields; capped

instance : IsCapped (MPGPosition.readFields ⟨bo, m⟩) (MPGPosition.readFields ⟨bo, n⟩) :=
  ⟨MPGPosition.readFields_capped⟩

theorem MPGPosition.read_capped :
    Capped (MPGPosition.read ⟨bo, m⟩) (MPGPosition.read ⟨bo, n⟩) := by
  unfold MPGPosition.read; capped

instance : IsCapped (MPGPosition.read ⟨bo, m⟩) (MPGPosition.read ⟨bo, n⟩) :=
  ⟨MPGPosition.read_capped⟩

theorem BinRef.ext_capped {tag : Int} {s : BinRef} :
    Capped (BinRef.ext ⟨bo, m⟩ tag s) (BinRef.ext ⟨bo, n⟩ tag s) := by
  unfold BinRef.ext; capped

instance {tag : Int} {s : BinRef} : IsCapped (BinRef.ext ⟨bo, m⟩ tag s) (BinRef.ext ⟨bo, n⟩ tag s) :=
  ⟨BinRef.ext_capped⟩

theorem BinRef.read_capped :
    Capped (BinRef.read ⟨bo, m⟩) (BinRef.read ⟨bo, n⟩) := by
  unfold BinRef.read; capped

instance : IsCapped (BinRef.read ⟨bo, m⟩) (BinRef.read ⟨bo, n⟩) :=
  ⟨BinRef.read_capped⟩

theorem MobRef.ext_capped {tag : Int} {s : MobRef} :
    Capped (MobRef.ext ⟨bo, m⟩ tag s) (MobRef.ext ⟨bo, n⟩ tag s) := by
  unfold MobRef.ext; capped

instance {tag : Int} {s : MobRef} : IsCapped (MobRef.ext ⟨bo, m⟩ tag s) (MobRef.ext ⟨bo, n⟩ tag s) :=
  ⟨MobRef.ext_capped⟩

theorem MobRef.readBody_capped :
    Capped (MobRef.readBody ⟨bo, m⟩) (MobRef.readBody ⟨bo, n⟩) := by
  unfold MobRef.readBody; capped

instance : IsCapped (MobRef.readBody ⟨bo, m⟩) (MobRef.readBody ⟨bo, n⟩) :=
  ⟨MobRef.readBody_capped⟩

theorem MobRef.read_capped :
    Capped (MobRef.read ⟨bo, m⟩) (MobRef.read ⟨bo, n⟩) := by
  unfold MobRef.read; capped

instance : IsCapped (MobRef.read ⟨bo, m⟩) (MobRef.read ⟨bo, n⟩) :=
  ⟨MobRef.read_capped⟩

theorem Marker.ext_capped {tag : Int} {s : Marker} :
    Capped (Marker.ext ⟨bo, m⟩ tag s) (Marker.ext ⟨bo, n⟩ tag s) := by
  unfold Marker.ext; capped

instance {tag : Int} {s : Marker} : IsCapped (Marker.ext ⟨bo, m⟩ tag s) (Marker.ext ⟨bo, n⟩ tag s) :=
  ⟨Marker.ext_capped⟩

theorem Marker.read_capped :
    Capped (Marker.read ⟨bo, m⟩) (Marker.read ⟨bo, n⟩) := by
  unfold Marker.read; capped

instance : IsCapped (Marker.read ⟨bo, m⟩) (Marker.read ⟨bo, n⟩) :=
  ⟨Marker.read_capped⟩

theorem TrackerManager.read_capped :
    Capped (TrackerManager.read ⟨bo, m⟩) (TrackerManager.read ⟨bo, n⟩) := by
  unfold TrackerManager.read; capped

instance : IsCapped (TrackerManager.read ⟨bo, m⟩) (TrackerManager.read ⟨bo, n⟩) :=
  ⟨TrackerManager.read_capped⟩

theorem TrackerDataSlot.ext_capped {tag : Int} {s : TrackerDataSlot} :
    Capped (TrackerDataSlot.ext ⟨bo, m⟩ tag s) (TrackerDataSlot.ext ⟨bo, n⟩ tag s) := by
  unfold TrackerDataSlot.ext; capped

instance {tag : Int} {s : TrackerDataSlot} : IsCapped (TrackerDataSlot.ext ⟨bo, m⟩ tag s) (TrackerDataSlot.ext ⟨bo, n⟩ tag s) :=
  ⟨TrackerDataSlot.ext_capped⟩

theorem TrackerDataSlot.read_capped :
    Capped (TrackerDataSlot.read ⟨bo, m⟩) (TrackerDataSlot.read ⟨bo, n⟩) := by
  unfold TrackerDataSlot.read; capped

instance : IsCapped (TrackerDataSlot.read ⟨bo, m⟩) (TrackerDataSlot.read ⟨bo, n⟩) :=
  ⟨TrackerDataSlot.read_capped⟩

theorem TrackerParameterSlot.read_capped :
    Capped (TrackerParameterSlot.read ⟨bo, m⟩) (TrackerParameterSlot.read ⟨bo, n⟩) := by
  unfold TrackerParameterSlot.read; capped

instance : IsCapped (TrackerParameterSlot.read ⟨bo, m⟩) (TrackerParameterSlot.read ⟨bo, n⟩) :=
  ⟨TrackerParameterSlot.read_capped⟩

theorem TrackerData.ext_capped {tag : Int} {s : TrackerData} :
    Capped (TrackerData.ext ⟨bo, m⟩ tag s) (TrackerData.ext ⟨bo, n⟩ tag s) := by
  unfold TrackerData.ext; capped

instance {tag : Int} {s : TrackerData} : IsCapped (TrackerData.ext ⟨bo, m⟩ tag s) (TrackerData.ext ⟨bo, n⟩ tag s) :=
  ⟨TrackerData.ext_capped⟩

theorem TrackerData.read_capped :
    Capped (TrackerData.read ⟨bo, m⟩) (TrackerData.read ⟨bo, n⟩) := by
  unfold TrackerData.read; capped

instance : IsCapped (TrackerData.read ⟨bo, m⟩) (TrackerData.read ⟨bo, n⟩) :=
  ⟨TrackerData.read_capped⟩

theorem TrackerParameter.read_capped :
    Capped (TrackerParameter.read ⟨bo, m⟩) (TrackerParameter.read ⟨bo, n⟩) := by
  unfold TrackerParameter.read; capped

instance : IsCapped (TrackerParameter.read ⟨bo, m⟩) (TrackerParameter.read ⟨bo, n⟩) :=
  ⟨TrackerParameter.read_capped⟩

theorem MediaDescriptor.ext_capped {tag : Int} {s : MediaDescriptor} :
    Capped (MediaDescriptor.ext ⟨bo, m⟩ tag s) (MediaDescriptor.ext ⟨bo, n⟩ tag s) := by
  unfold MediaDescriptor.ext; capped

instance {tag : Int} {s : MediaDescriptor} : IsCapped (MediaDescriptor.ext ⟨bo, m⟩ tag s) (MediaDescriptor.ext ⟨bo, n⟩ tag s) :=
  ⟨MediaDescriptor.ext_capped⟩

theorem MediaDescriptor.readBody_capped :
    Capped (MediaDescriptor.readBody ⟨bo, m⟩) (MediaDescriptor.readBody ⟨bo, n⟩) := by
  unfold MediaDescriptor.readBody; capped

instance : IsCapped (MediaDescriptor.readBody ⟨bo, m⟩) (MediaDescriptor.readBody ⟨bo, n⟩) :=
  ⟨MediaDescriptor.readBody_capped⟩

theorem MediaDescriptor.read_capped :
    Capped (MediaDescriptor.read ⟨bo, m⟩) (MediaDescriptor.read ⟨bo, n⟩) := by
  unfold MediaDescriptor.read; capped

instance : IsCapped (MediaDescriptor.read ⟨bo, m⟩) (MediaDescriptor.read ⟨bo, n⟩) :=
  ⟨MediaDescriptor.read_capped⟩

theorem TapeDescriptor.read_capped :
    Capped (TapeDescriptor.read ⟨bo, m⟩) (TapeDescriptor.read ⟨bo, n⟩) := by
  unfold TapeDescriptor.read; capped

instance : IsCapped (TapeDescriptor.read ⟨bo, m⟩) (TapeDescriptor.read ⟨bo, n⟩) :=
  ⟨TapeDescriptor.read_capped⟩

theorem FilmDescriptor.read_capped :
    Capped (FilmDescriptor.read ⟨bo, m⟩) (FilmDescriptor.read ⟨bo, n⟩) := by
  unfold FilmDescriptor.read; capped

instance : IsCapped (FilmDescriptor.read ⟨bo, m⟩) (FilmDescriptor.read ⟨bo, n⟩) :=
  ⟨FilmDescriptor.read_capped⟩

theorem NagraDescriptor.read_capped :
    Capped (NagraDescriptor.read ⟨bo, m⟩) (NagraDescriptor.read ⟨bo, n⟩) := by
  unfold NagraDescriptor.read; capped

instance : IsCapped (NagraDescriptor.read ⟨bo, m⟩) (NagraDescriptor.read ⟨bo, n⟩) :=
  ⟨NagraDescriptor.read_capped⟩

theorem MediaFileDescriptor.readBody_capped :
    Capped (MediaFileDescriptor.readBody ⟨bo, m⟩) (MediaFileDescriptor.readBody ⟨bo, n⟩) := by
  unfold MediaFileDescriptor.readBody; capped

instance : IsCapped (MediaFileDescriptor.readBody ⟨bo, m⟩) (MediaFileDescriptor.readBody ⟨bo, n⟩) :=
  ⟨MediaFileDescriptor.readBody_capped⟩

theorem MediaFileDescriptor.read_capped :
    Capped (MediaFileDescriptor.read ⟨bo, m⟩) (MediaFileDescriptor.read ⟨bo, n⟩) := by
  unfold MediaFileDescriptor.read; capped

instance : IsCapped (MediaFileDescriptor.read ⟨bo, m⟩) (MediaFileDescriptor.read ⟨bo, n⟩) :=
  ⟨MediaFileDescriptor.read_capped⟩

theorem MultiDescriptor.read_capped :
    Capped (MultiDescriptor.read ⟨bo, m⟩) (MultiDescriptor.read ⟨bo, n⟩) := by
  unfold MultiDescriptor.read; capped

instance : IsCapped (MultiDescriptor.read ⟨bo, m⟩) (MultiDescriptor.read ⟨bo, n⟩) :=
  ⟨MultiDescriptor.read_capped⟩

theorem WaveDescriptor.read_capped :
    Capped (WaveDescriptor.read ⟨bo, m⟩) (WaveDescriptor.read ⟨bo, n⟩) := by
  unfold WaveDescriptor.read; capped

instance : IsCapped (WaveDescriptor.read ⟨bo, m⟩) (WaveDescriptor.read ⟨bo, n⟩) :=
  ⟨WaveDescriptor.read_capped⟩

theorem AIFCDescriptor.ext_capped {tag : Int} {s : AIFCDescriptor} :
    Capped (AIFCDescriptor.ext ⟨bo, m⟩ tag s) (AIFCDescriptor.ext ⟨bo, n⟩ tag s) := by
  unfold AIFCDescriptor.ext; capped

instance {tag : Int} {s : AIFCDescriptor} : IsCapped (AIFCDescriptor.ext ⟨bo, m⟩ tag s) (AIFCDescriptor.ext ⟨bo, n⟩ tag s) :=
  ⟨AIFCDescriptor.ext_capped⟩

theorem AIFCDescriptor.read_capped :
    Capped (AIFCDescriptor.read ⟨bo, m⟩) (AIFCDescriptor.read ⟨bo, n⟩) := by
  unfold AIFCDescriptor.read; capped

instance : IsCapped (AIFCDescriptor.read ⟨bo, m⟩) (AIFCDescriptor.read ⟨bo, n⟩) :=
  ⟨AIFCDescriptor.read_capped⟩

theorem PCMADescriptor.ext_capped {tag : Int} {s : PCMADescriptor} :
    Capped (PCMADescriptor.ext ⟨bo, m⟩ tag s) (PCMADescriptor.ext ⟨bo, n⟩ tag s) := by
  unfold PCMADescriptor.ext; capped

instance {tag : Int} {s : PCMADescriptor} : IsCapped (PCMADescriptor.ext ⟨bo, m⟩ tag s) (PCMADescriptor.ext ⟨bo, n⟩ tag s) :=
  ⟨PCMADescriptor.ext_capped⟩

theorem PCMADescriptor.read_capped :
    Capped (PCMADescriptor.read ⟨bo, m⟩) (PCMADescriptor.read ⟨bo, n⟩) := by
  unfold PCMADescriptor.read; capped

instance : IsCapped (PCMADescriptor.read ⟨bo, m⟩) (PCMADescriptor.read ⟨bo, n⟩) :=
  ⟨PCMADescriptor.read_capped⟩

theorem MPGADescriptor.ext_capped {tag : Int} {s : MPGADescriptor} :
    Capped (MPGADescriptor.ext ⟨bo, m⟩ tag s) (MPGADescriptor.ext ⟨bo, n⟩ tag s) := by
  unfold MPGADescriptor.ext; capped

instance {tag : Int} {s : MPGADescriptor} : IsCapped (MPGADescriptor.ext ⟨bo, m⟩ tag s) (MPGADescriptor.ext ⟨bo, n⟩ tag s) :=
  ⟨MPGADescriptor.ext_capped⟩

theorem MPGADescriptor.read_capped :
    Capped (MPGADescriptor.read ⟨bo, m⟩) (MPGADescriptor.read ⟨bo, n⟩) := by
  unfold MPGADescriptor.read; capped

instance : IsCapped (MPGADescriptor.read ⟨bo, m⟩) (MPGADescriptor.read ⟨bo, n⟩) :=
  ⟨MPGADescriptor.read_capped⟩

theorem rPoint_capped :
    Capped (rPoint ⟨bo, m⟩) (rPoint ⟨bo, n⟩) := by
  unfold rPoint; capped

instance : IsCapped (rPoint ⟨bo, m⟩) (rPoint ⟨bo, n⟩) :=
  ⟨rPoint_capped⟩

theorem rBox_capped :
    Capped (rBox ⟨bo, m⟩) (rBox ⟨bo, n⟩) := by
  unfold rBox; capped

instance : IsCapped (rBox ⟨bo, m⟩) (rBox ⟨bo, n⟩) :=
  ⟨rBox_capped⟩

theorem DIDDescriptor.ext_capped {tag : Int} {s : DIDDescriptor} :
    Capped (DIDDescriptor.ext ⟨bo, m⟩ tag s) (DIDDescriptor.ext ⟨bo, n⟩ tag s) := by
  unfold DIDDescriptor.ext; capped

instance {tag : Int} {s : DIDDescriptor} : IsCapped (DIDDescriptor.ext ⟨bo, m⟩ tag s) (DIDDescriptor.ext ⟨bo, n⟩ tag s) :=
  ⟨DIDDescriptor.ext_capped⟩

theorem DIDDescriptor.readBody_capped :
    Capped (DIDDescriptor.readBody ⟨bo, m⟩) (DIDDescriptor.readBody ⟨bo, n⟩) := by
  unfold DIDDescriptor.readBody; capped

instance : IsCapped (DIDDescriptor.readBody ⟨bo, m⟩) (DIDDescriptor.readBody ⟨bo, n⟩) :=
  ⟨DIDDescriptor.readBody_capped⟩

theorem DIDDescriptor.read_capped :
    Capped (DIDDescriptor.read ⟨bo, m⟩) (DIDDescriptor.read ⟨bo, n⟩) := by
  unfold DIDDescriptor.read; capped

instance : IsCapped (DIDDescriptor.read ⟨bo, m⟩) (DIDDescriptor.read ⟨bo, n⟩) :=
  ⟨DIDDescriptor.read_capped⟩

theorem CDCIDescriptor.ext_capped {tag : Int} {s : CDCIDescriptor} :
    Capped (CDCIDescriptor.ext ⟨bo, m⟩ tag s) (CDCIDescriptor.ext ⟨bo, n⟩ tag s) := by
  unfold CDCIDescriptor.ext; capped

instance {tag : Int} {s : CDCIDescriptor} : IsCapped (CDCIDescriptor.ext ⟨bo, m⟩ tag s) (CDCIDescriptor.ext ⟨bo, n⟩ tag s) :=
  ⟨CDCIDescriptor.ext_capped⟩

theorem CDCIDescriptor.readBody_capped :
    Capped (CDCIDescriptor.readBody ⟨bo, m⟩) (CDCIDescriptor.readBody ⟨bo, n⟩) := by
  unfold CDCIDescriptor.readBody; capped

instance : IsCapped (CDCIDescriptor.readBody ⟨bo, m⟩) (CDCIDescriptor.readBody ⟨bo, n⟩) :=
  ⟨CDCIDescriptor.readBody_capped⟩

theorem CDCIDescriptor.read_capped :
    Capped (CDCIDescriptor.read ⟨bo, m⟩) (CDCIDescriptor.read ⟨bo, n⟩) := by
  unfold CDCIDescriptor.read; capped

instance : IsCapped (CDCIDescriptor.read ⟨bo, m⟩) (CDCIDescriptor.read ⟨bo, n⟩) :=
  ⟨CDCIDescriptor.read_capped⟩

theorem MPGIDescriptor.read_capped :
    Capped (MPGIDescriptor.read ⟨bo, m⟩) (MPGIDescriptor.read ⟨bo, n⟩) := by
  unfold MPGIDescriptor.read; capped

instance : IsCapped (MPGIDescriptor.read ⟨bo, m⟩) (MPGIDescriptor.read ⟨bo, n⟩) :=
  ⟨MPGIDescriptor.read_capped⟩

theorem JPEGDescriptor.ext_capped {tag : Int} {s : JPEGDescriptor} :
    Capped (JPEGDescriptor.ext ⟨bo, m⟩ tag s) (JPEGDescriptor.ext ⟨bo, n⟩ tag s) := by
  unfold JPEGDescriptor.ext; capped

instance {tag : Int} {s : JPEGDescriptor} : IsCapped (JPEGDescriptor.ext ⟨bo, m⟩ tag s) (JPEGDescriptor.ext ⟨bo, n⟩ tag s) :=
  ⟨JPEGDescriptor.ext_capped⟩

theorem JPEGDescriptor.read_capped :
    Capped (JPEGDescriptor.read ⟨bo, m⟩) (JPEGDescriptor.read ⟨bo, n⟩) := by
  unfold JPEGDescriptor.read; capped

instance : IsCapped (JPEGDescriptor.read ⟨bo, m⟩) (JPEGDescriptor.read ⟨bo, n⟩) :=
  ⟨JPEGDescriptor.read_capped⟩

theorem RGBADescriptor.ext_capped {tag : Int} {s : RGBADescriptor} :
    Capped (RGBADescriptor.ext ⟨bo, m⟩ tag s) (RGBADescriptor.ext ⟨bo, n⟩ tag s) := by
  unfold RGBADescriptor.ext; capped

instance {tag : Int} {s : RGBADescriptor} : IsCapped (RGBADescriptor.ext ⟨bo, m⟩ tag s) (RGBADescriptor.ext ⟨bo, n⟩ tag s) :=
  ⟨RGBADescriptor.ext_capped⟩

theorem RGBADescriptor.read_capped :
    Capped (RGBADescriptor.read ⟨bo, m⟩) (RGBADescriptor.read ⟨bo, n⟩) := by
  unfold RGBADescriptor.read; capped

instance : IsCapped (RGBADescriptor.read ⟨bo, m⟩) (RGBADescriptor.read ⟨bo, n⟩) :=
  ⟨RGBADescriptor.read_capped⟩

theorem DataDescriptor.read_capped :
    Capped (DataDescriptor.read ⟨bo, m⟩) (DataDescriptor.read ⟨bo, n⟩) := by
  unfold DataDescriptor.read; capped

instance : IsCapped (DataDescriptor.read ⟨bo, m⟩) (DataDescriptor.read ⟨bo, n⟩) :=
  ⟨DataDescriptor.read_capped⟩

theorem ANCDataDescriptor.read_capped :
    Capped (ANCDataDescriptor.read ⟨bo, m⟩) (ANCDataDescriptor.read ⟨bo, n⟩) := by
  unfold ANCDataDescriptor.read; capped

instance : IsCapped (ANCDataDescriptor.read ⟨bo, m⟩) (ANCDataDescriptor.read ⟨bo, n⟩) :=
  ⟨ANCDataDescriptor.read_capped⟩

theorem Attributes.readItem_capped :
    Capped (Attributes.readItem ⟨bo, m⟩) (Attributes.readItem ⟨bo, n⟩) := by
  unfold Attributes.readItem; capped

instance : IsCapped (Attributes.readItem ⟨bo, m⟩) (Attributes.readItem ⟨bo, n⟩) :=
  ⟨Attributes.readItem_capped⟩

theorem Attributes.read_capped :
    Capped (Attributes.read ⟨bo, m⟩) (Attributes.read ⟨bo, n⟩) := by
  unfold Attributes.read; capped

instance : IsCapped (Attributes.read ⟨bo, m⟩) (Attributes.read ⟨bo, n⟩) :=
  ⟨Attributes.read_capped⟩

theorem ParameterList.read_capped :
    Capped (ParameterList.read ⟨bo, m⟩) (ParameterList.read ⟨bo, n⟩) := by
  unfold ParameterList.read; capped

instance : IsCapped (ParameterList.read ⟨bo, m⟩) (ParameterList.read ⟨bo, n⟩) :=
  ⟨ParameterList.read_capped⟩

theorem TimeCrumbList.read_capped :
    Capped (TimeCrumbList.read ⟨bo, m⟩) (TimeCrumbList.read ⟨bo, n⟩) := by
  unfold TimeCrumbList.read; capped

instance : IsCapped (TimeCrumbList.read ⟨bo, m⟩) (TimeCrumbList.read ⟨bo, n⟩) :=
  ⟨TimeCrumbList.read_capped⟩

theorem Setting.read_capped :
    Capped (Setting.read ⟨bo, m⟩) (Setting.read ⟨bo, n⟩) := by
  unfold Setting.read; capped

instance : IsCapped (Setting.read ⟨bo, m⟩) (Setting.read ⟨bo, n⟩) :=
  ⟨Setting.read_capped⟩

theorem BinColumn.read_capped :
    Capped (BinColumn.read ⟨bo, m⟩) (BinColumn.read ⟨bo, n⟩) := by
  unfold BinColumn.read; capped

instance : IsCapped (BinColumn.read ⟨bo, m⟩) (BinColumn.read ⟨bo, n⟩) :=
  ⟨BinColumn.read_capped⟩

theorem FormatDescriptor.read_capped :
    Capped (FormatDescriptor.read ⟨bo, m⟩) (FormatDescriptor.read ⟨bo, n⟩) := by
  unfold FormatDescriptor.read; capped

instance : IsCapped (FormatDescriptor.read ⟨bo, m⟩) (FormatDescriptor.read ⟨bo, n⟩) :=
  ⟨FormatDescriptor.read_capped⟩

theorem BinViewSetting.ext_capped {tag : Int} {s : BinViewSetting} :
    Capped (BinViewSetting.ext ⟨bo, m⟩ tag s) (BinViewSetting.ext ⟨bo, n⟩ tag s) := by
  unfold BinViewSetting.ext; capped

instance {tag : Int} {s : BinViewSetting} : IsCapped (BinViewSetting.ext ⟨bo, m⟩ tag s) (BinViewSetting.ext ⟨bo, n⟩ tag s) :=
  ⟨BinViewSetting.ext_capped⟩

theorem BinViewSetting.read_capped :
    Capped (BinViewSetting.read ⟨bo, m⟩) (BinViewSetting.read ⟨bo, n⟩) := by
  unfold BinViewSetting.read; capped

instance : IsCapped (BinViewSetting.read ⟨bo, m⟩) (BinViewSetting.read ⟨bo, n⟩) :=
  ⟨BinViewSetting.read_capped⟩

theorem BinItem.read_capped :
    Capped (BinItem.read ⟨bo, m⟩) (BinItem.read ⟨bo, n⟩) := by
  unfold BinItem.read; capped

instance : IsCapped (BinItem.read ⟨bo, m⟩) (BinItem.read ⟨bo, n⟩) :=
  ⟨BinItem.read_capped⟩

theorem SiftItem.read_capped :
    Capped (SiftItem.read ⟨bo, m⟩) (SiftItem.read ⟨bo, n⟩) := by
  unfold SiftItem.read; capped

instance : IsCapped (SiftItem.read ⟨bo, m⟩) (SiftItem.read ⟨bo, n⟩) :=
  ⟨SiftItem.read_capped⟩

theorem rSortColumn_capped :
    Capped (rSortColumn ⟨bo, m⟩) (rSortColumn ⟨bo, n⟩) := by
  unfold rSortColumn; capped

instance : IsCapped (rSortColumn ⟨bo, m⟩) (rSortColumn ⟨bo, n⟩) :=
  ⟨rSortColumn_capped⟩

theorem Bin.readCount_capped {version : Int} :
    Capped (Bin.readCount ⟨bo, m⟩ version) (Bin.readCount ⟨bo, n⟩ version) := by
  unfold Bin.readCount; capped

instance {version : Int} : IsCapped (Bin.readCount ⟨bo, m⟩ version) (Bin.readCount ⟨bo, n⟩ version) :=
  ⟨Bin.readCount_capped⟩

theorem Bin.readBody_capped :
    Capped (Bin.readBody ⟨bo, m⟩) (Bin.readBody ⟨bo, n⟩) := by
  unfold Bin.readBody; capped

instance : IsCapped (Bin.readBody ⟨bo, m⟩) (Bin.readBody ⟨bo, n⟩) :=
  ⟨Bin.readBody_capped⟩

theorem Bin.read_capped :
    Capped (Bin.read ⟨bo, m⟩) (Bin.read ⟨bo, n⟩) := by
  unfold Bin.read; capped

instance : IsCapped (Bin.read ⟨bo, m⟩) (Bin.read ⟨bo, n⟩) :=
  ⟨Bin.read_capped⟩

theorem BinFirst.read_capped :
    Capped (BinFirst.read ⟨bo, m⟩) (BinFirst.read ⟨bo, n⟩) := by
  unfold BinFirst.read; capped

instance : IsCapped (BinFirst.read ⟨bo, m⟩) (BinFirst.read ⟨bo, n⟩) :=
  ⟨BinFirst.read_capped⟩

theorem Obj.readAs_capped (k : Cls) : Capped (Obj.readAs ⟨bo, m⟩ k) (Obj.readAs ⟨bo, n⟩ k) := by
  cases k <;> exact Capped.bind IsCapped.h fun _ => Capped.refl

omit [Fewer m n] in
theorem refs_refused {k : Cls} {bs rest : Bytes} {o : Obj}
    (h : Obj.readAs ⟨bo, n⟩ k bs = .ok (o, rest)) {r : Ref} (hr : r ∈ o.refs) (hm : m ≤ r) :
    Obj.readAs ⟨bo, m⟩ k bs = .error .value := by
  have hn : r < n := Obj.readAs_within h r hr
  have : Fewer m n := ⟨Nat.le_of_lt (Nat.lt_of_le_of_lt hm hn)⟩
  rcases Obj.readAs_capped (bo := bo) (m := m) (n := n) k bs with he | he
  · rw [h] at he
    exact absurd (Obj.readAs_within he r hr) (Nat.not_lt.2 hm)
  · exact he

end Avb
