import Verif.Lemmas.Within

/-
References in what the readers give, in the order of the model files.
-/

namespace Avb

instance : Vis Component := ⟨fun x => x.visits⟩
instance : Vis Sequence := ⟨fun x => x.visits⟩
instance : Vis Clip := ⟨fun x => x.visits⟩
instance : Vis SourceClip := ⟨fun x => x.visits⟩
instance : Vis Timecode := ⟨fun x => x.visits⟩
instance : Vis Edgecode := ⟨fun x => x.visits⟩
instance : Vis TrackRef := ⟨fun x => x.visits⟩
instance : Vis PVal := ⟨fun x => x.visits⟩
instance : Vis ParamClip := ⟨fun x => x.visits⟩
instance : Vis ControlClip := ⟨fun x => x.visits⟩
instance : Vis Filler := ⟨fun x => x.visits⟩
instance : Vis Track := ⟨fun x => x.visits⟩
instance : Vis TrackGroup := ⟨fun x => x.visits⟩
instance : Vis TrackEffect := ⟨fun x => x.visits⟩
instance : Vis PanVolumeEffect := ⟨fun x => x.visits⟩
instance : Vis AudioSuitePluginEffect := ⟨fun x => x.visits⟩
instance : Vis EqualizerMultiBand := ⟨fun x => x.visits⟩
instance : Vis TimeWarp := ⟨fun x => x.visits⟩
instance : Vis CaptureMask := ⟨fun x => x.visits⟩
instance : Vis StrobeEffect := ⟨fun x => x.visits⟩
instance : Vis MotionEffect := ⟨fun x => x.visits⟩
instance : Vis Repeat := ⟨fun x => x.visits⟩
instance : Vis EssenceGroup := ⟨fun x => x.visits⟩
instance : Vis TransitionEffect := ⟨fun x => x.visits⟩
instance : Vis Selector := ⟨fun x => x.visits⟩
instance : Vis Composition := ⟨fun x => x.visits⟩
instance : Vis ParameterItem := ⟨fun x => x.visits⟩
instance : Vis Marker := ⟨fun x => x.visits⟩
instance : Vis TrackerManager := ⟨fun x => x.visits⟩
instance : Vis TrackerDataSlot := ⟨fun x => x.visits⟩
instance : Vis TrackerParameterSlot := ⟨fun x => x.visits⟩
instance : Vis TrackerData := ⟨fun x => x.visits⟩
instance : Vis MediaDescriptor := ⟨fun x => x.visits⟩
instance : Vis TapeDescriptor := ⟨fun x => x.visits⟩
instance : Vis FilmDescriptor := ⟨fun x => x.visits⟩
instance : Vis NagraDescriptor := ⟨fun x => x.visits⟩
instance : Vis MediaFileDescriptor := ⟨fun x => x.visits⟩
instance : Vis MultiDescriptor := ⟨fun x => x.visits⟩
instance : Vis WaveDescriptor := ⟨fun x => x.visits⟩
instance : Vis AIFCDescriptor := ⟨fun x => x.visits⟩
instance : Vis PCMADescriptor := ⟨fun x => x.visits⟩
instance : Vis MPGADescriptor := ⟨fun x => x.visits⟩
instance : Vis DIDDescriptor := ⟨fun x => x.visits⟩
instance : Vis CDCIDescriptor := ⟨fun x => x.visits⟩
instance : Vis MPGIDescriptor := ⟨fun x => x.visits⟩
instance : Vis JPEGDescriptor := ⟨fun x => x.visits⟩
instance : Vis RGBADescriptor := ⟨fun x => x.visits⟩
instance : Vis DataDescriptor := ⟨fun x => x.visits⟩
instance : Vis ANCDataDescriptor := ⟨fun x => x.visits⟩
instance : Vis Attributes := ⟨fun x => x.visits⟩
instance : Vis ParameterList := ⟨fun x => x.visits⟩
instance : Vis TimeCrumbList := ⟨fun x => x.visits⟩
instance : Vis BinViewSetting := ⟨fun x => x.visits⟩
instance : Vis Bin := ⟨fun x => x.visits⟩
instance : Vis BinFirst := ⟨fun x => x.visits⟩
instance : Vis PCP := ⟨fun x => x.value.visits⟩
instance : Vis Setting := ⟨fun x => [.prop x.attributes]⟩
instance : Vis BinItem := ⟨fun x => [.prop x.mob]⟩
instance : Vis (Text × AttrVal) := ⟨fun x => x.2.visits⟩

theorem Component.ext_within {d : RCtx} {tag : Int} {s : Component}  (hs : In d.nobj (Vis.vis s)) :
    Post (Component.ext d tag s) (Inside d.nobj) := by
  unfold Component.ext; within

instance {d : RCtx} : IsWithinExt d (Component.ext d) := ⟨fun _ _ h => Component.ext_within h⟩

theorem Component.read_within {d : RCtx}  : Post (Component.read d) (Inside d.nobj) := by
  unfold Component.read; within

instance {d : RCtx}  : IsWithin d (Component.read d) := ⟨Component.read_within⟩

theorem Sequence.read_within {d : RCtx}  : Post (Sequence.read d) (Inside d.nobj) := by
  unfold Sequence.read; within

instance {d : RCtx}  : IsWithin d (Sequence.read d) := ⟨Sequence.read_within⟩

theorem Clip.read_within {d : RCtx}  : Post (Clip.read d) (Inside d.nobj) := by
  unfold Clip.read; within

instance {d : RCtx}  : IsWithin d (Clip.read d) := ⟨Clip.read_within⟩

theorem SourceClip.ext_within {d : RCtx} {tag : Int} {s : SourceClip}  (hs : In d.nobj (Vis.vis s)) :
    Post (SourceClip.ext d tag s) (Inside d.nobj) := by
  unfold SourceClip.ext; within

instance {d : RCtx} : IsWithinExt d (SourceClip.ext d) := ⟨fun _ _ h => SourceClip.ext_within h⟩

theorem SourceClip.read_within {d : RCtx}  : Post (SourceClip.read d) (Inside d.nobj) := by
  unfold SourceClip.read; within

instance {d : RCtx}  : IsWithin d (SourceClip.read d) := ⟨SourceClip.read_within⟩

theorem Timecode.read_within {d : RCtx}  : Post (Timecode.read d) (Inside d.nobj) := by
  unfold Timecode.read; within

instance {d : RCtx}  : IsWithin d (Timecode.read d) := ⟨Timecode.read_within⟩

theorem Edgecode.read_within {d : RCtx}  : Post (Edgecode.read d) (Inside d.nobj) := by
  unfold Edgecode.read; within

instance {d : RCtx}  : IsWithin d (Edgecode.read d) := ⟨Edgecode.read_within⟩

theorem TrackRef.read_within {d : RCtx}  : Post (TrackRef.read d) (Inside d.nobj) := by
  unfold TrackRef.read; within

instance {d : RCtx}  : IsWithin d (TrackRef.read d) := ⟨TrackRef.read_within⟩

theorem PCPProp.readValue_within {d : RCtx} {type : Int}  : Post (PCPProp.readValue d type) (Inside d.nobj) := by
  unfold PCPProp.readValue; within

instance {d : RCtx} {type : Int}  : IsWithin d (PCPProp.readValue d type) := ⟨PCPProp.readValue_within⟩

theorem PCP.readValue_within {d : RCtx} {value_type : Int}  : Post (PCP.readValue d value_type) (Inside d.nobj) := by
  unfold PCP.readValue; within

instance {d : RCtx} {value_type : Int}  : IsWithin d (PCP.readValue d value_type) := ⟨PCP.readValue_within⟩

theorem PCP.read_within {d : RCtx} {value_type : Int}  : Post (PCP.read d value_type) (Inside d.nobj) := by
  unfold PCP.read; within

instance {d : RCtx} {value_type : Int}  : IsWithin d (PCP.read d value_type) := ⟨PCP.read_within⟩

theorem ParamClip.ext_within {d : RCtx} {tag : Int} {s : ParamClip}  (hs : In d.nobj (Vis.vis s)) :
    Post (ParamClip.ext d tag s) (Inside d.nobj) := by
  unfold ParamClip.ext; within

instance {d : RCtx} : IsWithinExt d (ParamClip.ext d) := ⟨fun _ _ h => ParamClip.ext_within h⟩

theorem ParamClip.read_within {d : RCtx}  : Post (ParamClip.read d) (Inside d.nobj) := by
  unfold ParamClip.read; within

instance {d : RCtx}  : IsWithin d (ParamClip.read d) := ⟨ParamClip.read_within⟩

theorem ControlClip.read_within {d : RCtx}  : Post (ControlClip.read d) (Inside d.nobj) := by
  unfold ControlClip.read; within

instance {d : RCtx}  : IsWithin d (ControlClip.read d) := ⟨ControlClip.read_within⟩

theorem Filler.read_within {d : RCtx}  : Post (Filler.read d) (Inside d.nobj) := by
  unfold Filler.read; within

instance {d : RCtx}  : IsWithin d (Filler.read d) := ⟨Filler.read_within⟩

theorem Track.read_within {d : RCtx}  : Post (Track.read d) (Inside d.nobj) := by
  unfold Track.read; within

instance {d : RCtx}  : IsWithin d (Track.read d) := ⟨Track.read_within⟩

theorem TrackGroup.ext_within {d : RCtx} {tag : Int} {s : TrackGroup} (hs : In d.nobj (Vis.vis s)) :
    Post (TrackGroup.ext d tag s) (Inside d.nobj) := by
  unfold TrackGroup.ext
  refine Post.ite (Post.bind fun locks => Post.pure ?_) Post.fail
  have hs : In d.nobj (s.toComponent.visits ++ s.tracks.flatMap Track.visits) := hs
  rw [In.append] at hs
  show In d.nobj (s.toComponent.visits ++ (s.tracks.zipWith _ locks).flatMap Track.visits)
  rw [In.append]
  refine ⟨hs.1, In.flat.2 fun t ht => ?_⟩
  obtain ⟨i, hi, rfl⟩ := List.mem_iff_getElem.1 ht
  rw [List.getElem_zipWith]
  rw [List.length_zipWith] at hi
  have := In.flat.1 hs.2 (s.tracks[i]'(by omega)) (List.getElem_mem _)
  exact this

instance {d : RCtx} : IsWithinExt d (TrackGroup.ext d) := ⟨fun _ _ h => TrackGroup.ext_within h⟩

theorem TrackGroup.read_within {d : RCtx}  : Post (TrackGroup.read d) (Inside d.nobj) := by
  unfold TrackGroup.read; within

instance {d : RCtx}  : IsWithin d (TrackGroup.read d) := ⟨TrackGroup.read_within⟩

theorem TrackEffect.ext_within {d : RCtx} {tag : Int} {s : TrackEffect}  (hs : In d.nobj (Vis.vis s)) :
    Post (TrackEffect.ext d tag s) (Inside d.nobj) := by
  unfold TrackEffect.ext; within

instance {d : RCtx} : IsWithinExt d (TrackEffect.ext d) := ⟨fun _ _ h => TrackEffect.ext_within h⟩

theorem TrackEffect.readBody_within {d : RCtx}  : Post (TrackEffect.readBody d) (Inside d.nobj) := by
  unfold TrackEffect.readBody; within

instance {d : RCtx}  : IsWithin d (TrackEffect.readBody d) := ⟨TrackEffect.readBody_within⟩

theorem TrackEffect.read_within {d : RCtx}  : Post (TrackEffect.read d) (Inside d.nobj) := by
  unfold TrackEffect.read; within

instance {d : RCtx}  : IsWithin d (TrackEffect.read d) := ⟨TrackEffect.read_within⟩

theorem PanVolumeEffect.ext_within {d : RCtx} {tag : Int} {s : PanVolumeEffect}  (hs : In d.nobj (Vis.vis s)) :
    Post (PanVolumeEffect.ext d tag s) (Inside d.nobj) := by
  unfold PanVolumeEffect.ext; within

instance {d : RCtx} : IsWithinExt d (PanVolumeEffect.ext d) := ⟨fun _ _ h => PanVolumeEffect.ext_within h⟩

theorem PanVolumeEffect.read_within {d : RCtx}  : Post (PanVolumeEffect.read d) (Inside d.nobj) := by
  unfold PanVolumeEffect.read; within

instance {d : RCtx}  : IsWithin d (PanVolumeEffect.read d) := ⟨PanVolumeEffect.read_within⟩

theorem AudioSuitePluginEffect.ext_within {d : RCtx} {tag : Int} {s : AudioSuitePluginEffect}  (hs : In d.nobj (Vis.vis s)) :
    Post (AudioSuitePluginEffect.ext d tag s) (Inside d.nobj) := by
  unfold AudioSuitePluginEffect.ext; within

instance {d : RCtx} : IsWithinExt d (AudioSuitePluginEffect.ext d) := ⟨fun _ _ h => AudioSuitePluginEffect.ext_within h⟩

theorem AudioSuitePluginEffect.read_within {d : RCtx}  : Post (AudioSuitePluginEffect.read d) (Inside d.nobj) := by
  unfold AudioSuitePluginEffect.read; within

instance {d : RCtx}  : IsWithin d (AudioSuitePluginEffect.read d) := ⟨AudioSuitePluginEffect.read_within⟩

theorem EqualizerMultiBand.read_within {d : RCtx}  : Post (EqualizerMultiBand.read d) (Inside d.nobj) := by
  unfold EqualizerMultiBand.read; within

instance {d : RCtx}  : IsWithin d (EqualizerMultiBand.read d) := ⟨EqualizerMultiBand.read_within⟩

theorem TimeWarp.read_within {d : RCtx}  : Post (TimeWarp.read d) (Inside d.nobj) := by
  unfold TimeWarp.read; within

instance {d : RCtx}  : IsWithin d (TimeWarp.read d) := ⟨TimeWarp.read_within⟩

theorem CaptureMask.read_within {d : RCtx}  : Post (CaptureMask.read d) (Inside d.nobj) := by
  unfold CaptureMask.read; within

instance {d : RCtx}  : IsWithin d (CaptureMask.read d) := ⟨CaptureMask.read_within⟩

theorem StrobeEffect.read_within {d : RCtx}  : Post (StrobeEffect.read d) (Inside d.nobj) := by
  unfold StrobeEffect.read; within

instance {d : RCtx}  : IsWithin d (StrobeEffect.read d) := ⟨StrobeEffect.read_within⟩

theorem MotionEffect.ext_within {d : RCtx} {tag : Int} {s : MotionEffect}  (hs : In d.nobj (Vis.vis s)) :
    Post (MotionEffect.ext d tag s) (Inside d.nobj) := by
  unfold MotionEffect.ext; within

instance {d : RCtx} : IsWithinExt d (MotionEffect.ext d) := ⟨fun _ _ h => MotionEffect.ext_within h⟩

theorem MotionEffect.read_within {d : RCtx}  : Post (MotionEffect.read d) (Inside d.nobj) := by
  unfold MotionEffect.read; within

instance {d : RCtx}  : IsWithin d (MotionEffect.read d) := ⟨MotionEffect.read_within⟩

theorem Repeat.read_within {d : RCtx}  : Post (Repeat.read d) (Inside d.nobj) := by
  unfold Repeat.read; within

instance {d : RCtx}  : IsWithin d (Repeat.read d) := ⟨Repeat.read_within⟩

theorem EssenceGroup.ext_within {d : RCtx} {tag : Int} {s : EssenceGroup}  (hs : In d.nobj (Vis.vis s)) :
    Post (EssenceGroup.ext d tag s) (Inside d.nobj) := by
  unfold EssenceGroup.ext; within

instance {d : RCtx} : IsWithinExt d (EssenceGroup.ext d) := ⟨fun _ _ h => EssenceGroup.ext_within h⟩

theorem EssenceGroup.read_within {d : RCtx}  : Post (EssenceGroup.read d) (Inside d.nobj) := by
  unfold EssenceGroup.read; within

instance {d : RCtx}  : IsWithin d (EssenceGroup.read d) := ⟨EssenceGroup.read_within⟩

theorem TransitionEffect.ext_within {d : RCtx} {tag : Int} {s : TransitionEffect}  (hs : In d.nobj (Vis.vis s)) :
    Post (TransitionEffect.ext d tag s) (Inside d.nobj) := by
  unfold TransitionEffect.ext; within

instance {d : RCtx} : IsWithinExt d (TransitionEffect.ext d) := ⟨fun _ _ h => TransitionEffect.ext_within h⟩

theorem TransitionEffect.read_within {d : RCtx}  : Post (TransitionEffect.read d) (Inside d.nobj) := by
  unfold TransitionEffect.read; within

instance {d : RCtx}  : IsWithin d (TransitionEffect.read d) := ⟨TransitionEffect.read_within⟩

theorem Selector.read_within {d : RCtx}  : Post (Selector.read d) (Inside d.nobj) := by
  unfold Selector.read; within

instance {d : RCtx}  : IsWithin d (Selector.read d) := ⟨Selector.read_within⟩

theorem Composition.ext_within {d : RCtx} {tag : Int} {s : Composition}  (hs : In d.nobj (Vis.vis s)) :
    Post (Composition.ext d tag s) (Inside d.nobj) := by
  unfold Composition.ext; within

instance {d : RCtx} : IsWithinExt d (Composition.ext d) := ⟨fun _ _ h => Composition.ext_within h⟩

theorem Composition.read_within {d : RCtx}  : Post (Composition.read d) (Inside d.nobj) := by
  unfold Composition.read; within

instance {d : RCtx}  : IsWithin d (Composition.read d) := ⟨Composition.read_within⟩

theorem ParameterItem.readValue_within {d : RCtx} {value_type : Int}  : Post (ParameterItem.readValue d value_type) (Inside d.nobj) := by
  unfold ParameterItem.readValue; within

instance {d : RCtx} {value_type : Int}  : IsWithin d (ParameterItem.readValue d value_type) := ⟨ParameterItem.readValue_within⟩

theorem ParameterItem.ext_within {d : RCtx} {tag : Int} {s : ParameterItem}  (hs : In d.nobj (Vis.vis s)) :
    Post (ParameterItem.ext d tag s) (Inside d.nobj) := by
  unfold ParameterItem.ext; within

instance {d : RCtx} : IsWithinExt d (ParameterItem.ext d) := ⟨fun _ _ h => ParameterItem.ext_within h⟩

theorem ParameterItem.read_within {d : RCtx}  : Post (ParameterItem.read d) (Inside d.nobj) := by
  unfold ParameterItem.read; within

instance {d : RCtx}  : IsWithin d (ParameterItem.read d) := ⟨ParameterItem.read_within⟩

theorem Marker.ext_within {d : RCtx} {tag : Int} {s : Marker}  (hs : In d.nobj (Vis.vis s)) :
    Post (Marker.ext d tag s) (Inside d.nobj) := by
  unfold Marker.ext; within

instance {d : RCtx} : IsWithinExt d (Marker.ext d) := ⟨fun _ _ h => Marker.ext_within h⟩

theorem Marker.read_within {d : RCtx}  : Post (Marker.read d) (Inside d.nobj) := by
  unfold Marker.read; within

instance {d : RCtx}  : IsWithin d (Marker.read d) := ⟨Marker.read_within⟩

theorem TrackerManager.read_within {d : RCtx}  : Post (TrackerManager.read d) (Inside d.nobj) := by
  unfold TrackerManager.read; within

instance {d : RCtx}  : IsWithin d (TrackerManager.read d) := ⟨TrackerManager.read_within⟩

theorem TrackerDataSlot.ext_within {d : RCtx} {tag : Int} {s : TrackerDataSlot}  (hs : In d.nobj (Vis.vis s)) :
    Post (TrackerDataSlot.ext d tag s) (Inside d.nobj) := by
  unfold TrackerDataSlot.ext; within

instance {d : RCtx} : IsWithinExt d (TrackerDataSlot.ext d) := ⟨fun _ _ h => TrackerDataSlot.ext_within h⟩

theorem TrackerDataSlot.read_within {d : RCtx}  : Post (TrackerDataSlot.read d) (Inside d.nobj) := by
  unfold TrackerDataSlot.read; within

instance {d : RCtx}  : IsWithin d (TrackerDataSlot.read d) := ⟨TrackerDataSlot.read_within⟩

theorem TrackerParameterSlot.read_within {d : RCtx}  : Post (TrackerParameterSlot.read d) (Inside d.nobj) := by
  unfold TrackerParameterSlot.read; within

instance {d : RCtx}  : IsWithin d (TrackerParameterSlot.read d) := ⟨TrackerParameterSlot.read_within⟩

theorem TrackerData.ext_within {d : RCtx} {tag : Int} {s : TrackerData}  (hs : In d.nobj (Vis.vis s)) :
    Post (TrackerData.ext d tag s) (Inside d.nobj) := by
  unfold TrackerData.ext; within

instance {d : RCtx} : IsWithinExt d (TrackerData.ext d) := ⟨fun _ _ h => TrackerData.ext_within h⟩

theorem TrackerData.read_within {d : RCtx}  : Post (TrackerData.read d) (Inside d.nobj) := by
  unfold TrackerData.read; within

instance {d : RCtx}  : IsWithin d (TrackerData.read d) := ⟨TrackerData.read_within⟩

theorem MediaDescriptor.ext_within {d : RCtx} {tag : Int} {s : MediaDescriptor}  (hs : In d.nobj (Vis.vis s)) :
    Post (MediaDescriptor.ext d tag s) (Inside d.nobj) := by
  unfold MediaDescriptor.ext; within

instance {d : RCtx} : IsWithinExt d (MediaDescriptor.ext d) := ⟨fun _ _ h => MediaDescriptor.ext_within h⟩

theorem MediaDescriptor.readBody_within {d : RCtx}  : Post (MediaDescriptor.readBody d) (Inside d.nobj) := by
  unfold MediaDescriptor.readBody; within

instance {d : RCtx}  : IsWithin d (MediaDescriptor.readBody d) := ⟨MediaDescriptor.readBody_within⟩

theorem MediaDescriptor.read_within {d : RCtx}  : Post (MediaDescriptor.read d) (Inside d.nobj) := by
  unfold MediaDescriptor.read; within

instance {d : RCtx}  : IsWithin d (MediaDescriptor.read d) := ⟨MediaDescriptor.read_within⟩

theorem TapeDescriptor.read_within {d : RCtx}  : Post (TapeDescriptor.read d) (Inside d.nobj) := by
  unfold TapeDescriptor.read; within

instance {d : RCtx}  : IsWithin d (TapeDescriptor.read d) := ⟨TapeDescriptor.read_within⟩

theorem FilmDescriptor.read_within {d : RCtx}  : Post (FilmDescriptor.read d) (Inside d.nobj) := by
  unfold FilmDescriptor.read; within

instance {d : RCtx}  : IsWithin d (FilmDescriptor.read d) := ⟨FilmDescriptor.read_within⟩

theorem NagraDescriptor.read_within {d : RCtx}  : Post (NagraDescriptor.read d) (Inside d.nobj) := by
  unfold NagraDescriptor.read; within

instance {d : RCtx}  : IsWithin d (NagraDescriptor.read d) := ⟨NagraDescriptor.read_within⟩

theorem MediaFileDescriptor.readBody_within {d : RCtx}  : Post (MediaFileDescriptor.readBody d) (Inside d.nobj) := by
  unfold MediaFileDescriptor.readBody; within

instance {d : RCtx}  : IsWithin d (MediaFileDescriptor.readBody d) := ⟨MediaFileDescriptor.readBody_within⟩

theorem MediaFileDescriptor.read_within {d : RCtx}  : Post (MediaFileDescriptor.read d) (Inside d.nobj) := by
  unfold MediaFileDescriptor.read; within

instance {d : RCtx}  : IsWithin d (MediaFileDescriptor.read d) := ⟨MediaFileDescriptor.read_within⟩

theorem MultiDescriptor.read_within {d : RCtx}  : Post (MultiDescriptor.read d) (Inside d.nobj) := by
  unfold MultiDescriptor.read; within

instance {d : RCtx}  : IsWithin d (MultiDescriptor.read d) := ⟨MultiDescriptor.read_within⟩

theorem WaveDescriptor.read_within {d : RCtx}  : Post (WaveDescriptor.read d) (Inside d.nobj) := by
  unfold WaveDescriptor.read; within

instance {d : RCtx}  : IsWithin d (WaveDescriptor.read d) := ⟨WaveDescriptor.read_within⟩

theorem AIFCDescriptor.ext_within {d : RCtx} {tag : Int} {s : AIFCDescriptor}  (hs : In d.nobj (Vis.vis s)) :
    Post (AIFCDescriptor.ext d tag s) (Inside d.nobj) := by
  unfold AIFCDescriptor.ext; within

instance {d : RCtx} : IsWithinExt d (AIFCDescriptor.ext d) := ⟨fun _ _ h => AIFCDescriptor.ext_within h⟩

theorem AIFCDescriptor.read_within {d : RCtx}  : Post (AIFCDescriptor.read d) (Inside d.nobj) := by
  unfold AIFCDescriptor.read; within

instance {d : RCtx}  : IsWithin d (AIFCDescriptor.read d) := ⟨AIFCDescriptor.read_within⟩

theorem PCMADescriptor.ext_within {d : RCtx} {tag : Int} {s : PCMADescriptor}  (hs : In d.nobj (Vis.vis s)) :
    Post (PCMADescriptor.ext d tag s) (Inside d.nobj) := by
  unfold PCMADescriptor.ext; within

instance {d : RCtx} : IsWithinExt d (PCMADescriptor.ext d) := ⟨fun _ _ h => PCMADescriptor.ext_within h⟩

theorem PCMADescriptor.read_within {d : RCtx}  : Post (PCMADescriptor.read d) (Inside d.nobj) := by
  unfold PCMADescriptor.read; within

instance {d : RCtx}  : IsWithin d (PCMADescriptor.read d) := ⟨PCMADescriptor.read_within⟩

theorem MPGADescriptor.ext_within {d : RCtx} {tag : Int} {s : MPGADescriptor}  (hs : In d.nobj (Vis.vis s)) :
    Post (MPGADescriptor.ext d tag s) (Inside d.nobj) := by
  unfold MPGADescriptor.ext; within

instance {d : RCtx} : IsWithinExt d (MPGADescriptor.ext d) := ⟨fun _ _ h => MPGADescriptor.ext_within h⟩

theorem MPGADescriptor.read_within {d : RCtx}  : Post (MPGADescriptor.read d) (Inside d.nobj) := by
  unfold MPGADescriptor.read; within

instance {d : RCtx}  : IsWithin d (MPGADescriptor.read d) := ⟨MPGADescriptor.read_within⟩

theorem DIDDescriptor.ext_within {d : RCtx} {tag : Int} {s : DIDDescriptor}  (hs : In d.nobj (Vis.vis s)) :
    Post (DIDDescriptor.ext d tag s) (Inside d.nobj) := by
  unfold DIDDescriptor.ext; within

instance {d : RCtx} : IsWithinExt d (DIDDescriptor.ext d) := ⟨fun _ _ h => DIDDescriptor.ext_within h⟩

theorem DIDDescriptor.readBody_within {d : RCtx}  : Post (DIDDescriptor.readBody d) (Inside d.nobj) := by
  unfold DIDDescriptor.readBody; within

instance {d : RCtx}  : IsWithin d (DIDDescriptor.readBody d) := ⟨DIDDescriptor.readBody_within⟩

theorem DIDDescriptor.read_within {d : RCtx}  : Post (DIDDescriptor.read d) (Inside d.nobj) := by
  unfold DIDDescriptor.read; within

instance {d : RCtx}  : IsWithin d (DIDDescriptor.read d) := ⟨DIDDescriptor.read_within⟩

theorem CDCIDescriptor.ext_within {d : RCtx} {tag : Int} {s : CDCIDescriptor}  (hs : In d.nobj (Vis.vis s)) :
    Post (CDCIDescriptor.ext d tag s) (Inside d.nobj) := by
  unfold CDCIDescriptor.ext; within

instance {d : RCtx} : IsWithinExt d (CDCIDescriptor.ext d) := ⟨fun _ _ h => CDCIDescriptor.ext_within h⟩

theorem CDCIDescriptor.readBody_within {d : RCtx}  : Post (CDCIDescriptor.readBody d) (Inside d.nobj) := by
  unfold CDCIDescriptor.readBody; within

instance {d : RCtx}  : IsWithin d (CDCIDescriptor.readBody d) := ⟨CDCIDescriptor.readBody_within⟩

theorem CDCIDescriptor.read_within {d : RCtx}  : Post (CDCIDescriptor.read d) (Inside d.nobj) := by
  unfold CDCIDescriptor.read; within

instance {d : RCtx}  : IsWithin d (CDCIDescriptor.read d) := ⟨CDCIDescriptor.read_within⟩

theorem MPGIDescriptor.read_within {d : RCtx}  : Post (MPGIDescriptor.read d) (Inside d.nobj) := by
  unfold MPGIDescriptor.read; within

instance {d : RCtx}  : IsWithin d (MPGIDescriptor.read d) := ⟨MPGIDescriptor.read_within⟩

theorem JPEGDescriptor.ext_within {d : RCtx} {tag : Int} {s : JPEGDescriptor}  (hs : In d.nobj (Vis.vis s)) :
    Post (JPEGDescriptor.ext d tag s) (Inside d.nobj) := by
  unfold JPEGDescriptor.ext; within

instance {d : RCtx} : IsWithinExt d (JPEGDescriptor.ext d) := ⟨fun _ _ h => JPEGDescriptor.ext_within h⟩

theorem JPEGDescriptor.read_within {d : RCtx}  : Post (JPEGDescriptor.read d) (Inside d.nobj) := by
  unfold JPEGDescriptor.read; within

instance {d : RCtx}  : IsWithin d (JPEGDescriptor.read d) := ⟨JPEGDescriptor.read_within⟩

theorem RGBADescriptor.ext_within {d : RCtx} {tag : Int} {s : RGBADescriptor}  (hs : In d.nobj (Vis.vis s)) :
    Post (RGBADescriptor.ext d tag s) (Inside d.nobj) := by
  unfold RGBADescriptor.ext; within

instance {d : RCtx} : IsWithinExt d (RGBADescriptor.ext d) := ⟨fun _ _ h => RGBADescriptor.ext_within h⟩

theorem RGBADescriptor.read_within {d : RCtx}  : Post (RGBADescriptor.read d) (Inside d.nobj) := by
  unfold RGBADescriptor.read; within

instance {d : RCtx}  : IsWithin d (RGBADescriptor.read d) := ⟨RGBADescriptor.read_within⟩

theorem DataDescriptor.read_within {d : RCtx}  : Post (DataDescriptor.read d) (Inside d.nobj) := by
  unfold DataDescriptor.read; within

instance {d : RCtx}  : IsWithin d (DataDescriptor.read d) := ⟨DataDescriptor.read_within⟩

theorem ANCDataDescriptor.read_within {d : RCtx}  : Post (ANCDataDescriptor.read d) (Inside d.nobj) := by
  unfold ANCDataDescriptor.read; within

instance {d : RCtx}  : IsWithin d (ANCDataDescriptor.read d) := ⟨ANCDataDescriptor.read_within⟩

theorem Attributes.readItem_within {d : RCtx}  : Post (Attributes.readItem d) (Inside d.nobj) := by
  unfold Attributes.readItem; within

instance {d : RCtx}  : IsWithin d (Attributes.readItem d) := ⟨Attributes.readItem_within⟩

theorem In.dictSet {n : Nat} {k : Text} {v : AttrVal} (hv : In n v.visits) :
    ∀ {l : List (Text × AttrVal)}, (∀ p ∈ l, In n p.2.visits) →
      ∀ p ∈ dictSet l k v, In n p.2.visits
  | [], _, p, hp => by
    cases List.mem_singleton.1 hp
    exact hv
  | q :: l, hl, p, hp => by
    unfold Avb.dictSet at hp
    split at hp
    · rcases List.mem_cons.1 hp with rfl | hp
      · exact hv
      · exact hl p (List.mem_cons_of_mem _ hp)
    · rcases List.mem_cons.1 hp with rfl | hp
      · exact hl _ List.mem_cons_self
      · exact In.dictSet hv (fun p hp => hl p (List.mem_cons_of_mem _ hp)) p hp

theorem In.fold {n : Nat} : ∀ {l : List (Text × AttrVal)}, (∀ p ∈ l, In n p.2.visits) →
    ∀ {a : List (Text × AttrVal)}, (∀ p ∈ a, In n p.2.visits) →
      ∀ p ∈ l.foldl (fun l p => Avb.dictSet l p.1 p.2) a, In n p.2.visits
  | [], _, _, ha, p, hp => ha p hp
  | q :: _, hl, _, ha, p, hp =>
    In.fold (fun p hp => hl p (List.mem_cons_of_mem _ hp))
      (In.dictSet (hl q List.mem_cons_self) ha) p hp

theorem Attributes.read_within {d : RCtx} : Post (Attributes.read d) (Inside d.nobj) := by
  unfold Attributes.read
  refine Post.bind fun _ => Post.bind fun _ => Post.bind fun _ =>
    Post.bindP (Post.readN' IsWithin.h _) fun l hl => Post.bind fun _ => Post.pure ?_
  exact In.flat.2 (In.fold hl.2 (fun _ h => nomatch h))

instance {d : RCtx} : IsWithin d (Attributes.read d) := ⟨Attributes.read_within⟩

theorem ParameterList.read_within {d : RCtx}  : Post (ParameterList.read d) (Inside d.nobj) := by
  unfold ParameterList.read; within

instance {d : RCtx}  : IsWithin d (ParameterList.read d) := ⟨ParameterList.read_within⟩

theorem TimeCrumbList.read_within {d : RCtx}  : Post (TimeCrumbList.read d) (Inside d.nobj) := by
  unfold TimeCrumbList.read; within

instance {d : RCtx}  : IsWithin d (TimeCrumbList.read d) := ⟨TimeCrumbList.read_within⟩

theorem Setting.read_within {d : RCtx}  : Post (Setting.read d) (Inside d.nobj) := by
  unfold Setting.read; within

instance {d : RCtx}  : IsWithin d (Setting.read d) := ⟨Setting.read_within⟩

theorem BinViewSetting.ext_within {d : RCtx} {tag : Int} {s : BinViewSetting}  (hs : In d.nobj (Vis.vis s)) :
    Post (BinViewSetting.ext d tag s) (Inside d.nobj) := by
  unfold BinViewSetting.ext; within

instance {d : RCtx} : IsWithinExt d (BinViewSetting.ext d) := ⟨fun _ _ h => BinViewSetting.ext_within h⟩

theorem BinViewSetting.read_within {d : RCtx}  : Post (BinViewSetting.read d) (Inside d.nobj) := by
  unfold BinViewSetting.read; within

instance {d : RCtx}  : IsWithin d (BinViewSetting.read d) := ⟨BinViewSetting.read_within⟩

theorem BinItem.read_within {d : RCtx}  : Post (BinItem.read d) (Inside d.nobj) := by
  unfold BinItem.read; within

instance {d : RCtx}  : IsWithin d (BinItem.read d) := ⟨BinItem.read_within⟩

theorem Bin.readBody_within {d : RCtx}  : Post (Bin.readBody d) (Inside d.nobj) := by
  unfold Bin.readBody; within

instance {d : RCtx}  : IsWithin d (Bin.readBody d) := ⟨Bin.readBody_within⟩

theorem Bin.read_within {d : RCtx}  : Post (Bin.read d) (Inside d.nobj) := by
  unfold Bin.read; within

instance {d : RCtx}  : IsWithin d (Bin.read d) := ⟨Bin.read_within⟩

theorem BinFirst.read_within {d : RCtx}  : Post (BinFirst.read d) (Inside d.nobj) := by
  unfold BinFirst.read; within

instance {d : RCtx}  : IsWithin d (BinFirst.read d) := ⟨BinFirst.read_within⟩

theorem Obj.readAs_within {d : RCtx} {k : Cls} {bs rest : Bytes} {o : Obj}
    (h : Obj.readAs d k bs = .ok (o, rest)) : ∀ r ∈ o.refs, r < d.nobj := by
  have key : In d.nobj o.visits := by
    have as : ∀ {α : Type} [Vis α] {r : Rd α} [IsWithin d r] {f : α → Obj},
        (∀ a, (f a).visits = Vis.vis a) → r.as f bs = .ok (o, rest) → In d.nobj o.visits := by
      intro α _ r hr f hf h
      obtain ⟨a, mid, h1, h2⟩ := Rd.bind_eq_ok' h
      cases h2
      rw [hf a]
      exact hr.h _ _ _ h1
    have none : ∀ {α : Type} {r : Rd α} {f : α → Obj},
        (∀ a, (f a).visits = []) → r.as f bs = .ok (o, rest) → In d.nobj o.visits := by
      intro α r f hf h
      obtain ⟨a, mid, h1, h2⟩ := Rd.bind_eq_ok' h
      cases h2
      rw [hf a]
      exact In.nil.2 trivial
    cases k <;> first
      | exact none (fun _ => rfl) h
      | exact as (fun _ => rfl) h
  intro r hr
  obtain ⟨v, hv, rfl⟩ := List.mem_map.1 hr
  exact key v hv

end Avb
