import Verif.Model.Obj
import Verif.Lemmas.RT

/-
What every chunk looks like: the output of a writer ends with the closing tag.
-/

namespace Avb

/-- The last byte written is the closing tag `0x03`. -/
def Ends (w : Wr Unit) : Prop := ∀ bs, w = .ok ((), bs) → ∃ p, bs = p ++ [3]

theorem Ends.tag : Ends (wU8 3) := by
  intro bs h
  obtain ⟨_, _, rfl⟩ := wU8_out h
  exact ⟨[], rfl⟩

theorem Ends.bind {α : Type} {w : Wr α} {k : α → Wr Unit} (h : ∀ a, Ends (k a)) :
    Ends (w >>= k) := by
  intro bs hb
  obtain ⟨a, o1, o2, e1, e2, rfl⟩ := Wr.bind_eq_ok hb
  obtain ⟨p, rfl⟩ := h a _ e2
  exact ⟨o1 ++ p, by simp⟩

/-- Walk to the end of a writer. -/
macro "ends" : tactic => `(tactic| repeat' with_reducible first
  | exact Ends.tag
  | refine Ends.bind fun _ => ?_)

theorem Attributes.write_ends (c : WCtx) (x : Attributes) : Ends (Attributes.write c x) := by
  unfold Attributes.write; ends

theorem ParameterList.write_ends (c : WCtx) (x : ParameterList) : Ends (ParameterList.write c x) := by
  unfold ParameterList.write; ends

theorem TimeCrumbList.write_ends (c : WCtx) (x : TimeCrumbList) : Ends (TimeCrumbList.write c x) := by
  unfold TimeCrumbList.write; ends

theorem BinViewSetting.write_ends (c : WCtx) (x : BinViewSetting) : Ends (BinViewSetting.write c x) := by
  unfold BinViewSetting.write; ends

theorem Bin.write_ends (c : WCtx) (x : Bin) : Ends (Bin.write c x) := by
  unfold Bin.write; ends

theorem BinFirst.write_ends (c : WCtx) (x : BinFirst) : Ends (BinFirst.write c x) := by
  unfold BinFirst.write; ends

theorem Sequence.write_ends (c : WCtx) (x : Sequence) : Ends (Sequence.write c x) := by
  unfold Sequence.write; ends

theorem SourceClip.write_ends (c : WCtx) (x : SourceClip) : Ends (SourceClip.write c x) := by
  unfold SourceClip.write; ends

theorem Timecode.write_ends (c : WCtx) (x : Timecode) : Ends (Timecode.write c x) := by
  unfold Timecode.write; ends

theorem Edgecode.write_ends (c : WCtx) (x : Edgecode) : Ends (Edgecode.write c x) := by
  unfold Edgecode.write; ends

theorem TrackRef.write_ends (c : WCtx) (x : TrackRef) : Ends (TrackRef.write c x) := by
  unfold TrackRef.write; ends

theorem ParamClip.write_ends (c : WCtx) (x : ParamClip) : Ends (ParamClip.write c x) := by
  unfold ParamClip.write; ends

theorem ControlClip.write_ends (c : WCtx) (x : ControlClip) : Ends (ControlClip.write c x) := by
  unfold ControlClip.write; ends

theorem Filler.write_ends (c : WCtx) (x : Filler) : Ends (Filler.write c x) := by
  unfold Filler.write; ends

theorem TrackEffect.write_ends (c : WCtx) (x : TrackEffect) : Ends (TrackEffect.write c x) := by
  unfold TrackEffect.write; ends

theorem PanVolumeEffect.write_ends (c : WCtx) (x : PanVolumeEffect) : Ends (PanVolumeEffect.write c x) := by
  unfold PanVolumeEffect.write; ends

theorem AudioSuitePluginEffect.write_ends (c : WCtx) (x : AudioSuitePluginEffect) : Ends (AudioSuitePluginEffect.write c x) := by
  unfold AudioSuitePluginEffect.write; ends

theorem EqualizerMultiBand.write_ends (c : WCtx) (x : EqualizerMultiBand) : Ends (EqualizerMultiBand.write c x) := by
  unfold EqualizerMultiBand.write; ends

theorem CaptureMask.write_ends (c : WCtx) (x : CaptureMask) : Ends (CaptureMask.write c x) := by
  unfold CaptureMask.write; ends

theorem StrobeEffect.write_ends (c : WCtx) (x : StrobeEffect) : Ends (StrobeEffect.write c x) := by
  unfold StrobeEffect.write; ends

theorem MotionEffect.write_ends (c : WCtx) (x : MotionEffect) : Ends (MotionEffect.write c x) := by
  unfold MotionEffect.write; ends

theorem Repeat.write_ends (c : WCtx) (x : Repeat) : Ends (Repeat.write c x) := by
  unfold Repeat.write; ends

theorem EssenceGroup.write_ends (c : WCtx) (x : EssenceGroup) : Ends (EssenceGroup.write c x) := by
  unfold EssenceGroup.write; ends

theorem TransitionEffect.write_ends (c : WCtx) (x : TransitionEffect) : Ends (TransitionEffect.write c x) := by
  unfold TransitionEffect.write; ends

theorem Selector.write_ends (c : WCtx) (x : Selector) : Ends (Selector.write c x) := by
  unfold Selector.write; ends

theorem Composition.write_ends (c : WCtx) (x : Composition) : Ends (Composition.write c x) := by
  unfold Composition.write; ends

theorem FileLocator.write_ends (c : WCtx) (x : FileLocator) : Ends (FileLocator.write c x) := by
  unfold FileLocator.write; ends

theorem URLLocator.write_ends (c : WCtx) (x : URLLocator) : Ends (URLLocator.write c x) := by
  unfold URLLocator.write; ends

theorem GraphicEffect.write_ends (c : WCtx) (x : GraphicEffect) : Ends (GraphicEffect.write c x) := by
  unfold GraphicEffect.write; ends

theorem ShapeList.write_ends (c : WCtx) (x : ShapeList) : Ends (ShapeList.write c x) := by
  unfold ShapeList.write; ends

theorem ColorCorrectionEffect.write_ends (c : WCtx) (x : ColorCorrectionEffect) : Ends (ColorCorrectionEffect.write c x) := by
  unfold ColorCorrectionEffect.write; ends

theorem EffectParamList.write_ends (c : WCtx) (x : EffectParamList) : Ends (EffectParamList.write c x) := by
  unfold EffectParamList.write; ends

theorem CFUserParam.write_ends (c : WCtx) (x : CFUserParam) : Ends (CFUserParam.write c x) := by
  unfold CFUserParam.write; ends

theorem ParameterItem.write_ends (c : WCtx) (x : ParameterItem) : Ends (ParameterItem.write c x) := by
  unfold ParameterItem.write; ends

theorem MSMLocator.write_ends (c : WCtx) (x : MSMLocator) : Ends (MSMLocator.write c x) := by
  unfold MSMLocator.write; ends

theorem Position.write_ends (c : WCtx) (x : Position) : Ends (Position.write c x) := by
  unfold Position.write; ends

theorem BOBPosition.write_ends (c : WCtx) (x : BOBPosition) : Ends (BOBPosition.write c x) := by
  unfold BOBPosition.write; ends

theorem DIDPosition.write_ends (c : WCtx) (x : DIDPosition) : Ends (DIDPosition.write c x) := by
  unfold DIDPosition.write; ends

theorem MPGPosition.write_ends (c : WCtx) (x : MPGPosition) : Ends (MPGPosition.write c x) := by
  unfold MPGPosition.write; ends

theorem BinRef.write_ends (c : WCtx) (x : BinRef) : Ends (BinRef.write c x) := by
  unfold BinRef.write; ends

theorem MobRef.write_ends (c : WCtx) (x : MobRef) : Ends (MobRef.write c x) := by
  unfold MobRef.write; ends

theorem Marker.write_ends (c : WCtx) (x : Marker) : Ends (Marker.write c x) := by
  unfold Marker.write; ends

theorem TrackerManager.write_ends (c : WCtx) (x : TrackerManager) : Ends (TrackerManager.write c x) := by
  unfold TrackerManager.write; ends

theorem TrackerDataSlot.write_ends (c : WCtx) (x : TrackerDataSlot) : Ends (TrackerDataSlot.write c x) := by
  unfold TrackerDataSlot.write; ends

theorem TrackerParameterSlot.write_ends (c : WCtx) (x : TrackerParameterSlot) : Ends (TrackerParameterSlot.write c x) := by
  unfold TrackerParameterSlot.write; ends

theorem TrackerData.write_ends (c : WCtx) (x : TrackerData) : Ends (TrackerData.write c x) := by
  unfold TrackerData.write; ends

theorem TrackerParameter.write_ends (c : WCtx) (x : TrackerParameter) : Ends (TrackerParameter.write c x) := by
  unfold TrackerParameter.write; ends

theorem MediaDescriptor.write_ends (c : WCtx) (x : MediaDescriptor) : Ends (MediaDescriptor.write c x) := by
  unfold MediaDescriptor.write; ends

theorem TapeDescriptor.write_ends (c : WCtx) (x : TapeDescriptor) : Ends (TapeDescriptor.write c x) := by
  unfold TapeDescriptor.write; ends

theorem FilmDescriptor.write_ends (c : WCtx) (x : FilmDescriptor) : Ends (FilmDescriptor.write c x) := by
  unfold FilmDescriptor.write; ends

theorem NagraDescriptor.write_ends (c : WCtx) (x : NagraDescriptor) : Ends (NagraDescriptor.write c x) := by
  unfold NagraDescriptor.write; ends

theorem MediaFileDescriptor.write_ends (c : WCtx) (x : MediaFileDescriptor) : Ends (MediaFileDescriptor.write c x) := by
  unfold MediaFileDescriptor.write; ends

theorem MultiDescriptor.write_ends (c : WCtx) (x : MultiDescriptor) : Ends (MultiDescriptor.write c x) := by
  unfold MultiDescriptor.write; ends

theorem WaveDescriptor.write_ends (c : WCtx) (x : WaveDescriptor) : Ends (WaveDescriptor.write c x) := by
  unfold WaveDescriptor.write; ends

theorem AIFCDescriptor.write_ends (c : WCtx) (x : AIFCDescriptor) : Ends (AIFCDescriptor.write c x) := by
  unfold AIFCDescriptor.write; ends

theorem PCMADescriptor.write_ends (c : WCtx) (x : PCMADescriptor) : Ends (PCMADescriptor.write c x) := by
  unfold PCMADescriptor.write; ends

theorem MPGADescriptor.write_ends (c : WCtx) (x : MPGADescriptor) : Ends (MPGADescriptor.write c x) := by
  unfold MPGADescriptor.write; ends

theorem DIDDescriptor.write_ends (c : WCtx) (x : DIDDescriptor) : Ends (DIDDescriptor.write c x) := by
  unfold DIDDescriptor.write; ends

theorem CDCIDescriptor.write_ends (c : WCtx) (x : CDCIDescriptor) : Ends (CDCIDescriptor.write c x) := by
  unfold CDCIDescriptor.write; ends

theorem MPGIDescriptor.write_ends (c : WCtx) (x : MPGIDescriptor) : Ends (MPGIDescriptor.write c x) := by
  unfold MPGIDescriptor.write; ends

theorem JPEGDescriptor.write_ends (c : WCtx) (x : JPEGDescriptor) : Ends (JPEGDescriptor.write c x) := by
  unfold JPEGDescriptor.write; ends

theorem RGBADescriptor.write_ends (c : WCtx) (x : RGBADescriptor) : Ends (RGBADescriptor.write c x) := by
  unfold RGBADescriptor.write; ends

theorem ANCDataDescriptor.write_ends (c : WCtx) (x : ANCDataDescriptor) : Ends (ANCDataDescriptor.write c x) := by
  unfold ANCDataDescriptor.write; ends

/-- Every class but TRKG and DATD writes the closing tag. -/
theorem Obj.write_ends {c : WCtx} {x : Obj} (h1 : x.cls ≠ .TRKG) (h2 : x.cls ≠ .DATD) :
    Ends (x.write c) := by
  cases x
  case ATTR x => exact Attributes.write_ends c x
  case PRLS x => exact ParameterList.write_ends c x
  case TMCS x => exact TimeCrumbList.write_ends c x
  case BVst x => exact BinViewSetting.write_ends c x
  case ABIN x => exact Bin.write_ends c x
  case BINF x => exact BinFirst.write_ends c x
  case SEQU x => exact Sequence.write_ends c x
  case SCLP x => exact SourceClip.write_ends c x
  case TCCP x => exact Timecode.write_ends c x
  case ECCP x => exact Edgecode.write_ends c x
  case TRKR x => exact TrackRef.write_ends c x
  case PRCL x => exact ParamClip.write_ends c x
  case CTRL x => exact ControlClip.write_ends c x
  case FILL x => exact Filler.write_ends c x
  case TRKG => exact absurd rfl h1
  case TKFX x => exact TrackEffect.write_ends c x
  case PVOL x => exact PanVolumeEffect.write_ends c x
  case ASPI x => exact AudioSuitePluginEffect.write_ends c x
  case EQMB x => exact EqualizerMultiBand.write_ends c x
  case MASK x => exact CaptureMask.write_ends c x
  case STRB x => exact StrobeEffect.write_ends c x
  case SPED x => exact MotionEffect.write_ends c x
  case REPT x => exact Repeat.write_ends c x
  case RSET x => exact EssenceGroup.write_ends c x
  case TNFX x => exact TransitionEffect.write_ends c x
  case SLCT x => exact Selector.write_ends c x
  case CMPO x => exact Composition.write_ends c x
  case FILE x => exact FileLocator.write_ends c x
  case WINF x => exact FileLocator.write_ends c x
  case URLL x => exact URLLocator.write_ends c x
  case GRFX x => exact GraphicEffect.write_ends c x
  case SHLP x => exact ShapeList.write_ends c x
  case CCFX x => exact ColorCorrectionEffect.write_ends c x
  case FXPS x => exact EffectParamList.write_ends c x
  case AVUP x => exact CFUserParam.write_ends c x
  case PRIT x => exact ParameterItem.write_ends c x
  case MSML x => exact MSMLocator.write_ends c x
  case APOS x => exact Position.write_ends c x
  case ABOB x => exact BOBPosition.write_ends c x
  case DIDP x => exact DIDPosition.write_ends c x
  case MPGP x => exact MPGPosition.write_ends c x
  case MCBR x => exact BinRef.write_ends c x
  case MCMR x => exact MobRef.write_ends c x
  case TMBC x => exact Marker.write_ends c x
  case TKMN x => exact TrackerManager.write_ends c x
  case TKDS x => exact TrackerDataSlot.write_ends c x
  case TKPS x => exact TrackerParameterSlot.write_ends c x
  case TKDA x => exact TrackerData.write_ends c x
  case TKPA x => exact TrackerParameter.write_ends c x
  case MDES x => exact MediaDescriptor.write_ends c x
  case MDTP x => exact TapeDescriptor.write_ends c x
  case MDFM x => exact FilmDescriptor.write_ends c x
  case MDNG x => exact NagraDescriptor.write_ends c x
  case MDFL x => exact MediaFileDescriptor.write_ends c x
  case MULD x => exact MultiDescriptor.write_ends c x
  case WAVE x => exact WaveDescriptor.write_ends c x
  case AIFC x => exact AIFCDescriptor.write_ends c x
  case PCMA x => exact PCMADescriptor.write_ends c x
  case MPGA x => exact MPGADescriptor.write_ends c x
  case DIDD x => exact DIDDescriptor.write_ends c x
  case CDCI x => exact CDCIDescriptor.write_ends c x
  case MPGI x => exact MPGIDescriptor.write_ends c x
  case JPED x => exact JPEGDescriptor.write_ends c x
  case RGBA x => exact RGBADescriptor.write_ends c x
  case DATD => exact absurd rfl h2
  case ANCD x => exact ANCDataDescriptor.write_ends c x

end Avb
