import Verif.Lemmas.Stored
import Verif.Spec.Renumber

/-
Saving and loading an object in stored form only changes the numbers of references.
-/

namespace Avb

/-- A context that keeps all numbers. -/
def keepAll (bo : BO) : WCtx := ⟨bo, fun r => some r⟩

theorem keepAll_tr {bo : BO} {r : Ref} : (keepAll bo).tr r = r := by
  unfold WCtx.tr keepAll
  split
  · next h => exact h.symm
  · rfl

set_option linter.unusedSimpArgs false

section
variable {c : WCtx}

theorem PVal.norm_split (x : PVal) : x.norm c = (x.norm (keepAll c.bo)).renumber c.tr := by
  cases x <;> simp [PVal.norm, PVal.renumber, keepAll_tr]

theorem keep_map {l : List Ref} : l.map c.tr = (l.map (keepAll c.bo).tr).map c.tr := by
  simp [keepAll_tr]

theorem keep_opt {l : Option Ref} : l.map c.tr = (l.map (keepAll c.bo).tr).map c.tr := by
  cases l <;> simp [keepAll_tr]

theorem Component.norm_split (x : Component) : x.norm c = (x.norm (keepAll c.bo)).renumber c.tr := by
  simp [Component.norm, Component.renumber, keepAll_tr, Function.comp_def]

theorem Clip.norm_split (x : Clip) : x.norm c = (x.norm (keepAll c.bo)).renumber c.tr := by
  simp [Clip.norm, Clip.renumber, Component.norm_split (c := c) x.toComponent, keepAll_tr,
    Function.comp_def]

theorem Sequence.norm_split (x : Sequence) : x.norm c = (x.norm (keepAll c.bo)).renumber c.tr := by
  simp [Sequence.norm, Sequence.renumber, Component.norm_split (c := c) x.toComponent, keepAll_tr,
    Function.comp_def]

theorem SourceClip.norm_split (x : SourceClip) : x.norm c = (x.norm (keepAll c.bo)).renumber c.tr := by
  simp [SourceClip.norm, SourceClip.renumber, Clip.norm_split (c := c) x.toClip, keepAll_tr,
    Function.comp_def]

theorem Timecode.norm_split (x : Timecode) : x.norm c = (x.norm (keepAll c.bo)).renumber c.tr := by
  simp [Timecode.norm, Timecode.renumber, Clip.norm_split (c := c) x.toClip, keepAll_tr,
    Function.comp_def]

theorem Edgecode.norm_split (x : Edgecode) : x.norm c = (x.norm (keepAll c.bo)).renumber c.tr := by
  simp [Edgecode.norm, Edgecode.renumber, Clip.norm_split (c := c) x.toClip, keepAll_tr,
    Function.comp_def]

theorem TrackRef.norm_split (x : TrackRef) : x.norm c = (x.norm (keepAll c.bo)).renumber c.tr := by
  simp [TrackRef.norm, TrackRef.renumber, Clip.norm_split (c := c) x.toClip, keepAll_tr,
    Function.comp_def]

theorem ControlClip.norm_split (x : ControlClip) : x.norm c = (x.norm (keepAll c.bo)).renumber c.tr := by
  simp [ControlClip.norm, ControlClip.renumber, Clip.norm_split (c := c) x.toClip, keepAll_tr,
    Function.comp_def]

theorem Filler.norm_split (x : Filler) : x.norm c = (x.norm (keepAll c.bo)).renumber c.tr := by
  simp [Filler.norm, Filler.renumber, Clip.norm_split (c := c) x.toClip, keepAll_tr,
    Function.comp_def]

theorem PCP.norm_split (t : Int) (x : PCP) : x.norm c t = (x.norm (keepAll c.bo) t).renumber c.tr := by
  simp [PCP.norm, PCP.renumber, keepAll_tr, Function.comp_def,
    PVal.norm_split (c := c) (x.value.stored t)]

theorem ParamClip.norm_split (x : ParamClip) : x.norm c = (x.norm (keepAll c.bo)).renumber c.tr := by
  simp [ParamClip.norm, ParamClip.renumber, Clip.norm_split (c := c) x.toClip, keepAll_tr,
    Function.comp_def]
  exact fun p _ => PCP.norm_split _ p

theorem Track.norm_split (x : Track) : x.norm c = (x.norm (keepAll c.bo)).renumber c.tr := by
  simp [Track.norm, Track.renumber, keepAll_tr, Function.comp_def]

theorem TrackGroup.norm_split (x : TrackGroup) : x.norm c = (x.norm (keepAll c.bo)).renumber c.tr := by
  simp [TrackGroup.norm, TrackGroup.renumber, Component.norm_split (c := c) x.toComponent, keepAll_tr,
    Function.comp_def]
  exact fun p _ => Track.norm_split p

theorem TrackEffect.norm_split (x : TrackEffect) : x.norm c = (x.norm (keepAll c.bo)).renumber c.tr := by
  simp [TrackEffect.norm, TrackEffect.renumber, TrackGroup.norm_split (c := c) x.toTrackGroup, keepAll_tr,
    Function.comp_def]

theorem PanVolumeEffect.norm_split (x : PanVolumeEffect) : x.norm c = (x.norm (keepAll c.bo)).renumber c.tr := by
  simp [PanVolumeEffect.norm, PanVolumeEffect.renumber, TrackEffect.norm_split (c := c) x.toTrackEffect, keepAll_tr,
    Function.comp_def]

theorem AudioSuitePluginEffect.norm_split (x : AudioSuitePluginEffect) : x.norm c = (x.norm (keepAll c.bo)).renumber c.tr := by
  simp [AudioSuitePluginEffect.norm, AudioSuitePluginEffect.renumber, TrackEffect.norm_split (c := c) x.toTrackEffect, keepAll_tr,
    Function.comp_def]

theorem EqualizerMultiBand.norm_split (x : EqualizerMultiBand) : x.norm c = (x.norm (keepAll c.bo)).renumber c.tr := by
  simp [EqualizerMultiBand.norm, EqualizerMultiBand.renumber, TrackEffect.norm_split (c := c) x.toTrackEffect, keepAll_tr,
    Function.comp_def]

theorem TimeWarp.norm_split (x : TimeWarp) : x.norm c = (x.norm (keepAll c.bo)).renumber c.tr := by
  simp [TimeWarp.norm, TimeWarp.renumber, TrackGroup.norm_split (c := c) x.toTrackGroup, keepAll_tr,
    Function.comp_def]

theorem CaptureMask.norm_split (x : CaptureMask) : x.norm c = (x.norm (keepAll c.bo)).renumber c.tr := by
  simp [CaptureMask.norm, CaptureMask.renumber, TimeWarp.norm_split (c := c) x.toTimeWarp, keepAll_tr,
    Function.comp_def]

theorem StrobeEffect.norm_split (x : StrobeEffect) : x.norm c = (x.norm (keepAll c.bo)).renumber c.tr := by
  simp [StrobeEffect.norm, StrobeEffect.renumber, TimeWarp.norm_split (c := c) x.toTimeWarp, keepAll_tr,
    Function.comp_def]

theorem Repeat.norm_split (x : Repeat) : x.norm c = (x.norm (keepAll c.bo)).renumber c.tr := by
  simp [Repeat.norm, Repeat.renumber, TimeWarp.norm_split (c := c) x.toTimeWarp, keepAll_tr,
    Function.comp_def]

theorem MotionEffect.norm_split (x : MotionEffect) : x.norm c = (x.norm (keepAll c.bo)).renumber c.tr := by
  simp [MotionEffect.norm, MotionEffect.renumber, TimeWarp.norm_split (c := c) x.toTimeWarp, keepAll_tr,
    Function.comp_def]

theorem EssenceGroup.norm_split (x : EssenceGroup) : x.norm c = (x.norm (keepAll c.bo)).renumber c.tr := by
  simp [EssenceGroup.norm, EssenceGroup.renumber, TrackGroup.norm_split (c := c) x.toTrackGroup, keepAll_tr,
    Function.comp_def]

theorem Selector.norm_split (x : Selector) : x.norm c = (x.norm (keepAll c.bo)).renumber c.tr := by
  simp [Selector.norm, Selector.renumber, TrackGroup.norm_split (c := c) x.toTrackGroup, keepAll_tr,
    Function.comp_def]

theorem TransitionEffect.norm_split (x : TransitionEffect) : x.norm c = (x.norm (keepAll c.bo)).renumber c.tr := by
  simp [TransitionEffect.norm, TransitionEffect.renumber, TrackGroup.norm_split (c := c) x.toTrackGroup, keepAll_tr,
    Function.comp_def]

theorem Composition.norm_split (x : Composition) : x.norm c = (x.norm (keepAll c.bo)).renumber c.tr := by
  simp [Composition.norm, Composition.renumber, TrackGroup.norm_split (c := c) x.toTrackGroup, keepAll_tr,
    Function.comp_def]

theorem ParameterItem.norm_split (x : ParameterItem) : x.norm c = (x.norm (keepAll c.bo)).renumber c.tr := by
  simp [ParameterItem.norm, ParameterItem.renumber, keepAll_tr, Function.comp_def,
    PVal.norm_split (c := c) (x.value.stored x.value_type)]

theorem Marker.norm_split (x : Marker) : x.norm c = (x.norm (keepAll c.bo)).renumber c.tr := by
  simp [Marker.norm, Marker.renumber, keepAll_tr, Function.comp_def]

theorem TrackerManager.norm_split (x : TrackerManager) : x.norm c = (x.norm (keepAll c.bo)).renumber c.tr := by
  simp [TrackerManager.norm, TrackerManager.renumber, keepAll_tr, Function.comp_def]

theorem TrackerDataSlot.norm_split (x : TrackerDataSlot) : x.norm c = (x.norm (keepAll c.bo)).renumber c.tr := by
  simp [TrackerDataSlot.norm, TrackerDataSlot.renumber, keepAll_tr, Function.comp_def]

theorem TrackerParameterSlot.norm_split (x : TrackerParameterSlot) : x.norm c = (x.norm (keepAll c.bo)).renumber c.tr := by
  simp [TrackerParameterSlot.norm, TrackerParameterSlot.renumber, keepAll_tr, Function.comp_def]

theorem TrackerData.norm_split (x : TrackerData) : x.norm c = (x.norm (keepAll c.bo)).renumber c.tr := by
  simp [TrackerData.norm, TrackerData.renumber, keepAll_tr, Function.comp_def]

theorem MediaDescriptor.norm_split (x : MediaDescriptor) : x.norm c = (x.norm (keepAll c.bo)).renumber c.tr := by
  simp [MediaDescriptor.norm, MediaDescriptor.renumber, keepAll_tr, Function.comp_def]

theorem TapeDescriptor.norm_split (x : TapeDescriptor) : x.norm c = (x.norm (keepAll c.bo)).renumber c.tr := by
  simp [TapeDescriptor.norm, TapeDescriptor.renumber, MediaDescriptor.norm_split (c := c) x.toMediaDescriptor, keepAll_tr,
    Function.comp_def]

theorem FilmDescriptor.norm_split (x : FilmDescriptor) : x.norm c = (x.norm (keepAll c.bo)).renumber c.tr := by
  simp [FilmDescriptor.norm, FilmDescriptor.renumber, MediaDescriptor.norm_split (c := c) x.toMediaDescriptor, keepAll_tr,
    Function.comp_def]

theorem NagraDescriptor.norm_split (x : NagraDescriptor) : x.norm c = (x.norm (keepAll c.bo)).renumber c.tr := by
  simp [NagraDescriptor.norm, NagraDescriptor.renumber, MediaDescriptor.norm_split (c := c) x.toMediaDescriptor, keepAll_tr,
    Function.comp_def]

theorem MediaFileDescriptor.norm_split (x : MediaFileDescriptor) : x.norm c = (x.norm (keepAll c.bo)).renumber c.tr := by
  simp [MediaFileDescriptor.norm, MediaFileDescriptor.renumber, MediaDescriptor.norm_split (c := c) x.toMediaDescriptor, keepAll_tr,
    Function.comp_def]

theorem MultiDescriptor.norm_split (x : MultiDescriptor) : x.norm c = (x.norm (keepAll c.bo)).renumber c.tr := by
  simp [MultiDescriptor.norm, MultiDescriptor.renumber, MediaFileDescriptor.norm_split (c := c) x.toMediaFileDescriptor, keepAll_tr,
    Function.comp_def]

theorem WaveDescriptor.norm_split (x : WaveDescriptor) : x.norm c = (x.norm (keepAll c.bo)).renumber c.tr := by
  simp [WaveDescriptor.norm, WaveDescriptor.renumber, MediaFileDescriptor.norm_split (c := c) x.toMediaFileDescriptor, keepAll_tr,
    Function.comp_def]

theorem AIFCDescriptor.norm_split (x : AIFCDescriptor) : x.norm c = (x.norm (keepAll c.bo)).renumber c.tr := by
  simp [AIFCDescriptor.norm, AIFCDescriptor.renumber, MediaFileDescriptor.norm_split (c := c) x.toMediaFileDescriptor, keepAll_tr,
    Function.comp_def]

theorem DataDescriptor.norm_split (x : DataDescriptor) : x.norm c = (x.norm (keepAll c.bo)).renumber c.tr := by
  simp [DataDescriptor.norm, DataDescriptor.renumber, MediaFileDescriptor.norm_split (c := c) x.toMediaFileDescriptor, keepAll_tr,
    Function.comp_def]

theorem PCMADescriptor.norm_split (x : PCMADescriptor) : x.norm c = (x.norm (keepAll c.bo)).renumber c.tr := by
  simp [PCMADescriptor.norm, PCMADescriptor.renumber, MediaFileDescriptor.norm_split (c := c) x.toMediaFileDescriptor, keepAll_tr,
    Function.comp_def]

theorem MPGADescriptor.norm_split (x : MPGADescriptor) : x.norm c = (x.norm (keepAll c.bo)).renumber c.tr := by
  simp [MPGADescriptor.norm, MPGADescriptor.renumber, MediaFileDescriptor.norm_split (c := c) x.toMediaFileDescriptor, keepAll_tr,
    Function.comp_def]

theorem ANCDataDescriptor.norm_split (x : ANCDataDescriptor) : x.norm c = (x.norm (keepAll c.bo)).renumber c.tr := by
  simp [ANCDataDescriptor.norm, ANCDataDescriptor.renumber, DataDescriptor.norm_split (c := c) x.toDataDescriptor, keepAll_tr,
    Function.comp_def]

theorem DIDDescriptor.norm_split (x : DIDDescriptor) : x.norm c = (x.norm (keepAll c.bo)).renumber c.tr := by
  simp [DIDDescriptor.norm, DIDDescriptor.renumber, MediaFileDescriptor.norm_split (c := c) x.toMediaFileDescriptor, keepAll_tr,
    Function.comp_def]

theorem CDCIDescriptor.norm_split (x : CDCIDescriptor) : x.norm c = (x.norm (keepAll c.bo)).renumber c.tr := by
  simp [CDCIDescriptor.norm, CDCIDescriptor.renumber, DIDDescriptor.norm_split (c := c) x.toDIDDescriptor, keepAll_tr,
    Function.comp_def]

theorem RGBADescriptor.norm_split (x : RGBADescriptor) : x.norm c = (x.norm (keepAll c.bo)).renumber c.tr := by
  simp [RGBADescriptor.norm, RGBADescriptor.renumber, DIDDescriptor.norm_split (c := c) x.toDIDDescriptor, keepAll_tr,
    Function.comp_def]

theorem MPGIDescriptor.norm_split (x : MPGIDescriptor) : x.norm c = (x.norm (keepAll c.bo)).renumber c.tr := by
  simp [MPGIDescriptor.norm, MPGIDescriptor.renumber, CDCIDescriptor.norm_split (c := c) x.toCDCIDescriptor, keepAll_tr,
    Function.comp_def]

theorem JPEGDescriptor.norm_split (x : JPEGDescriptor) : x.norm c = (x.norm (keepAll c.bo)).renumber c.tr := by
  simp [JPEGDescriptor.norm, JPEGDescriptor.renumber, CDCIDescriptor.norm_split (c := c) x.toCDCIDescriptor, keepAll_tr,
    Function.comp_def]

theorem ParameterList.norm_split (x : ParameterList) : x.norm c = (x.norm (keepAll c.bo)).renumber c.tr := by
  simp [ParameterList.norm, ParameterList.renumber, keepAll_tr, Function.comp_def]

theorem TimeCrumbList.norm_split (x : TimeCrumbList) : x.norm c = (x.norm (keepAll c.bo)).renumber c.tr := by
  simp [TimeCrumbList.norm, TimeCrumbList.renumber, keepAll_tr, Function.comp_def]

theorem BinViewSetting.norm_split (x : BinViewSetting) : x.norm c = (x.norm (keepAll c.bo)).renumber c.tr := by
  simp [BinViewSetting.norm, BinViewSetting.renumber, keepAll_tr, Function.comp_def, Setting.norm]

theorem Bin.norm_split (x : Bin) : x.norm c = (x.norm (keepAll c.bo)).renumber c.tr := by
  simp [Bin.norm, Bin.renumber, keepAll_tr, Function.comp_def, BinItem.norm]

theorem BinFirst.norm_split (x : BinFirst) : x.norm c = (x.norm (keepAll c.bo)).renumber c.tr := by
  simp [BinFirst.norm, BinFirst.renumber, Bin.norm_split (c := c) x.toBin, keepAll_tr,
    Function.comp_def]

theorem Obj.norm_renumber {x : Obj} (hx : x.Stored) : x.norm c = x.renumber c.tr := by
  have h : x.norm (keepAll c.bo) = x := Obj.norm_self (fun _ _ => keepAll_tr) hx
  suffices hs : x.norm c = (x.norm (keepAll c.bo)).renumber c.tr by rw [hs, h]
  cases x with
  | ATTR x =>
    have h1 := Attributes.norm_items (c := c) hx.texts hx.shape
    have h2 := Attributes.norm_items (c := keepAll c.bo) hx.texts hx.shape
    refine congrArg Obj.ATTR ?_
    unfold Attributes.renumber
    rw [h2]
    refine (congrArg Attributes.mk h1).trans ?_
    rw [List.map_map]
    refine congrArg Attributes.mk (List.map_congr_left fun p _ => ?_)
    obtain ⟨k, v⟩ := p
    cases v <;> simp [Attributes.normItem, AttrVal.norm, AttrVal.renumber, keepAll_tr]
  | PRLS x => exact congrArg Obj.PRLS (ParameterList.norm_split x)
  | TMCS x => exact congrArg Obj.TMCS (TimeCrumbList.norm_split x)
  | BVst x => exact congrArg Obj.BVst (BinViewSetting.norm_split x)
  | ABIN x => exact congrArg Obj.ABIN (Bin.norm_split x)
  | BINF x => exact congrArg Obj.BINF (BinFirst.norm_split x)
  | SEQU x => exact congrArg Obj.SEQU (Sequence.norm_split x)
  | SCLP x => exact congrArg Obj.SCLP (SourceClip.norm_split x)
  | TCCP x => exact congrArg Obj.TCCP (Timecode.norm_split x)
  | ECCP x => exact congrArg Obj.ECCP (Edgecode.norm_split x)
  | TRKR x => exact congrArg Obj.TRKR (TrackRef.norm_split x)
  | PRCL x => exact congrArg Obj.PRCL (ParamClip.norm_split x)
  | CTRL x => exact congrArg Obj.CTRL (ControlClip.norm_split x)
  | FILL x => exact congrArg Obj.FILL (Filler.norm_split x)
  | TRKG x => exact congrArg Obj.TRKG (TrackGroup.norm_split x)
  | TKFX x => exact congrArg Obj.TKFX (TrackEffect.norm_split x)
  | PVOL x => exact congrArg Obj.PVOL (PanVolumeEffect.norm_split x)
  | ASPI x => exact congrArg Obj.ASPI (AudioSuitePluginEffect.norm_split x)
  | EQMB x => exact congrArg Obj.EQMB (EqualizerMultiBand.norm_split x)
  | MASK x => exact congrArg Obj.MASK (CaptureMask.norm_split x)
  | STRB x => exact congrArg Obj.STRB (StrobeEffect.norm_split x)
  | SPED x => exact congrArg Obj.SPED (MotionEffect.norm_split x)
  | REPT x => exact congrArg Obj.REPT (Repeat.norm_split x)
  | RSET x => exact congrArg Obj.RSET (EssenceGroup.norm_split x)
  | TNFX x => exact congrArg Obj.TNFX (TransitionEffect.norm_split x)
  | SLCT x => exact congrArg Obj.SLCT (Selector.norm_split x)
  | CMPO x => exact congrArg Obj.CMPO (Composition.norm_split x)
  | FILE x => exact congrArg Obj.FILE rfl
  | WINF x => exact congrArg Obj.WINF rfl
  | URLL x => exact congrArg Obj.URLL rfl
  | GRFX x => exact congrArg Obj.GRFX rfl
  | SHLP x => exact congrArg Obj.SHLP rfl
  | CCFX x => exact congrArg Obj.CCFX rfl
  | FXPS x => exact congrArg Obj.FXPS rfl
  | AVUP x => exact congrArg Obj.AVUP rfl
  | PRIT x => exact congrArg Obj.PRIT (ParameterItem.norm_split x)
  | MSML x => exact congrArg Obj.MSML rfl
  | APOS x => exact congrArg Obj.APOS rfl
  | ABOB x => exact congrArg Obj.ABOB rfl
  | DIDP x => exact congrArg Obj.DIDP rfl
  | MPGP x => exact congrArg Obj.MPGP rfl
  | MCBR x => exact congrArg Obj.MCBR rfl
  | MCMR x => exact congrArg Obj.MCMR rfl
  | TMBC x => exact congrArg Obj.TMBC (Marker.norm_split x)
  | TKMN x => exact congrArg Obj.TKMN (TrackerManager.norm_split x)
  | TKDS x => exact congrArg Obj.TKDS (TrackerDataSlot.norm_split x)
  | TKPS x => exact congrArg Obj.TKPS (TrackerParameterSlot.norm_split x)
  | TKDA x => exact congrArg Obj.TKDA (TrackerData.norm_split x)
  | TKPA x => exact congrArg Obj.TKPA rfl
  | MDES x => exact congrArg Obj.MDES (MediaDescriptor.norm_split x)
  | MDTP x => exact congrArg Obj.MDTP (TapeDescriptor.norm_split x)
  | MDFM x => exact congrArg Obj.MDFM (FilmDescriptor.norm_split x)
  | MDNG x => exact congrArg Obj.MDNG (NagraDescriptor.norm_split x)
  | MDFL x => exact congrArg Obj.MDFL (MediaFileDescriptor.norm_split x)
  | MULD x => exact congrArg Obj.MULD (MultiDescriptor.norm_split x)
  | WAVE x => exact congrArg Obj.WAVE (WaveDescriptor.norm_split x)
  | AIFC x => exact congrArg Obj.AIFC (AIFCDescriptor.norm_split x)
  | PCMA x => exact congrArg Obj.PCMA (PCMADescriptor.norm_split x)
  | MPGA x => exact congrArg Obj.MPGA (MPGADescriptor.norm_split x)
  | DIDD x => exact congrArg Obj.DIDD (DIDDescriptor.norm_split x)
  | CDCI x => exact congrArg Obj.CDCI (CDCIDescriptor.norm_split x)
  | MPGI x => exact congrArg Obj.MPGI (MPGIDescriptor.norm_split x)
  | JPED x => exact congrArg Obj.JPED (JPEGDescriptor.norm_split x)
  | RGBA x => exact congrArg Obj.RGBA (RGBADescriptor.norm_split x)
  | DATD x => exact congrArg Obj.DATD (DataDescriptor.norm_split x)
  | ANCD x => exact congrArg Obj.ANCD (ANCDataDescriptor.norm_split x)

end

end Avb
