import Verif.Model.Obj

/-
An object with other numbers for the objects it refers to, and nothing else changed.
-/

namespace Avb

/-- Of what every component has. -/
def Component.renumber (g : Ref → Ref) (x : Component) : Component :=
  { x with
    left_bob := g x.left_bob, right_bob := g x.right_bob, attributes := g x.attributes
    session_attrs := g x.session_attrs, precomputed := g x.precomputed
    param_list := x.param_list.map g }

/-- Of `Clip`. -/
def Clip.renumber (g : Ref → Ref) (x : Clip) : Clip :=
  { x with toComponent := x.toComponent.renumber g }

/-- Of `Sequence`. -/
def Sequence.renumber (g : Ref → Ref) (x : Sequence) : Sequence :=
  { x with toComponent := x.toComponent.renumber g, components := x.components.map g }

/-- Of `SourceClip`. -/
def SourceClip.renumber (g : Ref → Ref) (x : SourceClip) : SourceClip :=
  { x with toClip := x.toClip.renumber g }

/-- Of `Timecode`. -/
def Timecode.renumber (g : Ref → Ref) (x : Timecode) : Timecode :=
  { x with toClip := x.toClip.renumber g }

/-- Of `Edgecode`. -/
def Edgecode.renumber (g : Ref → Ref) (x : Edgecode) : Edgecode :=
  { x with toClip := x.toClip.renumber g }

/-- Of `TrackRef`. -/
def TrackRef.renumber (g : Ref → Ref) (x : TrackRef) : TrackRef :=
  { x with toClip := x.toClip.renumber g }

/-- Of `ControlClip`. -/
def ControlClip.renumber (g : Ref → Ref) (x : ControlClip) : ControlClip :=
  { x with toClip := x.toClip.renumber g }

/-- Of `Filler`. -/
def Filler.renumber (g : Ref → Ref) (x : Filler) : Filler :=
  { x with toClip := x.toClip.renumber g }

/-- A value of a control point or parameter. -/
def PVal.renumber (g : Ref → Ref) : PVal → PVal
  | .int v => .int v
  | .dbl v => .dbl v
  | .ref r => .ref (g r)

/-- Of a control point. -/
def PCP.renumber (g : Ref → Ref) (x : PCP) : PCP :=
  { x with value := x.value.renumber g }

/-- Of `ParamClip`. -/
def ParamClip.renumber (g : Ref → Ref) (x : ParamClip) : ParamClip :=
  { x with toClip := x.toClip.renumber g,
           control_points := x.control_points.map (PCP.renumber g) }

/-- Of a track. -/
def Track.renumber (g : Ref → Ref) (x : Track) : Track :=
  { x with
    attributes := x.attributes.map g, session_attr := x.session_attr.map g
    component := x.component.map g, filler_proxy := x.filler_proxy.map g
    bob_data := x.bob_data.map g }

/-- Of `TrackGroup`. -/
def TrackGroup.renumber (g : Ref → Ref) (x : TrackGroup) : TrackGroup :=
  { x with toComponent := x.toComponent.renumber g, tracks := x.tracks.map (Track.renumber g) }

/-- Of `TrackEffect`. -/
def TrackEffect.renumber (g : Ref → Ref) (x : TrackEffect) : TrackEffect :=
  { x with toTrackGroup := x.toTrackGroup.renumber g, keyframes := g x.keyframes,
           trackman := x.trackman.map g }

/-- Of `PanVolumeEffect`. -/
def PanVolumeEffect.renumber (g : Ref → Ref) (x : PanVolumeEffect) : PanVolumeEffect :=
  { x with toTrackEffect := x.toTrackEffect.renumber g }

/-- Of `AudioSuitePluginEffect`. -/
def AudioSuitePluginEffect.renumber (g : Ref → Ref) (x : AudioSuitePluginEffect) : AudioSuitePluginEffect :=
  { x with toTrackEffect := x.toTrackEffect.renumber g }

/-- Of `EqualizerMultiBand`. -/
def EqualizerMultiBand.renumber (g : Ref → Ref) (x : EqualizerMultiBand) : EqualizerMultiBand :=
  { x with toTrackEffect := x.toTrackEffect.renumber g }

/-- Of `TimeWarp`. -/
def TimeWarp.renumber (g : Ref → Ref) (x : TimeWarp) : TimeWarp :=
  { x with toTrackGroup := x.toTrackGroup.renumber g }

/-- Of `CaptureMask`. -/
def CaptureMask.renumber (g : Ref → Ref) (x : CaptureMask) : CaptureMask :=
  { x with toTimeWarp := x.toTimeWarp.renumber g }

/-- Of `StrobeEffect`. -/
def StrobeEffect.renumber (g : Ref → Ref) (x : StrobeEffect) : StrobeEffect :=
  { x with toTimeWarp := x.toTimeWarp.renumber g }

/-- Of `Repeat`. -/
def Repeat.renumber (g : Ref → Ref) (x : Repeat) : Repeat :=
  { x with toTimeWarp := x.toTimeWarp.renumber g }

/-- Of `MotionEffect`. -/
def MotionEffect.renumber (g : Ref → Ref) (x : MotionEffect) : MotionEffect :=
  { x with toTimeWarp := x.toTimeWarp.renumber g,
           source_param_list := x.source_param_list.map g }

/-- Of `EssenceGroup`. -/
def EssenceGroup.renumber (g : Ref → Ref) (x : EssenceGroup) : EssenceGroup :=
  { x with toTrackGroup := x.toTrackGroup.renumber g }

/-- Of `Selector`. -/
def Selector.renumber (g : Ref → Ref) (x : Selector) : Selector :=
  { x with toTrackGroup := x.toTrackGroup.renumber g }

/-- Of `TransitionEffect`. -/
def TransitionEffect.renumber (g : Ref → Ref) (x : TransitionEffect) : TransitionEffect :=
  { x with toTrackGroup := x.toTrackGroup.renumber g, keyframes := g x.keyframes,
           trackman := x.trackman.map g }

/-- Of `Composition`. -/
def Composition.renumber (g : Ref → Ref) (x : Composition) : Composition :=
  { x with toTrackGroup := x.toTrackGroup.renumber g, descriptor := g x.descriptor }

/-- Of `ParameterItem`. -/
def ParameterItem.renumber (g : Ref → Ref) (x : ParameterItem) : ParameterItem :=
  { x with value := x.value.renumber g, control_track := g x.control_track }

/-- Of `Marker`. -/
def Marker.renumber (g : Ref → Ref) (x : Marker) : Marker :=
  { x with attributes := g x.attributes }

/-- Of `TrackerManager`. -/
def TrackerManager.renumber (g : Ref → Ref) (x : TrackerManager) : TrackerManager :=
  { data_slots := g x.data_slots, param_slots := g x.param_slots }

/-- Of `TrackerDataSlot`. -/
def TrackerDataSlot.renumber (g : Ref → Ref) (x : TrackerDataSlot) : TrackerDataSlot :=
  { x with tracker_data := x.tracker_data.map g }

/-- Of `TrackerParameterSlot`. -/
def TrackerParameterSlot.renumber (g : Ref → Ref) (x : TrackerParameterSlot) : TrackerParameterSlot :=
  { x with params := x.params.map g }

/-- Of `TrackerData`. -/
def TrackerData.renumber (g : Ref → Ref) (x : TrackerData) : TrackerData :=
  { x with clips := x.clips.map g, clip5 := x.clip5.map g, clip6 := x.clip6.map g }

/-- Of `MediaDescriptor`. -/
def MediaDescriptor.renumber (g : Ref → Ref) (x : MediaDescriptor) : MediaDescriptor :=
  { x with locator := g x.locator, physical_media := g x.physical_media,
           attributes := x.attributes.map g }

/-- Of `TapeDescriptor`. -/
def TapeDescriptor.renumber (g : Ref → Ref) (x : TapeDescriptor) : TapeDescriptor :=
  { x with toMediaDescriptor := x.toMediaDescriptor.renumber g }

/-- Of `FilmDescriptor`. -/
def FilmDescriptor.renumber (g : Ref → Ref) (x : FilmDescriptor) : FilmDescriptor :=
  { x with toMediaDescriptor := x.toMediaDescriptor.renumber g }

/-- Of `NagraDescriptor`. -/
def NagraDescriptor.renumber (g : Ref → Ref) (x : NagraDescriptor) : NagraDescriptor :=
  { x with toMediaDescriptor := x.toMediaDescriptor.renumber g }

/-- Of `MediaFileDescriptor`. -/
def MediaFileDescriptor.renumber (g : Ref → Ref) (x : MediaFileDescriptor) : MediaFileDescriptor :=
  { x with toMediaDescriptor := x.toMediaDescriptor.renumber g }

/-- Of `MultiDescriptor`. -/
def MultiDescriptor.renumber (g : Ref → Ref) (x : MultiDescriptor) : MultiDescriptor :=
  { x with toMediaFileDescriptor := x.toMediaFileDescriptor.renumber g,
           descriptors := x.descriptors.map g }

/-- Of `WaveDescriptor`. -/
def WaveDescriptor.renumber (g : Ref → Ref) (x : WaveDescriptor) : WaveDescriptor :=
  { x with toMediaFileDescriptor := x.toMediaFileDescriptor.renumber g }

/-- Of `AIFCDescriptor`. -/
def AIFCDescriptor.renumber (g : Ref → Ref) (x : AIFCDescriptor) : AIFCDescriptor :=
  { x with toMediaFileDescriptor := x.toMediaFileDescriptor.renumber g }

/-- Of `DataDescriptor`. -/
def DataDescriptor.renumber (g : Ref → Ref) (x : DataDescriptor) : DataDescriptor :=
  { x with toMediaFileDescriptor := x.toMediaFileDescriptor.renumber g }

/-- Of `PCMADescriptor`. -/
def PCMADescriptor.renumber (g : Ref → Ref) (x : PCMADescriptor) : PCMADescriptor :=
  { x with toMediaFileDescriptor := x.toMediaFileDescriptor.renumber g }

/-- Of `MPGADescriptor`. -/
def MPGADescriptor.renumber (g : Ref → Ref) (x : MPGADescriptor) : MPGADescriptor :=
  { x with toMediaFileDescriptor := x.toMediaFileDescriptor.renumber g }

/-- Of `ANCDataDescriptor`. -/
def ANCDataDescriptor.renumber (g : Ref → Ref) (x : ANCDataDescriptor) : ANCDataDescriptor :=
  { x with toDataDescriptor := x.toDataDescriptor.renumber g }

/-- Of `DIDDescriptor`. -/
def DIDDescriptor.renumber (g : Ref → Ref) (x : DIDDescriptor) : DIDDescriptor :=
  { x with toMediaFileDescriptor := x.toMediaFileDescriptor.renumber g,
           next_did_desc := g x.next_did_desc }

/-- Of `CDCIDescriptor`. -/
def CDCIDescriptor.renumber (g : Ref → Ref) (x : CDCIDescriptor) : CDCIDescriptor :=
  { x with toDIDDescriptor := x.toDIDDescriptor.renumber g }

/-- Of `RGBADescriptor`. -/
def RGBADescriptor.renumber (g : Ref → Ref) (x : RGBADescriptor) : RGBADescriptor :=
  { x with toDIDDescriptor := x.toDIDDescriptor.renumber g }

/-- Of `MPGIDescriptor`. -/
def MPGIDescriptor.renumber (g : Ref → Ref) (x : MPGIDescriptor) : MPGIDescriptor :=
  { x with toCDCIDescriptor := x.toCDCIDescriptor.renumber g }

/-- Of `JPEGDescriptor`. -/
def JPEGDescriptor.renumber (g : Ref → Ref) (x : JPEGDescriptor) : JPEGDescriptor :=
  { x with toCDCIDescriptor := x.toCDCIDescriptor.renumber g }

/-- The value of an attribute. -/
def AttrVal.renumber (g : Ref → Ref) : AttrVal → AttrVal
  | .int v => .int v
  | .str v => .str v
  | .obj r => .obj (g r)
  | .bob v => .bob v
  | .raw v => .raw v

/-- Of `Attributes`. -/
def Attributes.renumber (g : Ref → Ref) (x : Attributes) : Attributes :=
  { items := x.items.map fun p => (p.1, p.2.renumber g) }

/-- Of `ParameterList`. -/
def ParameterList.renumber (g : Ref → Ref) (x : ParameterList) : ParameterList :=
  { x with items := x.items.map g }

/-- Of `TimeCrumbList`. -/
def TimeCrumbList.renumber (g : Ref → Ref) (x : TimeCrumbList) : TimeCrumbList :=
  { x with items := x.items.map g }

/-- Of `BinViewSetting`. -/
def BinViewSetting.renumber (g : Ref → Ref) (x : BinViewSetting) : BinViewSetting :=
  { x with attributes := g x.attributes }

/-- Of `Bin`. -/
def Bin.renumber (g : Ref → Ref) (x : Bin) : Bin :=
  { x with view_setting := g x.view_setting,
           items := x.items.map fun b => { b with mob := g b.mob },
           attributes := g x.attributes }

/-- Of `BinFirst`. -/
def BinFirst.renumber (g : Ref → Ref) (x : BinFirst) : BinFirst :=
  { x with toBin := x.toBin.renumber g }

/-- The object with the references to `r` replaced by references to `g r`. -/
def Obj.renumber (g : Ref → Ref) : Obj → Obj
  | .ATTR x => .ATTR (x.renumber g)
  | .PRLS x => .PRLS (x.renumber g)
  | .TMCS x => .TMCS (x.renumber g)
  | .BVst x => .BVst (x.renumber g)
  | .ABIN x => .ABIN (x.renumber g)
  | .BINF x => .BINF (x.renumber g)
  | .SEQU x => .SEQU (x.renumber g)
  | .SCLP x => .SCLP (x.renumber g)
  | .TCCP x => .TCCP (x.renumber g)
  | .ECCP x => .ECCP (x.renumber g)
  | .TRKR x => .TRKR (x.renumber g)
  | .PRCL x => .PRCL (x.renumber g)
  | .CTRL x => .CTRL (x.renumber g)
  | .FILL x => .FILL (x.renumber g)
  | .TRKG x => .TRKG (x.renumber g)
  | .TKFX x => .TKFX (x.renumber g)
  | .PVOL x => .PVOL (x.renumber g)
  | .ASPI x => .ASPI (x.renumber g)
  | .EQMB x => .EQMB (x.renumber g)
  | .MASK x => .MASK (x.renumber g)
  | .STRB x => .STRB (x.renumber g)
  | .SPED x => .SPED (x.renumber g)
  | .REPT x => .REPT (x.renumber g)
  | .RSET x => .RSET (x.renumber g)
  | .TNFX x => .TNFX (x.renumber g)
  | .SLCT x => .SLCT (x.renumber g)
  | .CMPO x => .CMPO (x.renumber g)
  | .FILE x => .FILE x
  | .WINF x => .WINF x
  | .URLL x => .URLL x
  | .GRFX x => .GRFX x
  | .SHLP x => .SHLP x
  | .CCFX x => .CCFX x
  | .FXPS x => .FXPS x
  | .AVUP x => .AVUP x
  | .PRIT x => .PRIT (x.renumber g)
  | .MSML x => .MSML x
  | .APOS x => .APOS x
  | .ABOB x => .ABOB x
  | .DIDP x => .DIDP x
  | .MPGP x => .MPGP x
  | .MCBR x => .MCBR x
  | .MCMR x => .MCMR x
  | .TMBC x => .TMBC (x.renumber g)
  | .TKMN x => .TKMN (x.renumber g)
  | .TKDS x => .TKDS (x.renumber g)
  | .TKPS x => .TKPS (x.renumber g)
  | .TKDA x => .TKDA (x.renumber g)
  | .TKPA x => .TKPA x
  | .MDES x => .MDES (x.renumber g)
  | .MDTP x => .MDTP (x.renumber g)
  | .MDFM x => .MDFM (x.renumber g)
  | .MDNG x => .MDNG (x.renumber g)
  | .MDFL x => .MDFL (x.renumber g)
  | .MULD x => .MULD (x.renumber g)
  | .WAVE x => .WAVE (x.renumber g)
  | .AIFC x => .AIFC (x.renumber g)
  | .PCMA x => .PCMA (x.renumber g)
  | .MPGA x => .MPGA (x.renumber g)
  | .DIDD x => .DIDD (x.renumber g)
  | .CDCI x => .CDCI (x.renumber g)
  | .MPGI x => .MPGI (x.renumber g)
  | .JPED x => .JPED (x.renumber g)
  | .RGBA x => .RGBA (x.renumber g)
  | .DATD x => .DATD (x.renumber g)
  | .ANCD x => .ANCD (x.renumber g)

end Avb
