import Verif.Model.Bin
import Verif.Model.TrackGroups

/-
All registered classes together: the class table and the reader and writer chosen by class id
(src/avb/utils.py:100-115, src/avb/file.py:262-336).

The order in which `walk_references` meets the references of an object is the insertion order of its
properties; `visits` lists them in the order in which `read` sets them.
-/

namespace Avb

/-- How `walk_references` (src/avb/core.py:136-163) meets a reference. -/
inductive Visit where
  /-- as a property value, attribute value or list element `v` of the loop at line 147 -/
  | prop (r : Ref)
  /-- as an `item` of a list valued property (lines 153-156) -/
  | item (r : Ref)
  deriving DecidableEq

/-- The reference met. -/
def Visit.ref : Visit → Ref
  | .prop r => r
  | .item r => r

/-- A property holding a reference that may be absent (src/avb/core.py:142-151). -/
def optProp (o : Option Ref) : List Visit := o.toList.map .prop

/-- References of the base component in reading order (src/avb/components.py:37-66). -/
def Component.visits (x : Component) : List Visit :=
  [.prop x.left_bob, .prop x.right_bob, .prop x.attributes, .prop x.session_attrs,
    .prop x.precomputed] ++ optProp x.param_list

/-- References of a sequence (src/avb/components.py:154-166). -/
def Sequence.visits (x : Sequence) : List Visit :=
  x.toComponent.visits ++ x.components.map .item

/-- The reference of a control point value (src/avb/components.py:583). -/
def PVal.visits : PVal → List Visit
  | .ref r => [.prop r]
  | _ => []

/-- References of a parameter clip: helper objects in the list of control points
(src/avb/components.py:570-605). -/
def ParamClip.visits (x : ParamClip) : List Visit :=
  x.toComponent.visits ++ x.control_points.flatMap fun p => p.value.visits

/-- References of a track (src/avb/trackgroups.py:127-140). -/
def Track.visits (x : Track) : List Visit :=
  optProp x.attributes ++ optProp x.session_attr ++ optProp x.component ++ optProp x.filler_proxy ++
    optProp x.bob_data

/-- References of a track group: helper objects in the list of tracks
(src/avb/trackgroups.py:110-162). -/
def TrackGroup.visits (x : TrackGroup) : List Visit :=
  x.toComponent.visits ++ x.tracks.flatMap Track.visits

/-- References of a track effect (src/avb/trackgroups.py:274-305). -/
def TrackEffect.visits (x : TrackEffect) : List Visit :=
  x.toTrackGroup.visits ++ [.prop x.keyframes] ++ optProp x.trackman

/-- References of a motion effect (src/avb/trackgroups.py:782-808). -/
def MotionEffect.visits (x : MotionEffect) : List Visit :=
  x.toTrackGroup.visits ++ optProp x.source_param_list

/-- References of a transition (src/avb/trackgroups.py:912-950). -/
def TransitionEffect.visits (x : TransitionEffect) : List Visit :=
  x.toTrackGroup.visits ++ [.prop x.keyframes] ++ optProp x.trackman

/-- References of a composition (src/avb/trackgroups.py:1058-1085). -/
def Composition.visits (x : Composition) : List Visit :=
  x.toTrackGroup.visits ++ [.prop x.descriptor]

/-- References of a parameter item (src/avb/misc.py:453-481). -/
def ParameterItem.visits (x : ParameterItem) : List Visit :=
  x.value.visits ++ [.prop x.control_track]

/-- References of a marker (src/avb/misc.py:897-919). -/
def Marker.visits (x : Marker) : List Visit := [.prop x.attributes]

/-- References of a tracker manager (src/avb/misc.py:955-964). -/
def TrackerManager.visits (x : TrackerManager) : List Visit :=
  [.prop x.data_slots, .prop x.param_slots]

/-- References of a tracker data slot (src/avb/misc.py:988-1007). -/
def TrackerDataSlot.visits (x : TrackerDataSlot) : List Visit := x.tracker_data.map .item

/-- References of a tracker parameter slot (src/avb/misc.py:1038-1054). -/
def TrackerParameterSlot.visits (x : TrackerParameterSlot) : List Visit := x.params.map .item

/-- References of tracker data (src/avb/misc.py:1088-1136). -/
def TrackerData.visits (x : TrackerData) : List Visit :=
  x.clips.map .item ++ optProp x.clip5 ++ optProp x.clip6

/-- References of a media descriptor (src/avb/essence.py:31-66). -/
def MediaDescriptor.visits (x : MediaDescriptor) : List Visit :=
  [.prop x.locator, .prop x.physical_media] ++ optProp x.attributes

/-- References of a multi descriptor (src/avb/essence.py:213-226). -/
def MultiDescriptor.visits (x : MultiDescriptor) : List Visit :=
  x.toMediaDescriptor.visits ++ x.descriptors.map .item

/-- References of a digital image descriptor (src/avb/essence.py:568-612). -/
def DIDDescriptor.visits (x : DIDDescriptor) : List Visit :=
  x.toMediaDescriptor.visits ++ [.prop x.next_did_desc]

/-- The reference of an attribute value (src/avb/core.py:140-141, 148-151). -/
def AttrVal.visits : AttrVal → List Visit
  | .obj r => [.prop r]
  | _ => []

/-- References of an attribute dictionary (src/avb/core.py:140-141). -/
def Attributes.visits (x : Attributes) : List Visit := x.items.flatMap fun p => p.2.visits

/-- References of a parameter list (src/avb/core.py:138-139). -/
def ParameterList.visits (x : ParameterList) : List Visit := x.items.map .prop

/-- References of a time crumb list (src/avb/core.py:138-139). -/
def TimeCrumbList.visits (x : TimeCrumbList) : List Visit := x.items.map .prop

/-- References of a bin view setting (src/avb/bin.py:36). -/
def BinViewSetting.visits (x : BinViewSetting) : List Visit := [.prop x.attributes]

/-- References of a bin: helper objects in the list of items (src/avb/bin.py:249, 263, 304). -/
def Bin.visits (x : Bin) : List Visit :=
  [.prop x.view_setting] ++ x.items.map (fun i => .prop i.mob) ++ [.prop x.attributes]

/-- The registered classes (src/avb/utils.py:100-109), named by class id. -/
inductive Cls where
  /-- `Attributes` (src/avb/attributes.py:22) -/
  | ATTR
  /-- `ParameterList` (src/avb/attributes.py:133) -/
  | PRLS
  /-- `TimeCrumbList` (src/avb/attributes.py:160) -/
  | TMCS
  /-- `BinViewSetting` (src/avb/bin.py:74) -/
  | BVst
  /-- `Bin` (src/avb/bin.py:196) -/
  | ABIN
  /-- `BinFirst` (src/avb/bin.py:413) -/
  | BINF
  /-- `Sequence` (src/avb/components.py:142) -/
  | SEQU
  /-- `SourceClip` (src/avb/components.py:258) -/
  | SCLP
  /-- `Timecode` (src/avb/components.py:330) -/
  | TCCP
  /-- `Edgecode` (src/avb/components.py:370) -/
  | ECCP
  /-- `TrackRef` (src/avb/components.py:416) -/
  | TRKR
  /-- `ParamClip` (src/avb/components.py:544) -/
  | PRCL
  /-- `ControlClip` (src/avb/components.py:852) -/
  | CTRL
  /-- `Filler` (src/avb/components.py:930) -/
  | FILL
  /-- `TrackGroup` (src/avb/trackgroups.py:89) -/
  | TRKG
  /-- `TrackEffect` (src/avb/trackgroups.py:258) -/
  | TKFX
  /-- `PanVolumeEffect` (src/avb/trackgroups.py:340) -/
  | PVOL
  /-- `AudioSuitePluginEffect` (src/avb/trackgroups.py:436) -/
  | ASPI
  /-- `EqualizerMultiBand` (src/avb/trackgroups.py:636) -/
  | EQMB
  /-- `CaptureMask` (src/avb/trackgroups.py:712) -/
  | MASK
  /-- `StrobeEffect` (src/avb/trackgroups.py:744) -/
  | STRB
  /-- `MotionEffect` (src/avb/trackgroups.py:769) -/
  | SPED
  /-- `Repeat` (src/avb/trackgroups.py:834) -/
  | REPT
  /-- `EssenceGroup` (src/avb/trackgroups.py:856) -/
  | RSET
  /-- `TransitionEffect` (src/avb/trackgroups.py:894) -/
  | TNFX
  /-- `Selector` (src/avb/trackgroups.py:987) -/
  | SLCT
  /-- `Composition` (src/avb/trackgroups.py:1025) -/
  | CMPO
  /-- `MacFileLocator` (src/avb/misc.py:78) -/
  | FILE
  /-- `WinFileLocator` (src/avb/misc.py:84) -/
  | WINF
  /-- `URLLocator` (src/avb/misc.py:90) -/
  | URLL
  /-- `GraphicEffect` (src/avb/misc.py:106) -/
  | GRFX
  /-- `ShapeList` (src/avb/misc.py:140) -/
  | SHLP
  /-- `ColorCorrectionEffect` (src/avb/misc.py:172) -/
  | CCFX
  /-- `EffectParamList` (src/avb/misc.py:241) -/
  | FXPS
  /-- `CFUserParam` (src/avb/misc.py:392) -/
  | AVUP
  /-- `ParameterItem` (src/avb/misc.py:441) -/
  | PRIT
  /-- `MSMLocator` (src/avb/misc.py:535) -/
  | MSML
  /-- `Position` (src/avb/misc.py:605) -/
  | APOS
  /-- `BOBPosition` (src/avb/misc.py:651) -/
  | ABOB
  /-- `DIDPosition` (src/avb/misc.py:691) -/
  | DIDP
  /-- `MPGPosition` (src/avb/misc.py:731) -/
  | MPGP
  /-- `BinRef` (src/avb/misc.py:784) -/
  | MCBR
  /-- `MobRef` (src/avb/misc.py:832) -/
  | MCMR
  /-- `Marker` (src/avb/misc.py:883) -/
  | TMBC
  /-- `TrackerManager` (src/avb/misc.py:946) -/
  | TKMN
  /-- `TrackerDataSlot` (src/avb/misc.py:978) -/
  | TKDS
  /-- `TrackerParameterSlot` (src/avb/misc.py:1028) -/
  | TKPS
  /-- `TrackerData` (src/avb/misc.py:1071) -/
  | TKDA
  /-- `TrackerParameter` (src/avb/misc.py:1183) -/
  | TKPA
  /-- `MediaDescriptor` (src/avb/essence.py:15) -/
  | MDES
  /-- `TapeDescriptor` (src/avb/essence.py:101) -/
  | MDTP
  /-- `FilmDescriptor` (src/avb/essence.py:127) -/
  | MDFM
  /-- `NagraDescriptor` (src/avb/essence.py:147) -/
  | MDNG
  /-- `MediaFileDescriptor` (src/avb/essence.py:167) -/
  | MDFL
  /-- `MultiDescriptor` (src/avb/essence.py:206) -/
  | MULD
  /-- `WaveDescriptor` (src/avb/essence.py:241) -/
  | WAVE
  /-- `AIFCDescriptor` (src/avb/essence.py:273) -/
  | AIFC
  /-- `PCMADescriptor` (src/avb/essence.py:321) -/
  | PCMA
  /-- `MPGADescriptor` (src/avb/essence.py:440) -/
  | MPGA
  /-- `DIDDescriptor` (src/avb/essence.py:521) -/
  | DIDD
  /-- `CDCIDescriptor` (src/avb/essence.py:986) -/
  | CDCI
  /-- `MPGIDescriptor` (src/avb/essence.py:1066) -/
  | MPGI
  /-- `JPEGDescriptor` (src/avb/essence.py:1124) -/
  | JPED
  /-- `RGBADescriptor` (src/avb/essence.py:1185) -/
  | RGBA
  /-- `DataDescriptor` (src/avb/essence.py:1317) -/
  | DATD
  /-- `ANCDataDescriptor` (src/avb/essence.py:1353) -/
  | ANCD
  deriving DecidableEq

/-- Four ASCII characters as bytes. -/
def cc (a b c d : Char) : Bytes :=
  [UInt8.ofNat a.toNat, UInt8.ofNat b.toNat, UInt8.ofNat c.toNat, UInt8.ofNat d.toNat]

/-- `class_id` of each class (the `class_id = b'....'` line of each class body). -/
def Cls.id : Cls → Bytes
  | .ATTR => cc 'A' 'T' 'T' 'R'
  | .PRLS => cc 'P' 'R' 'L' 'S'
  | .TMCS => cc 'T' 'M' 'C' 'S'
  | .BVst => cc 'B' 'V' 's' 't'
  | .ABIN => cc 'A' 'B' 'I' 'N'
  | .BINF => cc 'B' 'I' 'N' 'F'
  | .SEQU => cc 'S' 'E' 'Q' 'U'
  | .SCLP => cc 'S' 'C' 'L' 'P'
  | .TCCP => cc 'T' 'C' 'C' 'P'
  | .ECCP => cc 'E' 'C' 'C' 'P'
  | .TRKR => cc 'T' 'R' 'K' 'R'
  | .PRCL => cc 'P' 'R' 'C' 'L'
  | .CTRL => cc 'C' 'T' 'R' 'L'
  | .FILL => cc 'F' 'I' 'L' 'L'
  | .TRKG => cc 'T' 'R' 'K' 'G'
  | .TKFX => cc 'T' 'K' 'F' 'X'
  | .PVOL => cc 'P' 'V' 'O' 'L'
  | .ASPI => cc 'A' 'S' 'P' 'I'
  | .EQMB => cc 'E' 'Q' 'M' 'B'
  | .MASK => cc 'M' 'A' 'S' 'K'
  | .STRB => cc 'S' 'T' 'R' 'B'
  | .SPED => cc 'S' 'P' 'E' 'D'
  | .REPT => cc 'R' 'E' 'P' 'T'
  | .RSET => cc 'R' 'S' 'E' 'T'
  | .TNFX => cc 'T' 'N' 'F' 'X'
  | .SLCT => cc 'S' 'L' 'C' 'T'
  | .CMPO => cc 'C' 'M' 'P' 'O'
  | .FILE => cc 'F' 'I' 'L' 'E'
  | .WINF => cc 'W' 'I' 'N' 'F'
  | .URLL => cc 'U' 'R' 'L' 'L'
  | .GRFX => cc 'G' 'R' 'F' 'X'
  | .SHLP => cc 'S' 'H' 'L' 'P'
  | .CCFX => cc 'C' 'C' 'F' 'X'
  | .FXPS => cc 'F' 'X' 'P' 'S'
  | .AVUP => cc 'A' 'V' 'U' 'P'
  | .PRIT => cc 'P' 'R' 'I' 'T'
  | .MSML => cc 'M' 'S' 'M' 'L'
  | .APOS => cc 'A' 'P' 'O' 'S'
  | .ABOB => cc 'A' 'B' 'O' 'B'
  | .DIDP => cc 'D' 'I' 'D' 'P'
  | .MPGP => cc 'M' 'P' 'G' 'P'
  | .MCBR => cc 'M' 'C' 'B' 'R'
  | .MCMR => cc 'M' 'C' 'M' 'R'
  | .TMBC => cc 'T' 'M' 'B' 'C'
  | .TKMN => cc 'T' 'K' 'M' 'N'
  | .TKDS => cc 'T' 'K' 'D' 'S'
  | .TKPS => cc 'T' 'K' 'P' 'S'
  | .TKDA => cc 'T' 'K' 'D' 'A'
  | .TKPA => cc 'T' 'K' 'P' 'A'
  | .MDES => cc 'M' 'D' 'E' 'S'
  | .MDTP => cc 'M' 'D' 'T' 'P'
  | .MDFM => cc 'M' 'D' 'F' 'M'
  | .MDNG => cc 'M' 'D' 'N' 'G'
  | .MDFL => cc 'M' 'D' 'F' 'L'
  | .MULD => cc 'M' 'U' 'L' 'D'
  | .WAVE => cc 'W' 'A' 'V' 'E'
  | .AIFC => cc 'A' 'I' 'F' 'C'
  | .PCMA => cc 'P' 'C' 'M' 'A'
  | .MPGA => cc 'M' 'P' 'G' 'A'
  | .DIDD => cc 'D' 'I' 'D' 'D'
  | .CDCI => cc 'C' 'D' 'C' 'I'
  | .MPGI => cc 'M' 'P' 'G' 'I'
  | .JPED => cc 'J' 'P' 'E' 'D'
  | .RGBA => cc 'R' 'G' 'B' 'A'
  | .DATD => cc 'D' 'A' 'T' 'D'
  | .ANCD => cc 'A' 'N' 'C' 'D'

/-- The keys of `AVBClaseID_dict` (src/avb/utils.py:100-103). -/
def Cls.all : List Cls :=
  [.ATTR, .PRLS, .TMCS, .BVst, .ABIN, .BINF, .SEQU, .SCLP, .TCCP, .ECCP, .TRKR,
   .PRCL, .CTRL, .FILL, .TRKG, .TKFX, .PVOL, .ASPI, .EQMB, .MASK, .STRB, .SPED,
   .REPT, .RSET, .TNFX, .SLCT, .CMPO, .FILE, .WINF, .URLL, .GRFX, .SHLP, .CCFX,
   .FXPS, .AVUP, .PRIT, .MSML, .APOS, .ABOB, .DIDP, .MPGP, .MCBR, .MCMR, .TMBC,
   .TKMN, .TKDS, .TKPS, .TKDA, .TKPA, .MDES, .MDTP, .MDFM, .MDNG, .MDFL, .MULD,
   .WAVE, .AIFC, .PCMA, .MPGA, .DIDD, .CDCI, .MPGI, .JPED, .RGBA, .DATD, .ANCD]

/-- `AVBClaseID_dict.get(class_id, None)` (src/avb/file.py:285). -/
def Cls.ofId (b : Bytes) : Option Cls := Cls.all.find? fun k => k.id = b

/-- An object of a registered class. -/
inductive Obj where
  /-- class id ATTR -/
  | ATTR (x : Attributes)
  /-- class id PRLS -/
  | PRLS (x : ParameterList)
  /-- class id TMCS -/
  | TMCS (x : TimeCrumbList)
  /-- class id BVst -/
  | BVst (x : BinViewSetting)
  /-- class id ABIN -/
  | ABIN (x : Bin)
  /-- class id BINF -/
  | BINF (x : BinFirst)
  /-- class id SEQU -/
  | SEQU (x : Sequence)
  /-- class id SCLP -/
  | SCLP (x : SourceClip)
  /-- class id TCCP -/
  | TCCP (x : Timecode)
  /-- class id ECCP -/
  | ECCP (x : Edgecode)
  /-- class id TRKR -/
  | TRKR (x : TrackRef)
  /-- class id PRCL -/
  | PRCL (x : ParamClip)
  /-- class id CTRL -/
  | CTRL (x : ControlClip)
  /-- class id FILL -/
  | FILL (x : Filler)
  /-- class id TRKG -/
  | TRKG (x : TrackGroup)
  /-- class id TKFX -/
  | TKFX (x : TrackEffect)
  /-- class id PVOL -/
  | PVOL (x : PanVolumeEffect)
  /-- class id ASPI -/
  | ASPI (x : AudioSuitePluginEffect)
  /-- class id EQMB -/
  | EQMB (x : EqualizerMultiBand)
  /-- class id MASK -/
  | MASK (x : CaptureMask)
  /-- class id STRB -/
  | STRB (x : StrobeEffect)
  /-- class id SPED -/
  | SPED (x : MotionEffect)
  /-- class id REPT -/
  | REPT (x : Repeat)
  /-- class id RSET -/
  | RSET (x : EssenceGroup)
  /-- class id TNFX -/
  | TNFX (x : TransitionEffect)
  /-- class id SLCT -/
  | SLCT (x : Selector)
  /-- class id CMPO -/
  | CMPO (x : Composition)
  /-- class id FILE -/
  | FILE (x : FileLocator)
  /-- class id WINF -/
  | WINF (x : FileLocator)
  /-- class id URLL -/
  | URLL (x : URLLocator)
  /-- class id GRFX -/
  | GRFX (x : GraphicEffect)
  /-- class id SHLP -/
  | SHLP (x : ShapeList)
  /-- class id CCFX -/
  | CCFX (x : ColorCorrectionEffect)
  /-- class id FXPS -/
  | FXPS (x : EffectParamList)
  /-- class id AVUP -/
  | AVUP (x : CFUserParam)
  /-- class id PRIT -/
  | PRIT (x : ParameterItem)
  /-- class id MSML -/
  | MSML (x : MSMLocator)
  /-- class id APOS -/
  | APOS (x : Position)
  /-- class id ABOB -/
  | ABOB (x : BOBPosition)
  /-- class id DIDP -/
  | DIDP (x : DIDPosition)
  /-- class id MPGP -/
  | MPGP (x : MPGPosition)
  /-- class id MCBR -/
  | MCBR (x : BinRef)
  /-- class id MCMR -/
  | MCMR (x : MobRef)
  /-- class id TMBC -/
  | TMBC (x : Marker)
  /-- class id TKMN -/
  | TKMN (x : TrackerManager)
  /-- class id TKDS -/
  | TKDS (x : TrackerDataSlot)
  /-- class id TKPS -/
  | TKPS (x : TrackerParameterSlot)
  /-- class id TKDA -/
  | TKDA (x : TrackerData)
  /-- class id TKPA -/
  | TKPA (x : TrackerParameter)
  /-- class id MDES -/
  | MDES (x : MediaDescriptor)
  /-- class id MDTP -/
  | MDTP (x : TapeDescriptor)
  /-- class id MDFM -/
  | MDFM (x : FilmDescriptor)
  /-- class id MDNG -/
  | MDNG (x : NagraDescriptor)
  /-- class id MDFL -/
  | MDFL (x : MediaFileDescriptor)
  /-- class id MULD -/
  | MULD (x : MultiDescriptor)
  /-- class id WAVE -/
  | WAVE (x : WaveDescriptor)
  /-- class id AIFC -/
  | AIFC (x : AIFCDescriptor)
  /-- class id PCMA -/
  | PCMA (x : PCMADescriptor)
  /-- class id MPGA -/
  | MPGA (x : MPGADescriptor)
  /-- class id DIDD -/
  | DIDD (x : DIDDescriptor)
  /-- class id CDCI -/
  | CDCI (x : CDCIDescriptor)
  /-- class id MPGI -/
  | MPGI (x : MPGIDescriptor)
  /-- class id JPED -/
  | JPED (x : JPEGDescriptor)
  /-- class id RGBA -/
  | RGBA (x : RGBADescriptor)
  /-- class id DATD -/
  | DATD (x : DataDescriptor)
  /-- class id ANCD -/
  | ANCD (x : ANCDataDescriptor)

/-- `self.class_id` (src/avb/file.py:334). -/
def Obj.cls : Obj → Cls
  | .ATTR _ => .ATTR
  | .PRLS _ => .PRLS
  | .TMCS _ => .TMCS
  | .BVst _ => .BVst
  | .ABIN _ => .ABIN
  | .BINF _ => .BINF
  | .SEQU _ => .SEQU
  | .SCLP _ => .SCLP
  | .TCCP _ => .TCCP
  | .ECCP _ => .ECCP
  | .TRKR _ => .TRKR
  | .PRCL _ => .PRCL
  | .CTRL _ => .CTRL
  | .FILL _ => .FILL
  | .TRKG _ => .TRKG
  | .TKFX _ => .TKFX
  | .PVOL _ => .PVOL
  | .ASPI _ => .ASPI
  | .EQMB _ => .EQMB
  | .MASK _ => .MASK
  | .STRB _ => .STRB
  | .SPED _ => .SPED
  | .REPT _ => .REPT
  | .RSET _ => .RSET
  | .TNFX _ => .TNFX
  | .SLCT _ => .SLCT
  | .CMPO _ => .CMPO
  | .FILE _ => .FILE
  | .WINF _ => .WINF
  | .URLL _ => .URLL
  | .GRFX _ => .GRFX
  | .SHLP _ => .SHLP
  | .CCFX _ => .CCFX
  | .FXPS _ => .FXPS
  | .AVUP _ => .AVUP
  | .PRIT _ => .PRIT
  | .MSML _ => .MSML
  | .APOS _ => .APOS
  | .ABOB _ => .ABOB
  | .DIDP _ => .DIDP
  | .MPGP _ => .MPGP
  | .MCBR _ => .MCBR
  | .MCMR _ => .MCMR
  | .TMBC _ => .TMBC
  | .TKMN _ => .TKMN
  | .TKDS _ => .TKDS
  | .TKPS _ => .TKPS
  | .TKDA _ => .TKDA
  | .TKPA _ => .TKPA
  | .MDES _ => .MDES
  | .MDTP _ => .MDTP
  | .MDFM _ => .MDFM
  | .MDNG _ => .MDNG
  | .MDFL _ => .MDFL
  | .MULD _ => .MULD
  | .WAVE _ => .WAVE
  | .AIFC _ => .AIFC
  | .PCMA _ => .PCMA
  | .MPGA _ => .MPGA
  | .DIDD _ => .DIDD
  | .CDCI _ => .CDCI
  | .MPGI _ => .MPGI
  | .JPED _ => .JPED
  | .RGBA _ => .RGBA
  | .DATD _ => .DATD
  | .ANCD _ => .ANCD

/-- `Rd` result mapped by a constructor. -/
def Rd.as {α : Type} (r : Rd α) (f : α → Obj) : Rd Obj := do
  let x ← r
  return f x

/-- `object_instance.read(r)` for an instance of each class (src/avb/file.py:301-302). -/
def Obj.readAs (d : RCtx) : Cls → Rd Obj
  | .ATTR => (Attributes.read d).as .ATTR
  | .PRLS => (ParameterList.read d).as .PRLS
  | .TMCS => (TimeCrumbList.read d).as .TMCS
  | .BVst => (BinViewSetting.read d).as .BVst
  | .ABIN => (Bin.read d).as .ABIN
  | .BINF => (BinFirst.read d).as .BINF
  | .SEQU => (Sequence.read d).as .SEQU
  | .SCLP => (SourceClip.read d).as .SCLP
  | .TCCP => (Timecode.read d).as .TCCP
  | .ECCP => (Edgecode.read d).as .ECCP
  | .TRKR => (TrackRef.read d).as .TRKR
  | .PRCL => (ParamClip.read d).as .PRCL
  | .CTRL => (ControlClip.read d).as .CTRL
  | .FILL => (Filler.read d).as .FILL
  | .TRKG => (TrackGroup.read d).as .TRKG
  | .TKFX => (TrackEffect.read d).as .TKFX
  | .PVOL => (PanVolumeEffect.read d).as .PVOL
  | .ASPI => (AudioSuitePluginEffect.read d).as .ASPI
  | .EQMB => (EqualizerMultiBand.read d).as .EQMB
  | .MASK => (CaptureMask.read d).as .MASK
  | .STRB => (StrobeEffect.read d).as .STRB
  | .SPED => (MotionEffect.read d).as .SPED
  | .REPT => (Repeat.read d).as .REPT
  | .RSET => (EssenceGroup.read d).as .RSET
  | .TNFX => (TransitionEffect.read d).as .TNFX
  | .SLCT => (Selector.read d).as .SLCT
  | .CMPO => (Composition.read d).as .CMPO
  | .FILE => (FileLocator.read d).as .FILE
  | .WINF => (FileLocator.read d).as .WINF
  | .URLL => (URLLocator.read d).as .URLL
  | .GRFX => (GraphicEffect.read d).as .GRFX
  | .SHLP => (ShapeList.read d).as .SHLP
  | .CCFX => (ColorCorrectionEffect.read d).as .CCFX
  | .FXPS => (EffectParamList.read d).as .FXPS
  | .AVUP => (CFUserParam.read d).as .AVUP
  | .PRIT => (ParameterItem.read d).as .PRIT
  | .MSML => (MSMLocator.read d).as .MSML
  | .APOS => (Position.read d).as .APOS
  | .ABOB => (BOBPosition.read d).as .ABOB
  | .DIDP => (DIDPosition.read d).as .DIDP
  | .MPGP => (MPGPosition.read d).as .MPGP
  | .MCBR => (BinRef.read d).as .MCBR
  | .MCMR => (MobRef.read d).as .MCMR
  | .TMBC => (Marker.read d).as .TMBC
  | .TKMN => (TrackerManager.read d).as .TKMN
  | .TKDS => (TrackerDataSlot.read d).as .TKDS
  | .TKPS => (TrackerParameterSlot.read d).as .TKPS
  | .TKDA => (TrackerData.read d).as .TKDA
  | .TKPA => (TrackerParameter.read d).as .TKPA
  | .MDES => (MediaDescriptor.read d).as .MDES
  | .MDTP => (TapeDescriptor.read d).as .MDTP
  | .MDFM => (FilmDescriptor.read d).as .MDFM
  | .MDNG => (NagraDescriptor.read d).as .MDNG
  | .MDFL => (MediaFileDescriptor.read d).as .MDFL
  | .MULD => (MultiDescriptor.read d).as .MULD
  | .WAVE => (WaveDescriptor.read d).as .WAVE
  | .AIFC => (AIFCDescriptor.read d).as .AIFC
  | .PCMA => (PCMADescriptor.read d).as .PCMA
  | .MPGA => (MPGADescriptor.read d).as .MPGA
  | .DIDD => (DIDDescriptor.read d).as .DIDD
  | .CDCI => (CDCIDescriptor.read d).as .CDCI
  | .MPGI => (MPGIDescriptor.read d).as .MPGI
  | .JPED => (JPEGDescriptor.read d).as .JPED
  | .RGBA => (RGBADescriptor.read d).as .RGBA
  | .DATD => (DataDescriptor.read d).as .DATD
  | .ANCD => (ANCDataDescriptor.read d).as .ANCD

/-- `obj.write(buffer)` (src/avb/file.py:329). -/
def Obj.write (c : WCtx) : Obj → Wr Unit
  | .ATTR x => x.write c
  | .PRLS x => x.write c
  | .TMCS x => x.write c
  | .BVst x => x.write c
  | .ABIN x => x.write c
  | .BINF x => x.write c
  | .SEQU x => x.write c
  | .SCLP x => x.write c
  | .TCCP x => x.write c
  | .ECCP x => x.write c
  | .TRKR x => x.write c
  | .PRCL x => x.write c
  | .CTRL x => x.write c
  | .FILL x => x.write c
  | .TRKG x => x.write c
  | .TKFX x => x.write c
  | .PVOL x => x.write c
  | .ASPI x => x.write c
  | .EQMB x => x.write c
  | .MASK x => x.write c
  | .STRB x => x.write c
  | .SPED x => x.write c
  | .REPT x => x.write c
  | .RSET x => x.write c
  | .TNFX x => x.write c
  | .SLCT x => x.write c
  | .CMPO x => x.write c
  | .FILE x => x.write c
  | .WINF x => x.write c
  | .URLL x => x.write c
  | .GRFX x => x.write c
  | .SHLP x => x.write c
  | .CCFX x => x.write c
  | .FXPS x => x.write c
  | .AVUP x => x.write c
  | .PRIT x => x.write c
  | .MSML x => x.write c
  | .APOS x => x.write c
  | .ABOB x => x.write c
  | .DIDP x => x.write c
  | .MPGP x => x.write c
  | .MCBR x => x.write c
  | .MCMR x => x.write c
  | .TMBC x => x.write c
  | .TKMN x => x.write c
  | .TKDS x => x.write c
  | .TKPS x => x.write c
  | .TKDA x => x.write c
  | .TKPA x => x.write c
  | .MDES x => x.write c
  | .MDTP x => x.write c
  | .MDFM x => x.write c
  | .MDNG x => x.write c
  | .MDFL x => x.write c
  | .MULD x => x.write c
  | .WAVE x => x.write c
  | .AIFC x => x.write c
  | .PCMA x => x.write c
  | .MPGA x => x.write c
  | .DIDD x => x.write c
  | .CDCI x => x.write c
  | .MPGI x => x.write c
  | .JPED x => x.write c
  | .RGBA x => x.write c
  | .DATD x => x.write c
  | .ANCD x => x.write c

/-- The references of an object in the order `walk_references` meets them (src/avb/core.py:136-163). -/
def Obj.visits : Obj → List Visit
  | .ATTR x => x.visits
  | .PRLS x => x.visits
  | .TMCS x => x.visits
  | .BVst x => x.visits
  | .ABIN x => x.visits
  | .BINF x => x.visits
  | .SEQU x => x.visits
  | .SCLP x => x.visits
  | .TCCP x => x.visits
  | .ECCP x => x.visits
  | .TRKR x => x.visits
  | .PRCL x => x.visits
  | .CTRL x => x.visits
  | .FILL x => x.visits
  | .TRKG x => x.visits
  | .TKFX x => x.visits
  | .PVOL x => x.visits
  | .ASPI x => x.visits
  | .EQMB x => x.visits
  | .MASK x => x.visits
  | .STRB x => x.visits
  | .SPED x => x.visits
  | .REPT x => x.visits
  | .RSET x => x.visits
  | .TNFX x => x.visits
  | .SLCT x => x.visits
  | .CMPO x => x.visits
  | .FILE _ => []
  | .WINF _ => []
  | .URLL _ => []
  | .GRFX _ => []
  | .SHLP _ => []
  | .CCFX _ => []
  | .FXPS _ => []
  | .AVUP _ => []
  | .PRIT x => x.visits
  | .MSML _ => []
  | .APOS _ => []
  | .ABOB _ => []
  | .DIDP _ => []
  | .MPGP _ => []
  | .MCBR _ => []
  | .MCMR _ => []
  | .TMBC x => x.visits
  | .TKMN x => x.visits
  | .TKDS x => x.visits
  | .TKPS x => x.visits
  | .TKDA x => x.visits
  | .TKPA _ => []
  | .MDES x => x.visits
  | .MDTP x => x.visits
  | .MDFM x => x.visits
  | .MDNG x => x.visits
  | .MDFL x => x.visits
  | .MULD x => x.visits
  | .WAVE x => x.visits
  | .AIFC x => x.visits
  | .PCMA x => x.visits
  | .MPGA x => x.visits
  | .DIDD x => x.visits
  | .CDCI x => x.visits
  | .MPGI x => x.visits
  | .JPED x => x.visits
  | .RGBA x => x.visits
  | .DATD x => x.visits
  | .ANCD x => x.visits

/-- All references of an object. -/
def Obj.refs (o : Obj) : List Ref := o.visits.map Visit.ref

/-- `isinstance(v, list)` for objects: the list classes that have a class id, with their elements
(src/avb/core.py:153, src/avb/attributes.py:133, 160). -/
def Obj.listItems : Obj → List Ref
  | .PRLS x => x.items
  | .TMCS x => x.items
  | _ => []

end Avb
