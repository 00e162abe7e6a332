import Verif.Spec.Renumber
import Verif.Model.NewFile

/-!
Copying an object of one file into another: `AVBObject.copy` (src/avb/core.py:221-242), `AVBRefList.copy`
(src/avb/core.py:74-78) and `Attributes.copy` (src/avb/attributes.py:53-66), with the contents that are
written.  `Verif.Model.Copy` has the Python objects in more detail and leaves the contents abstract.
-/
namespace Avb

/-! ### The same object with other references -/

/-- A computation that takes references from a list: the copies, in the order in which the properties are
visited (src/avb/core.py:223-240). -/
def Take (α : Type) : Type := List Ref → α × List Ref

/-- One after the other (src/avb/core.py:223-240). -/
instance : Monad Take where
  pure a := fun l => (a, l)
  bind f k := fun l => k (f l).1 (f l).2

/-- The next reference (src/avb/core.py:227-230). -/
def popRef : Take Ref := fun l => (l.headD 0, l.tail)

/-- A property that may be missing (src/avb/core.py:223). -/
def popOpt : Option Ref → Take (Option Ref)
  | none => return none
  | some _ => do
    let r ← popRef
    return some r

/-- The items of a list (src/avb/core.py:76-77). -/
def popList : List Ref → Take (List Ref)
  | [] => return []
  | _ :: xs => do
    let r ← popRef
    let rs ← popList xs
    return r :: rs

/-- The helper objects in a list, the entries of a dictionary (src/avb/core.py:232-236,
src/avb/attributes.py:55-65). -/
def relinkAll {α : Type} (f : α → Take α) : List α → Take (List α)
  | [] => return []
  | x :: xs => do
    let y ← f x
    let ys ← relinkAll f xs
    return y :: ys

/-- Of `Component` (src/avb/core.py:221-242). -/
def Component.relink (x : Component) : Take Component := do
  let left_bob ← popRef
  let right_bob ← popRef
  let attributes ← popRef
  let session_attrs ← popRef
  let precomputed ← popRef
  let param_list ← popOpt x.param_list
  return { x with
    left_bob := left_bob, right_bob := right_bob, attributes := attributes,
    session_attrs := session_attrs, precomputed := precomputed, param_list := param_list }

/-- Of `Clip` (src/avb/core.py:221-242). -/
def Clip.relink (x : Clip) : Take Clip := do
  let base ← x.toComponent.relink
  return { x with toComponent := base }

/-- Of `Sequence` (src/avb/core.py:221-242). -/
def Sequence.relink (x : Sequence) : Take Sequence := do
  let base ← x.toComponent.relink
  let components ← popList x.components
  return { x with toComponent := base, components := components }

/-- Of `SourceClip` (src/avb/core.py:221-242). -/
def SourceClip.relink (x : SourceClip) : Take SourceClip := do
  let base ← x.toClip.relink
  return { x with toClip := base }

/-- Of `Timecode` (src/avb/core.py:221-242). -/
def Timecode.relink (x : Timecode) : Take Timecode := do
  let base ← x.toClip.relink
  return { x with toClip := base }

/-- Of `Edgecode` (src/avb/core.py:221-242). -/
def Edgecode.relink (x : Edgecode) : Take Edgecode := do
  let base ← x.toClip.relink
  return { x with toClip := base }

/-- Of `TrackRef` (src/avb/core.py:221-242). -/
def TrackRef.relink (x : TrackRef) : Take TrackRef := do
  let base ← x.toClip.relink
  return { x with toClip := base }

/-- Of `ControlClip` (src/avb/core.py:221-242). -/
def ControlClip.relink (x : ControlClip) : Take ControlClip := do
  let base ← x.toClip.relink
  return { x with toClip := base }

/-- Of `Filler` (src/avb/core.py:221-242). -/
def Filler.relink (x : Filler) : Take Filler := do
  let base ← x.toClip.relink
  return { x with toClip := base }

/-- A value that may be a reference (src/avb/core.py:224-225). -/
def PVal.relink : PVal → Take PVal
  | .int v => return .int v
  | .dbl v => return .dbl v
  | .ref _ => do
    let r ← popRef
    return .ref r

/-- Of `PCP` (src/avb/core.py:221-242). -/
def PCP.relink (x : PCP) : Take PCP := do
  let value ← x.value.relink
  return { x with value := value }

/-- Of `ParamClip` (src/avb/core.py:221-242). -/
def ParamClip.relink (x : ParamClip) : Take ParamClip := do
  let base ← x.toClip.relink
  let control_points ← relinkAll PCP.relink x.control_points
  return { x with toClip := base, control_points := control_points }

/-- Of `Track` (src/avb/core.py:221-242). -/
def Track.relink (x : Track) : Take Track := do
  let attributes ← popOpt x.attributes
  let session_attr ← popOpt x.session_attr
  let component ← popOpt x.component
  let filler_proxy ← popOpt x.filler_proxy
  let bob_data ← popOpt x.bob_data
  return { x with
    attributes := attributes, session_attr := session_attr, component := component,
    filler_proxy := filler_proxy, bob_data := bob_data }

/-- Of `TrackGroup` (src/avb/core.py:221-242). -/
def TrackGroup.relink (x : TrackGroup) : Take TrackGroup := do
  let base ← x.toComponent.relink
  let tracks ← relinkAll Track.relink x.tracks
  return { x with toComponent := base, tracks := tracks }

/-- Of `TrackEffect` (src/avb/core.py:221-242). -/
def TrackEffect.relink (x : TrackEffect) : Take TrackEffect := do
  let base ← x.toTrackGroup.relink
  let keyframes ← popRef
  let trackman ← popOpt x.trackman
  return { x with toTrackGroup := base, keyframes := keyframes, trackman := trackman }

/-- Of `PanVolumeEffect` (src/avb/core.py:221-242). -/
def PanVolumeEffect.relink (x : PanVolumeEffect) : Take PanVolumeEffect := do
  let base ← x.toTrackEffect.relink
  return { x with toTrackEffect := base }

/-- Of `AudioSuitePluginEffect` (src/avb/core.py:221-242). -/
def AudioSuitePluginEffect.relink (x : AudioSuitePluginEffect) : Take AudioSuitePluginEffect := do
  let base ← x.toTrackEffect.relink
  return { x with toTrackEffect := base }

/-- Of `EqualizerMultiBand` (src/avb/core.py:221-242). -/
def EqualizerMultiBand.relink (x : EqualizerMultiBand) : Take EqualizerMultiBand := do
  let base ← x.toTrackEffect.relink
  return { x with toTrackEffect := base }

/-- Of `TimeWarp` (src/avb/core.py:221-242). -/
def TimeWarp.relink (x : TimeWarp) : Take TimeWarp := do
  let base ← x.toTrackGroup.relink
  return { x with toTrackGroup := base }

/-- Of `CaptureMask` (src/avb/core.py:221-242). -/
def CaptureMask.relink (x : CaptureMask) : Take CaptureMask := do
  let base ← x.toTimeWarp.relink
  return { x with toTimeWarp := base }

/-- Of `StrobeEffect` (src/avb/core.py:221-242). -/
def StrobeEffect.relink (x : StrobeEffect) : Take StrobeEffect := do
  let base ← x.toTimeWarp.relink
  return { x with toTimeWarp := base }

/-- Of `Repeat` (src/avb/core.py:221-242). -/
def Repeat.relink (x : Repeat) : Take Repeat := do
  let base ← x.toTimeWarp.relink
  return { x with toTimeWarp := base }

/-- Of `MotionEffect` (src/avb/core.py:221-242). -/
def MotionEffect.relink (x : MotionEffect) : Take MotionEffect := do
  let base ← x.toTimeWarp.relink
  let source_param_list ← popOpt x.source_param_list
  return { x with toTimeWarp := base, source_param_list := source_param_list }

/-- Of `EssenceGroup` (src/avb/core.py:221-242). -/
def EssenceGroup.relink (x : EssenceGroup) : Take EssenceGroup := do
  let base ← x.toTrackGroup.relink
  return { x with toTrackGroup := base }

/-- Of `Selector` (src/avb/core.py:221-242). -/
def Selector.relink (x : Selector) : Take Selector := do
  let base ← x.toTrackGroup.relink
  return { x with toTrackGroup := base }

/-- Of `TransitionEffect` (src/avb/core.py:221-242). -/
def TransitionEffect.relink (x : TransitionEffect) : Take TransitionEffect := do
  let base ← x.toTrackGroup.relink
  let keyframes ← popRef
  let trackman ← popOpt x.trackman
  return { x with toTrackGroup := base, keyframes := keyframes, trackman := trackman }

/-- Of `Composition` (src/avb/core.py:221-242). -/
def Composition.relink (x : Composition) : Take Composition := do
  let base ← x.toTrackGroup.relink
  let descriptor ← popRef
  return { x with toTrackGroup := base, descriptor := descriptor }

/-- Of `ParameterItem` (src/avb/core.py:221-242). -/
def ParameterItem.relink (x : ParameterItem) : Take ParameterItem := do
  let value ← x.value.relink
  let control_track ← popRef
  return { x with value := value, control_track := control_track }

/-- Of `Marker` (src/avb/core.py:221-242). -/
def Marker.relink (x : Marker) : Take Marker := do
  let attributes ← popRef
  return { x with attributes := attributes }

/-- Of `TrackerManager` (src/avb/core.py:221-242). -/
def TrackerManager.relink (x : TrackerManager) : Take TrackerManager := do
  let data_slots ← popRef
  let param_slots ← popRef
  return { x with data_slots := data_slots, param_slots := param_slots }

/-- Of `TrackerDataSlot` (src/avb/core.py:221-242). -/
def TrackerDataSlot.relink (x : TrackerDataSlot) : Take TrackerDataSlot := do
  let tracker_data ← popList x.tracker_data
  return { x with tracker_data := tracker_data }

/-- Of `TrackerParameterSlot` (src/avb/core.py:221-242). -/
def TrackerParameterSlot.relink (x : TrackerParameterSlot) : Take TrackerParameterSlot := do
  let params ← popList x.params
  return { x with params := params }

/-- Of `TrackerData` (src/avb/core.py:221-242). -/
def TrackerData.relink (x : TrackerData) : Take TrackerData := do
  let clips ← popList x.clips
  let clip5 ← popOpt x.clip5
  let clip6 ← popOpt x.clip6
  return { x with clips := clips, clip5 := clip5, clip6 := clip6 }

/-- Of `MediaDescriptor` (src/avb/core.py:221-242). -/
def MediaDescriptor.relink (x : MediaDescriptor) : Take MediaDescriptor := do
  let locator ← popRef
  let physical_media ← popRef
  let attributes ← popOpt x.attributes
  return { x with locator := locator, physical_media := physical_media, attributes := attributes }

/-- Of `TapeDescriptor` (src/avb/core.py:221-242). -/
def TapeDescriptor.relink (x : TapeDescriptor) : Take TapeDescriptor := do
  let base ← x.toMediaDescriptor.relink
  return { x with toMediaDescriptor := base }

/-- Of `FilmDescriptor` (src/avb/core.py:221-242). -/
def FilmDescriptor.relink (x : FilmDescriptor) : Take FilmDescriptor := do
  let base ← x.toMediaDescriptor.relink
  return { x with toMediaDescriptor := base }

/-- Of `NagraDescriptor` (src/avb/core.py:221-242). -/
def NagraDescriptor.relink (x : NagraDescriptor) : Take NagraDescriptor := do
  let base ← x.toMediaDescriptor.relink
  return { x with toMediaDescriptor := base }

/-- Of `MediaFileDescriptor` (src/avb/core.py:221-242). -/
def MediaFileDescriptor.relink (x : MediaFileDescriptor) : Take MediaFileDescriptor := do
  let base ← x.toMediaDescriptor.relink
  return { x with toMediaDescriptor := base }

/-- Of `MultiDescriptor` (src/avb/core.py:221-242). -/
def MultiDescriptor.relink (x : MultiDescriptor) : Take MultiDescriptor := do
  let base ← x.toMediaFileDescriptor.relink
  let descriptors ← popList x.descriptors
  return { x with toMediaFileDescriptor := base, descriptors := descriptors }

/-- Of `WaveDescriptor` (src/avb/core.py:221-242). -/
def WaveDescriptor.relink (x : WaveDescriptor) : Take WaveDescriptor := do
  let base ← x.toMediaFileDescriptor.relink
  return { x with toMediaFileDescriptor := base }

/-- Of `AIFCDescriptor` (src/avb/core.py:221-242). -/
def AIFCDescriptor.relink (x : AIFCDescriptor) : Take AIFCDescriptor := do
  let base ← x.toMediaFileDescriptor.relink
  return { x with toMediaFileDescriptor := base }

/-- Of `DataDescriptor` (src/avb/core.py:221-242). -/
def DataDescriptor.relink (x : DataDescriptor) : Take DataDescriptor := do
  let base ← x.toMediaFileDescriptor.relink
  return { x with toMediaFileDescriptor := base }

/-- Of `PCMADescriptor` (src/avb/core.py:221-242). -/
def PCMADescriptor.relink (x : PCMADescriptor) : Take PCMADescriptor := do
  let base ← x.toMediaFileDescriptor.relink
  return { x with toMediaFileDescriptor := base }

/-- Of `MPGADescriptor` (src/avb/core.py:221-242). -/
def MPGADescriptor.relink (x : MPGADescriptor) : Take MPGADescriptor := do
  let base ← x.toMediaFileDescriptor.relink
  return { x with toMediaFileDescriptor := base }

/-- Of `ANCDataDescriptor` (src/avb/core.py:221-242). -/
def ANCDataDescriptor.relink (x : ANCDataDescriptor) : Take ANCDataDescriptor := do
  let base ← x.toDataDescriptor.relink
  return { x with toDataDescriptor := base }

/-- Of `DIDDescriptor` (src/avb/core.py:221-242). -/
def DIDDescriptor.relink (x : DIDDescriptor) : Take DIDDescriptor := do
  let base ← x.toMediaFileDescriptor.relink
  let next_did_desc ← popRef
  return { x with toMediaFileDescriptor := base, next_did_desc := next_did_desc }

/-- Of `CDCIDescriptor` (src/avb/core.py:221-242). -/
def CDCIDescriptor.relink (x : CDCIDescriptor) : Take CDCIDescriptor := do
  let base ← x.toDIDDescriptor.relink
  return { x with toDIDDescriptor := base }

/-- Of `RGBADescriptor` (src/avb/core.py:221-242). -/
def RGBADescriptor.relink (x : RGBADescriptor) : Take RGBADescriptor := do
  let base ← x.toDIDDescriptor.relink
  return { x with toDIDDescriptor := base }

/-- Of `MPGIDescriptor` (src/avb/core.py:221-242). -/
def MPGIDescriptor.relink (x : MPGIDescriptor) : Take MPGIDescriptor := do
  let base ← x.toCDCIDescriptor.relink
  return { x with toCDCIDescriptor := base }

/-- Of `JPEGDescriptor` (src/avb/core.py:221-242). -/
def JPEGDescriptor.relink (x : JPEGDescriptor) : Take JPEGDescriptor := do
  let base ← x.toCDCIDescriptor.relink
  return { x with toCDCIDescriptor := base }

/-- A value of an attribute set (src/avb/attributes.py:56-65). -/
def AttrVal.relink : AttrVal → Take AttrVal
  | .obj _ => do
    let r ← popRef
    return .obj r
  | v => return v

/-- An entry of an attribute set (src/avb/attributes.py:55-65). -/
def relinkEntry (p : Text × AttrVal) : Take (Text × AttrVal) := do
  let v ← p.2.relink
  return (p.1, v)

/-- Of `Attributes` (src/avb/core.py:221-242). -/
def Attributes.relink (x : Attributes) : Take Attributes := do
  let items ← relinkAll relinkEntry x.items
  return { x with items := items }

/-- Of `ParameterList` (src/avb/core.py:221-242). -/
def ParameterList.relink (x : ParameterList) : Take ParameterList := do
  let items ← popList x.items
  return { x with items := items }

/-- Of `TimeCrumbList` (src/avb/core.py:221-242). -/
def TimeCrumbList.relink (x : TimeCrumbList) : Take TimeCrumbList := do
  let items ← popList x.items
  return { x with items := items }

/-- Of `BinViewSetting` (src/avb/core.py:221-242). -/
def BinViewSetting.relink (x : BinViewSetting) : Take BinViewSetting := do
  let attributes ← popRef
  return { x with attributes := attributes }

/-- An item of a bin (src/avb/core.py:221-242, 232-236). -/
def BinItem.relink (x : BinItem) : Take BinItem := do
  let mob ← popRef
  return { x with mob := mob }

/-- Of `Bin` (src/avb/core.py:221-242). -/
def Bin.relink (x : Bin) : Take Bin := do
  let view_setting ← popRef
  let items ← relinkAll BinItem.relink x.items
  let attributes ← popRef
  return { x with view_setting := view_setting, items := items, attributes := attributes }

/-- Of `BinFirst` (src/avb/core.py:221-242). -/
def BinFirst.relink (x : BinFirst) : Take BinFirst := do
  let base ← x.toBin.relink
  return { x with toBin := base }

/-- Of any object (src/avb/core.py:221-242). -/
def Obj.relink : Obj → Take Obj
  | .ATTR x => Obj.ATTR <$> x.relink
  | .PRLS x => Obj.PRLS <$> x.relink
  | .TMCS x => Obj.TMCS <$> x.relink
  | .BVst x => Obj.BVst <$> x.relink
  | .ABIN x => Obj.ABIN <$> x.relink
  | .BINF x => Obj.BINF <$> x.relink
  | .SEQU x => Obj.SEQU <$> x.relink
  | .SCLP x => Obj.SCLP <$> x.relink
  | .TCCP x => Obj.TCCP <$> x.relink
  | .ECCP x => Obj.ECCP <$> x.relink
  | .TRKR x => Obj.TRKR <$> x.relink
  | .PRCL x => Obj.PRCL <$> x.relink
  | .CTRL x => Obj.CTRL <$> x.relink
  | .FILL x => Obj.FILL <$> x.relink
  | .TRKG x => Obj.TRKG <$> x.relink
  | .TKFX x => Obj.TKFX <$> x.relink
  | .PVOL x => Obj.PVOL <$> x.relink
  | .ASPI x => Obj.ASPI <$> x.relink
  | .EQMB x => Obj.EQMB <$> x.relink
  | .MASK x => Obj.MASK <$> x.relink
  | .STRB x => Obj.STRB <$> x.relink
  | .SPED x => Obj.SPED <$> x.relink
  | .REPT x => Obj.REPT <$> x.relink
  | .RSET x => Obj.RSET <$> x.relink
  | .TNFX x => Obj.TNFX <$> x.relink
  | .SLCT x => Obj.SLCT <$> x.relink
  | .CMPO x => Obj.CMPO <$> x.relink
  | .FILE x => pure (.FILE x)
  | .WINF x => pure (.WINF x)
  | .URLL x => pure (.URLL x)
  | .GRFX x => pure (.GRFX x)
  | .SHLP x => pure (.SHLP x)
  | .CCFX x => pure (.CCFX x)
  | .FXPS x => pure (.FXPS x)
  | .AVUP x => pure (.AVUP x)
  | .PRIT x => Obj.PRIT <$> x.relink
  | .MSML x => pure (.MSML x)
  | .APOS x => pure (.APOS x)
  | .ABOB x => pure (.ABOB x)
  | .DIDP x => pure (.DIDP x)
  | .MPGP x => pure (.MPGP x)
  | .MCBR x => pure (.MCBR x)
  | .MCMR x => pure (.MCMR x)
  | .TMBC x => Obj.TMBC <$> x.relink
  | .TKMN x => Obj.TKMN <$> x.relink
  | .TKDS x => Obj.TKDS <$> x.relink
  | .TKPS x => Obj.TKPS <$> x.relink
  | .TKDA x => Obj.TKDA <$> x.relink
  | .TKPA x => pure (.TKPA x)
  | .MDES x => Obj.MDES <$> x.relink
  | .MDTP x => Obj.MDTP <$> x.relink
  | .MDFM x => Obj.MDFM <$> x.relink
  | .MDNG x => Obj.MDNG <$> x.relink
  | .MDFL x => Obj.MDFL <$> x.relink
  | .MULD x => Obj.MULD <$> x.relink
  | .WAVE x => Obj.WAVE <$> x.relink
  | .AIFC x => Obj.AIFC <$> x.relink
  | .PCMA x => Obj.PCMA <$> x.relink
  | .MPGA x => Obj.MPGA <$> x.relink
  | .DIDD x => Obj.DIDD <$> x.relink
  | .CDCI x => Obj.CDCI <$> x.relink
  | .MPGI x => Obj.MPGI <$> x.relink
  | .JPED x => Obj.JPED <$> x.relink
  | .RGBA x => Obj.RGBA <$> x.relink
  | .DATD x => Obj.DATD <$> x.relink
  | .ANCD x => Obj.ANCD <$> x.relink

/-- The object with references replaced, in the order in which its reader sets them (src/avb/core.py:221-242;
the order of a Python object is that in which its properties were set, which changes the numbers of the new
objects only). -/
def Obj.withRefs (o : Obj) (rs : List Ref) : Obj := (o.relink rs).1

namespace Cross

open Work

/-- What constructors take from outside: the time (src/avb/trackgroups.py:1054-1056), and the mob id made for
the object with an id (src/avb/mobid.py:192-196). -/
structure Env where
  now : Int
  mobId : Nat → MobID

/-- The object with the properties that it lacks and that the constructor of its class has set: the copy is made
by the constructor, and only properties that the original has are replaced (src/avb/core.py:222-242).  They are
set in src/avb/components.py:268-270, src/avb/trackgroups.py:1053-1056, src/avb/bin.py:88.  All other
properties set by constructors are such that objects have them in any case. -/
def fill (v : Env) (i : Nat) : Obj → Obj
  | .SCLP x => .SCLP { x with mob_id := some (x.mob_id.getD MobID.zero) }
  | .CMPO x => .CMPO { x with
      mob_id := some (x.mob_id.getD (v.mobId i)), creation_time := some (x.creation_time.getD v.now) }
  | .BVst x => .BVst { x with format_descriptors := some (x.format_descriptors.getD []) }
  | o => o

/-- The further objects that the constructor makes (src/avb/components.py:34, src/avb/bin.py:87, 224, 234), the
first with number `i`; the copy refers to none of them, as it has the properties of the original. -/
def extras (i : Nat) : Cls → List Obj
  | .SEQU | .SCLP | .TCCP | .ECCP | .TRKR | .PRCL | .CTRL | .FILL | .TRKG | .TKFX | .PVOL | .ASPI | .EQMB
  | .MASK | .STRB | .SPED | .REPT | .RSET | .TNFX | .SLCT | .CMPO | .BVst => [.ATTR ⟨[]⟩]
  | .ABIN | .BINF => [.BVst (newView (i + 1)), .ATTR ⟨[]⟩, .ATTR ⟨[]⟩]
  | _ => []

/-- The exception that the content raises: the constructor of `ASPIPlugin` needs an argument
(src/avb/trackgroups.py:417), and `bytes` in attributes are refused (src/avb/attributes.py:62-63). -/
def refused : Obj → Option Err
  | .ASPI x => if x.plugins = [] then none else some .type
  | .ATTR x => if x.items.any (fun p => match p.2 with
      | .raw _ => true
      | _ => false) then some .value else none
  | _ => none

/-- A null reference at this place has no method `copy`: in lists (src/avb/core.py:77) and among attributes
(src/avb/attributes.py:65). -/
def strict : Obj → Visit → Bool
  | .ATTR _, _ => true
  | .PRLS _, _ => true
  | .TMCS _, _ => true
  | _, .item _ => true
  | _, .prop _ => false

/-- The result of copying: the references, `next_object_id` of the receiving file, and what happened there
(src/avb/core.py:221-242, src/avb/file.py:67-85). -/
abbrev Res (α : Type) := Except Err (α × Nat × List Event)

/-- The objects that one refers to, one after the other (src/avb/core.py:223-240, 76-77,
src/avb/attributes.py:55-65). -/
def copyAll (rec : Ref → Nat → Res Ref) (strict : Visit → Bool) : List Visit → Nat → Res (List Ref)
  | [], n => .ok ([], n, [])
  | v :: vs, n =>
    if v.ref = 0 then
      if strict v then .error .attribute
      else match copyAll rec strict vs n with
        | .error e => .error e
        | .ok (rs, n', es) => .ok (0 :: rs, n', es)
    else match rec v.ref n with
      | .error e => .error e
      | .ok (r, n1, es1) => match copyAll rec strict vs n1 with
        | .error e => .error e
        | .ok (rs, n2, es2) => .ok (r :: rs, n2, es1 ++ es2)

/-- Objects made by a constructor, numbered from `i` on (src/avb/file.py:74-81). -/
def news : Nat → List Obj → List Event
  | _, [] => []
  | i, o :: os => .new i o :: news (i + 1) os

/-- `obj.copy(root)` for the object with a number in the file it comes from (src/avb/core.py:221-242, 74-78,
src/avb/attributes.py:53-66), with at most this depth of calls.  `n` is `root.next_object_id`.  The new object
is shown without references until all its properties are set.  If more than one exception could be raised, which
one is not exact. -/
def copyObj (v : Env) (src : Ref → Except Err Obj) : Nat → Ref → Nat → Res Ref
  | 0, _, _ => .error .recursion
  | k + 1, r, n =>
    match src r with
    | .error e => .error e
    | .ok o =>
      match refused o with
      | some e => .error e
      | none =>
        let made := extras (n + 2) o.cls
        match copyAll (copyObj v src k) (strict o) o.visits (n + 1 + made.length) with
        | .error e => .error e
        | .ok (rs, n', es) =>
          let o' := fill v (n + 1) o
          .ok (n + 1, n', .new (n + 1) (o'.renumber fun _ => 0) :: news (n + 2) made ++ es ++
            [.edit (n + 1) (o'.withRefs rs)])

end Cross

end Avb
