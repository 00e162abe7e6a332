import Verif.Model.IOCtx

/-! `AVBFactory`: making objects by the name of their class. -/

namespace Avb.Factory

/-- The classes registered with a class id, by name (src/avb/utils.py:101-109, the class decorators in
src/avb/attributes.py, bin.py, components.py, essence.py, misc.py and trackgroups.py). -/
def classNames : List Text := [
  "Attributes".toList, "ParameterList".toList, "TimeCrumbList".toList, "BinViewSetting".toList,
  "Bin".toList, "BinFirst".toList, "Sequence".toList, "SourceClip".toList, "Timecode".toList,
  "Edgecode".toList, "TrackRef".toList, "ParamClip".toList, "ControlClip".toList, "Filler".toList,
  "MediaDescriptor".toList, "TapeDescriptor".toList, "FilmDescriptor".toList, "NagraDescriptor".toList,
  "MediaFileDescriptor".toList, "MultiDescriptor".toList, "WaveDescriptor".toList,
  "AIFCDescriptor".toList, "PCMADescriptor".toList, "MPGADescriptor".toList, "DIDDescriptor".toList,
  "CDCIDescriptor".toList, "MPGIDescriptor".toList, "JPEGDescriptor".toList, "RGBADescriptor".toList,
  "DataDescriptor".toList, "ANCDataDescriptor".toList, "MacFileLocator".toList, "WinFileLocator".toList,
  "URLLocator".toList, "GraphicEffect".toList, "ShapeList".toList, "ColorCorrectionEffect".toList,
  "EffectParamList".toList, "CFUserParam".toList, "ParameterItem".toList, "MSMLocator".toList,
  "Position".toList, "BOBPosition".toList, "DIDPosition".toList, "MPGPosition".toList, "BinRef".toList,
  "MobRef".toList, "Marker".toList, "TrackerManager".toList, "TrackerDataSlot".toList,
  "TrackerParameterSlot".toList, "TrackerData".toList, "TrackerParameter".toList, "TrackGroup".toList,
  "TrackEffect".toList, "PanVolumeEffect".toList, "AudioSuitePluginEffect".toList,
  "EqualizerMultiBand".toList, "CaptureMask".toList, "StrobeEffect".toList, "MotionEffect".toList,
  "Repeat".toList, "EssenceGroup".toList, "TransitionEffect".toList, "Selector".toList,
  "Composition".toList]

/-- The classes registered without a class id (src/avb/utils.py:111-115). -/
def helperNames : List Text := [
  "BinItem".toList, "SiftItem".toList, "ParamControlPoint".toList, "ParamControlPointProperty".toList,
  "ControlPoint".toList, "ControlPointProperty".toList, "AVBRefList".toList, "EffectParam".toList,
  "Track".toList, "ASPIPlugin".toList, "ASPIPluginChunk".toList, "EqualizerBand".toList]

/-- The classes derived from `Component` (src/avb/components.py:142-930, src/avb/trackgroups.py:89-1025). -/
def componentNames : List Text := [
  "Sequence".toList, "SourceClip".toList, "Timecode".toList, "Edgecode".toList, "TrackRef".toList,
  "ParamClip".toList, "ControlClip".toList, "Filler".toList, "TrackGroup".toList, "TrackEffect".toList,
  "PanVolumeEffect".toList, "AudioSuitePluginEffect".toList, "EqualizerMultiBand".toList,
  "CaptureMask".toList, "StrobeEffect".toList, "MotionEffect".toList, "Repeat".toList,
  "EssenceGroup".toList, "TransitionEffect".toList, "Selector".toList, "Composition".toList]

/-- The classes whose instances the constructor of a class makes, in the order in which they are entered;
each is made by `self.root.create.N()` (src/avb/bin.py:83-90, 221-235, src/avb/components.py:32-36; the other
constructors make none).  Constructors that raise are not modelled. -/
def inner (name : Text) : List Text :=
  if name = "Bin".toList ∨ name = "BinFirst".toList then
    ["BinViewSetting".toList, "Attributes".toList] ++ List.replicate 6 "SiftItem".toList ++ ["Attributes".toList]
  else if name = "BinViewSetting".toList then ["Attributes".toList]
  else if name ∈ componentNames then ["Attributes".toList]
  else []

/-- The factory's `class_name` (src/avb/file.py:59-61), the file's `next_object_id`, and the objects made:
class and `instance_id` (`none` for the helpers, which have none). -/
structure St where
  class_name : Option Text
  next : Nat
  made : List (Text × Option Nat)

/-- Entering a constructor in `from_name` (src/avb/file.py:73-81). -/
def enter (s : St) (name : Text) : St :=
  if name ∈ classNames then { s with next := s.next + 1, made := s.made ++ [(name, some (s.next + 1))] }
  else { s with made := s.made ++ [(name, none)] }

/-- Attribute access on the factory (src/avb/file.py:63-65): whatever the name, the same bound method.  The
names `root`, `class_name`, `from_name` and `create_instance`, which are found without it, are left out. -/
def getattr (s : St) (name : Text) : St := { s with class_name := some name }

/-- `from_name` (src/avb/file.py:67-85).  The value is the position in `made` of the new object. -/
def fromName (s : St) (name : Text) : Except Err Nat × St :=
  if name ∈ classNames ∨ name ∈ helperNames then
    (.ok s.made.length, (inner name).foldl (fun s n => enter (getattr s n) n) (enter s name))
  else (.error .value, s)

/-- `create_instance` (src/avb/file.py:87-88).  Before the first attribute access the name is `None`, and
`"..." + name` raises. -/
def createInstance (s : St) : Except Err Nat × St :=
  match s.class_name with
  | some name => fromName s name
  | none => (.error .type, s)

end Avb.Factory
