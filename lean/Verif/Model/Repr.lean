import Verif.Model.Names
import Verif.Model.File

/-!
Printing: `AVBObject.__repr__` (src/avb/core.py:248-286), `AVBObjectRef.__repr__`
(src/avb/utils.py:43-49), and what Python prints for `Attributes` (an `OrderedDict`) and for the reference
lists with a class id (a `list`).

Objects are as read from a file, by the Python readers, and not edited.  Printing of the helper objects
without a class id (tracks, control points, …) is not modelled.
-/

namespace Avb.Print

/-- Formatting by Python that is not modelled: addresses of objects and of references in hexadecimal
(`id`), floats, `repr` of texts, byte strings and byte arrays, and a dictionary with a class name around
its printed entries. -/
structure Fmt where
  addr : Nat → Text
  refAddr : Nat → Text
  float : F64 → Text
  text : Text → Text
  bytes : Bytes → Text
  bytearray : Bytes → Text
  dict : List (Text × Text) → Text

/-- `"%s.%s" % (self.__class__.__module__, self.__class__.__name__)` (src/avb/core.py:249-250) for the
class registered for each class id (src/avb/attributes.py, bin.py, components.py, essence.py, misc.py,
trackgroups.py: the lines after `register_class`). -/
def className : Cls → Text
  | .ATTR => "avb.attributes.Attributes".toList
  | .PRLS => "avb.attributes.ParameterList".toList
  | .TMCS => "avb.attributes.TimeCrumbList".toList
  | .BVst => "avb.bin.BinViewSetting".toList
  | .ABIN => "avb.bin.Bin".toList
  | .BINF => "avb.bin.BinFirst".toList
  | .SEQU => "avb.components.Sequence".toList
  | .SCLP => "avb.components.SourceClip".toList
  | .TCCP => "avb.components.Timecode".toList
  | .ECCP => "avb.components.Edgecode".toList
  | .TRKR => "avb.components.TrackRef".toList
  | .PRCL => "avb.components.ParamClip".toList
  | .CTRL => "avb.components.ControlClip".toList
  | .FILL => "avb.components.Filler".toList
  | .TRKG => "avb.trackgroups.TrackGroup".toList
  | .TKFX => "avb.trackgroups.TrackEffect".toList
  | .PVOL => "avb.trackgroups.PanVolumeEffect".toList
  | .ASPI => "avb.trackgroups.AudioSuitePluginEffect".toList
  | .EQMB => "avb.trackgroups.EqualizerMultiBand".toList
  | .MASK => "avb.trackgroups.CaptureMask".toList
  | .STRB => "avb.trackgroups.StrobeEffect".toList
  | .SPED => "avb.trackgroups.MotionEffect".toList
  | .REPT => "avb.trackgroups.Repeat".toList
  | .RSET => "avb.trackgroups.EssenceGroup".toList
  | .TNFX => "avb.trackgroups.TransitionEffect".toList
  | .SLCT => "avb.trackgroups.Selector".toList
  | .CMPO => "avb.trackgroups.Composition".toList
  | .FILE => "avb.misc.MacFileLocator".toList
  | .WINF => "avb.misc.WinFileLocator".toList
  | .URLL => "avb.misc.URLLocator".toList
  | .GRFX => "avb.misc.GraphicEffect".toList
  | .SHLP => "avb.misc.ShapeList".toList
  | .CCFX => "avb.misc.ColorCorrectionEffect".toList
  | .FXPS => "avb.misc.EffectParamList".toList
  | .AVUP => "avb.misc.CFUserParam".toList
  | .PRIT => "avb.misc.ParameterItem".toList
  | .MSML => "avb.misc.MSMLocator".toList
  | .APOS => "avb.misc.Position".toList
  | .ABOB => "avb.misc.BOBPosition".toList
  | .DIDP => "avb.misc.DIDPosition".toList
  | .MPGP => "avb.misc.MPGPosition".toList
  | .MCBR => "avb.misc.BinRef".toList
  | .MCMR => "avb.misc.MobRef".toList
  | .TMBC => "avb.misc.Marker".toList
  | .TKMN => "avb.misc.TrackerManager".toList
  | .TKDS => "avb.misc.TrackerDataSlot".toList
  | .TKPS => "avb.misc.TrackerParameterSlot".toList
  | .TKDA => "avb.misc.TrackerData".toList
  | .TKPA => "avb.misc.TrackerParameter".toList
  | .MDES => "avb.essence.MediaDescriptor".toList
  | .MDTP => "avb.essence.TapeDescriptor".toList
  | .MDFM => "avb.essence.FilmDescriptor".toList
  | .MDNG => "avb.essence.NagraDescriptor".toList
  | .MDFL => "avb.essence.MediaFileDescriptor".toList
  | .MULD => "avb.essence.MultiDescriptor".toList
  | .WAVE => "avb.essence.WaveDescriptor".toList
  | .AIFC => "avb.essence.AIFCDescriptor".toList
  | .PCMA => "avb.essence.PCMADescriptor".toList
  | .MPGA => "avb.essence.MPGADescriptor".toList
  | .DIDD => "avb.essence.DIDDescriptor".toList
  | .CDCI => "avb.essence.CDCIDescriptor".toList
  | .MPGI => "avb.essence.MPGIDescriptor".toList
  | .JPED => "avb.essence.JPEGDescriptor".toList
  | .RGBA => "avb.essence.RGBADescriptor".toList
  | .DATD => "avb.essence.DataDescriptor".toList
  | .ANCD => "avb.essence.ANCDataDescriptor".toList

/-- The properties `__repr__` looks at (src/avb/core.py:255-284).  `none` when the object has no such
property; a name or effect id that is `None` is `none` as well, it is treated the same. -/
structure Shown where
  name : Option Text := none
  mob_type : Option (Except Err Text) := none
  effect_id : Option Text := none
  media_kind : Option Text := none
  length : Option Int := none
  track_id : Option Int := none
  start_time : Option Int := none
  mob_id : Option MobID := none
  uuid : Option UUID := none
  value : Option PVal := none

/-- The properties common to all components (src/avb/components.py:17-28, 95-116). -/
def _root_.Avb.Component.shown (x : Component) : Shown :=
  { name := x.name, effect_id := x.effect_id, media_kind := mediaKind x.media_kind_id }

/-- The properties of each class with one of the names above (the `propertydefs` of the classes; for an
object read from a file those that `read` has set).  `media_kind` is `None` for classes that are not
components (src/avb/core.py:244-246). -/
def shown : Obj → Shown
  | .BVst x => { name := some x.name }
  | .SEQU x => x.toComponent.shown
  | .SCLP x => { x.toComponent.shown with
      length := some x.length, track_id := some x.track_id, start_time := some x.start_time, mob_id := x.mob_id }
  | .TCCP x => { x.toComponent.shown with length := some x.length }
  | .ECCP x => { x.toComponent.shown with length := some x.length }
  | .TRKR x => { x.toComponent.shown with length := some x.length }
  | .PRCL x => { x.toComponent.shown with length := some x.length }
  | .CTRL x => { x.toComponent.shown with length := some x.length }
  | .FILL x => { x.toComponent.shown with length := some x.length }
  | .TRKG x => { x.toComponent.shown with length := some x.length }
  | .TKFX x => { x.toComponent.shown with length := some x.length }
  | .PVOL x => { x.toComponent.shown with length := some x.length }
  | .ASPI x => { x.toComponent.shown with length := some x.length, mob_id := x.mob_id }
  | .EQMB x => { x.toComponent.shown with length := some x.length }
  | .MASK x => { x.toComponent.shown with length := some x.length }
  | .STRB x => { x.toComponent.shown with length := some x.length }
  | .SPED x => { x.toComponent.shown with length := some x.length }
  | .REPT x => { x.toComponent.shown with length := some x.length }
  | .RSET x => { x.toComponent.shown with length := some x.length }
  | .TNFX x => { x.toComponent.shown with length := some x.length }
  | .SLCT x => { x.toComponent.shown with length := some x.length }
  | .CMPO x => { x.toComponent.shown with
      length := some x.length, mob_id := x.mob_id, mob_type := some x.mobType }
  | .AVUP x => { uuid := some x.uuid }
  | .PRIT x => { uuid := some x.uuid, name := some x.name, value := some x.value }
  | .MSML x => { mob_id := x.mob_id }
  | .APOS x => { mob_id := x.mob_id }
  | .ABOB x => { mob_id := x.mob_id, length := some x.length }
  | .DIDP x => { mob_id := x.mob_id, length := some x.length }
  | .MPGP x => { mob_id := x.mob_id, length := some x.length }
  | .MCBR x => { name := some x.name }
  | .MCMR x => { mob_id := x.mob_id }
  | .TMBC x => { mob_id := x.mob_id }
  | .MDES x => { uuid := x.uuid }
  | .MDTP x => { uuid := x.uuid }
  | .MDFM x => { uuid := x.uuid }
  | .MDNG x => { uuid := x.uuid }
  | .MDFL x => { uuid := x.uuid, length := some x.length }
  | .MULD x => { uuid := x.uuid, length := some x.length }
  | .WAVE x => { uuid := x.uuid, length := some x.length }
  | .AIFC x => { uuid := x.uuid, length := some x.length }
  | .PCMA x => { uuid := x.uuid, length := some x.length }
  | .MPGA x => { uuid := x.uuid, length := some x.length }
  | .DIDD x => { uuid := x.uuid, length := some x.length }
  | .CDCI x => { uuid := x.uuid, length := some x.length }
  | .MPGI x => { uuid := x.uuid, length := some x.length }
  | .JPED x => { uuid := x.uuid, length := some x.length }
  | .RGBA x => { uuid := x.uuid, length := some x.length }
  | .DATD x => { uuid := x.uuid, length := some x.length }
  | .ANCD x => { uuid := x.uuid, length := some x.length }
  | _ => {}

/-- `s += " " + x` when the text is there and not empty (src/avb/core.py:255-266). -/
def word : Option Text → Text
  | none => []
  | some [] => []
  | some t => ' ' :: t

/-- `s += label + str(n)` when the property is there (src/avb/core.py:268-275). -/
def number (label : Text) : Option Int → Text
  | none => []
  | some n => label ++ decText n

/-- `str(u)` of a UUID: 8, 4, 4, 4 and 12 hexadecimal digits (src/avb/core.py:281). -/
def uuidText (u : UUID) : Text :=
  let h := fun a n => ((u.bytes.drop a).take n).flatMap fun b => fmtHex 2 b.toNat
  h 0 4 ++ ['-'] ++ h 4 2 ++ ['-'] ++ h 6 2 ++ ['-'] ++ h 8 2 ++ ['-'] ++ h 10 6

/-- `str(self.value)` (src/avb/core.py:283-284); `rec` looks up and prints an object. -/
def valueText (fmt : Fmt) (rec : Ref → Except Err Text) : PVal → Except Err Text
  | .int n => .ok (decText n)
  | .dbl d => .ok (fmt.float d)
  | .ref r => rec r

/-- `AVBObject.__repr__` (src/avb/core.py:248-286) of the object with number `r`; `mob_type` is looked at
for compositions only (src/avb/core.py:258-259) and may raise. -/
def objText (fmt : Fmt) (rec : Ref → Except Err Text) (r : Ref) (o : Obj) : Except Err Text := do
  let p := shown o
  let s := "b'".toList ++ o.cls.id.map macDecodeByte ++ "' ".toList ++ className o.cls
  let s := s ++ word p.name
  let s ← match p.mob_type with
    | none => pure s
    | some t => do
      let t ← t
      pure (s ++ word (some t))
  let s := s ++ word p.effect_id
  let s := s ++ word p.media_kind
  let s := s ++ number " len: ".toList p.length
  let s := s ++ number " track_id: ".toList p.track_id
  let s := s ++ number " start_time: ".toList p.start_time
  let s := s ++ word (p.mob_id.map MobID.urn)
  let s := s ++ word (p.uuid.map uuidText)
  let s ← match p.value with
    | none => pure s
    | some v => do
      let t ← valueText fmt rec v
      pure (s ++ [' '] ++ t)
  return ['<'] ++ s ++ " at 0x".toList ++ fmt.addr r ++ ['>']

/-- The value of an attribute looked up (src/avb/core.py:46-48): a reference is loaded. -/
def loadValue (get : Ref → Except Err (Option Obj)) : AttrVal → Except Err Unit
  | .obj r => (get r).map fun _ => ()
  | _ => .ok ()

/-- `repr` of the value of an attribute. -/
def attrText (fmt : Fmt) (rec : Ref → Except Err Text) : AttrVal → Except Err Text
  | .int n => .ok (decText n)
  | .str t => .ok (fmt.text t)
  | .obj r => rec r
  | .bob b => .ok (fmt.bytearray b)
  | .raw b => .ok (fmt.bytes b)

/-- `", ".join(…)`. -/
def commas : List Text → Text
  | [] => []
  | [t] => t
  | t :: ts => t ++ ", ".toList ++ commas ts

/-- `repr` of the list part of a `ParameterList` or `TimeCrumbList`: the references as they are stored. -/
def listText (refText : Ref → Except Err Text) (items : List Ref) : Except Err Text := do
  let ts ← items.mapM refText
  return ['['] ++ commas ts ++ [']']

/-- `str(x)` for the object with number `r`, or `None` for 0, where `get` looks objects up.  The first
argument is the number of nested calls the interpreter still allows; `busy` are the dictionaries being
printed, which Python prints as three dots when it meets them again.  For `Attributes` CPython makes the
list of all entries (`items`, src/avb/core.py:46-48), which looks up every reference, and then prints
them. -/
def print (fmt : Fmt) (get : Ref → Except Err (Option Obj)) (refText : Ref → Except Err Text) :
    Nat → List Ref → Ref → Except Err Text
  | 0, _, _ => .error .recursion
  | n + 1, busy, r =>
    match get r with
    | .error e => .error e
    | .ok none => .ok "None".toList
    | .ok (some (.ATTR a)) =>
      if a.items = [] then .ok (fmt.dict [])
      else if r ∈ busy then .ok "...".toList
      else do
        let _ ← a.items.mapM fun p => loadValue get p.2
        let ts ← a.items.mapM fun p => do
          let t ← attrText fmt (print fmt get refText n (r :: busy)) p.2
          pure (fmt.text p.1, t)
        return fmt.dict ts
    | .ok (some (.PRLS x)) => listText refText x.items
    | .ok (some (.TMCS x)) => listText refText x.items
    | .ok (some o) => objText fmt (print fmt get refText n busy) r o

/-- `AVBObjectRef.__repr__` (src/avb/utils.py:43-49): the header of the chunk is read. -/
def refText (fmt : Fmt) (f : AvbFile) (r : Ref) : Except Err Text :=
  let s := "avb.utils.AVBObjectRef".toList
  if r ≠ 0 ∧ r < f.positions.length then do
    let c ← readChunk f r
    return ['<'] ++ s ++ [' '] ++ fmt.bytes c.class_id ++ " idx: ".toList ++ decText r ++ " pos: ".toList ++
      decText c.pos ++ " at 0x".toList ++ fmt.refAddr r ++ ['>']
  else return ['<'] ++ s ++ " at 0x".toList ++ fmt.refAddr r ++ ['>']

/-- `str(f.read_object(r))` in an opened file. -/
def printFile (fmt : Fmt) (f : AvbFile) (n : Nat) (r : Ref) : Except Err Text :=
  print fmt (readObject f) (refText fmt f) n [] r

end Avb.Print
