import Verif.Model.Obj

/-
The wire format of every class: a small grammar of byte strings, and for each class the byte
strings its `read` method is meant to accept.  The grammar is written down from the Python `read`
methods; it has no cursor, no exceptions and no order of evaluation.
-/

namespace Avb

/-- A format: which byte strings have it. -/
abbrev Fmt := Bytes → Prop

namespace Fmt

/-- No bytes. -/
def nil : Fmt := fun p => p = []

/-- No byte string has this format. -/
def never : Fmt := fun _ => False

/-- One format after the other. -/
def cat (A B : Fmt) : Fmt := fun p => ∃ q r, p = q ++ r ∧ A q ∧ B r

/-- Several formats, one after the other. -/
def seq : List Fmt → Fmt
  | [] => nil
  | A :: L => cat A (seq L)

/-- Exactly these bytes. -/
def lit (b : Bytes) : Fmt := fun p => p = b

/-- Exactly this byte (`read_assert_tag`, src/avb/ioctx.py:66-70). -/
def byte (b : UInt8) : Fmt := lit [b]

/-- Any `n` bytes. -/
def skip (n : Nat) : Fmt := fun p => p.length = n

/-- A number; any bytes of the right length are one (src/avb/ioctx.py:97-113, 328-466). -/
def int (t : IntTy) : Fmt := skip t.width

/-- A boolean: any byte (`read_bool`, src/avb/ioctx.py:115-117). -/
def bool : Fmt := skip 1

/-- A number whose value decides how it goes on. -/
def num (bo : BO) (t : IntTy) (F : Int → Fmt) : Fmt := fun p =>
  ∃ v q, t.lo ≤ v ∧ v ≤ t.hi ∧
    p = packNat bo t.width (v % (2 ^ (8 * t.width) : Int)).toNat ++ q ∧ F v q

/-- The format `F`, and `c` holds. -/
def only (c : Prop) (F : Fmt) : Fmt := fun p => c ∧ F p

/-- A number that must be `v`. -/
def const (bo : BO) (t : IntTy) (v : Int) : Fmt := num bo t fun x => only (x = v) nil

/-- A field present only if announced by `b`. -/
def opt (b : Bool) (F : Fmt) : Fmt := if b then F else nil

/-- `n` times the same format. -/
def rep : Nat → Fmt → Fmt
  | 0, _ => nil
  | n + 1, F => cat F (rep n F)

/-- `n` bytes, where `n` must not be negative. -/
def bytes (n : Int) : Fmt := only (0 ≤ n) (skip n.toNat)

/-- A size and that many bytes. -/
def blob (bo : BO) (t : IntTy) : Fmt := num bo t bytes

/-- A count and that many items; a negative count means none. -/
def many (bo : BO) (t : IntTy) (F : Fmt) : Fmt := num bo t fun n => rep n.toNat F

/-- A count, not negative, and that many items. -/
def counted (bo : BO) (t : IntTy) (F : Fmt) : Fmt :=
  num bo t fun n => only (0 ≤ n) (rep n.toNat F)

/-- `n` bytes of UTF-8. -/
def utf8 (n : Nat) : Fmt := fun p =>
  p.length = n ∧ ∃ t : Text, p = t.flatMap String.utf8EncodeChar

/-- The `n` bytes of a text: any bytes in Mac Roman; in UTF-8 the encoding of a text, with any
number of NUL bytes around it (`read_string`, src/avb/ioctx.py:158-160). -/
def chars (e : Enc) (n : Nat) : Fmt :=
  match e with
  | .macroman => skip n
  | .utf8 => fun p => p.length = n ∧ ∃ (a b : Nat) (t : Text),
      p = List.replicate a 0 ++ t.flatMap String.utf8EncodeChar ++ List.replicate b 0

/-- A text: a 16 bit size and the bytes; the size 65535 stands for no text
(`read_string`, src/avb/ioctx.py:153-160). -/
def text (bo : BO) (e : Enc) : Fmt :=
  num bo .u16 fun n => if n = 65535 then nil else chars e n.toNat

/-- A reference: the index of an entry of the object table
(`read_object_ref`, src/avb/ioctx.py:176-181). -/
def ref (d : RCtx) : Fmt := num d.bo .u32 fun i => only (i < d.nobj) nil

/-- An edit rate: mantissa and decimal exponent, the power of ten within the range of a double
(`read_exp10_encoded_float`, src/avb/ioctx.py:128-132). -/
def rate (bo : BO) : Fmt := seq [int .s32, num bo .s16 fun e => only (e ≤ 308) nil]

/-- A UUID in fields (`read_uuid`, src/avb/ioctx.py:195-214). -/
def uuid (bo : BO) : Fmt :=
  seq [byte 72, skip 4, byte 70, skip 2, byte 70, skip 2, byte 65, const bo .s32 8, skip 8]

/-- A mob id (`read_mob_id`, src/avb/ioctx.py:231-252). -/
def mobId (bo : BO) : Fmt :=
  seq [byte 65, const bo .s32 12, skip 12, byte 68, skip 1, byte 68, skip 1, byte 68, skip 1,
    byte 68, skip 1, uuid bo]

/-- A rectangle (`read_rect`, src/avb/ioctx.py:293-302). -/
def rect (bo : BO) : Fmt := seq [const bo .s16 1, int .s16, int .s16, int .s16, int .s16]

/-- A colour (`read_rgb_color`, src/avb/ioctx.py:311-318). -/
def rgb (bo : BO) : Fmt := seq [const bo .s16 1, int .u16, int .u16, int .u16]

/-- Optional fields (`iter_ext`, src/avb/ioctx.py:72-82): any number of them in any order, each
introduced by 1 and a tag that decides the format of the field. -/
inductive ext (alts : List (UInt8 × Fmt)) : Fmt
  | done : ext alts []
  | field {tag : UInt8} {F : Fmt} {p q : Bytes} (h : (tag, F) ∈ alts) (hp : F p)
      (hq : ext alts q) :
      ext alts (1 :: tag :: (p ++ q))

/-- The value of an attribute of the given type: an integer, a text, an object or raw bytes
(src/avb/attributes.py:80-90). -/
def attrValue (d : RCtx) (type : Int) : Fmt :=
  if type = 1 then int .s32
  else if type = 2 then text d.bo .macroman
  else if type = 3 then ref d
  else if type = 4 then blob d.bo .u32
  else never

/-- One attribute: type, name, value (src/avb/attributes.py:77-90). -/
def attrItem (d : RCtx) : Fmt :=
  num d.bo .u32 fun type => seq [text d.bo .macroman, attrValue d type]

/-- `Attributes` (src/avb/attributes.py:68-94). -/
def attributes (d : RCtx) : Fmt := seq [byte 2, byte 1, many d.bo .u32 (attrItem d)]

/-- `ParameterList` (src/avb/attributes.py:136-146). -/
def parameterList (d : RCtx) : Fmt := seq [byte 2, byte 1, many d.bo .s32 (ref d)]

/-- `TimeCrumbList` (src/avb/attributes.py:164-174). -/
def timeCrumbList (d : RCtx) : Fmt := seq [byte 2, byte 1, many d.bo .s16 (ref d)]

/-- `Setting` (src/avb/bin.py:25-36). -/
def setting (d : RCtx) : Fmt :=
  seq [byte 2, byte 6, text d.bo .macroman, text d.bo .macroman, int .s16, int .s16, ref d]

/-- One column format: column id, then a text of the announced number of bytes; the four bytes
before the text are not looked at (src/avb/bin.py:118-130). -/
def formatDescriptor (d : RCtx) : Fmt :=
  seq [byte 69, int .s16, byte 71, num d.bo .s32 fun size =>
    seq [byte 76, int .s32, only (0 ≤ size) (utf8 size.toNat)]]

/-- `BinViewSetting` (src/avb/bin.py:92-135). -/
def binViewSetting (d : RCtx) : Fmt :=
  seq [setting d, byte 2, byte 10,
    many d.bo .u16 (seq [text d.bo .macroman, int .s16, int .s16, bool]),
    ext [(1, seq [byte 69, counted d.bo .s16 (formatDescriptor d)])]]

/-- `Bin` (src/avb/bin.py:237-308). -/
def bin (d : RCtx) : Fmt :=
  seq [byte 2,
    num .little .u8 fun version => only (version = 14 ∨ version = 15) (seq [ref d, int .u64,
      many d.bo (if version = 14 then .u16 else .u32)
        (seq [ref d, int .s16, int .s16, int .s32, bool])]),
    int .s32, int .s16, bool, rep 6 (seq [int .s16, text d.bo .macroman, text d.bo .macroman]),
    many d.bo .s16 (seq [int .u8, text d.bo .macroman]), int .s16, int .s16, int .s16, rect d.bo,
    rgb d.bo, rgb d.bo, int .s16, ref d, bool]

/-- `BinFirst` (src/avb/bin.py:421-429). -/
def binFirst (d : RCtx) : Fmt := seq [bin d, byte 2, byte 1, int .s32]

/-- `Component` (src/avb/components.py:38-63). -/
def component (d : RCtx) : Fmt :=
  seq [byte 2, byte 3, ref d, ref d, int .s16, rate d.bo, text d.bo .macroman, text d.bo .macroman,
    ref d, ref d, ref d, ext [(1, seq [byte 72, ref d])]]

/-- `Sequence` (src/avb/components.py:154-167). -/
def sequence (d : RCtx) : Fmt := seq [component d, byte 2, byte 3, many d.bo .u32 (ref d)]

/-- `Clip` (src/avb/components.py:243-248). -/
def clip (d : RCtx) : Fmt := seq [component d, byte 2, byte 1, int .u32]

/-- `SourceClip` (src/avb/components.py:272-290). -/
def sourceClip (d : RCtx) : Fmt :=
  seq [clip d, byte 2, byte 3, int .u32, int .u32, int .s16, int .s32, ext [(1, seq [mobId d.bo])]]

/-- `Timecode` (src/avb/components.py:340-354). -/
def timecode (d : RCtx) : Fmt :=
  seq [clip d, byte 2, byte 1, int .u32, int .u16, skip 6, int .u32]

/-- `Edgecode` (src/avb/components.py:382-396). -/
def edgecode (d : RCtx) : Fmt :=
  seq [clip d, byte 2, byte 1, skip 8, int .u8, int .u8, int .u16, int .u32, int .s32]

/-- `TrackRef` (src/avb/components.py:425-434). -/
def trackRef (d : RCtx) : Fmt := seq [clip d, byte 2, byte 1, int .s16, int .s16]

/-- The value of a parameter: an integer, a double or an object
(src/avb/components.py:578-585, src/avb/misc.py:464-471). -/
def value (d : RCtx) (type : Int) : Fmt :=
  if type = 1 then int .s32 else if type = 2 then skip 8 else if type = 4 then ref d else never

/-- The value of a control point property: a double or an integer
(src/avb/components.py:595-600). -/
def pointValue (type : Int) : Fmt :=
  if type = 2 then skip 8 else if type = 1 then int .s32 else never

/-- A control point of a parameter curve (src/avb/components.py:570-603). -/
def paramPoint (d : RCtx) (type : Int) : Fmt :=
  seq [int .s32, int .s32, int .s32, value d type,
    counted d.bo .s16 (seq [int .s16, num d.bo .s16 pointValue])]

/-- `ParamClip` (src/avb/components.py:556-616). -/
def paramClip (d : RCtx) : Fmt :=
  seq [clip d, byte 2, byte 1, int .s32,
    num d.bo .s16 fun type => only (type = 1 ∨ type = 2 ∨ type = 4)
      (counted d.bo .s32 (paramPoint d type)),
    ext [(1, seq [byte 71, int .s32]),
      (2, seq [byte 71, int .s32])]]

/-- `ControlClip` (src/avb/components.py:861-901). -/
def controlClip (d : RCtx) : Fmt :=
  seq [clip d, byte 2, byte 3, int .s32,
    many d.bo .s32 (seq [int .s32, int .s32, int .s32, byte 1, int .s32, int .s32,
      counted d.bo .s16 (seq [int .s16, int .s32, int .s32])])]

/-- `Filler` (src/avb/components.py:935-941). -/
def filler (d : RCtx) : Fmt := seq [clip d, byte 2, byte 1]

/-- A track: flags, then the fields the flags announce; the six upper flags are unused
(src/avb/trackgroups.py:119-160). -/
def track (d : RCtx) : Fmt :=
  num d.bo .u16 fun flags =>
    seq [opt (flags.toNat.testBit 0) (int .s16),
      opt (flags.toNat.testBit 1) (ref d),
      opt (flags.toNat.testBit 9) (ref d),
      opt (flags.toNat.testBit 2) (ref d),
      opt (flags.toNat.testBit 3) (ref d),
      opt (flags.toNat.testBit 4) (ref d),
      opt (flags.toNat.testBit 5) (int .s16),
      opt (flags.toNat.testBit 6) (int .s16),
      opt (flags.toNat.testBit 7) (int .s32),
      opt (flags.toNat.testBit 8) bool,
      only (flags < 1024) nil]

/-- A track group of any number `n` of tracks, followed by `F n`; the extension has a lock number
for each track (src/avb/trackgroups.py:104-172). -/
def trackGroup (d : RCtx) (F : Int → Fmt) : Fmt :=
  seq [component d, byte 2, byte 8, int .u8, int .s32, int .s32, num d.bo .s32 fun n =>
    seq [rep n.toNat (track d), ext [(1, rep n.toNat (seq [byte 69, int .s16]))], F n]]

/-- `TrackEffect` (src/avb/trackgroups.py:278-307). -/
def trackEffect (d : RCtx) : Fmt :=
  trackGroup d fun _ =>
    seq [byte 2, byte 6, int .s32, int .s32, int .s16, int .s32, int .s32, int .s16, int .s16,
      int .s8, bool, ref d, bool, bool, ext [(2, seq [byte 72, ref d])]]

/-- `PanVolumeEffect` (src/avb/trackgroups.py:354-377). -/
def panVolumeEffect (d : RCtx) : Fmt :=
  seq [trackEffect d, byte 2, byte 5, int .s32, int .s32, bool, bool, bool,
    ext [(1, seq [byte 71, int .s32]),
      (2, seq [byte 71, int .s32])]]

/-- A plugin data chunk; its size comes first, its data last (src/avb/trackgroups.py:476-490). -/
def pluginChunk (d : RCtx) : Fmt :=
  num d.bo .s32 fun size =>
    only (0 ≤ size) (seq [int .s32, int .u32, int .u32, int .u32, int .u32,
      text d.bo .macroman, skip size.toNat])

/-- A plugin (src/avb/trackgroups.py:467-492). -/
def plugin (d : RCtx) : Fmt :=
  seq [text d.bo .macroman, int .u32, int .u32, int .u32, counted d.bo .s32 (pluginChunk d)]

/-- `AudioSuitePluginEffect` (src/avb/trackgroups.py:451-537). -/
def audioSuitePluginEffect (d : RCtx) : Fmt :=
  seq [trackEffect d, byte 2, byte 1, const d.bo .s32 1, plugin d,
    ext [(1, seq [byte 71, int .s32, byte 71, int .s32]),
      (2, seq [byte 77, int .s64]),
      (3, seq [byte 77, int .s64]),
      (4, seq [byte 72, int .s32]),
      (5, seq [byte 71, int .s32]),
      (6, seq [byte 71, int .s32]),
      (8, seq [mobId d.bo]),
      (9, seq [byte 72, num d.bo .u32 fun n => if n > 0
        then seq [byte 65, num d.bo .u32 fun m => only (n = m) (bytes m)] else nil])]]

/-- `EqualizerMultiBand` (src/avb/trackgroups.py:646-668). -/
def equalizerMultiBand (d : RCtx) : Fmt :=
  seq [trackEffect d, byte 2, byte 5,
    counted d.bo .s32 (seq [int .s32, int .s32, int .s32, int .s32, bool]), bool,
    text d.bo .macroman]

/-- `TimeWarp` (src/avb/trackgroups.py:697-702). -/
def timeWarp (d : RCtx) : Fmt :=
  trackGroup d fun _ =>
    seq [byte 2, byte 2, int .s32]

/-- `CaptureMask` (src/avb/trackgroups.py:721-730). -/
def captureMask (d : RCtx) : Fmt := seq [timeWarp d, byte 2, byte 1, bool, int .u32]

/-- `StrobeEffect` (src/avb/trackgroups.py:752-758). -/
def strobeEffect (d : RCtx) : Fmt := seq [timeWarp d, byte 2, byte 1, int .s32]

/-- `MotionEffect` (src/avb/trackgroups.py:780-804). -/
def motionEffect (d : RCtx) : Fmt :=
  seq [timeWarp d, byte 2, byte 3, int .s32, int .s32, ext [(1, seq [byte 75, skip 8]),
      (2, seq [byte 72, ref d]),
      (3, seq [byte 66, bool])]]

/-- `Repeat` (src/avb/trackgroups.py:839-845). -/
def repeatEffect (d : RCtx) : Fmt := seq [timeWarp d, byte 2, byte 1]

/-- `EssenceGroup` (src/avb/trackgroups.py:864-877). -/
def essenceGroup (d : RCtx) : Fmt :=
  trackGroup d fun _ =>
    seq [byte 2, byte 1, ext [(1, seq [byte 71, int .s32])]]

/-- `TransitionEffect` (src/avb/trackgroups.py:915-949). -/
def transitionEffect (d : RCtx) : Fmt :=
  trackGroup d fun _ =>
    seq [byte 2, byte 1, int .s32, byte 2, byte 5, int .s32, int .s32, int .s16, int .s32, int .s32,
      int .s16, int .s16, int .s8, bool, ref d, bool, bool, ext [(1, seq [byte 72, ref d])]]

/-- `Selector` (src/avb/trackgroups.py:996-1007). -/
def selector (d : RCtx) : Fmt :=
  trackGroup d fun n =>
    seq [byte 2, byte 1, bool, num d.bo .u16 fun selected => only (selected < n) nil]

/-- `Composition` (src/avb/trackgroups.py:1058-1082). -/
def composition (d : RCtx) : Fmt :=
  trackGroup d fun _ =>
    seq [byte 2, byte 2, int .u32, int .u32, int .u32, int .u8, int .s32, ref d,
      ext [(1, seq [byte 71, int .u32]),
      (2, seq [mobId d.bo])]]

/-- `FileLocator` (src/avb/misc.py:26-47). -/
def fileLocator (d : RCtx) : Fmt :=
  seq [byte 2, byte 2, text d.bo .macroman, ext [(1, seq [byte 76, text d.bo .macroman]),
      (2, seq [byte 76, text d.bo .utf8]),
      (3, seq [byte 76, text d.bo .utf8])]]

/-- `URLLocator` (src/avb/misc.py:95-98). -/
def urlLocator (_d : RCtx) : Fmt := nil

/-- `GraphicEffect` (src/avb/misc.py:114-126). -/
def graphicEffect (d : RCtx) : Fmt := seq [byte 2, byte 1, blob d.bo .s32]

/-- `ShapeList` (src/avb/misc.py:147-158). -/
def shapeList (d : RCtx) : Fmt := seq [byte 2, byte 1, blob d.bo .s32]

/-- `ColorCorrectionEffect` (src/avb/misc.py:180-191). -/
def colorCorrectionEffect (d : RCtx) : Fmt := seq [byte 2, byte 1, blob d.bo .s16]

/-- An effect parameter (src/avb/misc.py:265-325). -/
def effectParam (d : RCtx) : Fmt :=
  seq [int .s32, int .s32, int .s32, int .s32, int .s32, int .s32, int .s32, int .s32, int .s32,
    int .s32, int .s32, int .s32, int .s32, int .s32, int .s32, int .s32, int .s32, int .s32,
    bool, bool, bool, bool, int .s32, int .s32, int .s16, int .s16, int .s16, int .s16, int .s8,
    counted d.bo .s32 (int .s32), blob d.bo .s32, bool]

/-- `EffectParamList` (src/avb/misc.py:252-324). -/
def effectParamList (d : RCtx) : Fmt :=
  seq [byte 2, byte 18, int .s32, int .s32,
    num d.bo .s32 fun n => seq [int .s32, rep n.toNat (effectParam d)]]

/-- `CFUserParam` (src/avb/misc.py:402-421). -/
def cfUserParam (d : RCtx) : Fmt :=
  seq [byte 2, byte 1, const d.bo .s16 0x4949, skip 16,
    num d.bo .s32 fun size1 => num d.bo .s32 fun size2 => only (size2 = size1 - 4) (bytes size2)]

/-- `ParameterItem` (src/avb/misc.py:455-483). -/
def parameterItem (d : RCtx) : Fmt :=
  seq [byte 2, byte 2, skip 16, num d.bo .s16 fun type => value d type, text d.bo .macroman, bool,
    ref d, ext [(1, seq [byte 66, bool])]]

/-- `MSMLocator` (src/avb/misc.py:546-570). -/
def msmLocator (d : RCtx) : Fmt :=
  seq [byte 2, byte 2, int .u32, int .u32, text d.bo .macroman, ext [(1, seq [byte 71, int .s32]),
      (2, seq [mobId d.bo]),
      (3, seq [byte 76, text d.bo .utf8])]]

/-- `Position` (src/avb/misc.py:613-629). -/
def position (d : RCtx) : Fmt :=
  seq [byte 2, byte 1, int .u32, int .u32, ext [(1, seq [mobId d.bo])]]

/-- `BOBPosition` (src/avb/misc.py:662-674). -/
def bobPosition (d : RCtx) : Fmt :=
  seq [position d, byte 2, byte 1, int .s32, int .s32, int .s16, int .s16]

/-- `DIDPosition` (src/avb/misc.py:702-714). -/
def didPosition (d : RCtx) : Fmt :=
  seq [bobPosition d, byte 2, byte 1, int .s32, int .u64, int .u64, bool]

/-- `MPGPosition` (src/avb/misc.py:742-761). -/
def mpgPosition (d : RCtx) : Fmt :=
  seq [didPosition d, byte 2, byte 1, int .s16, bool, num d.bo .s16 fun n => if n > 0
      then seq [int .s16, rep n.toNat (seq [int .u8, int .u32])] else nil]

/-- `BinRef` (src/avb/misc.py:795-812). -/
def binRef (d : RCtx) : Fmt :=
  seq [byte 2, byte 1, int .s32, int .s32, text d.bo .macroman,
    ext [(1, seq [byte 76, text d.bo .utf8])]]

/-- `MobRef` (src/avb/misc.py:841-858). -/
def mobRef (d : RCtx) : Fmt :=
  seq [byte 2, byte 1, int .u32, int .u32, int .s32, ext [(1, seq [mobId d.bo])]]

/-- `Marker` (src/avb/misc.py:894-920). -/
def marker (d : RCtx) : Fmt :=
  seq [mobRef d, byte 2, byte 3, int .s32, ref d, const d.bo .s16 1, rep 3 (int .u16),
    ext [(1, seq [byte 66, bool])]]

/-- `TrackerManager` (src/avb/misc.py:955-964). -/
def trackerManager (d : RCtx) : Fmt := seq [byte 2, byte 1, ref d, ref d]

/-- `TrackerDataSlot` (src/avb/misc.py:987-1006). -/
def trackerDataSlot (d : RCtx) : Fmt :=
  seq [byte 2, byte 1, many d.bo .s32 (ref d), ext [(1, seq [byte 66, bool])]]

/-- `TrackerParameterSlot` (src/avb/misc.py:1037-1053). -/
def trackerParameterSlot (d : RCtx) : Fmt :=
  seq [byte 2, byte 1, blob d.bo .s16, counted d.bo .s32 (ref d)]

/-- `TrackerData` (src/avb/misc.py:1087-1125). -/
def trackerData (d : RCtx) : Fmt :=
  seq [byte 2, byte 1, blob d.bo .s16, int .u32, many d.bo .s16 (ref d),
    ext [(1, seq [byte 72, int .u32]),
      (2, seq [byte 72, int .u32]),
      (3, seq [byte 72, int .u32]),
      (4, seq [byte 75, skip 8]),
      (5, seq [byte 72, ref d]),
      (6, seq [byte 72, ref d])]]

/-- `TrackerParameter` (src/avb/misc.py:1191-1200). -/
def trackerParameter (d : RCtx) : Fmt := seq [byte 2, byte 1, blob d.bo .s16]

/-- `MediaDescriptor` (src/avb/essence.py:29-63). -/
def mediaDescriptor (d : RCtx) : Fmt :=
  seq [byte 2, byte 3, int .u8, ref d, bool, ref d,
    ext [(1, seq [byte 65, const d.bo .s32 16, skip 16]),
      (2, seq [byte 65, blob d.bo .s32]),
      (3, seq [byte 72, ref d])]]

/-- `TapeDescriptor` (src/avb/essence.py:108-115). -/
def tapeDescriptor (d : RCtx) : Fmt := seq [mediaDescriptor d, byte 2, byte 2, int .s16]

/-- `FilmDescriptor` (src/avb/essence.py:131-137). -/
def filmDescriptor (d : RCtx) : Fmt := seq [mediaDescriptor d, byte 2, byte 1]

/-- `NagraDescriptor` (src/avb/essence.py:151-157). -/
def nagraDescriptor (d : RCtx) : Fmt := seq [mediaDescriptor d, byte 2, byte 1]

/-- `MediaFileDescriptor` (src/avb/essence.py:177-189). -/
def mediaFileDescriptor (d : RCtx) : Fmt :=
  seq [mediaDescriptor d, byte 2, byte 3, rate d.bo, int .s32, int .s16, int .s32]

/-- `MultiDescriptor` (src/avb/essence.py:213-225). -/
def multiDescriptor (d : RCtx) : Fmt :=
  seq [mediaFileDescriptor d, byte 2, byte 1, many d.bo .s32 (ref d)]

/-- `WaveDescriptor` (src/avb/essence.py:248-259). -/
def waveDescriptor (d : RCtx) : Fmt :=
  seq [mediaFileDescriptor d, byte 2, byte 1, lit [82, 73, 70, 70], blob .little .u32]

/-- `AIFCDescriptor` (src/avb/essence.py:281-299). -/
def aifcDescriptor (d : RCtx) : Fmt :=
  seq [mediaFileDescriptor d, byte 2, byte 1, lit [70, 79, 82, 77], blob .big .u32,
    ext [(1, seq [byte 71, int .s32])]]

/-- `PCMADescriptor` (src/avb/essence.py:349-391). -/
def pcmaDescriptor (d : RCtx) : Fmt :=
  seq [mediaFileDescriptor d, byte 2, byte 1, int .u16, int .u16, rate d.bo, bool, int .s16,
    int .s32, int .u16, int .u32, int .u32, int .u16, int .u32, bool, int .s32, int .s32,
    int .s32, int .s32, int .s32, int .s32, int .u64, int .s32,
    ext [(1, seq [byte 77, int .s64]),
      (3, seq [byte 76, text d.bo .macroman])]]

/-- `MPGADescriptor` (src/avb/essence.py:457-485). -/
def mpgaDescriptor (d : RCtx) : Fmt :=
  seq [mediaFileDescriptor d, byte 2, byte 1, int .u16, int .u16, rate d.bo, bool, int .s16,
    int .s32, int .u16, int .u32, int .u32, ext [(1, seq [byte 77, int .u64]),
      (2, seq [byte 77, int .u64])]]

/-- A corner of a box (src/avb/essence.py:625-640). -/
def point : Fmt := seq [byte 71, int .s32, byte 71, int .s32]

/-- A box (src/avb/essence.py:620-700). -/
def box : Fmt := seq [point, point, point, point]

/-- `DIDDescriptor` (src/avb/essence.py:565-770). -/
def didDescriptor (d : RCtx) : Fmt :=
  seq [mediaFileDescriptor d, byte 2, byte 2, int .s32, int .s32, int .s32, int .s32, int .s32,
    int .s32, int .s32, int .s32, int .s32, int .s32, int .s16, int .s32, int .s32,
    num d.bo .s32 fun size => rep (size / 4).toNat (int .s32), int .s32, bool, int .s32, ref d,
    skip 4, int .s32, int .s32, ext [(1, seq [byte 69, int .s16]),
      (2, seq [byte 71, int .s32]),
      (3, seq [byte 71, int .s32]),
      (4, seq [byte 71, int .s32, byte 71, int .s32]),
      (5, seq [byte 71, int .s32]),
      (6, seq [byte 71, int .s32]),
      (8, seq [box, box, box]),
      (9, seq [box, byte 71, int .s32]),
      (10, seq [byte 80, skip 16]),
      (11, seq [byte 80, skip 16, byte 80, skip 16]),
      (12, seq [byte 80, skip 16]),
      (14, seq [byte 68, int .u8]),
      (15, seq [byte 66, bool])]]

/-- `CDCIDescriptor` (src/avb/essence.py:1002-1031). -/
def cdciDescriptor (d : RCtx) : Fmt :=
  seq [didDescriptor d, byte 2, byte 2, int .u32, int .u32, int .s32, int .s16, int .u32, int .u32,
    int .u32, int .s64, ext [(1, seq [byte 72, int .u32]),
      (2, seq [byte 72, int .u32])]]

/-- `MPGIDescriptor` (src/avb/essence.py:1082-1101). -/
def mpgiDescriptor (d : RCtx) : Fmt :=
  seq [cdciDescriptor d, byte 2, byte 1, int .u8, int .u8, int .u8, int .u8, bool, bool, bool,
    int .u16, int .u16, blob d.bo .s32]

/-- `JPEGDescriptor` (src/avb/essence.py:1134-1153). -/
def jpegDescriptor (d : RCtx) : Fmt :=
  seq [cdciDescriptor d, byte 2, byte 1, int .s32, int .u64, blob d.bo .s32,
    ext [(1, seq [byte 71, int .s32])]]

/-- `RGBADescriptor` (src/avb/essence.py:1200-1258). -/
def rgbaDescriptor (d : RCtx) : Fmt :=
  seq [didDescriptor d, byte 2, byte 1,
    num d.bo .u32 fun n => seq [bytes n, num d.bo .u32 fun m => seq [bytes m, only (n = m) nil]],
    const d.bo .u32 0, const d.bo .u32 0, const d.bo .u32 0, ext [(1, seq [byte 77, int .u64]),
      (2, seq [byte 66, bool, byte 72, int .u32, byte 66, bool, byte 72, int .u32]),
      (3, seq [byte 72, int .u32, byte 72, int .u32])]]

/-- `DataDescriptor` (src/avb/essence.py:1328-1338). -/
def dataDescriptor (d : RCtx) : Fmt :=
  seq [mediaFileDescriptor d, byte 2, byte 1, bool, int .u64, int .s32, int .s32, int .s32]

/-- `ANCDataDescriptor` (src/avb/essence.py:1361-1369). -/
def ancDataDescriptor (d : RCtx) : Fmt := seq [dataDescriptor d, byte 2, byte 1, int .s32]

end Fmt

/-- The format of the data of an object.  They end with the byte 3, except for data descriptors;
a plain track group is never accepted, since its reader looks for a byte after the last field
(src/avb/trackgroups.py:162). -/
def Cls.format (d : RCtx) : Cls → Fmt
  | .ATTR => Fmt.seq [Fmt.attributes d, Fmt.byte 3]
  | .PRLS => Fmt.seq [Fmt.parameterList d, Fmt.byte 3]
  | .TMCS => Fmt.seq [Fmt.timeCrumbList d, Fmt.byte 3]
  | .BVst => Fmt.seq [Fmt.binViewSetting d, Fmt.byte 3]
  | .ABIN => Fmt.seq [Fmt.bin d, Fmt.byte 3]
  | .BINF => Fmt.seq [Fmt.binFirst d, Fmt.byte 3]
  | .SEQU => Fmt.seq [Fmt.sequence d, Fmt.byte 3]
  | .SCLP => Fmt.seq [Fmt.sourceClip d, Fmt.byte 3]
  | .TCCP => Fmt.seq [Fmt.timecode d, Fmt.byte 3]
  | .ECCP => Fmt.seq [Fmt.edgecode d, Fmt.byte 3]
  | .TRKR => Fmt.seq [Fmt.trackRef d, Fmt.byte 3]
  | .PRCL => Fmt.seq [Fmt.paramClip d, Fmt.byte 3]
  | .CTRL => Fmt.seq [Fmt.controlClip d, Fmt.byte 3]
  | .FILL => Fmt.seq [Fmt.filler d, Fmt.byte 3]
  | .TRKG => Fmt.never
  | .TKFX => Fmt.seq [Fmt.trackEffect d, Fmt.byte 3]
  | .PVOL => Fmt.seq [Fmt.panVolumeEffect d, Fmt.byte 3]
  | .ASPI => Fmt.seq [Fmt.audioSuitePluginEffect d, Fmt.byte 3]
  | .EQMB => Fmt.seq [Fmt.equalizerMultiBand d, Fmt.byte 3]
  | .MASK => Fmt.seq [Fmt.captureMask d, Fmt.byte 3]
  | .STRB => Fmt.seq [Fmt.strobeEffect d, Fmt.byte 3]
  | .SPED => Fmt.seq [Fmt.motionEffect d, Fmt.byte 3]
  | .REPT => Fmt.seq [Fmt.repeatEffect d, Fmt.byte 3]
  | .RSET => Fmt.seq [Fmt.essenceGroup d, Fmt.byte 3]
  | .TNFX => Fmt.seq [Fmt.transitionEffect d, Fmt.byte 3]
  | .SLCT => Fmt.seq [Fmt.selector d, Fmt.byte 3]
  | .CMPO => Fmt.seq [Fmt.composition d, Fmt.byte 3]
  | .FILE => Fmt.seq [Fmt.fileLocator d, Fmt.byte 3]
  | .WINF => Fmt.seq [Fmt.fileLocator d, Fmt.byte 3]
  | .URLL => Fmt.seq [Fmt.urlLocator d, Fmt.byte 3]
  | .GRFX => Fmt.seq [Fmt.graphicEffect d, Fmt.byte 3]
  | .SHLP => Fmt.seq [Fmt.shapeList d, Fmt.byte 3]
  | .CCFX => Fmt.seq [Fmt.colorCorrectionEffect d, Fmt.byte 3]
  | .FXPS => Fmt.seq [Fmt.effectParamList d, Fmt.byte 3]
  | .AVUP => Fmt.seq [Fmt.cfUserParam d, Fmt.byte 3]
  | .PRIT => Fmt.seq [Fmt.parameterItem d, Fmt.byte 3]
  | .MSML => Fmt.seq [Fmt.msmLocator d, Fmt.byte 3]
  | .APOS => Fmt.seq [Fmt.position d, Fmt.byte 3]
  | .ABOB => Fmt.seq [Fmt.bobPosition d, Fmt.byte 3]
  | .DIDP => Fmt.seq [Fmt.didPosition d, Fmt.byte 3]
  | .MPGP => Fmt.seq [Fmt.mpgPosition d, Fmt.byte 3]
  | .MCBR => Fmt.seq [Fmt.binRef d, Fmt.byte 3]
  | .MCMR => Fmt.seq [Fmt.mobRef d, Fmt.byte 3]
  | .TMBC => Fmt.seq [Fmt.marker d, Fmt.byte 3]
  | .TKMN => Fmt.seq [Fmt.trackerManager d, Fmt.byte 3]
  | .TKDS => Fmt.seq [Fmt.trackerDataSlot d, Fmt.byte 3]
  | .TKPS => Fmt.seq [Fmt.trackerParameterSlot d, Fmt.byte 3]
  | .TKDA => Fmt.seq [Fmt.trackerData d, Fmt.byte 3]
  | .TKPA => Fmt.seq [Fmt.trackerParameter d, Fmt.byte 3]
  | .MDES => Fmt.seq [Fmt.mediaDescriptor d, Fmt.byte 3]
  | .MDTP => Fmt.seq [Fmt.tapeDescriptor d, Fmt.byte 3]
  | .MDFM => Fmt.seq [Fmt.filmDescriptor d, Fmt.byte 3]
  | .MDNG => Fmt.seq [Fmt.nagraDescriptor d, Fmt.byte 3]
  | .MDFL => Fmt.seq [Fmt.mediaFileDescriptor d, Fmt.byte 3]
  | .MULD => Fmt.seq [Fmt.multiDescriptor d, Fmt.byte 3]
  | .WAVE => Fmt.seq [Fmt.waveDescriptor d, Fmt.byte 3]
  | .AIFC => Fmt.seq [Fmt.aifcDescriptor d, Fmt.byte 3]
  | .PCMA => Fmt.seq [Fmt.pcmaDescriptor d, Fmt.byte 3]
  | .MPGA => Fmt.seq [Fmt.mpgaDescriptor d, Fmt.byte 3]
  | .DIDD => Fmt.seq [Fmt.didDescriptor d, Fmt.byte 3]
  | .CDCI => Fmt.seq [Fmt.cdciDescriptor d, Fmt.byte 3]
  | .MPGI => Fmt.seq [Fmt.mpgiDescriptor d, Fmt.byte 3]
  | .JPED => Fmt.seq [Fmt.jpegDescriptor d, Fmt.byte 3]
  | .RGBA => Fmt.seq [Fmt.rgbaDescriptor d, Fmt.byte 3]
  | .DATD => Fmt.dataDescriptor d
  | .ANCD => Fmt.seq [Fmt.ancDataDescriptor d, Fmt.byte 3]

end Avb
