import Verif.Model.Obj
import Verif.Lemmas.Bin
import Verif.Lemmas.TrackGroups

/-
Round trip of an object of any class.
-/

namespace Avb

/-- An object after saving with output context `c` and loading again. -/
def Obj.norm (c : WCtx) : Obj → Obj
  | .ATTR x => .ATTR (x.norm c)
  | .PRLS x => .PRLS (x.norm c)
  | .TMCS x => .TMCS (x.norm c)
  | .BVst x => .BVst (x.norm c)
  | .ABIN x => .ABIN (x.norm c)
  | .BINF x => .BINF (x.norm c)
  | .SEQU x => .SEQU (x.norm c)
  | .SCLP x => .SCLP (x.norm c)
  | .TCCP x => .TCCP (x.norm c)
  | .ECCP x => .ECCP (x.norm c)
  | .TRKR x => .TRKR (x.norm c)
  | .PRCL x => .PRCL (x.norm c)
  | .CTRL x => .CTRL (x.norm c)
  | .FILL x => .FILL (x.norm c)
  | .TRKG x => .TRKG (x.norm c)
  | .TKFX x => .TKFX (x.norm c)
  | .PVOL x => .PVOL (x.norm c)
  | .ASPI x => .ASPI (x.norm c)
  | .EQMB x => .EQMB (x.norm c)
  | .MASK x => .MASK (x.norm c)
  | .STRB x => .STRB (x.norm c)
  | .SPED x => .SPED (x.norm c)
  | .REPT x => .REPT (x.norm c)
  | .RSET x => .RSET (x.norm c)
  | .TNFX x => .TNFX (x.norm c)
  | .SLCT x => .SLCT (x.norm c)
  | .CMPO x => .CMPO (x.norm c)
  | .FILE x => .FILE x.norm
  | .WINF x => .WINF x.norm
  | .URLL x => .URLL x
  | .GRFX x => .GRFX x
  | .SHLP x => .SHLP x
  | .CCFX x => .CCFX x
  | .FXPS x => .FXPS x.norm
  | .AVUP x => .AVUP x.norm
  | .PRIT x => .PRIT (x.norm c)
  | .MSML x => .MSML x.norm
  | .APOS x => .APOS x
  | .ABOB x => .ABOB x
  | .DIDP x => .DIDP x
  | .MPGP x => .MPGP x
  | .MCBR x => .MCBR x.norm
  | .MCMR x => .MCMR x
  | .TMBC x => .TMBC (x.norm c)
  | .TKMN x => .TKMN (x.norm c)
  | .TKDS x => .TKDS (x.norm c)
  | .TKPS x => .TKPS (x.norm c)
  | .TKDA x => .TKDA (x.norm c)
  | .TKPA x => .TKPA x
  | .MDES x => .MDES (x.norm c)
  | .MDTP x => .MDTP (x.norm c)
  | .MDFM x => .MDFM (x.norm c)
  | .MDNG x => .MDNG (x.norm c)
  | .MDFL x => .MDFL (x.norm c)
  | .MULD x => .MULD (x.norm c)
  | .WAVE x => .WAVE (x.norm c)
  | .AIFC x => .AIFC (x.norm c)
  | .PCMA x => .PCMA (x.norm c)
  | .MPGA x => .MPGA (x.norm c)
  | .DIDD x => .DIDD (x.norm c)
  | .CDCI x => .CDCI (x.norm c)
  | .MPGI x => .MPGI (x.norm c)
  | .JPED x => .JPED (x.norm c)
  | .RGBA x => .RGBA (x.norm c)
  | .DATD x => .DATD (x.norm c)
  | .ANCD x => .ANCD (x.norm c)

/-- The conditions under which an object that can be written is read back: every text can be told
from an empty one, and the few counts and codes that `write` does not check are as `read` wants
them. -/
def Obj.Readable : Obj → Prop
  | .ATTR x => TextsOK x.texts
  | .PRLS _ => True
  | .TMCS _ => True
  | .BVst x => TextsOK x.texts ∧ ∀ v, x.format_descriptors = some v → v.length < 32768
  | .ABIN x => TextsOK x.texts
  | .BINF x => TextsOK x.texts
  | .SEQU x => TextsOK x.texts
  | .SCLP x => TextsOK x.texts
  | .TCCP x => TextsOK x.texts
  | .ECCP x => TextsOK x.texts
  | .TRKR x => TextsOK x.texts
  | .PRCL x => TextsOK x.texts ∧ (x.value_type = 1 ∨ x.value_type = 2 ∨ x.value_type = 4)
  | .CTRL x => TextsOK x.texts
  | .FILL x => TextsOK x.texts
  | .TRKG _ => False
  | .TKFX x => TextsOK x.texts
  | .PVOL x => TextsOK x.texts
  | .ASPI x => TextsOK x.allTexts ∧ x.plugins.length = 1
  | .EQMB x => TextsOK x.allTexts
  | .MASK x => TextsOK x.texts
  | .STRB x => TextsOK x.texts
  | .SPED x => TextsOK x.texts
  | .REPT x => TextsOK x.texts
  | .RSET x => TextsOK x.texts
  | .TNFX x => TextsOK x.texts
  | .SLCT x => TextsOK x.texts ∧ x.selected < x.tracks.length
  | .CMPO x => TextsOK x.texts
  | .FILE x => TextsOK x.texts
  | .WINF x => TextsOK x.texts
  | .URLL _ => True
  | .GRFX _ => True
  | .SHLP _ => True
  | .CCFX _ => True
  | .FXPS _ => True
  | .AVUP _ => True
  | .PRIT x => TextsOK x.texts
  | .MSML x => TextsOK x.texts
  | .APOS _ => True
  | .ABOB _ => True
  | .DIDP _ => True
  | .MPGP _ => True
  | .MCBR x => TextsOK x.texts
  | .MCMR _ => True
  | .TMBC x => x.color.length = 3
  | .TKMN _ => True
  | .TKDS _ => True
  | .TKPS _ => True
  | .TKDA _ => True
  | .TKPA _ => True
  | .MDES _ => True
  | .MDTP _ => True
  | .MDFM _ => True
  | .MDNG _ => True
  | .MDFL _ => True
  | .MULD _ => True
  | .WAVE _ => True
  | .AIFC _ => True
  | .PCMA x => TextsOK x.texts
  | .MPGA _ => True
  | .DIDD _ => True
  | .CDCI _ => True
  | .MPGI _ => True
  | .JPED _ => True
  | .RGBA _ => True
  | .DATD _ => True
  | .ANCD _ => True

section
variable {F : Bytes → Prop} {α : Type} {c : WCtx} {d : RCtx}

theorem RT.as {w : Wr Unit} {r : Rd α} {v : α} {f : α → Obj} (h : RT w r v) :
    RT w (r.as f) (f v) := RT.last h rfl

theorem Obj.rt (h : Linked c d) {x : Obj} (hx : x.Readable) :
    RT (x.write c) (Obj.readAs d x.cls) (x.norm c) := by
  cases x with
  | ATTR x => exact RT.as (Attributes.rt h hx)
  | PRLS x => exact RT.as (ParameterList.rt h)
  | TMCS x => exact RT.as (TimeCrumbList.rt h)
  | BVst x => exact RT.as (BinViewSetting.rt h hx.1 hx.2)
  | ABIN x => exact RT.as (Bin.rt h hx)
  | BINF x => exact RT.as (BinFirst.rt h hx)
  | SEQU x => exact RT.as (Sequence.rt h hx)
  | SCLP x => exact RT.as (SourceClip.rt h hx)
  | TCCP x => exact RT.as (Timecode.rt h hx)
  | ECCP x => exact RT.as (Edgecode.rt h hx)
  | TRKR x => exact RT.as (TrackRef.rt h hx)
  | PRCL x => exact RT.as (ParamClip.rt h hx.1 hx.2)
  | CTRL x => exact RT.as (ControlClip.rt h hx)
  | FILL x => exact RT.as (Filler.rt h hx)
  | TRKG x => exact hx.elim
  | TKFX x => exact RT.as (TrackEffect.rt h hx)
  | PVOL x => exact RT.as (PanVolumeEffect.rt h hx)
  | ASPI x => exact RT.as (AudioSuitePluginEffect.rt h hx.1 hx.2)
  | EQMB x => exact RT.as (EqualizerMultiBand.rt h hx)
  | MASK x => exact RT.as (CaptureMask.rt h hx)
  | STRB x => exact RT.as (StrobeEffect.rt h hx)
  | SPED x => exact RT.as (MotionEffect.rt h hx)
  | REPT x => exact RT.as (Repeat.rt h hx)
  | RSET x => exact RT.as (EssenceGroup.rt h hx)
  | TNFX x => exact RT.as (TransitionEffect.rt h hx)
  | SLCT x => exact RT.as (Selector.rt h hx.1 hx.2)
  | CMPO x => exact RT.as (Composition.rt h hx)
  | FILE x => exact RT.as (FileLocator.rt h hx)
  | WINF x => exact RT.as (FileLocator.rt h hx)
  | URLL x => exact RT.as (URLLocator.rt (c := c))
  | GRFX x => exact RT.as (GraphicEffect.rt h)
  | SHLP x => exact RT.as (ShapeList.rt h)
  | CCFX x => exact RT.as (ColorCorrectionEffect.rt h)
  | FXPS x => exact RT.as (EffectParamList.rt h)
  | AVUP x => exact RT.as (CFUserParam.rt h)
  | PRIT x => exact RT.as (ParameterItem.rt h hx)
  | MSML x => exact RT.as (MSMLocator.rt h hx)
  | APOS x => exact RT.as (Position.rt h)
  | ABOB x => exact RT.as (BOBPosition.rt h)
  | DIDP x => exact RT.as (DIDPosition.rt h)
  | MPGP x => exact RT.as (MPGPosition.rt h)
  | MCBR x => exact RT.as (BinRef.rt h hx)
  | MCMR x => exact RT.as (MobRef.rt h)
  | TMBC x => exact RT.as (Marker.rt h hx)
  | TKMN x => exact RT.as (TrackerManager.rt h)
  | TKDS x => exact RT.as (TrackerDataSlot.rt h)
  | TKPS x => exact RT.as (TrackerParameterSlot.rt h)
  | TKDA x => exact RT.as (TrackerData.rt h)
  | TKPA x => exact RT.as (TrackerParameter.rt h)
  | MDES x => exact RT.as (MediaDescriptor.rt h)
  | MDTP x => exact RT.as (TapeDescriptor.rt h)
  | MDFM x => exact RT.as (FilmDescriptor.rt h)
  | MDNG x => exact RT.as (NagraDescriptor.rt h)
  | MDFL x => exact RT.as (MediaFileDescriptor.rt h)
  | MULD x => exact RT.as (MultiDescriptor.rt h)
  | WAVE x => exact RT.as (WaveDescriptor.rt h)
  | AIFC x => exact RT.as (AIFCDescriptor.rt h)
  | PCMA x => exact RT.as (PCMADescriptor.rt h hx)
  | MPGA x => exact RT.as (MPGADescriptor.rt h)
  | DIDD x => exact RT.as (DIDDescriptor.rt h)
  | CDCI x => exact RT.as (CDCIDescriptor.rt h)
  | MPGI x => exact RT.as (MPGIDescriptor.rt h)
  | JPED x => exact RT.as (JPEGDescriptor.rt h)
  | RGBA x => exact RT.as (RGBADescriptor.rt h)
  | DATD x => exact RT.as (DataDescriptor.rt h)
  | ANCD x => exact RT.as (ANCDataDescriptor.rt h)

end

end Avb
