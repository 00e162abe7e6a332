import Verif.Lemmas.UnsetCls
import Mathlib.Tactic.Tauto

/-! What an object needs, class by class (Lemmas/UnsetCls.lean), is what the specification says. -/

namespace Avb

open Unset

theorem Needs.mem {α : Type} {w : Unset → Wr α} {w0 : Wr α} {l l' : List Slot} (h : Needs w w0 l)
    (e : ∀ s, s ∈ l ↔ s ∈ l') : Needs w w0 l' := by
  intro u
  have hl : Lacks u l' ↔ Lacks u l := by
    simp only [Lacks, e]
  rw [hl]
  exact h u

theorem mem_swap (A B : List String) (L : List Slot) (s : Slot) :
    s ∈ own A ++ L ++ own B ↔ s ∈ own (A ++ B) ++ L := by
  simp only [own, List.map_append, List.mem_append]
  tauto

theorem mem_swap2 (A B C : List String) (L M : List Slot) (s : Slot) :
    s ∈ own A ++ L ++ own B ++ M ++ own C ↔ s ∈ own (A ++ B ++ C) ++ (L ++ M) := by
  simp only [own, List.map_append, List.mem_append]
  tauto

theorem Obj.write_needs (c : WCtx) (o : Obj) : Needs (fun u => o.writeU u c) (o.write c) o.slots := by
  cases o with
  | ATTR x => exact Needs.plain _
  | PRLS x => exact Needs.plain _
  | TMCS x => exact Needs.plain _
  | BVst x => exact Needs.congr (BinViewSetting.write_needs c x) rfl
  | ABIN x => exact Needs.mem (Bin.write_needs c x) fun s => mem_swap2 _ _ _ _ _ s
  | BINF x => exact Needs.mem (BinFirst.write_needs c x) fun s => mem_swap2 _ _ _ _ _ s
  | SEQU x => exact Needs.congr (Sequence.write_needs c x) rfl
  | SCLP x => exact Needs.congr (SourceClip.write_needs c x) rfl
  | TCCP x => exact Needs.congr (Timecode.write_needs c x) rfl
  | ECCP x => exact Needs.congr (Edgecode.write_needs c x) rfl
  | TRKR x => exact Needs.congr (TrackRef.write_needs c x) rfl
  | PRCL x => exact Needs.congr (ParamClip.write_needs c x) rfl
  | CTRL x => exact Needs.congr (ControlClip.write_needs c x) rfl
  | FILL x => exact Needs.congr (Filler.write_needs c x) rfl
  | TRKG x => exact Needs.congr (TrackGroup.write_needs c x) rfl
  | TKFX x => exact Needs.congr (TrackEffect.write_needs c x) rfl
  | PVOL x => exact Needs.congr (PanVolumeEffect.write_needs c x) rfl
  | ASPI x => exact Needs.congr (AudioSuitePluginEffect.write_needs c x) rfl
  | EQMB x => exact Needs.mem (EqualizerMultiBand.write_needs c x) fun s => mem_swap _ _ _ s
  | MASK x => exact Needs.congr (CaptureMask.write_needs c x) rfl
  | STRB x => exact Needs.congr (StrobeEffect.write_needs c x) rfl
  | SPED x => exact Needs.congr (MotionEffect.write_needs c x) rfl
  | REPT x => exact Needs.congr (Repeat.write_needs c x) rfl
  | RSET x => exact Needs.congr (EssenceGroup.write_needs c x) rfl
  | TNFX x => exact Needs.congr (TransitionEffect.write_needs c x) rfl
  | SLCT x => exact Needs.congr (Selector.write_needs c x) rfl
  | CMPO x => exact Needs.congr (Composition.write_needs c x) rfl
  | FILE x => exact Needs.congr (FileLocator.write_needs c x) rfl
  | WINF x => exact Needs.congr (FileLocator.write_needs c x) rfl
  | URLL x => exact Needs.plain _
  | GRFX x => exact Needs.congr (GraphicEffect.write_needs c x) rfl
  | SHLP x => exact Needs.congr (ShapeList.write_needs c x) rfl
  | CCFX x => exact Needs.congr (ColorCorrectionEffect.write_needs c x) rfl
  | FXPS x => exact Needs.congr (EffectParamList.write_needs c x) rfl
  | AVUP x => exact Needs.congr (CFUserParam.write_needs c x) rfl
  | PRIT x => exact Needs.congr (ParameterItem.write_needs c x) rfl
  | MSML x => exact Needs.congr (MSMLocator.write_needs c x) rfl
  | APOS x => exact Needs.congr (Position.write_needs c x) rfl
  | ABOB x => exact Needs.congr (BOBPosition.write_needs c x) rfl
  | DIDP x => exact Needs.congr (DIDPosition.write_needs c x) rfl
  | MPGP x => exact Needs.congr (MPGPosition.write_needs c x) rfl
  | MCBR x => exact Needs.congr (BinRef.write_needs c x) rfl
  | MCMR x => exact Needs.congr (MobRef.write_needs c x) rfl
  | TMBC x => exact Needs.congr (Marker.write_needs c x) rfl
  | TKMN x => exact Needs.congr (TrackerManager.write_needs c x) rfl
  | TKDS x => exact Needs.congr (TrackerDataSlot.write_needs c x) rfl
  | TKPS x => exact Needs.congr (TrackerParameterSlot.write_needs c x) rfl
  | TKDA x => exact Needs.congr (TrackerData.write_needs c x) rfl
  | TKPA x => exact Needs.congr (TrackerParameter.write_needs c x) rfl
  | MDES x => exact Needs.congr (MediaDescriptor.write_needs c x) rfl
  | MDTP x => exact Needs.congr (TapeDescriptor.write_needs c x) rfl
  | MDFM x => exact Needs.congr (FilmDescriptor.write_needs c x) rfl
  | MDNG x => exact Needs.congr (NagraDescriptor.write_needs c x) rfl
  | MDFL x => exact Needs.congr (MediaFileDescriptor.write_needs c x) rfl
  | MULD x => exact Needs.congr (MultiDescriptor.write_needs c x) rfl
  | WAVE x => exact Needs.congr (WaveDescriptor.write_needs c x) rfl
  | AIFC x => exact Needs.congr (AIFCDescriptor.write_needs c x) rfl
  | PCMA x => exact Needs.congr (PCMADescriptor.write_needs c x) rfl
  | MPGA x => exact Needs.congr (MPGADescriptor.write_needs c x) rfl
  | DIDD x => exact Needs.congr (DIDDescriptor.write_needs c x) rfl
  | CDCI x => exact Needs.congr (CDCIDescriptor.write_needs c x) rfl
  | MPGI x => exact Needs.congr (MPGIDescriptor.write_needs c x) rfl
  | JPED x => exact Needs.congr (JPEGDescriptor.write_needs c x) rfl
  | RGBA x => exact Needs.congr (RGBADescriptor.write_needs c x) rfl
  | DATD x => exact Needs.congr (DataDescriptor.write_needs c x) rfl
  | ANCD x => exact Needs.congr (ANCDataDescriptor.write_needs c x) rfl

end Avb
