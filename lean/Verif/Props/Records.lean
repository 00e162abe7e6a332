import Verif.Props.Objects
import Verif.Lemmas.Firm

/-
C11, C38, C39, C40, C42: extension areas, track flags, bin sizes and objects that do not come back.
-/

namespace Avb

/-! ### C11 -/

/-- `After body s bs s' rest`: having read some extension items from `bs`, the reader stands at `rest`. -/
inductive After {σ : Type} (body : Int → σ → Rd σ) : σ → Bytes → σ → Bytes → Prop
  | start (s : σ) (bs : Bytes) : After body s bs s bs
  | item {s s1 s2 : σ} {tag : UInt8} {bs mid rest : Bytes} (h : body tag.toNat s bs = .ok (s1, mid))
      (hl : mid.length ≤ bs.length) (ha : After body s1 mid s2 rest) :
      After body s (1 :: tag :: bs) s2 rest

/-- An extension area with an item that is refused is refused, wherever the item stands. -/
theorem iterExt_refused {σ : Type} {body : Int → σ → Rd σ} {s s' : σ} {bs rest : Bytes} {tag : UInt8}
    {e : Err} (ha : After body s bs s' (1 :: tag :: rest)) (h : body tag.toNat s' rest = .error e) :
    iterExt body s bs = .error e := by
  generalize hr : (1 :: tag :: rest : Bytes) = r at ha
  induction ha with
  | start s bs =>
    subst hr
    unfold iterExt
    simp [h]
  | item h1 hl _ ih => rw [iterExt_step h1 hl]; exact ih h hr

/-- An extension area accepts no tag outside `known`, wherever it stands in the area and whatever
surrounds it. -/
def OnlyKnown {σ : Type} (body : Int → σ → Rd σ) (known : List Nat) : Prop :=
  ∀ (s s' : σ) (bs rest : Bytes) (tag : UInt8), tag.toNat ∉ known →
    After body s bs s' (1 :: tag :: rest) → iterExt body s bs = .error .value

theorem OnlyKnown.of {σ : Type} {body : Int → σ → Rd σ} {known : List Nat}
    (h : ∀ (t : Nat), t ∉ known → ∀ s bs, body t s bs = .error .value) : OnlyKnown body known :=
  fun _ _ _ _ _ ht ha => iterExt_refused ha (h _ ht _ _)

/-- Walk through the tests of an extension body. -/
macro "unknown" n:ident : tactic => `(tactic|
  (intro t ht s bs
   simp only [List.mem_cons, List.not_mem_nil, or_false, not_or] at ht
   unfold $n
   repeat (rw [if_neg (by omega)])
   rfl))

theorem Component.ext_unknown {d : RCtx} : ∀ t : Nat, t ∉ [1] → ∀ s bs,
    Component.ext d t s bs = .error .value := by unknown Component.ext

theorem SourceClip.ext_unknown {d : RCtx} : ∀ t : Nat, t ∉ [1] → ∀ s bs,
    SourceClip.ext d t s bs = .error .value := by unknown SourceClip.ext

theorem ParamClip.ext_unknown {d : RCtx} : ∀ t : Nat, t ∉ [1, 2] → ∀ s bs,
    ParamClip.ext d t s bs = .error .value := by unknown ParamClip.ext

theorem TrackGroup.ext_unknown {d : RCtx} : ∀ t : Nat, t ∉ [1] → ∀ s bs,
    TrackGroup.ext d t s bs = .error .value := by unknown TrackGroup.ext

theorem TrackEffect.ext_unknown {d : RCtx} : ∀ t : Nat, t ∉ [2] → ∀ s bs,
    TrackEffect.ext d t s bs = .error .value := by unknown TrackEffect.ext

theorem PanVolumeEffect.ext_unknown {d : RCtx} : ∀ t : Nat, t ∉ [1, 2] → ∀ s bs,
    PanVolumeEffect.ext d t s bs = .error .value := by unknown PanVolumeEffect.ext

theorem AudioSuitePluginEffect.ext_unknown {d : RCtx} : ∀ t : Nat, t ∉ [1, 2, 3, 4, 5, 6, 8, 9] → ∀ s bs,
    AudioSuitePluginEffect.ext d t s bs = .error .value := by unknown AudioSuitePluginEffect.ext

theorem MotionEffect.ext_unknown {d : RCtx} : ∀ t : Nat, t ∉ [1, 2, 3] → ∀ s bs,
    MotionEffect.ext d t s bs = .error .value := by unknown MotionEffect.ext

theorem EssenceGroup.ext_unknown {d : RCtx} : ∀ t : Nat, t ∉ [1] → ∀ s bs,
    EssenceGroup.ext d t s bs = .error .value := by unknown EssenceGroup.ext

theorem TransitionEffect.ext_unknown {d : RCtx} : ∀ t : Nat, t ∉ [1] → ∀ s bs,
    TransitionEffect.ext d t s bs = .error .value := by unknown TransitionEffect.ext

theorem Composition.ext_unknown {d : RCtx} : ∀ t : Nat, t ∉ [1, 2] → ∀ s bs,
    Composition.ext d t s bs = .error .value := by unknown Composition.ext

theorem FileLocator.ext_unknown {d : RCtx} : ∀ t : Nat, t ∉ [1, 2, 3] → ∀ s bs,
    FileLocator.ext d t s bs = .error .value := by unknown FileLocator.ext

theorem ParameterItem.ext_unknown {d : RCtx} : ∀ t : Nat, t ∉ [1] → ∀ s bs,
    ParameterItem.ext d t s bs = .error .value := by unknown ParameterItem.ext

theorem MSMLocator.ext_unknown {d : RCtx} : ∀ t : Nat, t ∉ [1, 2, 3] → ∀ s bs,
    MSMLocator.ext d t s bs = .error .value := by unknown MSMLocator.ext

theorem Position.ext_unknown {d : RCtx} : ∀ t : Nat, t ∉ [1] → ∀ s bs,
    Position.ext d t s bs = .error .value := by unknown Position.ext

theorem BinRef.ext_unknown {d : RCtx} : ∀ t : Nat, t ∉ [1] → ∀ s bs,
    BinRef.ext d t s bs = .error .value := by unknown BinRef.ext

theorem MobRef.ext_unknown {d : RCtx} : ∀ t : Nat, t ∉ [1] → ∀ s bs,
    MobRef.ext d t s bs = .error .value := by unknown MobRef.ext

theorem Marker.ext_unknown {d : RCtx} : ∀ t : Nat, t ∉ [1] → ∀ s bs,
    Marker.ext d t s bs = .error .value := by unknown Marker.ext

theorem TrackerDataSlot.ext_unknown {d : RCtx} : ∀ t : Nat, t ∉ [1] → ∀ s bs,
    TrackerDataSlot.ext d t s bs = .error .value := by unknown TrackerDataSlot.ext

theorem TrackerData.ext_unknown {d : RCtx} : ∀ t : Nat, t ∉ [1, 2, 3, 4, 5, 6] → ∀ s bs,
    TrackerData.ext d t s bs = .error .value := by unknown TrackerData.ext

theorem MediaDescriptor.ext_unknown {d : RCtx} : ∀ t : Nat, t ∉ [1, 2, 3] → ∀ s bs,
    MediaDescriptor.ext d t s bs = .error .value := by unknown MediaDescriptor.ext

theorem AIFCDescriptor.ext_unknown {d : RCtx} : ∀ t : Nat, t ∉ [1] → ∀ s bs,
    AIFCDescriptor.ext d t s bs = .error .value := by unknown AIFCDescriptor.ext

theorem PCMADescriptor.ext_unknown {d : RCtx} : ∀ t : Nat, t ∉ [1, 3] → ∀ s bs,
    PCMADescriptor.ext d t s bs = .error .value := by unknown PCMADescriptor.ext

theorem MPGADescriptor.ext_unknown {d : RCtx} : ∀ t : Nat, t ∉ [1, 2] → ∀ s bs,
    MPGADescriptor.ext d t s bs = .error .value := by unknown MPGADescriptor.ext

theorem DIDDescriptor.ext_unknown {d : RCtx} : ∀ t : Nat, t ∉ [1, 2, 3, 4, 5, 6, 8, 9, 10, 11, 12, 14, 15] → ∀ s bs,
    DIDDescriptor.ext d t s bs = .error .value := by unknown DIDDescriptor.ext

theorem CDCIDescriptor.ext_unknown {d : RCtx} : ∀ t : Nat, t ∉ [1, 2] → ∀ s bs,
    CDCIDescriptor.ext d t s bs = .error .value := by unknown CDCIDescriptor.ext

theorem JPEGDescriptor.ext_unknown {d : RCtx} : ∀ t : Nat, t ∉ [1] → ∀ s bs,
    JPEGDescriptor.ext d t s bs = .error .value := by unknown JPEGDescriptor.ext

theorem RGBADescriptor.ext_unknown {d : RCtx} : ∀ t : Nat, t ∉ [1, 2, 3] → ∀ s bs,
    RGBADescriptor.ext d t s bs = .error .value := by unknown RGBADescriptor.ext

theorem BinViewSetting.ext_unknown {d : RCtx} : ∀ t : Nat, t ∉ [1] → ∀ s bs,
    BinViewSetting.ext d t s bs = .error .value := by unknown BinViewSetting.ext

/-- C11: the tags known in the extension area of each class; any other tag makes the read fail. -/
theorem C11_unknown (d : RCtx) :
    OnlyKnown (Component.ext d) [1] ∧
    OnlyKnown (SourceClip.ext d) [1] ∧
    OnlyKnown (ParamClip.ext d) [1, 2] ∧
    OnlyKnown (TrackGroup.ext d) [1] ∧
    OnlyKnown (TrackEffect.ext d) [2] ∧
    OnlyKnown (PanVolumeEffect.ext d) [1, 2] ∧
    OnlyKnown (AudioSuitePluginEffect.ext d) [1, 2, 3, 4, 5, 6, 8, 9] ∧
    OnlyKnown (MotionEffect.ext d) [1, 2, 3] ∧
    OnlyKnown (EssenceGroup.ext d) [1] ∧
    OnlyKnown (TransitionEffect.ext d) [1] ∧
    OnlyKnown (Composition.ext d) [1, 2] ∧
    OnlyKnown (FileLocator.ext d) [1, 2, 3] ∧
    OnlyKnown (ParameterItem.ext d) [1] ∧
    OnlyKnown (MSMLocator.ext d) [1, 2, 3] ∧
    OnlyKnown (Position.ext d) [1] ∧
    OnlyKnown (BinRef.ext d) [1] ∧
    OnlyKnown (MobRef.ext d) [1] ∧
    OnlyKnown (Marker.ext d) [1] ∧
    OnlyKnown (TrackerDataSlot.ext d) [1] ∧
    OnlyKnown (TrackerData.ext d) [1, 2, 3, 4, 5, 6] ∧
    OnlyKnown (MediaDescriptor.ext d) [1, 2, 3] ∧
    OnlyKnown (AIFCDescriptor.ext d) [1] ∧
    OnlyKnown (PCMADescriptor.ext d) [1, 3] ∧
    OnlyKnown (MPGADescriptor.ext d) [1, 2] ∧
    OnlyKnown (DIDDescriptor.ext d) [1, 2, 3, 4, 5, 6, 8, 9, 10, 11, 12, 14, 15] ∧
    OnlyKnown (CDCIDescriptor.ext d) [1, 2] ∧
    OnlyKnown (JPEGDescriptor.ext d) [1] ∧
    OnlyKnown (RGBADescriptor.ext d) [1, 2, 3] ∧
    OnlyKnown (BinViewSetting.ext d) [1] :=
  ⟨.of Component.ext_unknown,
   .of SourceClip.ext_unknown,
   .of ParamClip.ext_unknown,
   .of TrackGroup.ext_unknown,
   .of TrackEffect.ext_unknown,
   .of PanVolumeEffect.ext_unknown,
   .of AudioSuitePluginEffect.ext_unknown,
   .of MotionEffect.ext_unknown,
   .of EssenceGroup.ext_unknown,
   .of TransitionEffect.ext_unknown,
   .of Composition.ext_unknown,
   .of FileLocator.ext_unknown,
   .of ParameterItem.ext_unknown,
   .of MSMLocator.ext_unknown,
   .of Position.ext_unknown,
   .of BinRef.ext_unknown,
   .of MobRef.ext_unknown,
   .of Marker.ext_unknown,
   .of TrackerDataSlot.ext_unknown,
   .of TrackerData.ext_unknown,
   .of MediaDescriptor.ext_unknown,
   .of AIFCDescriptor.ext_unknown,
   .of PCMADescriptor.ext_unknown,
   .of MPGADescriptor.ext_unknown,
   .of DIDDescriptor.ext_unknown,
   .of CDCIDescriptor.ext_unknown,
   .of JPEGDescriptor.ext_unknown,
   .of RGBADescriptor.ext_unknown,
   .of BinViewSetting.ext_unknown⟩

/-- The extension tags defined for each class whose record ends with an extension area. -/
def finalTags : Cls → Option (List Nat)
  | .BVst => some [1]
  | .SCLP => some [1]
  | .PRCL => some [1, 2]
  | .TKFX => some [2]
  | .PVOL => some [1, 2]
  | .ASPI => some [1, 2, 3, 4, 5, 6, 8, 9]
  | .SPED => some [1, 2, 3]
  | .RSET => some [1]
  | .TNFX => some [1]
  | .CMPO => some [1, 2]
  | .FILE => some [1, 2, 3]
  | .WINF => some [1, 2, 3]
  | .PRIT => some [1]
  | .MSML => some [1, 2, 3]
  | .APOS => some [1]
  | .MCBR => some [1]
  | .MCMR => some [1]
  | .TMBC => some [1]
  | .TKDS => some [1]
  | .TKDA => some [1, 2, 3, 4, 5, 6]
  | .MDES => some [1, 2, 3]
  | .AIFC => some [1]
  | .PCMA => some [1, 3]
  | .MPGA => some [1, 2]
  | .DIDD => some [1, 2, 3, 4, 5, 6, 8, 9, 10, 11, 12, 14, 15]
  | .CDCI => some [1, 2]
  | .JPED => some [1]
  | .RGBA => some [1, 2, 3]
  | _ => none

/-- Walk through a record up to the extension area at its end. -/
macro "final" n:ident : tactic => `(tactic| repeat (first
  | exact FinalArea.close (AreaEnd.iterExt (fun _ _ => IsFirm.h) $n)
  | exact AreaEnd.iterExt (fun _ _ => IsFirm.h) $n
  | refine FinalArea.bind (by firm_prim) fun _ => ?_
  | refine AreaEnd.bind (by firm_prim) fun _ => ?_
  | refine FinalArea.bind_mono IsMono.h (fun _ _ => tag2_three) fun _ => ?_
  | refine AreaEnd.bind_mono IsMono.h (fun _ _ => tag2_three) fun _ => ?_
  | refine FinalArea.bind (by firm) fun _ => ?_
  | refine AreaEnd.bind (by firm) fun _ => ?_))

theorem readAs_final (d : RCtx) (k : Cls) (known : List Nat) (hk : finalTags k = some known) :
    FinalArea (Obj.readAs d k) known := by
  cases k <;> simp only [finalTags, reduceCtorEq, Option.some.injEq] at hk <;> subst hk
  case BVst => refine FinalArea.as (?_ : FinalArea (BinViewSetting.read d) _); unfold BinViewSetting.read; final BinViewSetting.ext_unknown
  case SCLP => refine FinalArea.as (?_ : FinalArea (SourceClip.read d) _); unfold SourceClip.read; final SourceClip.ext_unknown
  case PRCL => refine FinalArea.as (?_ : FinalArea (ParamClip.read d) _); unfold ParamClip.read; final ParamClip.ext_unknown
  case TKFX => refine FinalArea.as (FinalArea.close (?_ : AreaEnd (TrackEffect.readBody d) _)); unfold TrackEffect.readBody; final TrackEffect.ext_unknown
  case PVOL => refine FinalArea.as (?_ : FinalArea (PanVolumeEffect.read d) _); unfold PanVolumeEffect.read; final PanVolumeEffect.ext_unknown
  case ASPI => refine FinalArea.as (?_ : FinalArea (AudioSuitePluginEffect.read d) _); unfold AudioSuitePluginEffect.read; final AudioSuitePluginEffect.ext_unknown
  case SPED => refine FinalArea.as (?_ : FinalArea (MotionEffect.read d) _); unfold MotionEffect.read; final MotionEffect.ext_unknown
  case RSET => refine FinalArea.as (?_ : FinalArea (EssenceGroup.read d) _); unfold EssenceGroup.read; final EssenceGroup.ext_unknown
  case TNFX => refine FinalArea.as (?_ : FinalArea (TransitionEffect.read d) _); unfold TransitionEffect.read; final TransitionEffect.ext_unknown
  case CMPO => refine FinalArea.as (?_ : FinalArea (Composition.read d) _); unfold Composition.read; final Composition.ext_unknown
  case FILE => refine FinalArea.as (?_ : FinalArea (FileLocator.read d) _); unfold FileLocator.read; final FileLocator.ext_unknown
  case WINF => refine FinalArea.as (?_ : FinalArea (FileLocator.read d) _); unfold FileLocator.read; final FileLocator.ext_unknown
  case PRIT => refine FinalArea.as (?_ : FinalArea (ParameterItem.read d) _); unfold ParameterItem.read; final ParameterItem.ext_unknown
  case MSML => refine FinalArea.as (?_ : FinalArea (MSMLocator.read d) _); unfold MSMLocator.read; final MSMLocator.ext_unknown
  case APOS => refine FinalArea.as (FinalArea.close (?_ : AreaEnd (Position.readBody d) _)); unfold Position.readBody; final Position.ext_unknown
  case MCBR => refine FinalArea.as (?_ : FinalArea (BinRef.read d) _); unfold BinRef.read; final BinRef.ext_unknown
  case MCMR => refine FinalArea.as (FinalArea.close (?_ : AreaEnd (MobRef.readBody d) _)); unfold MobRef.readBody; final MobRef.ext_unknown
  case TMBC => refine FinalArea.as (?_ : FinalArea (Marker.read d) _); unfold Marker.read; final Marker.ext_unknown
  case TKDS => refine FinalArea.as (?_ : FinalArea (TrackerDataSlot.read d) _); unfold TrackerDataSlot.read; final TrackerDataSlot.ext_unknown
  case TKDA => refine FinalArea.as (?_ : FinalArea (TrackerData.read d) _); unfold TrackerData.read; final TrackerData.ext_unknown
  case MDES => refine FinalArea.as (FinalArea.close (?_ : AreaEnd (MediaDescriptor.readBody d) _)); unfold MediaDescriptor.readBody; final MediaDescriptor.ext_unknown
  case AIFC => refine FinalArea.as (?_ : FinalArea (AIFCDescriptor.read d) _); unfold AIFCDescriptor.read; final AIFCDescriptor.ext_unknown
  case PCMA => refine FinalArea.as (?_ : FinalArea (PCMADescriptor.read d) _); unfold PCMADescriptor.read; final PCMADescriptor.ext_unknown
  case MPGA => refine FinalArea.as (?_ : FinalArea (MPGADescriptor.read d) _); unfold MPGADescriptor.read; final MPGADescriptor.ext_unknown
  case DIDD => refine FinalArea.as (FinalArea.close (?_ : AreaEnd (DIDDescriptor.readBody d) _)); unfold DIDDescriptor.readBody; final DIDDescriptor.ext_unknown
  case CDCI => refine FinalArea.as (FinalArea.close (?_ : AreaEnd (CDCIDescriptor.readBody d) _)); unfold CDCIDescriptor.readBody; final CDCIDescriptor.ext_unknown
  case JPED => refine FinalArea.as (?_ : FinalArea (JPEGDescriptor.read d) _); unfold JPEGDescriptor.read; final JPEGDescriptor.ext_unknown
  case RGBA => refine FinalArea.as (?_ : FinalArea (RGBADescriptor.read d) _); unfold RGBADescriptor.read; final RGBADescriptor.ext_unknown

/-- C11: take any chunk a class accepts, and put an unknown extension item, with anything behind it, in
the place of the closing 0x03: the chunk is refused. -/
theorem C11_chunk {d : RCtx} {k : Cls} {known : List Nat} (hk : finalTags k = some known) {p : Bytes}
    {o : Obj} (h : Obj.readAs d k (p ++ [3]) = .ok (o, [])) {tag : UInt8} (ht : tag.toNat ∉ known)
    (junk : Bytes) : Obj.readAs d k (p ++ 0x01 :: tag :: junk) = .error .value :=
  (readAs_final d k known hk).out p o h tag ht junk

/-- The clip of the example with extension 7 in place of its end. -/
example (bo : BO) (junk : Bytes) : ∃ p o, Obj.readAs (exRead bo 4) .SCLP (p ++ [3]) = .ok (o, []) ∧
    Obj.readAs (exRead bo 4) .SCLP (p ++ 0x01 :: 7 :: junk) = .error .value := by
  obtain ⟨bs, hw⟩ := exClip2_write bo
  have h := C06_read_back (ex_linked bo (by decide)) exClip2_readable hw []
  have hl := C10_closes (by decide) (by decide) hw
  rw [List.append_nil] at h
  obtain ⟨p, rfl⟩ : ∃ p, bs = p ++ [3] := by
    cases hb : bs.getLast? with
    | none => rw [hb] at hl; cases hl
    | some x =>
      rw [hb] at hl
      injection hl with hl
      subst hl
      exact List.getLast?_eq_some_iff.1 hb
  exact ⟨p, _, h, C11_chunk (known := [1]) rfl h (by decide) junk⟩

end Avb
