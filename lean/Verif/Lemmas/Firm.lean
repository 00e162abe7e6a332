import Verif.Lemmas.MonoAll

/-
Readers that do not look at the byte at which they stop, and what records with an extension area at
their end do with an unknown item in it.
-/

namespace Avb

/-- The reader only moves forward, and when it stops before the end of the data, what it did depends
only on the bytes it passed. -/
def Firm {α : Type} (r : Rd α) : Prop :=
  ∀ bs v rest, r bs = .ok (v, rest) →
    ∃ p, bs = p ++ rest ∧ (rest ≠ [] → ∀ e : Bytes, e ≠ [] → r (p ++ e) = .ok (v, e))

variable {α β σ : Type}

theorem Strict.firm {r : Rd α} (h : Strict r) : Firm r := fun bs v rest hr =>
  let ⟨p, _, h1, h2⟩ := h bs v rest hr
  ⟨p, h1, fun _ e _ => h2 e⟩

theorem Firm.pure {v : α} : Firm (pure v : Rd α) := by
  intro bs v rest h
  cases h
  exact ⟨[], rfl, fun _ _ _ => rfl⟩

theorem Firm.fail {e : Err} : Firm (Rd.fail e : Rd α) := by
  intro bs v rest h; cases h

theorem Firm.guard {c : Prop} [Decidable c] {e : Err} : Firm (Rd.guard c e) := by
  intro bs v rest h
  unfold Rd.guard at h
  split at h
  · rename_i hc
    cases h
    exact ⟨[], rfl, fun _ _ _ => by simp [Rd.guard, hc]⟩
  · cases h

theorem Firm.bind {r : Rd α} {k : α → Rd β} (h1 : Firm r) (h2 : ∀ a, Firm (k a)) :
    Firm (r >>= k) := by
  intro bs v rest h
  obtain ⟨a, mid, e1, e2⟩ := Rd.bind_eq_ok' h
  obtain ⟨p1, rfl, m1⟩ := h1 _ _ _ e1
  obtain ⟨p2, rfl, m2⟩ := h2 _ _ _ _ e2
  refine ⟨p1 ++ p2, by simp, fun hne e he => ?_⟩
  rw [List.append_assoc, Rd.bind_ok (m1 (by simp [hne]) _ (by simp [he]))]
  exact m2 hne e he

theorem Firm.int {bo : BO} {t : IntTy} : Firm (rInt bo t) := Strict.int.firm

theorem Firm.fread {n : Int} : Firm (fread n) := by
  intro bs v rest h
  obtain ⟨p, hp, hm⟩ := Mono.fread bs v rest h
  refine ⟨p, hp, fun hne e he => ?_⟩
  have h1 := hm hne _ rfl
  subst hp
  unfold Avb.fread at h1 ⊢
  split
  · rename_i hn
    rw [if_pos hn] at h1
    simp only [Except.ok.injEq, Prod.mk.injEq] at h1
    exact absurd h1.2.symm hne
  · rename_i hn
    rw [if_neg hn] at h1
    simp only [Except.ok.injEq, Prod.mk.injEq] at h1
    obtain ⟨h2, h3⟩ := h1
    have hl : n.toNat = p.length := by
      have := congrArg List.length h3
      have h0 := List.length_pos_iff.2 hne
      simp at this
      omega
    rw [hl] at h2 ⊢
    simp at h2 ⊢
    exact h2

theorem Firm.readN {r : Rd α} (n : Nat) (h : Firm r) : Firm (readN n r) := by
  induction n with
  | zero => exact Firm.pure
  | succ n ih => exact Firm.bind h fun _ => Firm.bind ih fun _ => Firm.pure

theorem Firm.opt {c : Bool} {r : Rd α} (h : Firm r) : Firm (Rd.opt c r) := by
  unfold Rd.opt
  split
  · exact Firm.bind h fun _ => Firm.pure
  · exact Firm.pure

theorem Firm.ofOption {o : Option α} {e : Err} : Firm (Rd.ofOption o e) := by
  cases o
  · exact Firm.fail
  · exact Firm.pure

theorem Firm.ite {c : Prop} [Decidable c] {r1 r2 : Rd α} (h1 : Firm r1) (h2 : Firm r2) :
    Firm (if c then r1 else r2) := by
  split
  · exact h1
  · exact h2

/-- Readers already treated, found by instance search. -/
class IsFirm {α : Type} (r : Rd α) : Prop where
  h : Firm r

/-- Close goals about the readers of fields and of parts already treated. -/
macro "firm_prim" : tactic => `(tactic| with_reducible first
  | exact Firm.pure
  | exact Firm.int
  | exact Firm.fail
  | exact Firm.guard
  | exact Firm.fread
  | exact Strict.tag.firm
  | exact Firm.ofOption
  | exact IsFirm.h
  | assumption)

/-- Walk through a reader. -/
macro "firm" : tactic => `(tactic| repeat' with_reducible first
  | firm_prim
  | refine Firm.bind ?_ fun _ => ?_
  | refine Firm.readN _ ?_
  | refine Firm.opt ?_
  | refine Firm.ite ?_ ?_
  | split)

theorem rBool_firm  : Firm (rBool) := by
  unfold rBool; firm

instance  : IsFirm (rBool) := ⟨rBool_firm⟩

theorem rStr_firm {bo : BO} {e : Enc} : Firm (rStr bo e) := by
  unfold rStr; firm

instance {bo : BO} {e : Enc} : IsFirm (rStr bo e) := ⟨rStr_firm⟩

theorem rRate_firm {bo : BO} : Firm (rRate bo) := by
  unfold rRate; firm

instance {bo : BO} : IsFirm (rRate bo) := ⟨rRate_firm⟩

theorem rRef_firm {c : RCtx} : Firm (rRef c) := by
  unfold rRef; firm

instance {c : RCtx} : IsFirm (rRef c) := ⟨rRef_firm⟩

theorem rDouble_firm  : Firm (rDouble) := by
  unfold rDouble; firm

instance  : IsFirm (rDouble) := ⟨rDouble_firm⟩

theorem rUuid_firm {bo : BO} : Firm (rUuid bo) := by
  unfold rUuid; firm

instance {bo : BO} : IsFirm (rUuid bo) := ⟨rUuid_firm⟩

theorem rRawUuid_firm {bo : BO} : Firm (rRawUuid bo) := by
  unfold rRawUuid; firm

instance {bo : BO} : IsFirm (rRawUuid bo) := ⟨rRawUuid_firm⟩

theorem rByte_firm  : Firm (rByte) := by
  unfold rByte; firm

instance  : IsFirm (rByte) := ⟨rByte_firm⟩

theorem rMobId_firm {bo : BO} : Firm (rMobId bo) := by
  unfold rMobId; firm

instance {bo : BO} : IsFirm (rMobId bo) := ⟨rMobId_firm⟩

theorem rDate_firm {bo : BO} : Firm (rDate bo) := by
  unfold rDate; firm

instance {bo : BO} : IsFirm (rDate bo) := ⟨rDate_firm⟩

theorem rRect_firm {bo : BO} : Firm (rRect bo) := by
  unfold rRect; firm

instance {bo : BO} : IsFirm (rRect bo) := ⟨rRect_firm⟩

theorem rRgb_firm {bo : BO} : Firm (rRgb bo) := by
  unfold rRgb; firm

instance {bo : BO} : IsFirm (rRgb bo) := ⟨rRgb_firm⟩

theorem rFourcc_firm {bo : BO} : Firm (rFourcc bo) := by
  unfold rFourcc; firm

instance {bo : BO} : IsFirm (rFourcc bo) := ⟨rFourcc_firm⟩

theorem Component.ext_firm {d : RCtx} {tag : Int} {s : Component} : Firm (Component.ext d tag s) := by
  unfold Component.ext; firm

instance {d : RCtx} {tag : Int} {s : Component} : IsFirm (Component.ext d tag s) := ⟨Component.ext_firm⟩

theorem SourceClip.ext_firm {d : RCtx} {tag : Int} {s : SourceClip} : Firm (SourceClip.ext d tag s) := by
  unfold SourceClip.ext; firm

instance {d : RCtx} {tag : Int} {s : SourceClip} : IsFirm (SourceClip.ext d tag s) := ⟨SourceClip.ext_firm⟩

theorem PCPProp.readValue_firm {d : RCtx} {type : Int} : Firm (PCPProp.readValue d type) := by
  unfold PCPProp.readValue; firm

instance {d : RCtx} {type : Int} : IsFirm (PCPProp.readValue d type) := ⟨PCPProp.readValue_firm⟩

theorem PCPProp.read_firm {d : RCtx} : Firm (PCPProp.read d) := by
  unfold PCPProp.read; firm

instance {d : RCtx} : IsFirm (PCPProp.read d) := ⟨PCPProp.read_firm⟩

theorem PCP.readValue_firm {d : RCtx} {value_type : Int} : Firm (PCP.readValue d value_type) := by
  unfold PCP.readValue; firm

instance {d : RCtx} {value_type : Int} : IsFirm (PCP.readValue d value_type) := ⟨PCP.readValue_firm⟩

theorem PCP.read_firm {d : RCtx} {value_type : Int} : Firm (PCP.read d value_type) := by
  unfold PCP.read; firm

instance {d : RCtx} {value_type : Int} : IsFirm (PCP.read d value_type) := ⟨PCP.read_firm⟩

theorem ParamClip.ext_firm {d : RCtx} {tag : Int} {s : ParamClip} : Firm (ParamClip.ext d tag s) := by
  unfold ParamClip.ext; firm

instance {d : RCtx} {tag : Int} {s : ParamClip} : IsFirm (ParamClip.ext d tag s) := ⟨ParamClip.ext_firm⟩

theorem CPProp.read_firm {d : RCtx} : Firm (CPProp.read d) := by
  unfold CPProp.read; firm

instance {d : RCtx} : IsFirm (CPProp.read d) := ⟨CPProp.read_firm⟩

theorem CP.read_firm {d : RCtx} : Firm (CP.read d) := by
  unfold CP.read; firm

instance {d : RCtx} : IsFirm (CP.read d) := ⟨CP.read_firm⟩

theorem Track.read_firm {d : RCtx} : Firm (Track.read d) := by
  unfold Track.read; firm

instance {d : RCtx} : IsFirm (Track.read d) := ⟨Track.read_firm⟩

theorem rLock_firm {d : RCtx} : Firm (rLock d) := by
  unfold rLock; firm

instance {d : RCtx} : IsFirm (rLock d) := ⟨rLock_firm⟩

theorem TrackGroup.ext_firm {d : RCtx} {tag : Int} {s : TrackGroup} : Firm (TrackGroup.ext d tag s) := by
  unfold TrackGroup.ext; firm

instance {d : RCtx} {tag : Int} {s : TrackGroup} : IsFirm (TrackGroup.ext d tag s) := ⟨TrackGroup.ext_firm⟩

theorem TrackEffect.ext_firm {d : RCtx} {tag : Int} {s : TrackEffect} : Firm (TrackEffect.ext d tag s) := by
  unfold TrackEffect.ext; firm

instance {d : RCtx} {tag : Int} {s : TrackEffect} : IsFirm (TrackEffect.ext d tag s) := ⟨TrackEffect.ext_firm⟩

theorem PanVolumeEffect.ext_firm {d : RCtx} {tag : Int} {s : PanVolumeEffect} : Firm (PanVolumeEffect.ext d tag s) := by
  unfold PanVolumeEffect.ext; firm

instance {d : RCtx} {tag : Int} {s : PanVolumeEffect} : IsFirm (PanVolumeEffect.ext d tag s) := ⟨PanVolumeEffect.ext_firm⟩

theorem ASPIPluginChunk.read_firm {d : RCtx} : Firm (ASPIPluginChunk.read d) := by
  unfold ASPIPluginChunk.read; firm

instance {d : RCtx} : IsFirm (ASPIPluginChunk.read d) := ⟨ASPIPluginChunk.read_firm⟩

theorem ASPIPlugin.read_firm {d : RCtx} : Firm (ASPIPlugin.read d) := by
  unfold ASPIPlugin.read; firm

instance {d : RCtx} : IsFirm (ASPIPlugin.read d) := ⟨ASPIPlugin.read_firm⟩

theorem rPresetPath_firm {d : RCtx} : Firm (rPresetPath d) := by
  unfold rPresetPath; firm

instance {d : RCtx} : IsFirm (rPresetPath d) := ⟨rPresetPath_firm⟩

theorem AudioSuitePluginEffect.ext_firm {d : RCtx} {tag : Int} {s : AudioSuitePluginEffect} : Firm (AudioSuitePluginEffect.ext d tag s) := by
  unfold AudioSuitePluginEffect.ext; firm

instance {d : RCtx} {tag : Int} {s : AudioSuitePluginEffect} : IsFirm (AudioSuitePluginEffect.ext d tag s) := ⟨AudioSuitePluginEffect.ext_firm⟩

theorem EqualizerBand.read_firm {d : RCtx} : Firm (EqualizerBand.read d) := by
  unfold EqualizerBand.read; firm

instance {d : RCtx} : IsFirm (EqualizerBand.read d) := ⟨EqualizerBand.read_firm⟩

theorem MotionEffect.ext_firm {d : RCtx} {tag : Int} {s : MotionEffect} : Firm (MotionEffect.ext d tag s) := by
  unfold MotionEffect.ext; firm

instance {d : RCtx} {tag : Int} {s : MotionEffect} : IsFirm (MotionEffect.ext d tag s) := ⟨MotionEffect.ext_firm⟩

theorem EssenceGroup.ext_firm {d : RCtx} {tag : Int} {s : EssenceGroup} : Firm (EssenceGroup.ext d tag s) := by
  unfold EssenceGroup.ext; firm

instance {d : RCtx} {tag : Int} {s : EssenceGroup} : IsFirm (EssenceGroup.ext d tag s) := ⟨EssenceGroup.ext_firm⟩

theorem TransitionEffect.ext_firm {d : RCtx} {tag : Int} {s : TransitionEffect} : Firm (TransitionEffect.ext d tag s) := by
  unfold TransitionEffect.ext; firm

instance {d : RCtx} {tag : Int} {s : TransitionEffect} : IsFirm (TransitionEffect.ext d tag s) := ⟨TransitionEffect.ext_firm⟩

theorem Composition.ext_firm {d : RCtx} {tag : Int} {s : Composition} : Firm (Composition.ext d tag s) := by
  unfold Composition.ext; firm

instance {d : RCtx} {tag : Int} {s : Composition} : IsFirm (Composition.ext d tag s) := ⟨Composition.ext_firm⟩

theorem FileLocator.ext_firm {d : RCtx} {tag : Int} {s : FileLocator} : Firm (FileLocator.ext d tag s) := by
  unfold FileLocator.ext; firm

instance {d : RCtx} {tag : Int} {s : FileLocator} : IsFirm (FileLocator.ext d tag s) := ⟨FileLocator.ext_firm⟩

theorem URLLocator.read_firm {_d : RCtx} : Firm (URLLocator.read _d) := by
  unfold URLLocator.read; firm

instance {_d : RCtx} : IsFirm (URLLocator.read _d) := ⟨URLLocator.read_firm⟩

theorem GraphicEffect.read_firm {d : RCtx} : Firm (GraphicEffect.read d) := by
  unfold GraphicEffect.read; firm

instance {d : RCtx} : IsFirm (GraphicEffect.read d) := ⟨GraphicEffect.read_firm⟩

theorem ShapeList.read_firm {d : RCtx} : Firm (ShapeList.read d) := by
  unfold ShapeList.read; firm

instance {d : RCtx} : IsFirm (ShapeList.read d) := ⟨ShapeList.read_firm⟩

theorem ColorCorrectionEffect.read_firm {d : RCtx} : Firm (ColorCorrectionEffect.read d) := by
  unfold ColorCorrectionEffect.read; firm

instance {d : RCtx} : IsFirm (ColorCorrectionEffect.read d) := ⟨ColorCorrectionEffect.read_firm⟩

theorem EffectParam.read_firm {d : RCtx} : Firm (EffectParam.read d) := by
  unfold EffectParam.read; firm

instance {d : RCtx} : IsFirm (EffectParam.read d) := ⟨EffectParam.read_firm⟩

theorem EffectParamList.read_firm {d : RCtx} : Firm (EffectParamList.read d) := by
  unfold EffectParamList.read; firm

instance {d : RCtx} : IsFirm (EffectParamList.read d) := ⟨EffectParamList.read_firm⟩

theorem CFUserParam.read_firm {d : RCtx} : Firm (CFUserParam.read d) := by
  unfold CFUserParam.read; firm

instance {d : RCtx} : IsFirm (CFUserParam.read d) := ⟨CFUserParam.read_firm⟩

theorem ParameterItem.readValue_firm {d : RCtx} {value_type : Int} : Firm (ParameterItem.readValue d value_type) := by
  unfold ParameterItem.readValue; firm

instance {d : RCtx} {value_type : Int} : IsFirm (ParameterItem.readValue d value_type) := ⟨ParameterItem.readValue_firm⟩

theorem ParameterItem.ext_firm {_d : RCtx} {tag : Int} {s : ParameterItem} : Firm (ParameterItem.ext _d tag s) := by
  unfold ParameterItem.ext; firm

instance {_d : RCtx} {tag : Int} {s : ParameterItem} : IsFirm (ParameterItem.ext _d tag s) := ⟨ParameterItem.ext_firm⟩

theorem MSMLocator.ext_firm {d : RCtx} {tag : Int} {s : MSMLocator} : Firm (MSMLocator.ext d tag s) := by
  unfold MSMLocator.ext; firm

instance {d : RCtx} {tag : Int} {s : MSMLocator} : IsFirm (MSMLocator.ext d tag s) := ⟨MSMLocator.ext_firm⟩

theorem Position.ext_firm {d : RCtx} {tag : Int} {s : Position} : Firm (Position.ext d tag s) := by
  unfold Position.ext; firm

instance {d : RCtx} {tag : Int} {s : Position} : IsFirm (Position.ext d tag s) := ⟨Position.ext_firm⟩

theorem MPGPosition.readField_firm {d : RCtx} : Firm (MPGPosition.readField d) := by
  unfold MPGPosition.readField; firm

instance {d : RCtx} : IsFirm (MPGPosition.readField d) := ⟨MPGPosition.readField_firm⟩

theorem MPGPosition.readFields_firm {d : RCtx} : Firm (MPGPosition.readFields d) := by
  unfold MPGPosition.readFields; firm

instance {d : RCtx} : IsFirm (MPGPosition.readFields d) := ⟨MPGPosition.readFields_firm⟩

theorem BinRef.ext_firm {d : RCtx} {tag : Int} {s : BinRef} : Firm (BinRef.ext d tag s) := by
  unfold BinRef.ext; firm

instance {d : RCtx} {tag : Int} {s : BinRef} : IsFirm (BinRef.ext d tag s) := ⟨BinRef.ext_firm⟩

theorem MobRef.ext_firm {d : RCtx} {tag : Int} {s : MobRef} : Firm (MobRef.ext d tag s) := by
  unfold MobRef.ext; firm

instance {d : RCtx} {tag : Int} {s : MobRef} : IsFirm (MobRef.ext d tag s) := ⟨MobRef.ext_firm⟩

theorem Marker.ext_firm {_d : RCtx} {tag : Int} {s : Marker} : Firm (Marker.ext _d tag s) := by
  unfold Marker.ext; firm

instance {_d : RCtx} {tag : Int} {s : Marker} : IsFirm (Marker.ext _d tag s) := ⟨Marker.ext_firm⟩

theorem TrackerManager.read_firm {d : RCtx} : Firm (TrackerManager.read d) := by
  unfold TrackerManager.read; firm

instance {d : RCtx} : IsFirm (TrackerManager.read d) := ⟨TrackerManager.read_firm⟩

theorem TrackerDataSlot.ext_firm {_d : RCtx} {tag : Int} {s : TrackerDataSlot} : Firm (TrackerDataSlot.ext _d tag s) := by
  unfold TrackerDataSlot.ext; firm

instance {_d : RCtx} {tag : Int} {s : TrackerDataSlot} : IsFirm (TrackerDataSlot.ext _d tag s) := ⟨TrackerDataSlot.ext_firm⟩

theorem TrackerParameterSlot.read_firm {d : RCtx} : Firm (TrackerParameterSlot.read d) := by
  unfold TrackerParameterSlot.read; firm

instance {d : RCtx} : IsFirm (TrackerParameterSlot.read d) := ⟨TrackerParameterSlot.read_firm⟩

theorem TrackerData.ext_firm {d : RCtx} {tag : Int} {s : TrackerData} : Firm (TrackerData.ext d tag s) := by
  unfold TrackerData.ext; firm

instance {d : RCtx} {tag : Int} {s : TrackerData} : IsFirm (TrackerData.ext d tag s) := ⟨TrackerData.ext_firm⟩

theorem TrackerParameter.read_firm {d : RCtx} : Firm (TrackerParameter.read d) := by
  unfold TrackerParameter.read; firm

instance {d : RCtx} : IsFirm (TrackerParameter.read d) := ⟨TrackerParameter.read_firm⟩

theorem MediaDescriptor.ext_firm {d : RCtx} {tag : Int} {s : MediaDescriptor} : Firm (MediaDescriptor.ext d tag s) := by
  unfold MediaDescriptor.ext; firm

instance {d : RCtx} {tag : Int} {s : MediaDescriptor} : IsFirm (MediaDescriptor.ext d tag s) := ⟨MediaDescriptor.ext_firm⟩

theorem AIFCDescriptor.ext_firm {d : RCtx} {tag : Int} {s : AIFCDescriptor} : Firm (AIFCDescriptor.ext d tag s) := by
  unfold AIFCDescriptor.ext; firm

instance {d : RCtx} {tag : Int} {s : AIFCDescriptor} : IsFirm (AIFCDescriptor.ext d tag s) := ⟨AIFCDescriptor.ext_firm⟩

theorem PCMADescriptor.ext_firm {d : RCtx} {tag : Int} {s : PCMADescriptor} : Firm (PCMADescriptor.ext d tag s) := by
  unfold PCMADescriptor.ext; firm

instance {d : RCtx} {tag : Int} {s : PCMADescriptor} : IsFirm (PCMADescriptor.ext d tag s) := ⟨PCMADescriptor.ext_firm⟩

theorem MPGADescriptor.ext_firm {d : RCtx} {tag : Int} {s : MPGADescriptor} : Firm (MPGADescriptor.ext d tag s) := by
  unfold MPGADescriptor.ext; firm

instance {d : RCtx} {tag : Int} {s : MPGADescriptor} : IsFirm (MPGADescriptor.ext d tag s) := ⟨MPGADescriptor.ext_firm⟩

theorem rPoint_firm {d : RCtx} : Firm (rPoint d) := by
  unfold rPoint; firm

instance {d : RCtx} : IsFirm (rPoint d) := ⟨rPoint_firm⟩

theorem rBox_firm {d : RCtx} : Firm (rBox d) := by
  unfold rBox; firm

instance {d : RCtx} : IsFirm (rBox d) := ⟨rBox_firm⟩

theorem DIDDescriptor.ext_firm {d : RCtx} {tag : Int} {s : DIDDescriptor} : Firm (DIDDescriptor.ext d tag s) := by
  unfold DIDDescriptor.ext; firm

instance {d : RCtx} {tag : Int} {s : DIDDescriptor} : IsFirm (DIDDescriptor.ext d tag s) := ⟨DIDDescriptor.ext_firm⟩

theorem CDCIDescriptor.ext_firm {d : RCtx} {tag : Int} {s : CDCIDescriptor} : Firm (CDCIDescriptor.ext d tag s) := by
  unfold CDCIDescriptor.ext; firm

instance {d : RCtx} {tag : Int} {s : CDCIDescriptor} : IsFirm (CDCIDescriptor.ext d tag s) := ⟨CDCIDescriptor.ext_firm⟩

theorem JPEGDescriptor.ext_firm {d : RCtx} {tag : Int} {s : JPEGDescriptor} : Firm (JPEGDescriptor.ext d tag s) := by
  unfold JPEGDescriptor.ext; firm

instance {d : RCtx} {tag : Int} {s : JPEGDescriptor} : IsFirm (JPEGDescriptor.ext d tag s) := ⟨JPEGDescriptor.ext_firm⟩

theorem RGBADescriptor.ext_firm {d : RCtx} {tag : Int} {s : RGBADescriptor} : Firm (RGBADescriptor.ext d tag s) := by
  unfold RGBADescriptor.ext; firm

instance {d : RCtx} {tag : Int} {s : RGBADescriptor} : IsFirm (RGBADescriptor.ext d tag s) := ⟨RGBADescriptor.ext_firm⟩

theorem Attributes.readItem_firm {d : RCtx} : Firm (Attributes.readItem d) := by
  unfold Attributes.readItem; firm

instance {d : RCtx} : IsFirm (Attributes.readItem d) := ⟨Attributes.readItem_firm⟩

theorem Attributes.read_firm {d : RCtx} : Firm (Attributes.read d) := by
  unfold Attributes.read; firm

instance {d : RCtx} : IsFirm (Attributes.read d) := ⟨Attributes.read_firm⟩

theorem ParameterList.read_firm {d : RCtx} : Firm (ParameterList.read d) := by
  unfold ParameterList.read; firm

instance {d : RCtx} : IsFirm (ParameterList.read d) := ⟨ParameterList.read_firm⟩

theorem TimeCrumbList.read_firm {d : RCtx} : Firm (TimeCrumbList.read d) := by
  unfold TimeCrumbList.read; firm

instance {d : RCtx} : IsFirm (TimeCrumbList.read d) := ⟨TimeCrumbList.read_firm⟩

theorem Setting.read_firm {d : RCtx} : Firm (Setting.read d) := by
  unfold Setting.read; firm

instance {d : RCtx} : IsFirm (Setting.read d) := ⟨Setting.read_firm⟩

theorem BinColumn.read_firm {d : RCtx} : Firm (BinColumn.read d) := by
  unfold BinColumn.read; firm

instance {d : RCtx} : IsFirm (BinColumn.read d) := ⟨BinColumn.read_firm⟩

theorem FormatDescriptor.read_firm {d : RCtx} : Firm (FormatDescriptor.read d) := by
  unfold FormatDescriptor.read; firm

instance {d : RCtx} : IsFirm (FormatDescriptor.read d) := ⟨FormatDescriptor.read_firm⟩

theorem BinViewSetting.ext_firm {d : RCtx} {tag : Int} {s : BinViewSetting} : Firm (BinViewSetting.ext d tag s) := by
  unfold BinViewSetting.ext; firm

instance {d : RCtx} {tag : Int} {s : BinViewSetting} : IsFirm (BinViewSetting.ext d tag s) := ⟨BinViewSetting.ext_firm⟩

theorem BinItem.read_firm {d : RCtx} : Firm (BinItem.read d) := by
  unfold BinItem.read; firm

instance {d : RCtx} : IsFirm (BinItem.read d) := ⟨BinItem.read_firm⟩

theorem SiftItem.read_firm {d : RCtx} : Firm (SiftItem.read d) := by
  unfold SiftItem.read; firm

instance {d : RCtx} : IsFirm (SiftItem.read d) := ⟨SiftItem.read_firm⟩

theorem rSortColumn_firm {d : RCtx} : Firm (rSortColumn d) := by
  unfold rSortColumn; firm

instance {d : RCtx} : IsFirm (rSortColumn d) := ⟨rSortColumn_firm⟩

theorem Bin.readCount_firm {d : RCtx} {version : Int} : Firm (Bin.readCount d version) := by
  unfold Bin.readCount; firm

instance {d : RCtx} {version : Int} : IsFirm (Bin.readCount d version) := ⟨Bin.readCount_firm⟩

theorem Bin.readBody_firm {d : RCtx} : Firm (Bin.readBody d) := by
  unfold Bin.readBody; firm

instance {d : RCtx} : IsFirm (Bin.readBody d) := ⟨Bin.readBody_firm⟩

theorem Bin.read_firm {d : RCtx} : Firm (Bin.read d) := by
  unfold Bin.read; firm

instance {d : RCtx} : IsFirm (Bin.read d) := ⟨Bin.read_firm⟩

theorem BinFirst.read_firm {d : RCtx} : Firm (BinFirst.read d) := by
  unfold BinFirst.read; firm

instance {d : RCtx} : IsFirm (BinFirst.read d) := ⟨BinFirst.read_firm⟩

/-! ### Extension areas at the end of a record -/

/-- A list ending in a byte, split in two with a non-empty second part. -/
theorem split_last {p a b : Bytes} {x : UInt8} (h : p ++ [x] = a ++ b) (hb : b ≠ []) :
    ∃ q, b = q ++ [x] ∧ p = a ++ q := by
  rcases List.append_eq_append_iff.1 h with ⟨c, h1, h2⟩ | ⟨c, h1, h2⟩
  · cases c with
    | nil =>
      simp only [List.nil_append, List.append_nil] at h1 h2
      exact ⟨[], h2.symm, by simp [h1]⟩
    | cons y c =>
      simp only [List.cons_append, List.cons.injEq] at h2
      have h3 := List.append_eq_nil_iff.1 h2.2.symm
      exact absurd h3.2 hb
  · exact ⟨c, h2, h1⟩

/-- The reader ends with an extension area that knows only the tags `known`: if it stops at the closing
0x03, then with an unknown item in place of the 0x03 it fails. -/
structure AreaEnd (r : Rd α) (known : List Nat) : Prop where
  mono : Mono r
  out : ∀ p v, r (p ++ [3]) = .ok (v, [3]) → ∀ tag : UInt8, tag.toNat ∉ known → ∀ junk,
    r (p ++ 1 :: tag :: junk) = .error .value

/-- The same when the closing 0x03 is read too. -/
structure FinalArea (r : Rd α) (known : List Nat) : Prop where
  strict : Strict r
  out : ∀ p v, r (p ++ [3]) = .ok (v, []) → ∀ tag : UInt8, tag.toNat ∉ known → ∀ junk,
    r (p ++ 1 :: tag :: junk) = .error .value

theorem Rd.bind_err {r : Rd α} {k : α → Rd β} {bs : Bytes} {e : Err} (h : r bs = .error e) :
    (r >>= k) bs = .error e := by
  rw [Rd.bind_apply, h]

theorem iterExt_area {body : Int → σ → Rd σ} {known : List Nat} (hf : ∀ t s, Firm (body t s))
    (hk : ∀ t : Nat, t ∉ known → ∀ s bs, body t s bs = .error .value) (s : σ) :
    ∀ p v, iterExt body s (p ++ [3]) = .ok (v, [3]) → ∀ tag : UInt8, tag.toNat ∉ known → ∀ junk,
      iterExt body s (p ++ 1 :: tag :: junk) = .error .value := by
  have hm : ∀ s, Mono (iterExt body s) := Mono.iterExt fun t s => by
    intro bs v rest h
    obtain ⟨p, h1, h2⟩ := hf t s bs v rest h
    exact ⟨p, h1, fun hne e he => h2 hne e (by rintro rfl; cases rest <;> simp_all)⟩
  intro p
  induction hn : p.length using Nat.strongRecOn generalizing p s with
  | _ n ih =>
  intro v h tag ht junk
  match p, hn, h with
  | [], _, _ =>
    unfold iterExt
    simp [hk _ ht]
  | b :: p1, hn, h =>
    rw [List.cons_append] at h ⊢
    unfold Avb.iterExt at h
    by_cases hb : b ≠ 1
    · rw [if_pos hb] at h
      simp at h
    · rw [if_neg hb] at h
      have hb1 : b = 1 := by simpa using hb
      subst hb1
      match p1, hn, h with
      | [], _, h =>
        simp only [List.nil_append] at h
        match hbody : body (3 : UInt8).toNat s [], h with
        | .error e, h => simp at h
        | .ok (s', rest'), h =>
          obtain ⟨q, hq, _⟩ := hf _ _ _ _ _ hbody
          have : rest' = [] := (by simpa using hq : q = [] ∧ rest' = []).2
          subst this
          simp [iterExt] at h
      | t :: p2, hn, h =>
        simp only [List.cons_append] at h ⊢
        match hbody : body t.toNat s (p2 ++ [3]), h with
        | .error e, h => simp at h
        | .ok (s', rest'), h =>
          dsimp only at h
          split at h
          · obtain ⟨a, ha, hfa⟩ := hf _ _ _ _ _ hbody
            obtain ⟨c, hc, _⟩ := hm _ _ _ _ h
            have hne : rest' ≠ [] := by rw [hc]; simp
            obtain ⟨q, hq, hp2⟩ := split_last ha hne
            subst hq
            have hstep := hfa hne (q ++ 1 :: tag :: junk) (by simp)
            rw [hp2, List.append_assoc, iterExt_step hstep (by simp)]
            refine ih q.length ?_ s' q rfl v h tag ht junk
            rw [hp2] at hn
            simp at hn
            omega
          · cases h

theorem AreaEnd.iterExt {body : Int → σ → Rd σ} {known : List Nat} {s : σ}
    (hf : ∀ t s, Firm (body t s))
    (hk : ∀ t : Nat, t ∉ known → ∀ s bs, body t s bs = .error .value) :
    AreaEnd (iterExt body s) known := by
  refine ⟨Mono.iterExt (fun t s => ?_) s, iterExt_area hf hk s⟩
  intro bs v rest h
  obtain ⟨p, h1, h2⟩ := hf t s bs v rest h
  exact ⟨p, h1, fun hne e he => h2 hne e (by rintro rfl; cases rest <;> simp_all)⟩

theorem Firm.mono {r : Rd α} (hf : Firm r) : Mono r := by
  intro bs v rest h
  obtain ⟨p, h1, h2⟩ := hf bs v rest h
  exact ⟨p, h1, fun hne e he => h2 hne e (by rintro rfl; cases rest <;> simp_all)⟩

theorem AreaEnd.bind {r : Rd α} {k : α → Rd β} {known : List Nat} (h1 : Firm r)
    (h2 : ∀ a, AreaEnd (k a) known) : AreaEnd (r >>= k) known := by
  refine ⟨Mono.bind h1.mono fun a => (h2 a).mono, fun p v h tag ht junk => ?_⟩
  obtain ⟨a, mid, e1, e2⟩ := Rd.bind_eq_ok' h
  obtain ⟨p1, hp1, m1⟩ := h1 _ _ _ e1
  obtain ⟨p2, hp2, _⟩ := (h2 a).mono _ _ _ e2
  have hne : mid ≠ [] := by rw [hp2]; simp
  obtain ⟨q, hq, hp⟩ := split_last hp1 hne
  subst hq
  rw [hp, List.append_assoc, Rd.bind_ok (m1 hne _ (by simp))]
  exact (h2 a).out q v e2 tag ht junk

/-- After a part that may itself end with an extension area. -/
theorem AreaEnd.bind_mono {r : Rd α} {k : α → Rd β} {known : List Nat} (h1 : Mono r)
    (h3 : ∀ a v, k a [3] ≠ .ok (v, [3])) (h2 : ∀ a, AreaEnd (k a) known) :
    AreaEnd (r >>= k) known := by
  refine ⟨Mono.bind h1 fun a => (h2 a).mono, fun p v h tag ht junk => ?_⟩
  obtain ⟨a, mid, e1, e2⟩ := Rd.bind_eq_ok' h
  obtain ⟨p1, hp1, m1⟩ := h1 _ _ _ e1
  obtain ⟨p2, hp2, _⟩ := (h2 a).mono _ _ _ e2
  have hne : mid ≠ [] := by rw [hp2]; simp
  obtain ⟨q, hq, hp⟩ := split_last hp1 hne
  subst hq
  have hq0 : q ≠ [] := by rintro rfl; exact h3 a v e2
  rw [hp, List.append_assoc, Rd.bind_ok (m1 hne _ (by cases q <;> first | exact absurd rfl hq0 | rfl))]
  exact (h2 a).out q v e2 tag ht junk

theorem FinalArea.close {r : Rd α} {known : List Nat} (h : AreaEnd r known) :
    FinalArea (r >>= fun s => rTag 0x03 >>= fun _ => pure s) known := by
  refine ⟨Strict.bind h.mono fun _ => Strict.last Strict.tag, fun p v hr tag ht junk => ?_⟩
  obtain ⟨a, mid, e1, e2⟩ := Rd.bind_eq_ok' hr
  obtain ⟨_, mid2, e3, e4⟩ := Rd.bind_eq_ok' e2
  cases e4
  obtain ⟨p1, hp1, _⟩ := h.mono _ _ _ e1
  obtain ⟨p2, hp2, hp2', _⟩ := Strict.tag _ _ _ e3
  obtain ⟨q, hq, hp⟩ := split_last hp1 (by rw [hp2']; simpa using hp2)
  subst hq
  have hq0 : q = [] := by
    cases q with
    | nil => rfl
    | cons b q =>
      exfalso
      unfold rTag at e3
      obtain ⟨x, m, e5, e6⟩ := Rd.bind_eq_ok' e3
      rw [Rd.guard_apply] at e6
      split at e6
      · simp only [Except.ok.injEq, Prod.mk.injEq] at e6
        have e6 := e6.2
        subst e6
        have := e5
        unfold rU8 rInt at this
        split at this
        · cases this
        · simp [IntTy.width] at this
      · cases e6
  subst hq0
  exact Rd.bind_err (h.out p _ e1 tag ht junk)

theorem FinalArea.bind {r : Rd α} {k : α → Rd β} {known : List Nat} (h1 : Firm r)
    (h2 : ∀ a, FinalArea (k a) known) : FinalArea (r >>= k) known := by
  refine ⟨Strict.bind h1.mono fun a => (h2 a).strict, fun p v h tag ht junk => ?_⟩
  obtain ⟨a, mid, e1, e2⟩ := Rd.bind_eq_ok' h
  obtain ⟨p1, hp1, m1⟩ := h1 _ _ _ e1
  obtain ⟨p2, hp2, hp2', _⟩ := (h2 a).strict _ _ _ e2
  have hne : mid ≠ [] := by rw [hp2']; simpa using hp2
  obtain ⟨q, hq, hp⟩ := split_last hp1 hne
  subst hq
  rw [hp, List.append_assoc, Rd.bind_ok (m1 hne _ (by simp))]
  exact (h2 a).out q v e2 tag ht junk

theorem FinalArea.bind_mono {r : Rd α} {k : α → Rd β} {known : List Nat} (h1 : Mono r)
    (h3 : ∀ a v, k a [3] ≠ .ok (v, [])) (h2 : ∀ a, FinalArea (k a) known) :
    FinalArea (r >>= k) known := by
  refine ⟨Strict.bind h1 fun a => (h2 a).strict, fun p v h tag ht junk => ?_⟩
  obtain ⟨a, mid, e1, e2⟩ := Rd.bind_eq_ok' h
  obtain ⟨p1, hp1, m1⟩ := h1 _ _ _ e1
  obtain ⟨p2, hp2, hp2', _⟩ := (h2 a).strict _ _ _ e2
  have hne : mid ≠ [] := by rw [hp2']; simpa using hp2
  obtain ⟨q, hq, hp⟩ := split_last hp1 hne
  subst hq
  have hq0 : q ≠ [] := by rintro rfl; exact h3 a v e2
  rw [hp, List.append_assoc, Rd.bind_ok (m1 hne _ (by cases q <;> first | exact absurd rfl hq0 | rfl))]
  exact (h2 a).out q v e2 tag ht junk

theorem FinalArea.as {r : Rd α} {f : α → β} {known : List Nat} (h : FinalArea r known) :
    FinalArea (r >>= fun a => (pure (f a) : Rd β)) known := by
  refine ⟨Strict.last h.strict, fun p v hr tag ht junk => ?_⟩
  obtain ⟨a, mid, e1, e2⟩ := Rd.bind_eq_ok' hr
  cases e2
  exact Rd.bind_err (h.out p a e1 tag ht junk)

/-- No record continues with a closing 0x03 where an opening 0x02 belongs. -/
theorem tag2_three {k : Unit → Rd β} {v : β} {rest : Bytes} : (rTag 0x02 >>= k) [3] ≠ .ok (v, rest) := by
  intro h
  cases h

end Avb
