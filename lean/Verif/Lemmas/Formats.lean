import Verif.Lemmas.Reads

/-
Every reader accepts exactly the format of its class.
-/

namespace Avb

open Fmt

attribute [local irreducible] Fmt.nil Fmt.never Fmt.cat Fmt.skip Fmt.int Fmt.bool Fmt.num Fmt.only
  Fmt.opt Fmt.rep Fmt.text Fmt.ref Fmt.rate Fmt.mobId Fmt.rect Fmt.rgb Fmt.lit Fmt.byte

instance Setting.reads_base (d : RCtx) : IsReads true (Fmt.setting d) (Setting.read d) :=
  ⟨by reads [Fmt.setting, Setting.read]⟩

theorem Bin.readCount_eq (d : RCtx) (v : Int) :
    Bin.readCount d v = rInt d.bo (if v = 14 then .u16 else .u32) := by
  unfold Bin.readCount
  split <;> rfl

instance Bin.reads_base (d : RCtx) : IsReads true (Fmt.bin d) (Bin.readBody d) :=
  ⟨by reads [Fmt.bin, Bin.readBody, Bin.readCount_eq, BinItem.read, SiftItem.read, rSortColumn]⟩

instance Component.reads_base (d : RCtx) : IsReads false (Fmt.component d) (Component.read d) :=
  ⟨by reads [Fmt.component, Component.read, Component.ext]⟩

instance Clip.reads_base (d : RCtx) : IsReads true (Fmt.clip d) (Clip.read d) :=
  ⟨by reads [Fmt.clip, Clip.read]⟩

instance PCP.reads_value (d : RCtx) (t : Int) : IsReads true (Fmt.value d t) (PCP.readValue d t) :=
  ⟨by
    unfold Fmt.value PCP.readValue
    refine Reads.ite (fun _ => Reads.int.map) (fun _ => ?_)
    refine Reads.ite (fun _ => Reads.double.map) (fun _ => ?_)
    exact Reads.ite (fun _ => Reads.ref.map) (fun _ => Reads.fail)⟩

instance ParameterItem.reads_value (d : RCtx) (t : Int) :
    IsReads true (Fmt.value d t) (ParameterItem.readValue d t) :=
  ⟨by
    unfold Fmt.value ParameterItem.readValue
    refine Reads.ite (fun _ => Reads.int.map) (fun _ => ?_)
    refine Reads.ite (fun _ => Reads.double.map) (fun _ => ?_)
    exact Reads.ite (fun _ => Reads.ref.map) (fun _ => Reads.fail)⟩

instance PCPProp.reads_value (d : RCtx) (t : Int) :
    IsReads true (Fmt.pointValue t) (PCPProp.readValue d t) :=
  ⟨by
    unfold Fmt.pointValue PCPProp.readValue
    refine Reads.ite (fun _ => Reads.double.map) (fun _ => ?_)
    exact Reads.ite (fun _ => Reads.int.map) (fun _ => Reads.fail)⟩

theorem Track.flags_of (t : Track) (n : Nat) (hn : n < 1024) (h0 : t.index.isSome = n.testBit 0)
    (h1 : t.attributes.isSome = n.testBit 1) (h9 : t.session_attr.isSome = n.testBit 9)
    (h2 : t.component.isSome = n.testBit 2) (h3 : t.filler_proxy.isSome = n.testBit 3)
    (h4 : t.bob_data.isSome = n.testBit 4) (h5 : t.control_code.isSome = n.testBit 5)
    (h6 : t.control_sub_code.isSome = n.testBit 6) (h7 : t.start_pos.isSome = n.testBit 7)
    (h8 : t.read_only.isSome = n.testBit 8) : t.flags = n := by
  apply Nat.eq_of_testBit_eq
  intro i
  by_cases hi : i < 10
  · simp only [Track.flags, Nat.testBit_or, testBit_flagBit, h0, h1, h2, h3, h4, h5, h6, h7, h8, h9]
    have : i = 0 ∨ i = 1 ∨ i = 2 ∨ i = 3 ∨ i = 4 ∨ i = 5 ∨ i = 6 ∨ i = 7 ∨ i = 8 ∨ i = 9 := by omega
    rcases this with rfl | rfl | rfl | rfl | rfl | rfl | rfl | rfl | rfl | rfl <;> simp
  · have hp : 2 ^ 10 ≤ 2 ^ i := Nat.pow_le_pow_right (by omega) (by omega)
    rw [Nat.testBit_lt_two_pow (Nat.lt_of_lt_of_le t.flags_lt hp),
      Nat.testBit_lt_two_pow (Nat.lt_of_lt_of_le hn (by omega))]

theorem unknown_flags {n : Nat} (h : n ≤ 65535) : n &&& 0xFC00 = 0 ↔ n < 1024 := by
  have : n &&& 0xFC00 = 1024 * (n / 1024 &&& 63) := by
    apply Nat.eq_of_testBit_eq
    intro i
    have e : (0xFC00 : Nat) = 2 ^ 10 * 63 := rfl
    have e2 : (1024 : Nat) = 2 ^ 10 := rfl
    rw [e, e2, Nat.testBit_and, Nat.testBit_two_pow_mul, Nat.testBit_two_pow_mul, Nat.testBit_and,
      Nat.testBit_div_two_pow]
    by_cases hi : 10 ≤ i
    · simp [hi]
    · simp [hi]
  rw [this]
  have h2 : n / 1024 &&& 63 = n / 1024 := by
    rw [show (63 : Nat) = 2 ^ 6 - 1 from rfl, Nat.and_two_pow_sub_one_eq_mod]
    omega
  rw [h2]
  omega

instance Track.reads_base (d : RCtx) : IsReads true (Fmt.track d) (Track.read d) :=
  ⟨by
    fmt_norm [Fmt.track, Track.read]
    refine Reads.numP fun n l u => ?_
    have l' : 0 ≤ n := by simpa [IntTy.lo, IntTy.signed] using l
    have u' : n ≤ 65535 := by simpa [IntTy.hi, IntTy.signed, IntTy.width] using u
    refine Reads.bindP IsReads.h Reads.opt_gives (fun _ => by mono) fun _ h0 => ?_
    refine Reads.bindP IsReads.h Reads.opt_gives (fun _ => by mono) fun _ h1 => ?_
    refine Reads.bindP IsReads.h Reads.opt_gives (fun _ => by mono) fun _ h9 => ?_
    refine Reads.bindP IsReads.h Reads.opt_gives (fun _ => by mono) fun _ h2 => ?_
    refine Reads.bindP IsReads.h Reads.opt_gives (fun _ => by mono) fun _ h3 => ?_
    refine Reads.bindP IsReads.h Reads.opt_gives (fun _ => by mono) fun _ h4 => ?_
    refine Reads.bindP IsReads.h Reads.opt_gives (fun _ => by mono) fun _ h5 => ?_
    refine Reads.bindP IsReads.h Reads.opt_gives (fun _ => by mono) fun _ h6 => ?_
    refine Reads.bindP IsReads.h Reads.opt_gives (fun _ => by mono) fun _ h7 => ?_
    refine Reads.bindP IsReads.h Reads.opt_gives (fun _ => by mono) fun _ h8 => ?_
    have hu : n.toNat &&& 0xFC00 = 0 ↔ n < 1024 := by
      rw [unknown_flags (by omega)]
      omega
    refine Reads.onlyIff hu fun hn => Reads.guardTrue ?_ Reads.pure
    exact Track.flags_of _ _ (by omega) h0 h1 h9 h2 h3 h4 h5 h6 h7 h8⟩

theorem trackGroup_cat (d : RCtx) (F : Int → Fmt) (B : Fmt) :
    cat (Fmt.trackGroup d F) B = Fmt.trackGroup d fun n => cat (F n) B := by
  fmt_norm [Fmt.trackGroup]
  simp only [cat_nil]

/-- A track group and what follows it, which may depend on the number of tracks. -/
theorem Reads.trackGroup {β : Type} {f : Bool} {d : RCtx} {F : Int → Fmt} {k : TrackGroup → Rd β}
    (hm : ∀ t, Mono (k t))
    (h : ∀ (t : TrackGroup) (n : Int), t.tracks.length = n.toNat → Reads f (cat (byte 2) (F n)) (k t)) :
    Reads f (Fmt.trackGroup d fun n => cat (byte 2) (F n)) (TrackGroup.read d >>= k) := by
  fmt_norm [Fmt.trackGroup, TrackGroup.read, rLock]
  refine Reads.ext' IsReads.h (by decide) fun _ => ?_
  refine Reads.bind (Reads.tag rfl) fun _ => Reads.bind (Reads.tag rfl) fun _ => ?_
  refine Reads.bind IsReads.h fun _ => Reads.bind IsReads.h fun _ => Reads.bind IsReads.h fun _ => ?_
  refine Reads.numP fun n _ _ => ?_
  refine Reads.bindP (Reads.rep IsReads.h) Reads.readN_gives
    (fun _ => Mono.bind (by mono) hm) fun ts hts => ?_
  have hI : ∀ (s : TrackGroup) t bs s' rest, s.tracks.length = n.toNat →
      TrackGroup.ext d t s bs = .ok (s', rest) → s'.tracks.length = n.toNat := by
    intro s t bs s' rest hs e
    unfold TrackGroup.ext at e
    split at e
    · obtain ⟨l, mid, e1, e2⟩ := Rd.bind_eq_ok' e
      cases e2
      have := Reads.readN_length e1
      simp [this, hs]
    · cases e
  refine Reads.bindExt (P := fun s => s.tracks.length = n.toNat)
    (Reads.iterP (I := fun s => s.tracks.length = n.toNat) (fun s hs => ?_) hI hts)
    (fun e _ => iterExt_inv (I := fun s => s.tracks.length = n.toNat) hI hts e) (by decide) hm
    fun s hs => ?_
  · unfold TrackGroup.ext
    refine ExtOK.cons rfl (by simp) ?_ ExtOK.nil
    rw [hs]
    refine Reads.map (Reads.rep ?_)
    unfold rLock
    refine Reads.bind (Reads.tag rfl) fun _ => Reads.last IsReads.h
  · rw [cat_nil]
    exact h s n hs

instance TrackEffect.reads_base (d : RCtx) :
    IsReads false (Fmt.trackEffect d) (TrackEffect.readBody d) :=
  ⟨by
    fmt_norm [Fmt.trackEffect, TrackEffect.readBody]
    refine Reads.trackGroup (fun _ => by mono) fun _ _ _ => ?_
    repeat' reads_step⟩

instance TimeWarp.reads_base (d : RCtx) : IsReads true (Fmt.timeWarp d) (TimeWarp.read d) :=
  ⟨by
    fmt_norm [Fmt.timeWarp, TimeWarp.read]
    refine Reads.trackGroup (fun _ => by mono) fun _ _ _ => ?_
    repeat' reads_step⟩

instance Position.reads_base (d : RCtx) : IsReads false (Fmt.position d) (Position.readBody d) :=
  ⟨by reads [Fmt.position, Position.readBody, Position.ext]⟩

instance BOBPosition.reads_base (d : RCtx) :
    IsReads true (Fmt.bobPosition d) (BOBPosition.readBody d) :=
  ⟨by reads [Fmt.bobPosition, BOBPosition.readBody]⟩

instance DIDPosition.reads_base (d : RCtx) :
    IsReads true (Fmt.didPosition d) (DIDPosition.readBody d) :=
  ⟨by reads [Fmt.didPosition, DIDPosition.readBody]⟩

instance MobRef.reads_base (d : RCtx) : IsReads false (Fmt.mobRef d) (MobRef.readBody d) :=
  ⟨by reads [Fmt.mobRef, MobRef.readBody, MobRef.ext]⟩

instance MediaDescriptor.reads_base (d : RCtx) :
    IsReads false (Fmt.mediaDescriptor d) (MediaDescriptor.readBody d) :=
  ⟨by reads [Fmt.mediaDescriptor, MediaDescriptor.readBody, MediaDescriptor.ext]⟩

instance MediaFileDescriptor.reads_base (d : RCtx) :
    IsReads true (Fmt.mediaFileDescriptor d) (MediaFileDescriptor.readBody d) :=
  ⟨by reads [Fmt.mediaFileDescriptor, MediaFileDescriptor.readBody]⟩

instance DIDDescriptor.reads_base (d : RCtx) :
    IsReads false (Fmt.didDescriptor d) (DIDDescriptor.readBody d) :=
  ⟨by reads [Fmt.didDescriptor, Fmt.box, Fmt.point, DIDDescriptor.readBody, DIDDescriptor.ext, rBox, rPoint]⟩

instance CDCIDescriptor.reads_base (d : RCtx) :
    IsReads false (Fmt.cdciDescriptor d) (CDCIDescriptor.readBody d) :=
  ⟨by reads [Fmt.cdciDescriptor, CDCIDescriptor.readBody, CDCIDescriptor.ext]⟩

instance DataDescriptor.reads_base (d : RCtx) :
    IsReads true (Fmt.dataDescriptor d) (DataDescriptor.read d) :=
  ⟨by reads [Fmt.dataDescriptor, DataDescriptor.read]⟩

theorem Attributes.reads (d : RCtx) : Reads true (Cls.format d .ATTR) (Attributes.read d) := by
  reads [Cls.format, Fmt.attributes, Fmt.attrItem, Fmt.attrValue, Attributes.read, Attributes.readItem]

theorem ParameterList.reads (d : RCtx) :
    Reads true (Cls.format d .PRLS) (ParameterList.read d) := by
  reads [Cls.format, Fmt.parameterList, ParameterList.read]

theorem TimeCrumbList.reads (d : RCtx) :
    Reads true (Cls.format d .TMCS) (TimeCrumbList.read d) := by
  reads [Cls.format, Fmt.timeCrumbList, TimeCrumbList.read]

theorem BinViewSetting.reads (d : RCtx) :
    Reads true (Cls.format d .BVst) (BinViewSetting.read d) := by
  reads [Cls.format, Fmt.binViewSetting, Fmt.formatDescriptor, BinViewSetting.read, BinColumn.read,
    BinViewSetting.ext, FormatDescriptor.read]

theorem Bin.reads (d : RCtx) : Reads true (Cls.format d .ABIN) (Bin.read d) := by
  reads [Cls.format, Bin.read]

theorem BinFirst.reads (d : RCtx) : Reads true (Cls.format d .BINF) (BinFirst.read d) := by
  reads [Cls.format, Fmt.binFirst, BinFirst.read]

theorem Sequence.reads (d : RCtx) : Reads true (Cls.format d .SEQU) (Sequence.read d) := by
  reads [Cls.format, Fmt.sequence, Sequence.read]

theorem SourceClip.reads (d : RCtx) : Reads true (Cls.format d .SCLP) (SourceClip.read d) := by
  reads [Cls.format, Fmt.sourceClip, SourceClip.read, SourceClip.ext]

theorem Timecode.reads (d : RCtx) : Reads true (Cls.format d .TCCP) (Timecode.read d) := by
  reads [Cls.format, Fmt.timecode, Timecode.read]

theorem Edgecode.reads (d : RCtx) : Reads true (Cls.format d .ECCP) (Edgecode.read d) := by
  reads [Cls.format, Fmt.edgecode, Edgecode.read]

theorem TrackRef.reads (d : RCtx) : Reads true (Cls.format d .TRKR) (TrackRef.read d) := by
  reads [Cls.format, Fmt.trackRef, TrackRef.read]

theorem ParamClip.reads (d : RCtx) : Reads true (Cls.format d .PRCL) (ParamClip.read d) := by
  reads [Cls.format, Fmt.paramClip, Fmt.paramPoint, ParamClip.read, PCP.read, PCPProp.read,
    ParamClip.ext]

theorem ControlClip.reads (d : RCtx) : Reads true (Cls.format d .CTRL) (ControlClip.read d) := by
  reads [Cls.format, Fmt.controlClip, ControlClip.read, CP.read, CPProp.read]

theorem Filler.reads (d : RCtx) : Reads true (Cls.format d .FILL) (Filler.read d) := by
  reads [Cls.format, Fmt.filler, Filler.read]

theorem TrackEffect.reads (d : RCtx) : Reads true (Cls.format d .TKFX) (TrackEffect.read d) := by
  reads [Cls.format, TrackEffect.read]

theorem PanVolumeEffect.reads (d : RCtx) :
    Reads true (Cls.format d .PVOL) (PanVolumeEffect.read d) := by
  reads [Cls.format, Fmt.panVolumeEffect, PanVolumeEffect.read, PanVolumeEffect.ext]

theorem AudioSuitePluginEffect.reads (d : RCtx) :
    Reads true (Cls.format d .ASPI) (AudioSuitePluginEffect.read d) := by
  reads [Cls.format, Fmt.audioSuitePluginEffect, Fmt.plugin, Fmt.pluginChunk,
    AudioSuitePluginEffect.read, ASPIPlugin.read, ASPIPluginChunk.read,
    AudioSuitePluginEffect.ext, rPresetPath]

theorem EqualizerMultiBand.reads (d : RCtx) :
    Reads true (Cls.format d .EQMB) (EqualizerMultiBand.read d) := by
  reads [Cls.format, Fmt.equalizerMultiBand, EqualizerMultiBand.read, EqualizerBand.read]

theorem CaptureMask.reads (d : RCtx) : Reads true (Cls.format d .MASK) (CaptureMask.read d) := by
  reads [Cls.format, Fmt.captureMask, CaptureMask.read]

theorem StrobeEffect.reads (d : RCtx) : Reads true (Cls.format d .STRB) (StrobeEffect.read d) := by
  reads [Cls.format, Fmt.strobeEffect, StrobeEffect.read]

theorem MotionEffect.reads (d : RCtx) : Reads true (Cls.format d .SPED) (MotionEffect.read d) := by
  reads [Cls.format, Fmt.motionEffect, MotionEffect.read, MotionEffect.ext]

theorem Repeat.reads (d : RCtx) : Reads true (Cls.format d .REPT) (Repeat.read d) := by
  reads [Cls.format, Fmt.repeatEffect, Repeat.read]

theorem EssenceGroup.reads (d : RCtx) : Reads true (Cls.format d .RSET) (EssenceGroup.read d) := by
  fmt_norm [Cls.format, Fmt.essenceGroup, EssenceGroup.read, trackGroup_cat]
  refine Reads.trackGroup (fun _ => by mono) fun _ _ _ => ?_
  repeat' reads_step

theorem TransitionEffect.reads (d : RCtx) :
    Reads true (Cls.format d .TNFX) (TransitionEffect.read d) := by
  fmt_norm [Cls.format, Fmt.transitionEffect, TransitionEffect.read, trackGroup_cat]
  refine Reads.trackGroup (fun _ => by mono) fun _ _ _ => ?_
  repeat' reads_step

theorem Selector.reads (d : RCtx) : Reads true (Cls.format d .SLCT) (Selector.read d) := by
  fmt_norm [Cls.format, Fmt.selector, Selector.read, trackGroup_cat]
  refine Reads.trackGroup (fun _ => by mono) fun t n hn => ?_
  refine Reads.bind (Reads.tag rfl) fun _ => Reads.bind (Reads.tag rfl) fun _ => ?_
  refine Reads.bind IsReads.h fun _ => Reads.numP fun v l _ => ?_
  have l' : 0 ≤ v := by simpa [IntTy.lo, IntTy.signed] using l
  have : v < (t.tracks.length : Int) ↔ v < n := by
    rw [hn]
    omega
  refine Reads.onlyIff this fun _ => ?_
  repeat' reads_step

theorem Composition.reads (d : RCtx) : Reads true (Cls.format d .CMPO) (Composition.read d) := by
  fmt_norm [Cls.format, Fmt.composition, Composition.read, trackGroup_cat]
  refine Reads.trackGroup (fun _ => by mono) fun _ _ _ => ?_
  repeat' reads_step

theorem FileLocator.reads (d : RCtx) : Reads true (Cls.format d .FILE) (FileLocator.read d) := by
  reads [Cls.format, Fmt.fileLocator, FileLocator.read, FileLocator.ext]

theorem URLLocator.reads (d : RCtx) : Reads true (Cls.format d .URLL) (URLLocator.read d) := by
  reads [Cls.format, Fmt.urlLocator, URLLocator.read]

theorem GraphicEffect.reads (d : RCtx) :
    Reads true (Cls.format d .GRFX) (GraphicEffect.read d) := by
  reads [Cls.format, Fmt.graphicEffect, GraphicEffect.read]

theorem ShapeList.reads (d : RCtx) : Reads true (Cls.format d .SHLP) (ShapeList.read d) := by
  reads [Cls.format, Fmt.shapeList, ShapeList.read]

theorem ColorCorrectionEffect.reads (d : RCtx) :
    Reads true (Cls.format d .CCFX) (ColorCorrectionEffect.read d) := by
  reads [Cls.format, Fmt.colorCorrectionEffect, ColorCorrectionEffect.read]

theorem EffectParamList.reads (d : RCtx) :
    Reads true (Cls.format d .FXPS) (EffectParamList.read d) := by
  reads [Cls.format, Fmt.effectParamList, Fmt.effectParam, EffectParamList.read, EffectParam.read]

theorem CFUserParam.reads (d : RCtx) : Reads true (Cls.format d .AVUP) (CFUserParam.read d) := by
  reads [Cls.format, Fmt.cfUserParam, CFUserParam.read]

theorem ParameterItem.reads (d : RCtx) :
    Reads true (Cls.format d .PRIT) (ParameterItem.read d) := by
  reads [Cls.format, Fmt.parameterItem, ParameterItem.read, ParameterItem.ext]

theorem MSMLocator.reads (d : RCtx) : Reads true (Cls.format d .MSML) (MSMLocator.read d) := by
  reads [Cls.format, Fmt.msmLocator, MSMLocator.read, MSMLocator.ext]

theorem Position.reads (d : RCtx) : Reads true (Cls.format d .APOS) (Position.read d) := by
  reads [Cls.format, Position.read]

theorem BOBPosition.reads (d : RCtx) : Reads true (Cls.format d .ABOB) (BOBPosition.read d) := by
  reads [Cls.format, BOBPosition.read]

theorem DIDPosition.reads (d : RCtx) : Reads true (Cls.format d .DIDP) (DIDPosition.read d) := by
  reads [Cls.format, DIDPosition.read]

theorem MPGPosition.reads (d : RCtx) : Reads true (Cls.format d .MPGP) (MPGPosition.read d) := by
  reads [Cls.format, Fmt.mpgPosition, MPGPosition.read, MPGPosition.readFields, MPGPosition.readField]

theorem BinRef.reads (d : RCtx) : Reads true (Cls.format d .MCBR) (BinRef.read d) := by
  reads [Cls.format, Fmt.binRef, BinRef.read, BinRef.ext]

theorem MobRef.reads (d : RCtx) : Reads true (Cls.format d .MCMR) (MobRef.read d) := by
  reads [Cls.format, MobRef.read]

theorem Marker.reads (d : RCtx) : Reads true (Cls.format d .TMBC) (Marker.read d) := by
  reads [Cls.format, Fmt.marker, Marker.read, Marker.ext]

theorem TrackerManager.reads (d : RCtx) :
    Reads true (Cls.format d .TKMN) (TrackerManager.read d) := by
  reads [Cls.format, Fmt.trackerManager, TrackerManager.read]

theorem TrackerDataSlot.reads (d : RCtx) :
    Reads true (Cls.format d .TKDS) (TrackerDataSlot.read d) := by
  reads [Cls.format, Fmt.trackerDataSlot, TrackerDataSlot.read, TrackerDataSlot.ext]

theorem TrackerParameterSlot.reads (d : RCtx) :
    Reads true (Cls.format d .TKPS) (TrackerParameterSlot.read d) := by
  reads [Cls.format, Fmt.trackerParameterSlot, TrackerParameterSlot.read]

theorem TrackerData.reads (d : RCtx) : Reads true (Cls.format d .TKDA) (TrackerData.read d) := by
  reads [Cls.format, Fmt.trackerData, TrackerData.read, TrackerData.ext]

theorem TrackerParameter.reads (d : RCtx) :
    Reads true (Cls.format d .TKPA) (TrackerParameter.read d) := by
  reads [Cls.format, Fmt.trackerParameter, TrackerParameter.read]

theorem MediaDescriptor.reads (d : RCtx) :
    Reads true (Cls.format d .MDES) (MediaDescriptor.read d) := by
  reads [Cls.format, MediaDescriptor.read]

theorem TapeDescriptor.reads (d : RCtx) :
    Reads true (Cls.format d .MDTP) (TapeDescriptor.read d) := by
  reads [Cls.format, Fmt.tapeDescriptor, TapeDescriptor.read]

theorem FilmDescriptor.reads (d : RCtx) :
    Reads true (Cls.format d .MDFM) (FilmDescriptor.read d) := by
  reads [Cls.format, Fmt.filmDescriptor, FilmDescriptor.read]

theorem NagraDescriptor.reads (d : RCtx) :
    Reads true (Cls.format d .MDNG) (NagraDescriptor.read d) := by
  reads [Cls.format, Fmt.nagraDescriptor, NagraDescriptor.read]

theorem MediaFileDescriptor.reads (d : RCtx) :
    Reads true (Cls.format d .MDFL) (MediaFileDescriptor.read d) := by
  reads [Cls.format, MediaFileDescriptor.read]

theorem MultiDescriptor.reads (d : RCtx) :
    Reads true (Cls.format d .MULD) (MultiDescriptor.read d) := by
  reads [Cls.format, Fmt.multiDescriptor, MultiDescriptor.read]

theorem WaveDescriptor.reads (d : RCtx) :
    Reads true (Cls.format d .WAVE) (WaveDescriptor.read d) := by
  reads [Cls.format, Fmt.waveDescriptor, WaveDescriptor.read]

theorem AIFCDescriptor.reads (d : RCtx) :
    Reads true (Cls.format d .AIFC) (AIFCDescriptor.read d) := by
  reads [Cls.format, Fmt.aifcDescriptor, AIFCDescriptor.read, AIFCDescriptor.ext]

theorem PCMADescriptor.reads (d : RCtx) :
    Reads true (Cls.format d .PCMA) (PCMADescriptor.read d) := by
  reads [Cls.format, Fmt.pcmaDescriptor, PCMADescriptor.read, PCMADescriptor.ext]

theorem MPGADescriptor.reads (d : RCtx) :
    Reads true (Cls.format d .MPGA) (MPGADescriptor.read d) := by
  reads [Cls.format, Fmt.mpgaDescriptor, MPGADescriptor.read, MPGADescriptor.ext]

theorem DIDDescriptor.reads (d : RCtx) :
    Reads true (Cls.format d .DIDD) (DIDDescriptor.read d) := by
  reads [Cls.format, DIDDescriptor.read]

theorem CDCIDescriptor.reads (d : RCtx) :
    Reads true (Cls.format d .CDCI) (CDCIDescriptor.read d) := by
  reads [Cls.format, CDCIDescriptor.read]

theorem MPGIDescriptor.reads (d : RCtx) :
    Reads true (Cls.format d .MPGI) (MPGIDescriptor.read d) := by
  reads [Cls.format, Fmt.mpgiDescriptor, MPGIDescriptor.read]

theorem JPEGDescriptor.reads (d : RCtx) :
    Reads true (Cls.format d .JPED) (JPEGDescriptor.read d) := by
  reads [Cls.format, Fmt.jpegDescriptor, JPEGDescriptor.read, JPEGDescriptor.ext]

theorem RGBADescriptor.reads (d : RCtx) :
    Reads true (Cls.format d .RGBA) (RGBADescriptor.read d) := by
  reads [Cls.format, Fmt.rgbaDescriptor, RGBADescriptor.read, RGBADescriptor.ext]

theorem ANCDataDescriptor.reads (d : RCtx) :
    Reads true (Cls.format d .ANCD) (ANCDataDescriptor.read d) := by
  reads [Cls.format, Fmt.ancDataDescriptor, ANCDataDescriptor.read]

theorem Obj.readAs_reads (d : RCtx) (k : Cls) (h : k ≠ .TRKG) :
    Reads true (k.format d) (Obj.readAs d k) := by
  cases k
  case ATTR => exact (Attributes.reads d).as
  case PRLS => exact (ParameterList.reads d).as
  case TMCS => exact (TimeCrumbList.reads d).as
  case BVst => exact (BinViewSetting.reads d).as
  case ABIN => exact (Bin.reads d).as
  case BINF => exact (BinFirst.reads d).as
  case SEQU => exact (Sequence.reads d).as
  case SCLP => exact (SourceClip.reads d).as
  case TCCP => exact (Timecode.reads d).as
  case ECCP => exact (Edgecode.reads d).as
  case TRKR => exact (TrackRef.reads d).as
  case PRCL => exact (ParamClip.reads d).as
  case CTRL => exact (ControlClip.reads d).as
  case FILL => exact (Filler.reads d).as
  case TRKG => exact absurd rfl h
  case TKFX => exact (TrackEffect.reads d).as
  case PVOL => exact (PanVolumeEffect.reads d).as
  case ASPI => exact (AudioSuitePluginEffect.reads d).as
  case EQMB => exact (EqualizerMultiBand.reads d).as
  case MASK => exact (CaptureMask.reads d).as
  case STRB => exact (StrobeEffect.reads d).as
  case SPED => exact (MotionEffect.reads d).as
  case REPT => exact (Repeat.reads d).as
  case RSET => exact (EssenceGroup.reads d).as
  case TNFX => exact (TransitionEffect.reads d).as
  case SLCT => exact (Selector.reads d).as
  case CMPO => exact (Composition.reads d).as
  case FILE => exact (FileLocator.reads d).as
  case WINF => exact (FileLocator.reads d).as
  case URLL => exact (URLLocator.reads d).as
  case GRFX => exact (GraphicEffect.reads d).as
  case SHLP => exact (ShapeList.reads d).as
  case CCFX => exact (ColorCorrectionEffect.reads d).as
  case FXPS => exact (EffectParamList.reads d).as
  case AVUP => exact (CFUserParam.reads d).as
  case PRIT => exact (ParameterItem.reads d).as
  case MSML => exact (MSMLocator.reads d).as
  case APOS => exact (Position.reads d).as
  case ABOB => exact (BOBPosition.reads d).as
  case DIDP => exact (DIDPosition.reads d).as
  case MPGP => exact (MPGPosition.reads d).as
  case MCBR => exact (BinRef.reads d).as
  case MCMR => exact (MobRef.reads d).as
  case TMBC => exact (Marker.reads d).as
  case TKMN => exact (TrackerManager.reads d).as
  case TKDS => exact (TrackerDataSlot.reads d).as
  case TKPS => exact (TrackerParameterSlot.reads d).as
  case TKDA => exact (TrackerData.reads d).as
  case TKPA => exact (TrackerParameter.reads d).as
  case MDES => exact (MediaDescriptor.reads d).as
  case MDTP => exact (TapeDescriptor.reads d).as
  case MDFM => exact (FilmDescriptor.reads d).as
  case MDNG => exact (NagraDescriptor.reads d).as
  case MDFL => exact (MediaFileDescriptor.reads d).as
  case MULD => exact (MultiDescriptor.reads d).as
  case WAVE => exact (WaveDescriptor.reads d).as
  case AIFC => exact (AIFCDescriptor.reads d).as
  case PCMA => exact (PCMADescriptor.reads d).as
  case MPGA => exact (MPGADescriptor.reads d).as
  case DIDD => exact (DIDDescriptor.reads d).as
  case CDCI => exact (CDCIDescriptor.reads d).as
  case MPGI => exact (MPGIDescriptor.reads d).as
  case JPED => exact (JPEGDescriptor.reads d).as
  case RGBA => exact (RGBADescriptor.reads d).as
  case DATD => exact (DataDescriptor.reads_base d).h.as
  case ANCD => exact (ANCDataDescriptor.reads d).as

end Avb
