import Verif.Lemmas.LoadedComp
import Verif.Lemmas.LoadedMisc
import Verif.Lemmas.LoadedTracks
import Verif.Lemmas.LoadedBin
import Verif.Lemmas.LoadedEssence
import Verif.Lemmas.RelAll
import Verif.Lemmas.Stored

/-
Loaded objects of every class: when they can be saved, and when they come back as they were.
-/

namespace Avb

theorem Obj.back {c : WCtx} (hc : ∀ r, Wr.Ok (wRef c r)) {d : RCtx} {k : Cls} {bs rest : Bytes} {o : Obj}
    (h : Obj.readAs d k bs = .ok (o, rest)) : o.Back c := by
  have as : ∀ {α : Type} {r : Rd α} {f : α → Obj} {P : α → Prop}, Post r P →
      (∀ a, P a → (f a).Back c) → r.as f bs = .ok (o, rest) → o.Back c := by
    intro α r f P hp hf h
    obtain ⟨a, mid, h1, h2⟩ := Rd.bind_eq_ok' h
    cases h2
    exact hf a (hp _ _ _ h1)
  cases k with
  | ATTR => exact as (Attributes.back hc) (fun _ h => h) h
  | PRLS => exact as (ParameterList.back hc) (fun _ h => h) h
  | TMCS => exact as (TimeCrumbList.back hc) (fun _ h => h) h
  | BVst => exact as (BinViewSetting.back hc) (fun _ h => h) h
  | ABIN => exact as (Bin.back hc) (fun _ h => h) h
  | BINF => exact as (BinFirst.back hc) (fun _ h => h) h
  | SEQU => exact as (Sequence.back hc) (fun _ h => h) h
  | SCLP => exact as (SourceClip.back hc) (fun _ h => h) h
  | TCCP => exact as (Timecode.back hc) (fun _ h => h) h
  | ECCP => exact as (Edgecode.back hc) (fun _ h => h) h
  | TRKR => exact as (TrackRef.back hc) (fun _ h => h) h
  | PRCL => exact as (ParamClip.back hc) (fun _ h => h) h
  | CTRL => exact as (ControlClip.back hc) (fun _ h => h) h
  | FILL => exact as (Filler.back hc) (fun _ h => h) h
  | TRKG => exact as (TrackGroup.back hc) (fun _ h => h) h
  | TKFX => exact as (TrackEffect.back hc) (fun _ h => h) h
  | PVOL => exact as (PanVolumeEffect.back hc) (fun _ h => h) h
  | ASPI => exact as (AudioSuitePluginEffect.back hc) (fun _ h => h) h
  | EQMB => exact as (EqualizerMultiBand.back hc) (fun _ h => h) h
  | MASK => exact as (CaptureMask.back hc) (fun _ h => h) h
  | STRB => exact as (StrobeEffect.back hc) (fun _ h => h) h
  | SPED => exact as (MotionEffect.back hc) (fun _ h => h) h
  | REPT => exact as (Repeat.back hc) (fun _ h => h) h
  | RSET => exact as (EssenceGroup.back hc) (fun _ h => h) h
  | TNFX => exact as (TransitionEffect.back hc) (fun _ h => h) h
  | SLCT => exact as (Selector.back hc) (fun _ h => h) h
  | CMPO => exact as (Composition.back hc) (fun _ h => h) h
  | FILE => exact as (FileLocator.back (c := c) (d := d)) (fun _ h => h.1) h
  | WINF => exact as (FileLocator.back (c := c) (d := d)) (fun _ h => h.2) h
  | URLL => exact as (URLLocator.back) (fun _ h => h) h
  | GRFX => exact as (GraphicEffect.back) (fun _ h => h) h
  | SHLP => exact as (ShapeList.back) (fun _ h => h) h
  | CCFX => exact as (ColorCorrectionEffect.back) (fun _ h => h) h
  | FXPS => exact as (EffectParamList.back) (fun _ h => h) h
  | AVUP => exact as (CFUserParam.back) (fun _ h => h) h
  | PRIT => exact as (ParameterItem.back hc) (fun _ h => h) h
  | MSML => exact as (MSMLocator.back) (fun _ h => h) h
  | APOS => exact as (Position.back) (fun _ h => h) h
  | ABOB => exact as (BOBPosition.back) (fun _ h => h) h
  | DIDP => exact as (DIDPosition.back) (fun _ h => h) h
  | MPGP => exact as (MPGPosition.back) (fun _ h => h) h
  | MCBR => exact as (BinRef.back) (fun _ h => h) h
  | MCMR => exact as (MobRef.back) (fun _ h => h) h
  | TMBC => exact as (Marker.back hc) (fun _ h => h) h
  | TKMN => exact as (TrackerManager.back hc) (fun _ h => h) h
  | TKDS => exact as (TrackerDataSlot.back hc) (fun _ h => h) h
  | TKPS => exact as (TrackerParameterSlot.back hc) (fun _ h => h) h
  | TKDA => exact as (TrackerData.back hc) (fun _ h => h) h
  | TKPA => exact as (TrackerParameter.back) (fun _ h => h) h
  | MDES => exact as (MediaDescriptor.back hc) (fun _ h => h) h
  | MDTP => exact as (TapeDescriptor.back hc) (fun _ h => h) h
  | MDFM => exact as (FilmDescriptor.back hc) (fun _ h => h) h
  | MDNG => exact as (NagraDescriptor.back hc) (fun _ h => h) h
  | MDFL => exact as (MediaFileDescriptor.back hc) (fun _ h => h) h
  | MULD => exact as (MultiDescriptor.back hc) (fun _ h => h) h
  | WAVE => exact as (WaveDescriptor.back hc) (fun _ h => h) h
  | AIFC => exact as (AIFCDescriptor.back hc) (fun _ h => h) h
  | PCMA => exact as (PCMADescriptor.back hc) (fun _ h => h) h
  | MPGA => exact as (MPGADescriptor.back hc) (fun _ h => h) h
  | DIDD => exact as (DIDDescriptor.back hc) (fun _ h => h) h
  | CDCI => exact as (CDCIDescriptor.back hc) (fun _ h => h) h
  | MPGI => exact as (MPGIDescriptor.back hc) (fun _ h => h) h
  | JPED => exact as (JPEGDescriptor.back hc) (fun _ h => h) h
  | RGBA => exact as (RGBADescriptor.back hc) (fun _ h => h) h
  | DATD => exact as (DataDescriptor.back hc) (fun _ h => h) h
  | ANCD => exact as (ANCDataDescriptor.back hc) (fun _ h => h) h

/-- The same for a context that knows the references of the object, which is all that is asked of one. -/
theorem Obj.back_visits {c : WCtx} {d : RCtx} {k : Cls} {bs rest : Bytes} {o : Obj}
    (h : Obj.readAs d k bs = .ok (o, rest)) (hv : VisitsOK c o.visits) :
    Wr.Ok (o.write c) ↔ o.Resavable := by
  have hc : ∀ r, Wr.Ok (wRef ⟨c.bo, fun _ => some 1⟩ r) := fun r =>
    Wr.ok_ref (.inr ⟨1, rfl, by decide⟩)
  have hv' : VisitsOK ⟨c.bo, fun _ => some 1⟩ o.visits := fun _ _ => .inr ⟨1, rfl, by decide⟩
  rw [← (Obj.back hc h).1]
  constructor
  · rintro ⟨out, hw⟩
    obtain ⟨out', hw', _⟩ := Obj.write_rel hv'.rel _ _ hw
    exact ⟨out', hw'⟩
  · rintro ⟨out, hw⟩
    obtain ⟨out', hw', _⟩ := Obj.write_rel hv.rel _ _ hw
    exact ⟨out', hw'⟩

theorem Obj.back_facts {d : RCtx} {k : Cls} {bs rest : Bytes} {o : Obj}
    (h : Obj.readAs d k bs = .ok (o, rest)) :
    (∀ p ∈ o.texts, TextIn p.1 p.2) ∧ (o.Locked → o.Shape) :=
  (Obj.back (c := ⟨d.bo, fun _ => some 1⟩) (fun _ => Wr.ok_ref (.inr ⟨1, rfl, by decide⟩)) h).2

theorem textOK_of {e : Enc} {t : Text} (h : TextIn e t) (hu : e = .utf8 → utf8Bytes t ≤ 65532) :
    TextOK e t := by
  obtain ⟨bs, h1, h2, h3⟩ := h
  intro p hp
  unfold payload at hp
  rw [h1] at hp
  cases hp
  cases e with
  | macroman => simp only [reduceCtorEq, if_false]; omega
  | utf8 =>
    cases h1
    have := hu rfl
    rw [← utf8Bytes_eq] at this
    simp only [if_true, List.length_append, List.length_cons, List.length_nil]
    omega

theorem Obj.texts_ok {d : RCtx} {k : Cls} {bs rest : Bytes} {o : Obj}
    (h : Obj.readAs d k bs = .ok (o, rest)) (hu : ∀ t, (Enc.utf8, t) ∈ o.texts → utf8Bytes t ≤ 65532) :
    TextsOK o.texts :=
  fun p hp => textOK_of ((Obj.back_facts h).1 p hp) fun he => hu p.2 (he ▸ hp)

theorem Obj.readable_of {d : RCtx} {k : Cls} {bs rest : Bytes} {o : Obj}
    (h : Obj.readAs d k bs = .ok (o, rest)) (hu : ∀ t, (Enc.utf8, t) ∈ o.texts → utf8Bytes t ≤ 65532)
    (hk : o.cls ≠ .TRKG) : o.Readable := by
  have ht := Obj.texts_ok h hu
  have hl := C40_loaded h
  cases o <;> first
    | exact ht
    | exact ⟨ht, hl⟩
    | exact hl
    | exact trivial
    | exact absurd rfl hk

theorem Obj.stored_of {d : RCtx} {k : Cls} {bs rest : Bytes} {o : Obj}
    (h : Obj.readAs d k bs = .ok (o, rest)) (hr : Stable o.rates) (hl : o.Locked) : o.Stored :=
  ⟨fun p hp => (Obj.back_facts h).1 p hp |>.choose_spec.2.2, hr, (Obj.back_facts h).2 hl⟩

end Avb
