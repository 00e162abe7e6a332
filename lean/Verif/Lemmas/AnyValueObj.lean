import Verif.Lemmas.AnyValueCls
import Verif.Lemmas.UnsetSave
import Mathlib.Tactic.Tauto

/-! What an object takes, class by class (Lemmas/AnyValueCls.lean), is what the specification says; saving. -/

namespace Avb

open Unset

theorem memK_swap (A B : List (String × Kind)) (L : List (Slot × Kind)) (s : Slot × Kind) :
    s ∈ ownK A ++ L ++ ownK B ↔ s ∈ ownK (A ++ B) ++ L := by
  simp only [ownK, List.map_append, List.mem_append]
  tauto

theorem memK_swap2 (A B C : List (String × Kind)) (L M : List (Slot × Kind)) (s : Slot × Kind) :
    s ∈ ownK A ++ L ++ ownK B ++ M ++ ownK C ↔ s ∈ ownK (A ++ B ++ C) ++ (L ++ M) := by
  simp only [ownK, List.map_append, List.mem_append]
  tauto

theorem Obj.write_conv (g : Given) (c : WCtx) (o : Obj) : Conv g o.propKinds (o.writeG g c) ((o.conv g).write c) := by
  cases o with
  | ATTR x => exact Conv.plain _
  | PRLS x => exact Conv.plain _
  | TMCS x => exact Conv.plain _
  | BVst x => exact Conv.congr (BinViewSetting.write_conv g c x) rfl
  | ABIN x => exact Conv.mem (Bin.write_conv g c x) fun s => memK_swap2 _ _ _ _ _ s
  | BINF x => exact Conv.mem (BinFirst.write_conv g c x) fun s => memK_swap2 _ _ _ _ _ s
  | SEQU x => exact Conv.congr (Sequence.write_conv g c x) rfl
  | SCLP x => exact Conv.congr (SourceClip.write_conv g c x) rfl
  | TCCP x => exact Conv.congr (Timecode.write_conv g c x) rfl
  | ECCP x => exact Conv.congr (Edgecode.write_conv g c x) rfl
  | TRKR x => exact Conv.congr (TrackRef.write_conv g c x) rfl
  | PRCL x => exact Conv.mem (ParamClip.write_conv g c x) fun s => memK_swap _ _ _ s
  | CTRL x => exact Conv.congr (ControlClip.write_conv g c x) rfl
  | FILL x => exact Conv.congr (Filler.write_conv g c x) rfl
  | TRKG x => exact Conv.congr (TrackGroup.write_conv g c x) rfl
  | TKFX x => exact Conv.congr (TrackEffect.write_conv g c x) rfl
  | PVOL x => exact Conv.congr (PanVolumeEffect.write_conv g c x) rfl
  | ASPI x => exact Conv.mem (AudioSuitePluginEffect.write_conv g c x) fun s => memK_swap _ _ _ s
  | EQMB x => exact Conv.mem (EqualizerMultiBand.write_conv g c x) fun s => memK_swap _ _ _ s
  | MASK x => exact Conv.congr (CaptureMask.write_conv g c x) rfl
  | STRB x => exact Conv.congr (StrobeEffect.write_conv g c x) rfl
  | SPED x => exact Conv.congr (MotionEffect.write_conv g c x) rfl
  | REPT x => exact Conv.congr (Repeat.write_conv g c x) rfl
  | RSET x => exact Conv.congr (EssenceGroup.write_conv g c x) rfl
  | TNFX x => exact Conv.congr (TransitionEffect.write_conv g c x) rfl
  | SLCT x => exact Conv.congr (Selector.write_conv g c x) rfl
  | CMPO x => exact Conv.congr (Composition.write_conv g c x) rfl
  | FILE x => exact Conv.congr (FileLocator.write_conv g c x) rfl
  | WINF x => exact Conv.congr (FileLocator.write_conv g c x) rfl
  | URLL x => exact Conv.plain _
  | GRFX x => exact Conv.congr (GraphicEffect.write_conv g c x) rfl
  | SHLP x => exact Conv.congr (ShapeList.write_conv g c x) rfl
  | CCFX x => exact Conv.congr (ColorCorrectionEffect.write_conv g c x) rfl
  | FXPS x => exact Conv.congr (EffectParamList.write_conv g c x) rfl
  | AVUP x => exact Conv.congr (CFUserParam.write_conv g c x) rfl
  | PRIT x => exact Conv.congr (ParameterItem.write_conv g c x) rfl
  | MSML x => exact Conv.congr (MSMLocator.write_conv g c x) rfl
  | APOS x => exact Conv.congr (Position.write_conv g c x) rfl
  | ABOB x => exact Conv.congr (BOBPosition.write_conv g c x) rfl
  | DIDP x => exact Conv.congr (DIDPosition.write_conv g c x) rfl
  | MPGP x => exact Conv.congr (MPGPosition.write_conv g c x) rfl
  | MCBR x => exact Conv.congr (BinRef.write_conv g c x) rfl
  | MCMR x => exact Conv.congr (MobRef.write_conv g c x) rfl
  | TMBC x => exact Conv.congr (Marker.write_conv g c x) rfl
  | TKMN x => exact Conv.congr (TrackerManager.write_conv g c x) rfl
  | TKDS x => exact Conv.congr (TrackerDataSlot.write_conv g c x) rfl
  | TKPS x => exact Conv.congr (TrackerParameterSlot.write_conv g c x) rfl
  | TKDA x => exact Conv.congr (TrackerData.write_conv g c x) rfl
  | TKPA x => exact Conv.congr (TrackerParameter.write_conv g c x) rfl
  | MDES x => exact Conv.congr (MediaDescriptor.write_conv g c x) rfl
  | MDTP x => exact Conv.congr (TapeDescriptor.write_conv g c x) rfl
  | MDFM x => exact Conv.congr (FilmDescriptor.write_conv g c x) rfl
  | MDNG x => exact Conv.congr (NagraDescriptor.write_conv g c x) rfl
  | MDFL x => exact Conv.congr (MediaFileDescriptor.write_conv g c x) rfl
  | MULD x => exact Conv.congr (MultiDescriptor.write_conv g c x) rfl
  | WAVE x => exact Conv.congr (WaveDescriptor.write_conv g c x) rfl
  | AIFC x => exact Conv.congr (AIFCDescriptor.write_conv g c x) rfl
  | PCMA x => exact Conv.congr (PCMADescriptor.write_conv g c x) rfl
  | MPGA x => exact Conv.congr (MPGADescriptor.write_conv g c x) rfl
  | DIDD x => exact Conv.congr (DIDDescriptor.write_conv g c x) rfl
  | CDCI x => exact Conv.congr (CDCIDescriptor.write_conv g c x) rfl
  | MPGI x => exact Conv.congr (MPGIDescriptor.write_conv g c x) rfl
  | JPED x => exact Conv.congr (JPEGDescriptor.write_conv g c x) rfl
  | RGBA x => exact Conv.congr (RGBADescriptor.write_conv g c x) rfl
  | DATD x => exact Conv.congr (DataDescriptor.write_conv g c x) rfl
  | ANCD x => exact Conv.congr (ANCDataDescriptor.write_conv g c x) rfl

theorem Obj.conv_cls (g : Given) (o : Obj) : (o.conv g).cls = o.cls := by
  cases o <;> rfl

theorem Obj.conv_listItems (g : Given) (o : Obj) : (o.conv g).listItems = o.listItems := by
  cases o <;> rfl

/-- The objects of a file with the values that are stored. -/
def Heap.conv (h : Heap) (gs : Ref → Given) : Heap := fun r =>
  match h r with
  | .ok e => .ok { e with obj := e.obj.conv (gs r) }
  | .error er => .error er

variable {h : Heap} {gs : Ref → Given} {bo : BO}

theorem conv_ok {r : Ref} {e : Entry} (he : h r = .ok e) : h.conv gs r = .ok { e with obj := e.obj.conv (gs r) } := by
  unfold Heap.conv
  rw [he]

theorem conv_error {r : Ref} {er : Err} (he : h r = .error er) : h.conv gs r = .error er := by
  unfold Heap.conv
  rw [he]

theorem refMapOf_conv (m : Nat → Option Nat) : refMapOf (h.conv gs) m = refMapOf h m := by
  funext r
  unfold refMapOf
  cases he : h r with
  | ok e => rw [conv_ok he]
  | error er => rw [conv_error he]

theorem walkVisits_conv {f : Ref → Walk} (vs : List Visit) : walkVisits (h.conv gs) f vs = walkVisits h f vs := by
  induction vs with
  | nil => rfl
  | cons v vs ih =>
    cases v with
    | item r => simp only [walkVisits, ih]
    | prop r =>
      simp only [walkVisits, ih]
      cases he : h r with
      | ok e => rw [conv_ok he]; simp only [Obj.conv_listItems]
      | error er => rw [conv_error he]

theorem walkObj_conv (n : Nat) (r : Ref) : walkObj (h.conv gs) n r = walkObj h n r := by
  induction n generalizing r with
  | zero => rfl
  | succ n ih =>
    have : walkObj (h.conv gs) n = walkObj h n := funext ih
    simp only [walkObj, this]
    cases he : h r with
    | ok e => rw [conv_ok he]; simp only [walkVisits_conv]
    | error er => rw [conv_error he]

theorem reach_conv {a b : Ref} : Reach (h.conv gs) a b ↔ Reach h a b := by
  have : ∀ a b, Edge (h.conv gs) a b ↔ Edge h a b := by
    intro a b
    constructor
    · rintro ⟨e, he, h1, h2, h3⟩
      cases hh : h a with
      | ok e' =>
        rw [conv_ok hh] at he
        cases he
        exact ⟨e', hh, h1, h2, h3⟩
      | error er => rw [conv_error hh] at he; cases he
    · rintro ⟨e, he, h1, h2, h3⟩
      exact ⟨_, conv_ok he, h1, h2, h3⟩
  have e : Edge (h.conv gs) = Edge h := funext fun a => funext fun b => propext (this a b)
  unfold Reach
  rw [e]

theorem iidInj_conv {r : Ref} (inj : IidInj h r) : IidInj (h.conv gs) r := by
  intro a b ea eb ha hb h1 h2 h3
  rw [reach_conv] at ha hb
  cases hh : h a with
  | error er => rw [conv_error hh] at h1; cases h1
  | ok ea' =>
    cases hh' : h b with
    | error er => rw [conv_error hh'] at h2; cases h2
    | ok eb' =>
      rw [conv_ok hh] at h1
      rw [conv_ok hh'] at h2
      cases h1
      cases h2
      exact inj a b _ _ ha hb hh hh' h3

theorem writeObjectG_conv (g : Given) (c : WCtx) (e : Entry) (r : Unit × Bytes) : writeObjectG g c e = .ok r ↔
    Accepts g e.obj.propKinds ∧ writeObject c { e with obj := e.obj.conv g } = .ok r := by
  have hp : Conv g e.obj.propKinds (payloadOf (e.obj.writeG g c)) (payloadOf ((e.obj.conv g).write c)) := by
    intro r
    have hc := Obj.write_conv g c e.obj
    unfold payloadOf
    cases h1 : e.obj.writeG g c with
    | ok p =>
      obtain ⟨h2, h3⟩ := (hc p).1 h1
      rw [h3]
      exact ⟨fun h => ⟨h2, h⟩, fun h => h.2⟩
    | error er =>
      cases h4 : (e.obj.conv g).write c with
      | error er' =>
        constructor
        · intro h; cases h
        · rintro ⟨_, h⟩; cases h
      | ok p =>
        constructor
        · intro h; cases h
        · rintro ⟨h, _⟩
          have := (hc p).2 ⟨h, h4⟩
          rw [h1] at this
          cases this
  have key : Conv g e.obj.propKinds (writeObjectG g c e) (writeObject c { e with obj := e.obj.conv g }) := by
    unfold writeObjectG writeObject
    simp only [Obj.conv_cls]
    refine Conv.congr (Conv.bind (Conv.plain _) fun _ => Conv.bind hp fun _ => Conv.plain _) ?_
    simp
  exact key r

theorem saveLoopG_complete {rs : List Ref} (hu : ∀ r ∈ rs, ∀ e, h r = .ok e → Accepts (gs r) e.obj.propKinds)
    {s s' : SaveSt} (hs : saveLoop (h.conv gs) bo rs s = (s', none)) : saveLoopG h gs bo rs s = (s', none) := by
  induction rs generalizing s with
  | nil => exact hs
  | cons r rs ih =>
    have ih' := fun {s : SaveSt} => ih (s := s) fun r' hr' => hu r' (List.mem_cons_of_mem _ hr')
    unfold saveLoop at hs
    unfold saveLoopG
    cases he : h r with
    | error er => rw [conv_error he] at hs; cases hs
    | ok e =>
      rw [conv_ok he] at hs
      simp only [refMapOf_conv] at hs ⊢
      split at hs
      · next hm =>
        rw [if_pos hm]
        exact ih' hs
      · next hm =>
        rw [if_neg hm]
        split at hs
        · next p bs hw =>
          rw [(writeObjectG_conv _ _ _ _).2 ⟨hu r List.mem_cons_self e he, hw⟩]
          exact ih' hs
        · cases hs

theorem saveLoopG_ok {rs : List Ref} {s s' : SaveSt}
    (inj : ∀ a ∈ rs, ∀ b ∈ rs, ∀ ea eb, h a = .ok ea → h b = .ok eb → ea.iid = eb.iid → a = b)
    (hs : saveLoopG h gs bo rs s = (s', none)) :
    saveLoop (h.conv gs) bo rs s = (s', none) ∧
      ∀ r ∈ rs, ∀ e, h r = .ok e → s.map e.iid = none → Accepts (gs r) e.obj.propKinds := by
  induction rs generalizing s with
  | nil => exact ⟨hs, fun r hr => nomatch hr⟩
  | cons r rs ih =>
    have ih := fun {s : SaveSt} => ih (s := s) fun a ha b hb => inj a (List.mem_cons_of_mem _ ha) b
      (List.mem_cons_of_mem _ hb)
    unfold saveLoopG at hs
    cases he : h r with
    | error er => rw [he] at hs; cases hs
    | ok e =>
      rw [he] at hs
      simp only at hs
      rw [saveLoop, conv_ok he]
      simp only [refMapOf_conv]
      split at hs
      · next hm =>
        obtain ⟨h1, h2⟩ := ih hs
        refine ⟨?_, fun r' hr' e' he' hn => ?_⟩
        · rw [if_pos hm]
          exact h1
        · rcases List.mem_cons.1 hr' with rfl | hr'
          · rw [he] at he'
            cases he'
            rw [hn] at hm
            cases hm
          · exact h2 r' hr' e' he' hn
      · next hm =>
        split at hs
        · next p bs hw =>
          obtain ⟨hc, hw'⟩ := (writeObjectG_conv _ _ _ _).1 hw
          obtain ⟨h1, h2⟩ := ih hs
          refine ⟨?_, fun r' hr' e' he' hn => ?_⟩
          · rw [if_neg hm, hw']
            exact h1
          · rcases List.mem_cons.1 hr' with rfl | hr''
            · rw [he] at he'
              cases he'
              exact hc
            · by_cases hi : e'.iid = e.iid
              · have := inj r' hr' r List.mem_cons_self e' e he' he hi
                subst this
                rw [he] at he'
                cases he'
                exact hc
              · refine h2 r' hr'' e' he' ?_
                simp only [mapSet, hi, if_false]
                exact hn
        · cases hs

theorem saveLoopG_prefix (rs : List Ref) (s : SaveSt) :
    (saveLoopG h gs bo rs s).1.out <+: (saveLoop (h.conv gs) bo rs s).1.out := by
  induction rs generalizing s with
  | nil => exact List.prefix_refl _
  | cons r rs ih =>
    rw [saveLoopG, saveLoop]
    cases he : h r with
    | error er =>
      rw [conv_error he]
      exact List.prefix_refl _
    | ok e =>
      rw [conv_ok he]
      simp only [refMapOf_conv]
      split
      · exact ih s
      · split
        · next p bs hw =>
          rw [((writeObjectG_conv _ _ _ _).1 hw).2]
          exact ih _
        · next er hw =>
          split
          · refine List.IsPrefix.trans ?_ (saveLoop_grows _ _)
            exact List.prefix_append _ _
          · exact List.prefix_refl _

theorem saveRunG_eq (fuel : Nat) (hd : HeaderInfo) (content : Ref) : saveRunG h gs fuel bo hd content =
    runWith bo hd (walkObj h fuel content)
      (saveLoopG h gs bo (walkObj h fuel content).out ⟨0, fun _ => none, []⟩) := rfl

end Avb
