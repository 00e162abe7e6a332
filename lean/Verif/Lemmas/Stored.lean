import Verif.Spec.Stored
import Verif.Lemmas.Resave

/-
Objects in stored form are read back as they were.
-/

set_option linter.unusedSimpArgs false

namespace Avb

/-- An object in stored form: texts without NULs at their ends, rates that are read back, and the
conditions of its class. -/
structure Obj.Stored (x : Obj) : Prop where
  texts : Stripped x.texts
  rates : Stable x.rates
  shape : x.Shape

theorem Obj.Stored.clean {x : Obj} (h : x.Stored) : x.Clean := by
  obtain ⟨h1, h2, h3⟩ := h
  refine ⟨h1, h2, ?_⟩
  cases x with
  | ATTR x => exact h3
  | MPGA x => exact fun v hv => (h3 v hv).1
  | _ => trivial

/-- The references keep their numbers. -/
def FixRefs (c : WCtx) (vs : List Visit) : Prop := ∀ v ∈ vs, c.tr v.ref = v.ref

section
variable {c : WCtx}

theorem FixRefs.left {a b : List Visit} (h : FixRefs c (a ++ b)) : FixRefs c a :=
  fun v hv => h v (List.mem_append_left _ hv)

theorem FixRefs.right {a b : List Visit} (h : FixRefs c (a ++ b)) : FixRefs c b :=
  fun v hv => h v (List.mem_append_right _ hv)

theorem FixRefs.prop {r : Ref} {vs : List Visit} (h : FixRefs c vs) (hr : .prop r ∈ vs) : c.tr r = r :=
  h _ hr

theorem FixRefs.opt {o : Option Ref} (h : FixRefs c (optProp o)) : o.map c.tr = o := by
  cases o with
  | none => rfl
  | some r => exact congrArg some (h (.prop r) (by simp [optProp]))

theorem FixRefs.items {rs : List Ref} (h : FixRefs c (rs.map .item)) : rs.map c.tr = rs := by
  rw [List.map_congr_left (g := id)]
  · simp
  · exact fun r hr => h (.item r) (List.mem_map.2 ⟨r, hr, rfl⟩)

theorem FixRefs.props {rs : List Ref} (h : FixRefs c (rs.map .prop)) : rs.map c.tr = rs := by
  rw [List.map_congr_left (g := id)]
  · simp
  · exact fun r hr => h (.prop r) (List.mem_map.2 ⟨r, hr, rfl⟩)

theorem map_self {α : Type} {f : α → α} {xs : List α} (h : ∀ x ∈ xs, f x = x) : xs.map f = xs := by
  rw [List.map_congr_left (g := id)]
  · simp
  · exact h

theorem normName_self {n : Option Text} (h : stripText (n.getD []) = n.getD []) (h0 : n ≠ some []) :
    normName n = n := by
  unfold normName orNone
  rw [h]
  cases n with
  | none => rfl
  | some t =>
    have : t ≠ [] := fun e => h0 (congrArg some e)
    simp [this]

theorem Component.norm_self {x : Component} (hf : FixRefs c x.visits) (ht : Stripped x.texts)
    (hs : Stable x.rates) (hx : x.Stored) : x.norm c = x := by
  unfold Component.norm
  rw [normName_self (ht (.macroman, x.name.getD []) (by simp [Component.texts])) hx.1,
    normName_self (ht (.macroman, x.effect_id.getD []) (by simp [Component.texts])) hx.2,
    hs x.edit_rate (by simp [Component.rates]), hf.right.opt,
    hf.left.prop (r := x.left_bob) (by simp), hf.left.prop (r := x.right_bob) (by simp),
    hf.left.prop (r := x.attributes) (by simp), hf.left.prop (r := x.session_attrs) (by simp),
    hf.left.prop (r := x.precomputed) (by simp)]

theorem Clip.norm_self {x : Clip} (hf : FixRefs c x.visits) (ht : Stripped x.texts)
    (hs : Stable x.rates) (hx : x.Stored) : x.norm c = x := by
  unfold Clip.norm
  rw [Component.norm_self hf ht hs hx]

theorem Sequence.norm_self {x : Sequence} (hf : FixRefs c x.visits) (ht : Stripped x.texts) (hs : Stable x.rates) (hx : x.Stored) : x.norm c = x := by
  unfold Sequence.norm
  rw [Component.norm_self hf.left ht hs hx, hf.right.items]

theorem SourceClip.norm_self {x : SourceClip} (hf : FixRefs c x.visits) (ht : Stripped x.texts) (hs : Stable x.rates) (hx : x.Stored) : x.norm c = x := by
  unfold SourceClip.norm
  rw [Clip.norm_self hf ht hs hx]

theorem Timecode.norm_self {x : Timecode} (hf : FixRefs c x.visits) (ht : Stripped x.texts) (hs : Stable x.rates) (hx : x.Stored) : x.norm c = x := by
  unfold Timecode.norm
  rw [Clip.norm_self hf ht hs hx]

theorem Edgecode.norm_self {x : Edgecode} (hf : FixRefs c x.visits) (ht : Stripped x.texts) (hs : Stable x.rates) (hx : x.Stored) : x.norm c = x := by
  unfold Edgecode.norm
  rw [Clip.norm_self hf ht hs hx]

theorem TrackRef.norm_self {x : TrackRef} (hf : FixRefs c x.visits) (ht : Stripped x.texts) (hs : Stable x.rates) (hx : x.Stored) : x.norm c = x := by
  unfold TrackRef.norm
  rw [Clip.norm_self hf ht hs hx]

theorem ControlClip.norm_self {x : ControlClip} (hf : FixRefs c x.visits) (ht : Stripped x.texts) (hs : Stable x.rates) (hx : x.Stored) : x.norm c = x := by
  unfold ControlClip.norm
  rw [Clip.norm_self hf ht hs hx]

theorem Filler.norm_self {x : Filler} (hf : FixRefs c x.visits) (ht : Stripped x.texts) (hs : Stable x.rates) (hx : x.Stored) : x.norm c = x := by
  unfold Filler.norm
  rw [Clip.norm_self hf ht hs hx]

theorem PVal.norm_self {x : PVal} (hf : FixRefs c x.visits) : x.norm c = x := by
  cases x with
  | ref r => exact congrArg PVal.ref (hf.prop (by simp [PVal.visits]))
  | _ => rfl

theorem PVal.stored_self {t : Int} {x : PVal} (h : t = 2 → x.NotInt) : x.stored t = x := by
  unfold PVal.stored
  split
  · next ht =>
    cases x with
    | int v => exact absurd rfl (h ht v)
    | _ => rfl
  · rfl

theorem ParamClip.norm_self {x : ParamClip} (hf : FixRefs c x.visits) (ht : Stripped x.texts)
    (hs : Stable x.rates) (hx : x.Stored) (hd : x.Doubles) : x.norm c = x := by
  unfold ParamClip.norm
  rw [Clip.norm_self hf.left ht hs hx, map_self]
  intro p hp
  unfold PCP.norm
  rw [PVal.stored_self fun h => hd.1 h p hp,
    PVal.norm_self fun v hv => hf.right v (List.mem_flatMap.2 ⟨p, hp, hv⟩), map_self]
  intro q hq
  unfold PCPProp.norm
  rw [PVal.stored_self (hd.2 p hp q hq)]

theorem Track.norm_self {x : Track} (hf : FixRefs c x.visits) (hl : x.lock_number.isSome) :
    x.norm c = x := by
  unfold Track.norm
  have : some (x.lock_number.getD 0) = x.lock_number := by
    cases h : x.lock_number with
    | none => rw [h] at hl; cases hl
    | some v => rfl
  rw [this, hf.left.left.left.left.opt, hf.left.left.left.right.opt, hf.left.left.right.opt,
    hf.left.right.opt, hf.right.opt]

theorem TrackGroup.norm_self {x : TrackGroup} (hf : FixRefs c x.visits) (ht : Stripped x.texts)
    (hs : Stable x.rates) (hx : x.Stored) : x.norm c = x := by
  unfold TrackGroup.norm
  rw [Component.norm_self hf.left ht hs hx.1, map_self]
  intro t htr
  exact Track.norm_self (fun v hv => hf.right v (List.mem_flatMap.2 ⟨t, htr, hv⟩)) (hx.2 t htr)

theorem TrackEffect.norm_self {x : TrackEffect} (hf : FixRefs c x.visits) (ht : Stripped x.texts) (hs : Stable x.rates) (hx : x.toTrackGroup.Stored) : x.norm c = x := by
  unfold TrackEffect.norm
  rw [TrackGroup.norm_self hf.left.left ht hs hx, hf.left.right.prop (r := x.keyframes) (by simp), hf.right.opt]

theorem PanVolumeEffect.norm_self {x : PanVolumeEffect} (hf : FixRefs c x.visits) (ht : Stripped x.texts) (hs : Stable x.rates) (hx : x.toTrackGroup.Stored) : x.norm c = x := by
  unfold PanVolumeEffect.norm
  rw [TrackEffect.norm_self hf ht hs hx]

theorem AudioSuitePluginEffect.norm_self {x : AudioSuitePluginEffect} (hf : FixRefs c x.visits)
    (ht : Stripped x.allTexts) (hs : Stable x.rates) (hx : x.toTrackGroup.Stored) : x.norm c = x := by
  unfold AudioSuitePluginEffect.norm
  rw [TrackEffect.norm_self hf ht.left hs hx, map_self]
  intro p hp
  have ht' : Stripped p.texts := fun q hq => ht.right q (List.mem_flatMap.2 ⟨p, hp, hq⟩)
  unfold ASPIPlugin.norm
  rw [ht' (.macroman, p.name) (by simp [ASPIPlugin.texts]), map_self]
  intro k hk
  unfold ASPIPluginChunk.norm
  rw [ht' (.macroman, k.name) (List.mem_cons_of_mem _ (List.mem_map.2 ⟨k, hk, rfl⟩))]

theorem EqualizerMultiBand.norm_self {x : EqualizerMultiBand} (hf : FixRefs c x.visits)
    (ht : Stripped x.allTexts) (hs : Stable x.rates) (hx : x.toTrackGroup.Stored) : x.norm c = x := by
  unfold EqualizerMultiBand.norm
  rw [TrackEffect.norm_self hf ht.left hs hx, ht.right (.macroman, x.filter_name) (by simp)]

theorem TimeWarp.norm_self {x : TimeWarp} (hf : FixRefs c x.visits) (ht : Stripped x.texts) (hs : Stable x.rates) (hx : x.toTrackGroup.Stored) : x.norm c = x := by
  unfold TimeWarp.norm
  rw [TrackGroup.norm_self hf ht hs hx]

theorem CaptureMask.norm_self {x : CaptureMask} (hf : FixRefs c x.visits) (ht : Stripped x.texts) (hs : Stable x.rates) (hx : x.toTrackGroup.Stored) : x.norm c = x := by
  unfold CaptureMask.norm
  rw [TimeWarp.norm_self hf ht hs hx]

theorem StrobeEffect.norm_self {x : StrobeEffect} (hf : FixRefs c x.visits) (ht : Stripped x.texts) (hs : Stable x.rates) (hx : x.toTrackGroup.Stored) : x.norm c = x := by
  unfold StrobeEffect.norm
  rw [TimeWarp.norm_self hf ht hs hx]

theorem Repeat.norm_self {x : Repeat} (hf : FixRefs c x.visits) (ht : Stripped x.texts) (hs : Stable x.rates) (hx : x.toTrackGroup.Stored) : x.norm c = x := by
  unfold Repeat.norm
  rw [TimeWarp.norm_self hf ht hs hx]

theorem MotionEffect.norm_self {x : MotionEffect} (hf : FixRefs c x.visits) (ht : Stripped x.texts) (hs : Stable x.rates) (hx : x.toTrackGroup.Stored) : x.norm c = x := by
  unfold MotionEffect.norm
  rw [TimeWarp.norm_self hf.left ht hs hx, hf.right.opt]

theorem EssenceGroup.norm_self {x : EssenceGroup} (hf : FixRefs c x.visits) (ht : Stripped x.texts) (hs : Stable x.rates) (hx : x.toTrackGroup.Stored) : x.norm c = x := by
  unfold EssenceGroup.norm
  rw [TrackGroup.norm_self hf ht hs hx]

theorem Selector.norm_self {x : Selector} (hf : FixRefs c x.visits) (ht : Stripped x.texts) (hs : Stable x.rates) (hx : x.toTrackGroup.Stored) : x.norm c = x := by
  unfold Selector.norm
  rw [TrackGroup.norm_self hf ht hs hx]

theorem TransitionEffect.norm_self {x : TransitionEffect} (hf : FixRefs c x.visits) (ht : Stripped x.texts) (hs : Stable x.rates) (hx : x.toTrackGroup.Stored) : x.norm c = x := by
  unfold TransitionEffect.norm
  rw [TrackGroup.norm_self hf.left.left ht hs hx, hf.left.right.prop (r := x.keyframes) (by simp), hf.right.opt]

theorem Composition.norm_self {x : Composition} (hf : FixRefs c x.visits) (ht : Stripped x.texts) (hs : Stable x.rates) (hx : x.toTrackGroup.Stored) : x.norm c = x := by
  unfold Composition.norm
  rw [TrackGroup.norm_self hf.left ht hs hx, hf.right.prop (r := x.descriptor) (by simp)]

theorem FileLocator.norm_self {x : FileLocator} (ht : Stripped x.texts) : x.norm = x := by
  unfold FileLocator.norm
  rw [ht.left (.macroman, x.path) (by simp), ht.right.left.opt, ht.right.right.left.opt,
    ht.right.right.right.opt]

theorem EffectParamList.norm_self {x : EffectParamList} (hx : ∀ p ∈ x.parameters, p.box.length ≤ 4) :
    x.norm = x := by
  unfold EffectParamList.norm
  rw [map_self]
  intro p hp
  unfold EffectParam.norm
  rw [List.take_of_length_le (hx p hp)]

theorem CFUserParam.norm_self {x : CFUserParam} (hx : x.byte_order = 0x4949) : x.norm = x := by
  unfold CFUserParam.norm
  rw [← hx]

theorem ParameterItem.norm_self {x : ParameterItem} (hf : FixRefs c x.visits) (ht : Stripped x.texts)
    (hx : x.value_type = 2 → x.value.NotInt) : x.norm c = x := by
  unfold ParameterItem.norm
  rw [PVal.stored_self hx, PVal.norm_self hf.left, hf.right.prop (r := x.control_track) (by simp),
    ht (.macroman, x.name) (by simp [ParameterItem.texts])]

theorem MSMLocator.norm_self {x : MSMLocator} (ht : Stripped x.texts) : x.norm = x := by
  unfold MSMLocator.norm
  rw [ht.left (.macroman, x.last_known_volume) (by simp), ht.right.opt]

theorem BinRef.norm_self {x : BinRef} (ht : Stripped x.texts) : x.norm = x := by
  unfold BinRef.norm
  rw [ht.left (.macroman, x.name) (by simp), ht.right.opt]

theorem Marker.norm_self {x : Marker} (hf : FixRefs c x.visits) : x.norm c = x := by
  unfold Marker.norm
  rw [hf.prop (r := x.attributes) (by simp [Marker.visits])]

theorem TrackerManager.norm_self {x : TrackerManager} (hf : FixRefs c x.visits) : x.norm c = x := by
  unfold TrackerManager.norm
  rw [hf.prop (r := x.data_slots) (by simp [TrackerManager.visits]),
    hf.prop (r := x.param_slots) (by simp [TrackerManager.visits])]

theorem TrackerDataSlot.norm_self {x : TrackerDataSlot} (hf : FixRefs c x.visits) : x.norm c = x := by
  unfold TrackerDataSlot.norm
  rw [hf.items]

theorem TrackerParameterSlot.norm_self {x : TrackerParameterSlot} (hf : FixRefs c x.visits) :
    x.norm c = x := by
  unfold TrackerParameterSlot.norm
  rw [hf.items]

theorem TrackerData.norm_self {x : TrackerData} (hf : FixRefs c x.visits) : x.norm c = x := by
  unfold TrackerData.norm
  rw [hf.left.left.items, hf.left.right.opt, hf.right.opt]

theorem MediaDescriptor.norm_self {x : MediaDescriptor} (hf : FixRefs c x.visits) : x.norm c = x := by
  unfold MediaDescriptor.norm
  rw [hf.left.prop (r := x.locator) (by simp), hf.left.prop (r := x.physical_media) (by simp),
    hf.right.opt]

theorem TapeDescriptor.norm_self {x : TapeDescriptor} (hf : FixRefs c x.visits) : x.norm c = x := by
  unfold TapeDescriptor.norm
  rw [MediaDescriptor.norm_self hf]

theorem FilmDescriptor.norm_self {x : FilmDescriptor} (hf : FixRefs c x.visits) : x.norm c = x := by
  unfold FilmDescriptor.norm
  rw [MediaDescriptor.norm_self hf]

theorem NagraDescriptor.norm_self {x : NagraDescriptor} (hf : FixRefs c x.visits) : x.norm c = x := by
  unfold NagraDescriptor.norm
  rw [MediaDescriptor.norm_self hf]

theorem MediaFileDescriptor.norm_self {x : MediaFileDescriptor} (hf : FixRefs c x.visits)
    (hs : Stable x.rates) : x.norm c = x := by
  unfold MediaFileDescriptor.norm
  rw [MediaDescriptor.norm_self hf, hs x.edit_rate (by simp [MediaFileDescriptor.rates])]

theorem MultiDescriptor.norm_self {x : MultiDescriptor} (hf : FixRefs c x.visits) (hs : Stable x.rates) : x.norm c = x := by
  unfold MultiDescriptor.norm
  rw [MediaFileDescriptor.norm_self hf.left hs, hf.right.items]

theorem WaveDescriptor.norm_self {x : WaveDescriptor} (hf : FixRefs c x.visits) (hs : Stable x.rates) : x.norm c = x := by
  unfold WaveDescriptor.norm
  rw [MediaFileDescriptor.norm_self hf hs]

theorem AIFCDescriptor.norm_self {x : AIFCDescriptor} (hf : FixRefs c x.visits) (hs : Stable x.rates) : x.norm c = x := by
  unfold AIFCDescriptor.norm
  rw [MediaFileDescriptor.norm_self hf hs]

theorem DataDescriptor.norm_self {x : DataDescriptor} (hf : FixRefs c x.visits) (hs : Stable x.rates) : x.norm c = x := by
  unfold DataDescriptor.norm
  rw [MediaFileDescriptor.norm_self hf hs]

theorem ANCDataDescriptor.norm_self {x : ANCDataDescriptor} (hf : FixRefs c x.visits) (hs : Stable x.rates) : x.norm c = x := by
  unfold ANCDataDescriptor.norm
  rw [DataDescriptor.norm_self hf hs]

theorem PCMADescriptor.norm_self {x : PCMADescriptor} (hf : FixRefs c x.visits) (ht : Stripped x.texts)
    (hs : Stable x.allRates) : x.norm c = x := by
  unfold PCMADescriptor.norm
  rw [MediaFileDescriptor.norm_self hf fun r hr => hs r (by
      rw [List.mem_singleton.1 hr]; simp [PCMADescriptor.allRates]),
    hs x.sample_rate (by simp [PCMADescriptor.allRates]), Stripped.opt ht]

theorem MPGADescriptor.norm_self {x : MPGADescriptor} (hf : FixRefs c x.visits)
    (hs : Stable x.allRates) (hx : ∀ v, x.sub_frame_alignment = some v → 0 ≤ v ∧ v < 2 ^ 64) :
    x.norm c = x := by
  have : x.sub_frame_alignment.map (· % 2 ^ 64) = x.sub_frame_alignment := by
    cases h : x.sub_frame_alignment with
    | none => rfl
    | some v => exact congrArg some (Int.emod_eq_of_lt (hx v h).1 (hx v h).2)
  unfold MPGADescriptor.norm
  rw [MediaFileDescriptor.norm_self hf fun r hr => hs r (by
      rw [List.mem_singleton.1 hr]; simp [MPGADescriptor.allRates]),
    hs x.sample_rate (by simp [MPGADescriptor.allRates]), this]

theorem bind_self {α β : Type} {a : Option α} {b : Option β} (h : b.isSome → a.isSome) :
    (a.bind fun _ => b) = b := by
  cases a with
  | some a => rfl
  | none =>
    cases b with
    | none => rfl
    | some b => exact absurd (h rfl) (by simp)

theorem DIDDescriptor.norm_self {x : DIDDescriptor} (hf : FixRefs c x.visits)
    (hs : Stable x.rates) (hx : x.Stored) : x.norm c = x := by
  obtain ⟨h1, h2, h3, h4, h5, h6⟩ := hx
  have b1 := h6 x.valid_box (by simp)
  have b2 := h6 x.essence_box (by simp)
  have b3 := h6 x.source_box (by simp)
  have b4 := h6 x.framing_box (by simp)
  have e1 : (andHas (andHas x.valid_box x.essence_box) x.source_box).map (·.1.1.take 4) = x.valid_box ∧
      (andHas (andHas x.valid_box x.essence_box) x.source_box).map (·.1.2.take 4) = x.essence_box ∧
      (andHas (andHas x.valid_box x.essence_box) x.source_box).map (·.2.take 4) = x.source_box := by
    generalize x.valid_box = a at *
    generalize x.essence_box = b at *
    generalize x.source_box = d at *
    cases a <;> cases b <;> cases d <;> simp_all [andHas]
    exact ⟨List.take_of_length_le b1, List.take_of_length_le b2, List.take_of_length_le b3⟩
  have e2 : (andHas x.framing_box x.reformatting_option).map (·.1.take 4) = x.framing_box ∧
      (andHas x.framing_box x.reformatting_option).map (·.2) = x.reformatting_option := by
    generalize x.framing_box = a at *
    generalize x.reformatting_option = b at *
    clear e1
    cases a <;> cases b <;> simp_all [andHas]
    exact List.take_of_length_le b4
  have e3 : (andHas x.color_primaries x.coding_equations).map (·.1) = x.color_primaries ∧
      (andHas x.color_primaries x.coding_equations).map (·.2) = x.coding_equations := by
    generalize x.color_primaries = a at *
    generalize x.coding_equations = b at *
    cases a <;> cases b <;> simp_all [andHas]
  unfold DIDDescriptor.norm
  rw [MediaFileDescriptor.norm_self hf.left hs, hf.right.prop (r := x.next_did_desc) (by simp),
    bind_self h1, e1.1, e1.2.1, e1.2.2, e2.1, e2.2, e3.1, e3.2]

theorem CDCIDescriptor.norm_self {x : CDCIDescriptor} (hf : FixRefs c x.visits) (hs : Stable x.rates) (hx : x.toDIDDescriptor.Stored) : x.norm c = x := by
  unfold CDCIDescriptor.norm
  rw [DIDDescriptor.norm_self hf hs hx]

theorem MPGIDescriptor.norm_self {x : MPGIDescriptor} (hf : FixRefs c x.visits) (hs : Stable x.rates) (hx : x.toDIDDescriptor.Stored) : x.norm c = x := by
  unfold MPGIDescriptor.norm
  rw [CDCIDescriptor.norm_self hf hs hx]

theorem JPEGDescriptor.norm_self {x : JPEGDescriptor} (hf : FixRefs c x.visits) (hs : Stable x.rates) (hx : x.toDIDDescriptor.Stored) : x.norm c = x := by
  unfold JPEGDescriptor.norm
  rw [CDCIDescriptor.norm_self hf hs hx]

theorem RGBADescriptor.norm_self {x : RGBADescriptor} (hf : FixRefs c x.visits)
    (hs : Stable x.rates) (hx : x.Stored) : x.norm c = x := by
  obtain ⟨h0, h1, h2, h3, h4⟩ := hx
  unfold RGBADescriptor.norm
  rw [DIDDescriptor.norm_self hf hs h0, bind_self h1, bind_self h2, bind_self h3, bind_self h4]

theorem Attributes.norm_self {x : Attributes} (hf : FixRefs c x.visits) (ht : Stripped x.texts)
    (hx : (x.items.map (·.1)).Nodup) : x.norm c = x := by
  have h := Attributes.norm_items (c := c) ht hx
  rw [map_self] at h
  · obtain ⟨l⟩ := x
    exact congrArg Attributes.mk h
  · intro p hp
    obtain ⟨k, v⟩ := p
    have h1 : stripText k = k := ht (.macroman, k) (List.mem_flatMap.2 ⟨(k, v), hp, by simp⟩)
    rw [AttrVal.norm_strip h1]
    congr 1
    cases v with
    | str t =>
      exact congrArg AttrVal.str
        (ht (.macroman, t) (List.mem_flatMap.2 ⟨(k, .str t), hp, by simp [AttrVal.texts]⟩))
    | obj r =>
      exact congrArg AttrVal.obj
        (hf (.prop r) (List.mem_flatMap.2 ⟨(k, .obj r), hp, by simp [AttrVal.visits]⟩))
    | _ => rfl

theorem ParameterList.norm_self {x : ParameterList} (hf : FixRefs c x.visits) : x.norm c = x := by
  unfold ParameterList.norm
  rw [hf.props]

theorem TimeCrumbList.norm_self {x : TimeCrumbList} (hf : FixRefs c x.visits) : x.norm c = x := by
  unfold TimeCrumbList.norm
  rw [hf.props]

theorem BinViewSetting.norm_self {x : BinViewSetting} (hf : FixRefs c x.visits) (ht : Stripped x.texts) :
    x.norm c = x := by
  unfold BinViewSetting.norm Setting.norm
  rw [ht.left (.macroman, x.name) (by simp [Setting.texts]),
    ht.left (.macroman, x.kind) (by simp [Setting.texts]),
    hf.prop (r := x.attributes) (by simp [BinViewSetting.visits]), map_self]
  intro b hb
  unfold BinColumn.norm
  rw [ht.right (.macroman, b.title) (List.mem_map.2 ⟨b, hb, rfl⟩)]

theorem Bin.norm_self {x : Bin} (hf : FixRefs c x.visits) (ht : Stripped x.texts) (hx : x.Stored) :
    x.norm c = x := by
  have h1 : x.isLarge = x.large_bin := by
    unfold Bin.isLarge
    cases h : x.large_bin with
    | true => rfl
    | false =>
      have : ¬ 65535 < x.items.length := fun h2 => by rw [hx.2 h2] at h; cases h
      simp; omega
  unfold Bin.norm
  rw [h1, hf.left.left.prop (r := x.view_setting) (by simp), hf.right.prop (r := x.attributes) (by simp),
    List.take_of_length_le hx.1, map_self, map_self, map_self]
  · intro p hp
    rw [ht.right (.macroman, p.2) (List.mem_map.2 ⟨p, hp, rfl⟩)]
  · intro s hs
    unfold SiftItem.norm
    rw [ht.left (.macroman, s.string) (List.mem_flatMap.2 ⟨s, hs, by simp [SiftItem.texts]⟩),
      ht.left (.macroman, s.column) (List.mem_flatMap.2 ⟨s, hs, by simp [SiftItem.texts]⟩)]
  · intro b hb
    unfold BinItem.norm
    rw [hf.left.right.prop (r := b.mob) (List.mem_map.2 ⟨b, hb, rfl⟩)]

theorem BinFirst.norm_self {x : BinFirst} (hf : FixRefs c x.visits) (ht : Stripped x.texts)
    (hx : x.toBin.Stored) : x.norm c = x := by
  unfold BinFirst.norm
  rw [Bin.norm_self hf ht hx]

/-- An object in stored form whose references keep their numbers is read back as it was. -/
theorem Obj.norm_self {x : Obj} (hf : FixRefs c x.visits) (hx : x.Stored) : x.norm c = x := by
  obtain ⟨ht, hs, hx⟩ := hx
  cases x with
  | ATTR x => exact congrArg Obj.ATTR (Attributes.norm_self hf ht hx)
  | PRLS x => exact congrArg Obj.PRLS (ParameterList.norm_self hf)
  | TMCS x => exact congrArg Obj.TMCS (TimeCrumbList.norm_self hf)
  | BVst x => exact congrArg Obj.BVst (BinViewSetting.norm_self hf ht)
  | ABIN x => exact congrArg Obj.ABIN (Bin.norm_self hf ht hx)
  | BINF x => exact congrArg Obj.BINF (BinFirst.norm_self hf ht hx)
  | SEQU x => exact congrArg Obj.SEQU (Sequence.norm_self hf ht hs hx)
  | SCLP x => exact congrArg Obj.SCLP (SourceClip.norm_self hf ht hs hx)
  | TCCP x => exact congrArg Obj.TCCP (Timecode.norm_self hf ht hs hx)
  | ECCP x => exact congrArg Obj.ECCP (Edgecode.norm_self hf ht hs hx)
  | TRKR x => exact congrArg Obj.TRKR (TrackRef.norm_self hf ht hs hx)
  | PRCL x => exact congrArg Obj.PRCL (ParamClip.norm_self hf ht hs hx.1 hx.2)
  | CTRL x => exact congrArg Obj.CTRL (ControlClip.norm_self hf ht hs hx)
  | FILL x => exact congrArg Obj.FILL (Filler.norm_self hf ht hs hx)
  | TRKG x => exact congrArg Obj.TRKG (TrackGroup.norm_self hf ht hs hx)
  | TKFX x => exact congrArg Obj.TKFX (TrackEffect.norm_self hf ht hs hx)
  | PVOL x => exact congrArg Obj.PVOL (PanVolumeEffect.norm_self hf ht hs hx)
  | ASPI x => exact congrArg Obj.ASPI (AudioSuitePluginEffect.norm_self hf ht hs hx)
  | EQMB x => exact congrArg Obj.EQMB (EqualizerMultiBand.norm_self hf ht hs hx)
  | MASK x => exact congrArg Obj.MASK (CaptureMask.norm_self hf ht hs hx)
  | STRB x => exact congrArg Obj.STRB (StrobeEffect.norm_self hf ht hs hx)
  | SPED x => exact congrArg Obj.SPED (MotionEffect.norm_self hf ht hs hx)
  | REPT x => exact congrArg Obj.REPT (Repeat.norm_self hf ht hs hx)
  | RSET x => exact congrArg Obj.RSET (EssenceGroup.norm_self hf ht hs hx)
  | TNFX x => exact congrArg Obj.TNFX (TransitionEffect.norm_self hf ht hs hx)
  | SLCT x => exact congrArg Obj.SLCT (Selector.norm_self hf ht hs hx)
  | CMPO x => exact congrArg Obj.CMPO (Composition.norm_self hf ht hs hx)
  | FILE x => exact congrArg Obj.FILE (FileLocator.norm_self ht)
  | WINF x => exact congrArg Obj.WINF (FileLocator.norm_self ht)
  | URLL x => rfl
  | GRFX x => rfl
  | SHLP x => rfl
  | CCFX x => rfl
  | FXPS x => exact congrArg Obj.FXPS (EffectParamList.norm_self hx)
  | AVUP x => exact congrArg Obj.AVUP (CFUserParam.norm_self hx)
  | PRIT x => exact congrArg Obj.PRIT (ParameterItem.norm_self hf ht hx)
  | MSML x => exact congrArg Obj.MSML (MSMLocator.norm_self ht)
  | APOS x => rfl
  | ABOB x => rfl
  | DIDP x => rfl
  | MPGP x => rfl
  | MCBR x => exact congrArg Obj.MCBR (BinRef.norm_self ht)
  | MCMR x => rfl
  | TMBC x => exact congrArg Obj.TMBC (Marker.norm_self hf)
  | TKMN x => exact congrArg Obj.TKMN (TrackerManager.norm_self hf)
  | TKDS x => exact congrArg Obj.TKDS (TrackerDataSlot.norm_self hf)
  | TKPS x => exact congrArg Obj.TKPS (TrackerParameterSlot.norm_self hf)
  | TKDA x => exact congrArg Obj.TKDA (TrackerData.norm_self hf)
  | TKPA x => rfl
  | MDES x => exact congrArg Obj.MDES (MediaDescriptor.norm_self hf)
  | MDTP x => exact congrArg Obj.MDTP (TapeDescriptor.norm_self hf)
  | MDFM x => exact congrArg Obj.MDFM (FilmDescriptor.norm_self hf)
  | MDNG x => exact congrArg Obj.MDNG (NagraDescriptor.norm_self hf)
  | MDFL x => exact congrArg Obj.MDFL (MediaFileDescriptor.norm_self hf hs)
  | MULD x => exact congrArg Obj.MULD (MultiDescriptor.norm_self hf hs)
  | WAVE x => exact congrArg Obj.WAVE (WaveDescriptor.norm_self hf hs)
  | AIFC x => exact congrArg Obj.AIFC (AIFCDescriptor.norm_self hf hs)
  | PCMA x => exact congrArg Obj.PCMA (PCMADescriptor.norm_self hf ht hs)
  | MPGA x => exact congrArg Obj.MPGA (MPGADescriptor.norm_self hf hs hx)
  | DIDD x => exact congrArg Obj.DIDD (DIDDescriptor.norm_self hf hs hx)
  | CDCI x => exact congrArg Obj.CDCI (CDCIDescriptor.norm_self hf hs hx)
  | MPGI x => exact congrArg Obj.MPGI (MPGIDescriptor.norm_self hf hs hx)
  | JPED x => exact congrArg Obj.JPED (JPEGDescriptor.norm_self hf hs hx)
  | RGBA x => exact congrArg Obj.RGBA (RGBADescriptor.norm_self hf hs hx)
  | DATD x => exact congrArg Obj.DATD (DataDescriptor.norm_self hf hs)
  | ANCD x => exact congrArg Obj.ANCD (ANCDataDescriptor.norm_self hf hs)

end

end Avb
