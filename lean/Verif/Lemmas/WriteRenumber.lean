import Verif.Spec.Renumber
import Verif.Lemmas.Stored

/-
Writing an object with other references is writing it with another table of references.
-/

namespace Avb

/-- The table by which `r` gets the number of `g r`. -/
def WCtx.via (c : WCtx) (g : Ref → Ref) : WCtx := ⟨c.bo, fun r => c.refMap (g r)⟩

set_option linter.unusedSimpArgs false

section
variable {c : WCtx} {g : Ref → Ref}

theorem via_bo : (c.via g).bo = c.bo := rfl

theorem wRef_via (hg : ∀ r, g r = 0 ↔ r = 0) : wRef (c.via g) = fun r => wRef c (g r) := by
  funext r
  unfold wRef
  by_cases h : r = 0
  · rw [if_pos h, if_pos ((hg r).2 h)]
    rfl
  · rw [if_neg h, if_neg (fun e => h ((hg r).1 e))]
    rfl

theorem forW_map {α β : Type} (k : α → β) (l : List α) (w : β → Wr Unit) :
    forW (l.map k) w = forW l (fun a => w (k a)) := by
  induction l with
  | nil => rfl
  | cons a l ih => simp only [List.map_cons, forW, ih]

theorem ifHas_map {α β : Type} (k : α → β) (o : Option α) (w : β → Wr Unit) :
    Wr.ifHas (o.map k) w = Wr.ifHas o (fun a => w (k a)) := by
  cases o <;> rfl

theorem flagged_map {α β : Type} (b : Bool) (k : α → β) (o : Option α) (w : β → Wr Unit) :
    wFlagged b (o.map k) w = wFlagged b o (fun a => w (k a)) := by
  cases b <;> cases o <;> rfl

theorem PVal.wRef_renumber (hg : ∀ r, g r = 0 ↔ r = 0) (x : PVal) :
    (x.renumber g).wRef c = x.wRef (c.via g) := by
  cases x <;> simp only [PVal.renumber, PVal.wRef, wRef_via hg]

theorem Component.write_renumber (hg : ∀ r, g r = 0 ↔ r = 0) (x : Component) :
    (x.renumber g).write c = x.write (c.via g) := by
  simp only [Component.write, Component.renumber, wRef_via hg, forW_map, ifHas_map, flagged_map,
    via_bo, List.length_map]
  try rfl

theorem Clip.write_renumber (hg : ∀ r, g r = 0 ↔ r = 0) (x : Clip) :
    (x.renumber g).write c = x.write (c.via g) := by
  simp only [Clip.write, Clip.renumber, Component.write_renumber hg, wRef_via hg, forW_map, ifHas_map,
    flagged_map, via_bo, List.length_map]
  try rfl

theorem Sequence.write_renumber (hg : ∀ r, g r = 0 ↔ r = 0) (x : Sequence) :
    (x.renumber g).write c = x.write (c.via g) := by
  simp only [Sequence.write, Sequence.renumber, Component.write_renumber hg, wRef_via hg, forW_map,
    ifHas_map, flagged_map, via_bo, List.length_map]
  try rfl

theorem SourceClip.write_renumber (hg : ∀ r, g r = 0 ↔ r = 0) (x : SourceClip) :
    (x.renumber g).write c = x.write (c.via g) := by
  simp only [SourceClip.write, SourceClip.renumber, Clip.write_renumber hg, wRef_via hg, forW_map,
    ifHas_map, flagged_map, via_bo, List.length_map]
  try rfl

theorem Timecode.write_renumber (hg : ∀ r, g r = 0 ↔ r = 0) (x : Timecode) :
    (x.renumber g).write c = x.write (c.via g) := by
  simp only [Timecode.write, Timecode.renumber, Clip.write_renumber hg, wRef_via hg, forW_map,
    ifHas_map, flagged_map, via_bo, List.length_map]
  try rfl

theorem Edgecode.write_renumber (hg : ∀ r, g r = 0 ↔ r = 0) (x : Edgecode) :
    (x.renumber g).write c = x.write (c.via g) := by
  simp only [Edgecode.write, Edgecode.renumber, Clip.write_renumber hg, wRef_via hg, forW_map,
    ifHas_map, flagged_map, via_bo, List.length_map]
  try rfl

theorem TrackRef.write_renumber (hg : ∀ r, g r = 0 ↔ r = 0) (x : TrackRef) :
    (x.renumber g).write c = x.write (c.via g) := by
  simp only [TrackRef.write, TrackRef.renumber, Clip.write_renumber hg, wRef_via hg, forW_map,
    ifHas_map, flagged_map, via_bo, List.length_map]
  try rfl

theorem ControlClip.write_renumber (hg : ∀ r, g r = 0 ↔ r = 0) (x : ControlClip) :
    (x.renumber g).write c = x.write (c.via g) := by
  simp only [ControlClip.write, ControlClip.renumber, Clip.write_renumber hg, wRef_via hg, forW_map,
    ifHas_map, flagged_map, via_bo, List.length_map]
  try rfl

theorem Filler.write_renumber (hg : ∀ r, g r = 0 ↔ r = 0) (x : Filler) :
    (x.renumber g).write c = x.write (c.via g) := by
  simp only [Filler.write, Filler.renumber, Clip.write_renumber hg, wRef_via hg, forW_map, ifHas_map,
    flagged_map, via_bo, List.length_map]
  try rfl

theorem PCP.write_renumber (hg : ∀ r, g r = 0 ↔ r = 0) (t : Int) :
    PCP.write (c.via g) t = fun x => PCP.write c t (x.renumber g) := by
  funext x
  obtain ⟨a, b, d, v, e⟩ := x
  cases v <;> simp only [PCP.write, PCP.writeValue, PCP.renumber, PVal.wRef, PVal.renumber, wRef_via hg, via_bo] <;>
    rfl

theorem ParamClip.write_renumber (hg : ∀ r, g r = 0 ↔ r = 0) (x : ParamClip) :
    (x.renumber g).write c = x.write (c.via g) := by
  simp only [ParamClip.write, ParamClip.renumber, Clip.write_renumber hg, wRef_via hg, forW_map,
    ifHas_map, flagged_map, via_bo, List.length_map, PCP.write_renumber hg]
  try rfl

theorem Track.flags_renumber (x : Track) : (x.renumber g).flags = x.flags := by
  unfold Track.flags Track.renumber
  simp only [flagBit_map]

theorem Track.write_renumber (hg : ∀ r, g r = 0 ↔ r = 0) :
    Track.write (c.via g) = fun x => Track.write c (x.renumber g) := by
  funext x
  simp only [Track.write, Track.flags_renumber]
  simp only [Track.renumber, wRef_via hg, flagged_map, via_bo]

theorem wLock_renumber : wLock (c.via g) = fun x => wLock c (x.renumber g) := rfl

theorem TrackGroup.write_renumber (hg : ∀ r, g r = 0 ↔ r = 0) (x : TrackGroup) :
    (x.renumber g).write c = x.write (c.via g) := by
  simp only [TrackGroup.write, TrackGroup.renumber, Component.write_renumber hg, wRef_via hg, forW_map,
    ifHas_map, flagged_map, via_bo, List.length_map, Track.write_renumber hg, wLock_renumber,
    List.map_eq_nil_iff, ne_eq]
  try rfl

theorem TrackEffect.writeBody_renumber (hg : ∀ r, g r = 0 ↔ r = 0) (x : TrackEffect) :
    (x.renumber g).writeBody c = x.writeBody (c.via g) := by
  simp only [TrackEffect.writeBody, TrackEffect.renumber, TrackGroup.write_renumber hg, wRef_via hg,
    forW_map, ifHas_map, flagged_map, via_bo, List.length_map]
  try rfl

theorem TrackEffect.write_renumber (hg : ∀ r, g r = 0 ↔ r = 0) (x : TrackEffect) :
    (x.renumber g).write c = x.write (c.via g) := by
  simp only [TrackEffect.write, TrackEffect.writeBody_renumber hg, via_bo]
  try rfl

theorem PanVolumeEffect.write_renumber (hg : ∀ r, g r = 0 ↔ r = 0) (x : PanVolumeEffect) :
    (x.renumber g).write c = x.write (c.via g) := by
  simp only [PanVolumeEffect.write, PanVolumeEffect.renumber, TrackEffect.write_renumber hg,
    wRef_via hg, forW_map, ifHas_map, flagged_map, via_bo, List.length_map,
    TrackEffect.writeBody_renumber hg]
  try rfl

theorem AudioSuitePluginEffect.write_renumber (hg : ∀ r, g r = 0 ↔ r = 0) (x : AudioSuitePluginEffect) :
    (x.renumber g).write c = x.write (c.via g) := by
  simp only [AudioSuitePluginEffect.write, AudioSuitePluginEffect.renumber,
    TrackEffect.write_renumber hg, wRef_via hg, forW_map, ifHas_map, flagged_map, via_bo,
    List.length_map, TrackEffect.writeBody_renumber hg]
  try rfl

theorem EqualizerMultiBand.write_renumber (hg : ∀ r, g r = 0 ↔ r = 0) (x : EqualizerMultiBand) :
    (x.renumber g).write c = x.write (c.via g) := by
  simp only [EqualizerMultiBand.write, EqualizerMultiBand.renumber, TrackEffect.write_renumber hg,
    wRef_via hg, forW_map, ifHas_map, flagged_map, via_bo, List.length_map,
    TrackEffect.writeBody_renumber hg]
  try rfl

theorem TimeWarp.write_renumber (hg : ∀ r, g r = 0 ↔ r = 0) (x : TimeWarp) :
    (x.renumber g).write c = x.write (c.via g) := by
  simp only [TimeWarp.write, TimeWarp.renumber, TrackGroup.write_renumber hg, wRef_via hg, forW_map,
    ifHas_map, flagged_map, via_bo, List.length_map]
  try rfl

theorem CaptureMask.write_renumber (hg : ∀ r, g r = 0 ↔ r = 0) (x : CaptureMask) :
    (x.renumber g).write c = x.write (c.via g) := by
  simp only [CaptureMask.write, CaptureMask.renumber, TimeWarp.write_renumber hg, wRef_via hg,
    forW_map, ifHas_map, flagged_map, via_bo, List.length_map]
  try rfl

theorem StrobeEffect.write_renumber (hg : ∀ r, g r = 0 ↔ r = 0) (x : StrobeEffect) :
    (x.renumber g).write c = x.write (c.via g) := by
  simp only [StrobeEffect.write, StrobeEffect.renumber, TimeWarp.write_renumber hg, wRef_via hg,
    forW_map, ifHas_map, flagged_map, via_bo, List.length_map]
  try rfl

theorem Repeat.write_renumber (hg : ∀ r, g r = 0 ↔ r = 0) (x : Repeat) :
    (x.renumber g).write c = x.write (c.via g) := by
  simp only [Repeat.write, Repeat.renumber, TimeWarp.write_renumber hg, wRef_via hg, forW_map,
    ifHas_map, flagged_map, via_bo, List.length_map]
  try rfl

theorem MotionEffect.write_renumber (hg : ∀ r, g r = 0 ↔ r = 0) (x : MotionEffect) :
    (x.renumber g).write c = x.write (c.via g) := by
  simp only [MotionEffect.write, MotionEffect.renumber, TimeWarp.write_renumber hg, wRef_via hg,
    forW_map, ifHas_map, flagged_map, via_bo, List.length_map]
  try rfl

theorem EssenceGroup.write_renumber (hg : ∀ r, g r = 0 ↔ r = 0) (x : EssenceGroup) :
    (x.renumber g).write c = x.write (c.via g) := by
  simp only [EssenceGroup.write, EssenceGroup.renumber, TrackGroup.write_renumber hg, wRef_via hg,
    forW_map, ifHas_map, flagged_map, via_bo, List.length_map]
  try rfl

theorem Selector.write_renumber (hg : ∀ r, g r = 0 ↔ r = 0) (x : Selector) :
    (x.renumber g).write c = x.write (c.via g) := by
  simp only [Selector.write, Selector.renumber, TrackGroup.write_renumber hg, wRef_via hg, forW_map,
    ifHas_map, flagged_map, via_bo, List.length_map]
  try rfl

theorem TransitionEffect.write_renumber (hg : ∀ r, g r = 0 ↔ r = 0) (x : TransitionEffect) :
    (x.renumber g).write c = x.write (c.via g) := by
  simp only [TransitionEffect.write, TransitionEffect.renumber, TrackGroup.write_renumber hg,
    wRef_via hg, forW_map, ifHas_map, flagged_map, via_bo, List.length_map]
  try rfl

theorem Composition.write_renumber (hg : ∀ r, g r = 0 ↔ r = 0) (x : Composition) :
    (x.renumber g).write c = x.write (c.via g) := by
  simp only [Composition.write, Composition.renumber, TrackGroup.write_renumber hg, wRef_via hg,
    forW_map, ifHas_map, flagged_map, via_bo, List.length_map]
  try rfl

theorem ParameterItem.write_renumber (hg : ∀ r, g r = 0 ↔ r = 0) (x : ParameterItem) :
    (x.renumber g).write c = x.write (c.via g) := by
  obtain ⟨a, b, v, d, e, f, h⟩ := x
  cases v <;> simp only [ParameterItem.write, ParameterItem.writeValue, ParameterItem.renumber, PVal.wRef,
    PVal.renumber, wRef_via hg, via_bo] <;> rfl

theorem Marker.write_renumber (hg : ∀ r, g r = 0 ↔ r = 0) (x : Marker) :
    (x.renumber g).write c = x.write (c.via g) := by
  simp only [Marker.write, Marker.renumber, wRef_via hg, forW_map, ifHas_map, flagged_map, via_bo,
    List.length_map]
  try rfl

theorem TrackerManager.write_renumber (hg : ∀ r, g r = 0 ↔ r = 0) (x : TrackerManager) :
    (x.renumber g).write c = x.write (c.via g) := by
  simp only [TrackerManager.write, TrackerManager.renumber, wRef_via hg, forW_map, ifHas_map,
    flagged_map, via_bo, List.length_map]
  try rfl

theorem TrackerDataSlot.write_renumber (hg : ∀ r, g r = 0 ↔ r = 0) (x : TrackerDataSlot) :
    (x.renumber g).write c = x.write (c.via g) := by
  simp only [TrackerDataSlot.write, TrackerDataSlot.renumber, wRef_via hg, forW_map, ifHas_map,
    flagged_map, via_bo, List.length_map]
  try rfl

theorem TrackerParameterSlot.write_renumber (hg : ∀ r, g r = 0 ↔ r = 0) (x : TrackerParameterSlot) :
    (x.renumber g).write c = x.write (c.via g) := by
  simp only [TrackerParameterSlot.write, TrackerParameterSlot.renumber, wRef_via hg, forW_map,
    ifHas_map, flagged_map, via_bo, List.length_map]
  try rfl

theorem TrackerData.write_renumber (hg : ∀ r, g r = 0 ↔ r = 0) (x : TrackerData) :
    (x.renumber g).write c = x.write (c.via g) := by
  simp only [TrackerData.write, TrackerData.renumber, wRef_via hg, forW_map, ifHas_map, flagged_map,
    via_bo, List.length_map]
  try rfl

theorem MediaDescriptor.writeBody_renumber (hg : ∀ r, g r = 0 ↔ r = 0) (x : MediaDescriptor) :
    (x.renumber g).writeBody c = x.writeBody (c.via g) := by
  simp only [MediaDescriptor.writeBody, MediaDescriptor.renumber, wRef_via hg, forW_map, ifHas_map,
    flagged_map, via_bo, List.length_map]
  try rfl

theorem MediaDescriptor.write_renumber (hg : ∀ r, g r = 0 ↔ r = 0) (x : MediaDescriptor) :
    (x.renumber g).write c = x.write (c.via g) := by
  simp only [MediaDescriptor.write, MediaDescriptor.writeBody_renumber hg, via_bo]
  try rfl

theorem TapeDescriptor.write_renumber (hg : ∀ r, g r = 0 ↔ r = 0) (x : TapeDescriptor) :
    (x.renumber g).write c = x.write (c.via g) := by
  simp only [TapeDescriptor.write, TapeDescriptor.renumber, MediaDescriptor.write_renumber hg,
    wRef_via hg, forW_map, ifHas_map, flagged_map, via_bo, List.length_map,
    MediaDescriptor.writeBody_renumber hg]
  try rfl

theorem FilmDescriptor.write_renumber (hg : ∀ r, g r = 0 ↔ r = 0) (x : FilmDescriptor) :
    (x.renumber g).write c = x.write (c.via g) := by
  simp only [FilmDescriptor.write, FilmDescriptor.renumber, MediaDescriptor.write_renumber hg,
    wRef_via hg, forW_map, ifHas_map, flagged_map, via_bo, List.length_map,
    MediaDescriptor.writeBody_renumber hg]
  try rfl

theorem NagraDescriptor.write_renumber (hg : ∀ r, g r = 0 ↔ r = 0) (x : NagraDescriptor) :
    (x.renumber g).write c = x.write (c.via g) := by
  simp only [NagraDescriptor.write, NagraDescriptor.renumber, MediaDescriptor.write_renumber hg,
    wRef_via hg, forW_map, ifHas_map, flagged_map, via_bo, List.length_map,
    MediaDescriptor.writeBody_renumber hg]
  try rfl

theorem MediaFileDescriptor.writeBody_renumber (hg : ∀ r, g r = 0 ↔ r = 0) (x : MediaFileDescriptor) :
    (x.renumber g).writeBody c = x.writeBody (c.via g) := by
  simp only [MediaFileDescriptor.writeBody, MediaFileDescriptor.renumber,
    MediaDescriptor.write_renumber hg, wRef_via hg, forW_map, ifHas_map, flagged_map, via_bo,
    List.length_map, MediaDescriptor.writeBody_renumber hg]
  try rfl

theorem MediaFileDescriptor.write_renumber (hg : ∀ r, g r = 0 ↔ r = 0) (x : MediaFileDescriptor) :
    (x.renumber g).write c = x.write (c.via g) := by
  simp only [MediaFileDescriptor.write, MediaFileDescriptor.writeBody_renumber hg, via_bo]
  try rfl

theorem MultiDescriptor.write_renumber (hg : ∀ r, g r = 0 ↔ r = 0) (x : MultiDescriptor) :
    (x.renumber g).write c = x.write (c.via g) := by
  simp only [MultiDescriptor.write, MultiDescriptor.renumber, MediaFileDescriptor.write_renumber hg,
    wRef_via hg, forW_map, ifHas_map, flagged_map, via_bo, List.length_map,
    MediaFileDescriptor.writeBody_renumber hg]
  try rfl

theorem WaveDescriptor.write_renumber (hg : ∀ r, g r = 0 ↔ r = 0) (x : WaveDescriptor) :
    (x.renumber g).write c = x.write (c.via g) := by
  simp only [WaveDescriptor.write, WaveDescriptor.renumber, MediaFileDescriptor.write_renumber hg,
    wRef_via hg, forW_map, ifHas_map, flagged_map, via_bo, List.length_map,
    MediaFileDescriptor.writeBody_renumber hg]
  try rfl

theorem AIFCDescriptor.write_renumber (hg : ∀ r, g r = 0 ↔ r = 0) (x : AIFCDescriptor) :
    (x.renumber g).write c = x.write (c.via g) := by
  simp only [AIFCDescriptor.write, AIFCDescriptor.renumber, MediaFileDescriptor.write_renumber hg,
    wRef_via hg, forW_map, ifHas_map, flagged_map, via_bo, List.length_map,
    MediaFileDescriptor.writeBody_renumber hg]
  try rfl

theorem DataDescriptor.write_renumber (hg : ∀ r, g r = 0 ↔ r = 0) (x : DataDescriptor) :
    (x.renumber g).write c = x.write (c.via g) := by
  simp only [DataDescriptor.write, DataDescriptor.renumber, MediaFileDescriptor.write_renumber hg,
    wRef_via hg, forW_map, ifHas_map, flagged_map, via_bo, List.length_map,
    MediaFileDescriptor.writeBody_renumber hg]
  try rfl

theorem PCMADescriptor.write_renumber (hg : ∀ r, g r = 0 ↔ r = 0) (x : PCMADescriptor) :
    (x.renumber g).write c = x.write (c.via g) := by
  simp only [PCMADescriptor.write, PCMADescriptor.renumber, MediaFileDescriptor.write_renumber hg,
    wRef_via hg, forW_map, ifHas_map, flagged_map, via_bo, List.length_map,
    MediaFileDescriptor.writeBody_renumber hg]
  try rfl

theorem MPGADescriptor.write_renumber (hg : ∀ r, g r = 0 ↔ r = 0) (x : MPGADescriptor) :
    (x.renumber g).write c = x.write (c.via g) := by
  simp only [MPGADescriptor.write, MPGADescriptor.renumber, MediaFileDescriptor.write_renumber hg,
    wRef_via hg, forW_map, ifHas_map, flagged_map, via_bo, List.length_map,
    MediaFileDescriptor.writeBody_renumber hg]
  try rfl

theorem ANCDataDescriptor.write_renumber (hg : ∀ r, g r = 0 ↔ r = 0) (x : ANCDataDescriptor) :
    (x.renumber g).write c = x.write (c.via g) := by
  simp only [ANCDataDescriptor.write, ANCDataDescriptor.renumber, DataDescriptor.write_renumber hg,
    wRef_via hg, forW_map, ifHas_map, flagged_map, via_bo, List.length_map]
  try rfl

theorem DIDDescriptor.writeBody_renumber (hg : ∀ r, g r = 0 ↔ r = 0) (x : DIDDescriptor) :
    (x.renumber g).writeBody c = x.writeBody (c.via g) := by
  simp only [DIDDescriptor.writeBody, DIDDescriptor.renumber, MediaFileDescriptor.write_renumber hg,
    wRef_via hg, forW_map, ifHas_map, flagged_map, via_bo, List.length_map,
    MediaFileDescriptor.writeBody_renumber hg]
  try rfl

theorem DIDDescriptor.write_renumber (hg : ∀ r, g r = 0 ↔ r = 0) (x : DIDDescriptor) :
    (x.renumber g).write c = x.write (c.via g) := by
  simp only [DIDDescriptor.write, DIDDescriptor.writeBody_renumber hg, via_bo]
  try rfl

theorem CDCIDescriptor.writeBody_renumber (hg : ∀ r, g r = 0 ↔ r = 0) (x : CDCIDescriptor) :
    (x.renumber g).writeBody c = x.writeBody (c.via g) := by
  simp only [CDCIDescriptor.writeBody, CDCIDescriptor.renumber, DIDDescriptor.write_renumber hg,
    wRef_via hg, forW_map, ifHas_map, flagged_map, via_bo, List.length_map,
    DIDDescriptor.writeBody_renumber hg]
  try rfl

theorem CDCIDescriptor.write_renumber (hg : ∀ r, g r = 0 ↔ r = 0) (x : CDCIDescriptor) :
    (x.renumber g).write c = x.write (c.via g) := by
  simp only [CDCIDescriptor.write, CDCIDescriptor.writeBody_renumber hg, via_bo]
  try rfl

theorem RGBADescriptor.write_renumber (hg : ∀ r, g r = 0 ↔ r = 0) (x : RGBADescriptor) :
    (x.renumber g).write c = x.write (c.via g) := by
  simp only [RGBADescriptor.write, RGBADescriptor.renumber, DIDDescriptor.write_renumber hg,
    wRef_via hg, forW_map, ifHas_map, flagged_map, via_bo, List.length_map,
    DIDDescriptor.writeBody_renumber hg]
  try rfl

theorem MPGIDescriptor.write_renumber (hg : ∀ r, g r = 0 ↔ r = 0) (x : MPGIDescriptor) :
    (x.renumber g).write c = x.write (c.via g) := by
  simp only [MPGIDescriptor.write, MPGIDescriptor.renumber, CDCIDescriptor.write_renumber hg,
    wRef_via hg, forW_map, ifHas_map, flagged_map, via_bo, List.length_map,
    CDCIDescriptor.writeBody_renumber hg]
  try rfl

theorem JPEGDescriptor.write_renumber (hg : ∀ r, g r = 0 ↔ r = 0) (x : JPEGDescriptor) :
    (x.renumber g).write c = x.write (c.via g) := by
  simp only [JPEGDescriptor.write, JPEGDescriptor.renumber, CDCIDescriptor.write_renumber hg,
    wRef_via hg, forW_map, ifHas_map, flagged_map, via_bo, List.length_map,
    CDCIDescriptor.writeBody_renumber hg]
  try rfl

theorem Attributes.writeItem_renumber (hg : ∀ r, g r = 0 ↔ r = 0) (p : Text × AttrVal) :
    Attributes.writeItem c (p.1, p.2.renumber g) = Attributes.writeItem (c.via g) p := by
  obtain ⟨n, v⟩ := p
  cases v <;> simp only [Attributes.writeItem, AttrVal.renumber, wRef_via hg, via_bo]

theorem Attributes.write_renumber (hg : ∀ r, g r = 0 ↔ r = 0) (x : Attributes) :
    (x.renumber g).write c = x.write (c.via g) := by
  simp only [Attributes.write, Attributes.renumber, wRef_via hg, forW_map, ifHas_map, flagged_map,
    via_bo, List.length_map, Attributes.writeItem_renumber hg]
  try rfl

theorem ParameterList.write_renumber (hg : ∀ r, g r = 0 ↔ r = 0) (x : ParameterList) :
    (x.renumber g).write c = x.write (c.via g) := by
  simp only [ParameterList.write, ParameterList.renumber, wRef_via hg, forW_map, ifHas_map,
    flagged_map, via_bo, List.length_map]
  try rfl

theorem TimeCrumbList.write_renumber (hg : ∀ r, g r = 0 ↔ r = 0) (x : TimeCrumbList) :
    (x.renumber g).write c = x.write (c.via g) := by
  simp only [TimeCrumbList.write, TimeCrumbList.renumber, wRef_via hg, forW_map, ifHas_map,
    flagged_map, via_bo, List.length_map]
  try rfl

theorem BinViewSetting.write_renumber (hg : ∀ r, g r = 0 ↔ r = 0) (x : BinViewSetting) :
    (x.renumber g).write c = x.write (c.via g) := by
  simp only [BinViewSetting.write, BinViewSetting.renumber, wRef_via hg, forW_map, ifHas_map,
    flagged_map, via_bo, List.length_map, Setting.write]
  try rfl

theorem BinItem.write_renumber (hg : ∀ r, g r = 0 ↔ r = 0) :
    BinItem.write (c.via g) = fun b => BinItem.write c { b with mob := g b.mob } := by
  funext b
  simp only [BinItem.write, wRef_via hg, via_bo]

theorem Bin.isLarge_renumber (x : Bin) : (x.renumber g).isLarge = x.isLarge := by
  simp only [Bin.isLarge, Bin.renumber, List.length_map]

theorem Bin.writeBody_renumber (hg : ∀ r, g r = 0 ↔ r = 0) (x : Bin) :
    (x.renumber g).writeBody c = x.writeBody (c.via g) := by
  simp only [Bin.writeBody, Bin.writeCount, Bin.isLarge_renumber]
  simp only [Bin.renumber, wRef_via hg, forW_map, via_bo, List.length_map, BinItem.write_renumber hg]
  rfl

theorem Bin.write_renumber (hg : ∀ r, g r = 0 ↔ r = 0) (x : Bin) :
    (x.renumber g).write c = x.write (c.via g) := by
  simp only [Bin.write, Bin.writeBody_renumber hg]

theorem BinFirst.write_renumber (hg : ∀ r, g r = 0 ↔ r = 0) (x : BinFirst) :
    (x.renumber g).write c = x.write (c.via g) := by
  simp only [BinFirst.write, BinFirst.renumber, Bin.writeBody_renumber hg]
  rfl

theorem Obj.write_renumber (hg : ∀ r, g r = 0 ↔ r = 0) (x : Obj) :
    (x.renumber g).write c = x.write (c.via g) := by
  cases x with
  | ATTR x => exact Attributes.write_renumber hg x
  | PRLS x => exact ParameterList.write_renumber hg x
  | TMCS x => exact TimeCrumbList.write_renumber hg x
  | BVst x => exact BinViewSetting.write_renumber hg x
  | ABIN x => exact Bin.write_renumber hg x
  | BINF x => exact BinFirst.write_renumber hg x
  | SEQU x => exact Sequence.write_renumber hg x
  | SCLP x => exact SourceClip.write_renumber hg x
  | TCCP x => exact Timecode.write_renumber hg x
  | ECCP x => exact Edgecode.write_renumber hg x
  | TRKR x => exact TrackRef.write_renumber hg x
  | PRCL x => exact ParamClip.write_renumber hg x
  | CTRL x => exact ControlClip.write_renumber hg x
  | FILL x => exact Filler.write_renumber hg x
  | TRKG x => exact TrackGroup.write_renumber hg x
  | TKFX x => exact TrackEffect.write_renumber hg x
  | PVOL x => exact PanVolumeEffect.write_renumber hg x
  | ASPI x => exact AudioSuitePluginEffect.write_renumber hg x
  | EQMB x => exact EqualizerMultiBand.write_renumber hg x
  | MASK x => exact CaptureMask.write_renumber hg x
  | STRB x => exact StrobeEffect.write_renumber hg x
  | SPED x => exact MotionEffect.write_renumber hg x
  | REPT x => exact Repeat.write_renumber hg x
  | RSET x => exact EssenceGroup.write_renumber hg x
  | TNFX x => exact TransitionEffect.write_renumber hg x
  | SLCT x => exact Selector.write_renumber hg x
  | CMPO x => exact Composition.write_renumber hg x
  | FILE x => rfl
  | WINF x => rfl
  | URLL x => rfl
  | GRFX x => rfl
  | SHLP x => rfl
  | CCFX x => rfl
  | FXPS x => rfl
  | AVUP x => rfl
  | PRIT x => exact ParameterItem.write_renumber hg x
  | MSML x => rfl
  | APOS x => rfl
  | ABOB x => rfl
  | DIDP x => rfl
  | MPGP x => rfl
  | MCBR x => rfl
  | MCMR x => rfl
  | TMBC x => exact Marker.write_renumber hg x
  | TKMN x => exact TrackerManager.write_renumber hg x
  | TKDS x => exact TrackerDataSlot.write_renumber hg x
  | TKPS x => exact TrackerParameterSlot.write_renumber hg x
  | TKDA x => exact TrackerData.write_renumber hg x
  | TKPA x => rfl
  | MDES x => exact MediaDescriptor.write_renumber hg x
  | MDTP x => exact TapeDescriptor.write_renumber hg x
  | MDFM x => exact FilmDescriptor.write_renumber hg x
  | MDNG x => exact NagraDescriptor.write_renumber hg x
  | MDFL x => exact MediaFileDescriptor.write_renumber hg x
  | MULD x => exact MultiDescriptor.write_renumber hg x
  | WAVE x => exact WaveDescriptor.write_renumber hg x
  | AIFC x => exact AIFCDescriptor.write_renumber hg x
  | PCMA x => exact PCMADescriptor.write_renumber hg x
  | MPGA x => exact MPGADescriptor.write_renumber hg x
  | DIDD x => exact DIDDescriptor.write_renumber hg x
  | CDCI x => exact CDCIDescriptor.write_renumber hg x
  | MPGI x => exact MPGIDescriptor.write_renumber hg x
  | JPED x => exact JPEGDescriptor.write_renumber hg x
  | RGBA x => exact RGBADescriptor.write_renumber hg x
  | DATD x => exact DataDescriptor.write_renumber hg x
  | ANCD x => exact ANCDataDescriptor.write_renumber hg x

theorem Obj.texts_renumber (x : Obj) : (x.renumber g).texts = x.texts := by
  cases x with
  | ATTR x =>
    simp only [Obj.texts, Obj.renumber, Attributes.texts, Attributes.renumber, List.flatMap_map]
    congr 1
    funext p
    obtain ⟨n, v⟩ := p
    cases v <;> rfl
  | _ => rfl

theorem Obj.rates_renumber (x : Obj) : (x.renumber g).rates = x.rates := by
  cases x <;> rfl

theorem Obj.readable_renumber (x : Obj) : (x.renumber g).Readable ↔ x.Readable := by
  have ht := Obj.texts_renumber (g := g) x
  cases x with
  | ATTR x => exact iff_of_eq (congrArg TextsOK ht)
  | SLCT x =>
    show _ ∧ x.selected < (x.tracks.map _).length ↔ _
    rw [List.length_map]
    rfl
  | _ => rfl

theorem TrackGroup.stored_renumber (x : TrackGroup) : (x.renumber g).Stored ↔ x.Stored := by
  unfold TrackGroup.Stored TrackGroup.renumber
  constructor
  · rintro ⟨h1, h2⟩
    exact ⟨h1, fun t ht => h2 (t.renumber g) (List.mem_map.2 ⟨t, ht, rfl⟩)⟩
  · rintro ⟨h1, h2⟩
    refine ⟨h1, fun t ht => ?_⟩
    obtain ⟨u, hu, rfl⟩ := List.mem_map.1 ht
    exact h2 u hu

theorem Bin.stored_renumber (x : Bin) : (x.renumber g).Stored ↔ x.Stored := by
  simp only [Bin.Stored, Bin.renumber, List.length_map]

theorem PVal.notInt_renumber {v : PVal} : (v.renumber g).NotInt ↔ v.NotInt := by
  cases v <;> simp [PVal.NotInt, PVal.renumber]

theorem ParamClip.doubles_renumber (x : ParamClip) : (x.renumber g).Doubles ↔ x.Doubles := by
  simp [ParamClip.Doubles, ParamClip.renumber, PCP.renumber, PVal.notInt_renumber]

theorem Obj.shape_renumber (x : Obj) : (x.renumber g).Shape ↔ x.Shape := by
  cases x with
  | ATTR x => simp only [Obj.Shape, Obj.renumber, Attributes.renumber, List.map_map, Function.comp_def]
  | ABIN x => exact Bin.stored_renumber x
  | BINF x => exact Bin.stored_renumber x.toBin
  | TRKG x => exact TrackGroup.stored_renumber x
  | TKFX x => exact TrackGroup.stored_renumber x.toTrackGroup
  | PVOL x => exact TrackGroup.stored_renumber x.toTrackGroup
  | ASPI x => exact TrackGroup.stored_renumber x.toTrackGroup
  | EQMB x => exact TrackGroup.stored_renumber x.toTrackGroup
  | MASK x => exact TrackGroup.stored_renumber x.toTrackGroup
  | STRB x => exact TrackGroup.stored_renumber x.toTrackGroup
  | SPED x => exact TrackGroup.stored_renumber x.toTrackGroup
  | REPT x => exact TrackGroup.stored_renumber x.toTrackGroup
  | RSET x => exact TrackGroup.stored_renumber x.toTrackGroup
  | TNFX x => exact TrackGroup.stored_renumber x.toTrackGroup
  | SLCT x => exact TrackGroup.stored_renumber x.toTrackGroup
  | CMPO x => exact TrackGroup.stored_renumber x.toTrackGroup
  | PRCL x => exact and_congr Iff.rfl (ParamClip.doubles_renumber x)
  | PRIT x => exact imp_congr Iff.rfl PVal.notInt_renumber
  | _ => rfl

theorem Obj.stored_renumber (x : Obj) : (x.renumber g).Stored ↔ x.Stored := by
  constructor
  · rintro ⟨h1, h2, h3⟩
    rw [Obj.texts_renumber] at h1
    rw [Obj.rates_renumber] at h2
    exact ⟨h1, h2, (Obj.shape_renumber x).1 h3⟩
  · rintro ⟨h1, h2, h3⟩
    refine ⟨?_, ?_, (Obj.shape_renumber x).2 h3⟩
    · rw [Obj.texts_renumber]; exact h1
    · rw [Obj.rates_renumber]; exact h2

theorem Obj.cls_renumber (x : Obj) : (x.renumber g).cls = x.cls := by
  cases x <;> rfl

end

end Avb
