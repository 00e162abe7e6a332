import Verif.Lemmas.Obj
import Verif.Lemmas.RelAll

/-
The loaded form of an object depends on the output context only through the numbers given to the
references of the object.
-/

set_option linter.unusedSimpArgs false

namespace Avb

/-- Two contexts give the same numbers to these references. -/
def TrEq (c c' : WCtx) (vs : List Visit) : Prop := ∀ v ∈ vs, c.tr v.ref = c'.tr v.ref

variable {c c' : WCtx} {α β : Type}

theorem map_congr' {f g : α → β} {l : List α} (h : ∀ a ∈ l, f a = g a) : l.map f = l.map g :=
  List.map_congr_left h

theorem optMap_congr {f g : α → β} {o : Option α} (h : ∀ a, o = some a → f a = g a) :
    o.map f = o.map g := by
  cases o with
  | none => rfl
  | some a => simp [h a rfl]

theorem PVal.norm_congr {x : PVal} (h : TrEq c c' x.visits) : x.norm c = x.norm c' := by
  cases x with
  | ref r => simp only [PVal.norm]; congr 1; exact h (.prop r) (by simp [PVal.visits])
  | int => rfl
  | dbl => rfl

/-- Rounding an integer to a double changes no reference. -/
@[simp] theorem PVal.stored_visits {t : Int} {x : PVal} : (x.stored t).visits = x.visits := by
  unfold PVal.stored
  split
  · cases x <;> rfl
  · rfl

theorem PCP.norm_congr {t : Int} {x : PCP} (h : TrEq c c' x.value.visits) :
    x.norm c t = x.norm c' t := by
  unfold PCP.norm; rw [PVal.norm_congr (x := x.value.stored t) (by simpa using h)]

theorem AttrVal.norm_congr {x : AttrVal} (h : TrEq c c' x.visits) : x.norm c = x.norm c' := by
  cases x with
  | obj r => simp only [AttrVal.norm]; congr 1; exact h (.prop r) (by simp [AttrVal.visits])
  | int => rfl
  | str => rfl
  | bob => rfl
  | raw => rfl

theorem Attributes.normItem_congr {p : Text × AttrVal} (h : TrEq c c' p.2.visits) :
    Attributes.normItem c p = Attributes.normItem c' p := by
  unfold Attributes.normItem; rw [AttrVal.norm_congr h]

theorem Component.norm_congr {x : Component} (h : TrEq c c' x.visits) :
    x.norm c = x.norm c' := by
  unfold Component.norm
  try dsimp only
  congr 1
  all_goals first
    | exact h (.prop _) (by vmem Component.visits)
    | exact h (.item _) (by vmem Component.visits)
    | exact optMap_congr fun _ _ => h (.prop _) (by vmem Component.visits)
    | exact map_congr' fun _ _ => h (.prop _) (by vmem Component.visits)
    | exact map_congr' fun _ _ => h (.item _) (by vmem Component.visits)

theorem Sequence.norm_congr {x : Sequence} (h : TrEq c c' x.visits) :
    x.norm c = x.norm c' := by
  unfold Sequence.norm
  try dsimp only
  congr 1
  all_goals first
    | exact Component.norm_congr fun _ _ => h _ (by vmem Sequence.visits)
    | exact h (.prop _) (by vmem Sequence.visits)
    | exact h (.item _) (by vmem Sequence.visits)
    | exact optMap_congr fun _ _ => h (.prop _) (by vmem Sequence.visits)
    | exact map_congr' fun _ _ => h (.prop _) (by vmem Sequence.visits)
    | exact map_congr' fun _ _ => h (.item _) (by vmem Sequence.visits)

theorem Clip.norm_congr {x : Clip} (h : TrEq c c' x.visits) :
    x.norm c = x.norm c' := by
  unfold Clip.norm
  try dsimp only
  congr 1
  all_goals first
    | exact Component.norm_congr fun _ _ => h _ (by vmem Component.visits)
    | exact h (.prop _) (by vmem Component.visits)
    | exact h (.item _) (by vmem Component.visits)
    | exact optMap_congr fun _ _ => h (.prop _) (by vmem Component.visits)
    | exact map_congr' fun _ _ => h (.prop _) (by vmem Component.visits)
    | exact map_congr' fun _ _ => h (.item _) (by vmem Component.visits)

theorem SourceClip.norm_congr {x : SourceClip} (h : TrEq c c' x.visits) :
    x.norm c = x.norm c' := by
  unfold SourceClip.norm
  try dsimp only
  congr 1
  all_goals first
    | exact Clip.norm_congr fun _ _ => h _ (by vmem Component.visits)
    | exact h (.prop _) (by vmem Component.visits)
    | exact h (.item _) (by vmem Component.visits)
    | exact optMap_congr fun _ _ => h (.prop _) (by vmem Component.visits)
    | exact map_congr' fun _ _ => h (.prop _) (by vmem Component.visits)
    | exact map_congr' fun _ _ => h (.item _) (by vmem Component.visits)

theorem Timecode.norm_congr {x : Timecode} (h : TrEq c c' x.visits) :
    x.norm c = x.norm c' := by
  unfold Timecode.norm
  try dsimp only
  congr 1
  all_goals first
    | exact Clip.norm_congr fun _ _ => h _ (by vmem Component.visits)
    | exact h (.prop _) (by vmem Component.visits)
    | exact h (.item _) (by vmem Component.visits)
    | exact optMap_congr fun _ _ => h (.prop _) (by vmem Component.visits)
    | exact map_congr' fun _ _ => h (.prop _) (by vmem Component.visits)
    | exact map_congr' fun _ _ => h (.item _) (by vmem Component.visits)

theorem Edgecode.norm_congr {x : Edgecode} (h : TrEq c c' x.visits) :
    x.norm c = x.norm c' := by
  unfold Edgecode.norm
  try dsimp only
  congr 1
  all_goals first
    | exact Clip.norm_congr fun _ _ => h _ (by vmem Component.visits)
    | exact h (.prop _) (by vmem Component.visits)
    | exact h (.item _) (by vmem Component.visits)
    | exact optMap_congr fun _ _ => h (.prop _) (by vmem Component.visits)
    | exact map_congr' fun _ _ => h (.prop _) (by vmem Component.visits)
    | exact map_congr' fun _ _ => h (.item _) (by vmem Component.visits)

theorem TrackRef.norm_congr {x : TrackRef} (h : TrEq c c' x.visits) :
    x.norm c = x.norm c' := by
  unfold TrackRef.norm
  try dsimp only
  congr 1
  all_goals first
    | exact Clip.norm_congr fun _ _ => h _ (by vmem Component.visits)
    | exact h (.prop _) (by vmem Component.visits)
    | exact h (.item _) (by vmem Component.visits)
    | exact optMap_congr fun _ _ => h (.prop _) (by vmem Component.visits)
    | exact map_congr' fun _ _ => h (.prop _) (by vmem Component.visits)
    | exact map_congr' fun _ _ => h (.item _) (by vmem Component.visits)

theorem ParamClip.norm_congr {x : ParamClip} (h : TrEq c c' x.visits) :
    x.norm c = x.norm c' := by
  unfold ParamClip.norm
  try dsimp only
  congr 1
  all_goals first
    | exact Clip.norm_congr fun _ _ => h _ (by vmem ParamClip.visits)
    | exact map_congr' fun _ _ => PCP.norm_congr fun _ _ => h _ (by vmem ParamClip.visits)
    | exact h (.prop _) (by vmem ParamClip.visits)
    | exact h (.item _) (by vmem ParamClip.visits)
    | exact optMap_congr fun _ _ => h (.prop _) (by vmem ParamClip.visits)
    | exact map_congr' fun _ _ => h (.prop _) (by vmem ParamClip.visits)
    | exact map_congr' fun _ _ => h (.item _) (by vmem ParamClip.visits)

theorem ControlClip.norm_congr {x : ControlClip} (h : TrEq c c' x.visits) :
    x.norm c = x.norm c' := by
  unfold ControlClip.norm
  try dsimp only
  congr 1
  all_goals first
    | exact Clip.norm_congr fun _ _ => h _ (by vmem Component.visits)
    | exact h (.prop _) (by vmem Component.visits)
    | exact h (.item _) (by vmem Component.visits)
    | exact optMap_congr fun _ _ => h (.prop _) (by vmem Component.visits)
    | exact map_congr' fun _ _ => h (.prop _) (by vmem Component.visits)
    | exact map_congr' fun _ _ => h (.item _) (by vmem Component.visits)

theorem Filler.norm_congr {x : Filler} (h : TrEq c c' x.visits) :
    x.norm c = x.norm c' := by
  unfold Filler.norm
  try dsimp only
  congr 1
  all_goals first
    | exact Clip.norm_congr fun _ _ => h _ (by vmem Component.visits)
    | exact h (.prop _) (by vmem Component.visits)
    | exact h (.item _) (by vmem Component.visits)
    | exact optMap_congr fun _ _ => h (.prop _) (by vmem Component.visits)
    | exact map_congr' fun _ _ => h (.prop _) (by vmem Component.visits)
    | exact map_congr' fun _ _ => h (.item _) (by vmem Component.visits)

theorem Track.norm_congr {t : Track} (h : TrEq c c' t.visits) :
    t.norm c = t.norm c' := by
  unfold Track.norm
  try dsimp only
  congr 1
  all_goals first
    | exact h (.prop _) (by vmem Track.visits)
    | exact h (.item _) (by vmem Track.visits)
    | exact optMap_congr fun _ _ => h (.prop _) (by vmem Track.visits)
    | exact map_congr' fun _ _ => h (.prop _) (by vmem Track.visits)
    | exact map_congr' fun _ _ => h (.item _) (by vmem Track.visits)

theorem TrackGroup.norm_congr {x : TrackGroup} (h : TrEq c c' x.visits) :
    x.norm c = x.norm c' := by
  unfold TrackGroup.norm
  try dsimp only
  congr 1
  all_goals first
    | exact Component.norm_congr fun _ _ => h _ (by vmem TrackGroup.visits)
    | exact map_congr' fun _ _ => Track.norm_congr fun _ _ => h _ (by vmem TrackGroup.visits)
    | exact h (.prop _) (by vmem TrackGroup.visits)
    | exact h (.item _) (by vmem TrackGroup.visits)
    | exact optMap_congr fun _ _ => h (.prop _) (by vmem TrackGroup.visits)
    | exact map_congr' fun _ _ => h (.prop _) (by vmem TrackGroup.visits)
    | exact map_congr' fun _ _ => h (.item _) (by vmem TrackGroup.visits)

theorem TrackEffect.norm_congr {x : TrackEffect} (h : TrEq c c' x.visits) :
    x.norm c = x.norm c' := by
  unfold TrackEffect.norm
  try dsimp only
  congr 1
  all_goals first
    | exact TrackGroup.norm_congr fun _ _ => h _ (by vmem TrackEffect.visits)
    | exact h (.prop _) (by vmem TrackEffect.visits)
    | exact h (.item _) (by vmem TrackEffect.visits)
    | exact optMap_congr fun _ _ => h (.prop _) (by vmem TrackEffect.visits)
    | exact map_congr' fun _ _ => h (.prop _) (by vmem TrackEffect.visits)
    | exact map_congr' fun _ _ => h (.item _) (by vmem TrackEffect.visits)

theorem PanVolumeEffect.norm_congr {x : PanVolumeEffect} (h : TrEq c c' x.visits) :
    x.norm c = x.norm c' := by
  unfold PanVolumeEffect.norm
  try dsimp only
  congr 1
  all_goals first
    | exact TrackEffect.norm_congr fun _ _ => h _ (by vmem TrackEffect.visits)
    | exact h (.prop _) (by vmem TrackEffect.visits)
    | exact h (.item _) (by vmem TrackEffect.visits)
    | exact optMap_congr fun _ _ => h (.prop _) (by vmem TrackEffect.visits)
    | exact map_congr' fun _ _ => h (.prop _) (by vmem TrackEffect.visits)
    | exact map_congr' fun _ _ => h (.item _) (by vmem TrackEffect.visits)

theorem AudioSuitePluginEffect.norm_congr {x : AudioSuitePluginEffect} (h : TrEq c c' x.visits) :
    x.norm c = x.norm c' := by
  unfold AudioSuitePluginEffect.norm
  try dsimp only
  congr 1
  all_goals first
    | exact TrackEffect.norm_congr fun _ _ => h _ (by vmem TrackEffect.visits)
    | exact h (.prop _) (by vmem TrackEffect.visits)
    | exact h (.item _) (by vmem TrackEffect.visits)
    | exact optMap_congr fun _ _ => h (.prop _) (by vmem TrackEffect.visits)
    | exact map_congr' fun _ _ => h (.prop _) (by vmem TrackEffect.visits)
    | exact map_congr' fun _ _ => h (.item _) (by vmem TrackEffect.visits)

theorem EqualizerMultiBand.norm_congr {x : EqualizerMultiBand} (h : TrEq c c' x.visits) :
    x.norm c = x.norm c' := by
  unfold EqualizerMultiBand.norm
  try dsimp only
  congr 1
  all_goals first
    | exact TrackEffect.norm_congr fun _ _ => h _ (by vmem TrackEffect.visits)
    | exact h (.prop _) (by vmem TrackEffect.visits)
    | exact h (.item _) (by vmem TrackEffect.visits)
    | exact optMap_congr fun _ _ => h (.prop _) (by vmem TrackEffect.visits)
    | exact map_congr' fun _ _ => h (.prop _) (by vmem TrackEffect.visits)
    | exact map_congr' fun _ _ => h (.item _) (by vmem TrackEffect.visits)

theorem TimeWarp.norm_congr {x : TimeWarp} (h : TrEq c c' x.visits) :
    x.norm c = x.norm c' := by
  unfold TimeWarp.norm
  try dsimp only
  congr 1
  all_goals first
    | exact TrackGroup.norm_congr fun _ _ => h _ (by vmem TrackGroup.visits)
    | exact h (.prop _) (by vmem TrackGroup.visits)
    | exact h (.item _) (by vmem TrackGroup.visits)
    | exact optMap_congr fun _ _ => h (.prop _) (by vmem TrackGroup.visits)
    | exact map_congr' fun _ _ => h (.prop _) (by vmem TrackGroup.visits)
    | exact map_congr' fun _ _ => h (.item _) (by vmem TrackGroup.visits)

theorem CaptureMask.norm_congr {x : CaptureMask} (h : TrEq c c' x.visits) :
    x.norm c = x.norm c' := by
  unfold CaptureMask.norm
  try dsimp only
  congr 1
  all_goals first
    | exact TimeWarp.norm_congr fun _ _ => h _ (by vmem TrackGroup.visits)
    | exact h (.prop _) (by vmem TrackGroup.visits)
    | exact h (.item _) (by vmem TrackGroup.visits)
    | exact optMap_congr fun _ _ => h (.prop _) (by vmem TrackGroup.visits)
    | exact map_congr' fun _ _ => h (.prop _) (by vmem TrackGroup.visits)
    | exact map_congr' fun _ _ => h (.item _) (by vmem TrackGroup.visits)

theorem StrobeEffect.norm_congr {x : StrobeEffect} (h : TrEq c c' x.visits) :
    x.norm c = x.norm c' := by
  unfold StrobeEffect.norm
  try dsimp only
  congr 1
  all_goals first
    | exact TimeWarp.norm_congr fun _ _ => h _ (by vmem TrackGroup.visits)
    | exact h (.prop _) (by vmem TrackGroup.visits)
    | exact h (.item _) (by vmem TrackGroup.visits)
    | exact optMap_congr fun _ _ => h (.prop _) (by vmem TrackGroup.visits)
    | exact map_congr' fun _ _ => h (.prop _) (by vmem TrackGroup.visits)
    | exact map_congr' fun _ _ => h (.item _) (by vmem TrackGroup.visits)

theorem MotionEffect.norm_congr {x : MotionEffect} (h : TrEq c c' x.visits) :
    x.norm c = x.norm c' := by
  unfold MotionEffect.norm
  try dsimp only
  congr 1
  all_goals first
    | exact TimeWarp.norm_congr fun _ _ => h _ (by vmem MotionEffect.visits)
    | exact h (.prop _) (by vmem MotionEffect.visits)
    | exact h (.item _) (by vmem MotionEffect.visits)
    | exact optMap_congr fun _ _ => h (.prop _) (by vmem MotionEffect.visits)
    | exact map_congr' fun _ _ => h (.prop _) (by vmem MotionEffect.visits)
    | exact map_congr' fun _ _ => h (.item _) (by vmem MotionEffect.visits)

theorem Repeat.norm_congr {x : Repeat} (h : TrEq c c' x.visits) :
    x.norm c = x.norm c' := by
  unfold Repeat.norm
  try dsimp only
  congr 1
  all_goals first
    | exact TimeWarp.norm_congr fun _ _ => h _ (by vmem TrackGroup.visits)
    | exact h (.prop _) (by vmem TrackGroup.visits)
    | exact h (.item _) (by vmem TrackGroup.visits)
    | exact optMap_congr fun _ _ => h (.prop _) (by vmem TrackGroup.visits)
    | exact map_congr' fun _ _ => h (.prop _) (by vmem TrackGroup.visits)
    | exact map_congr' fun _ _ => h (.item _) (by vmem TrackGroup.visits)

theorem EssenceGroup.norm_congr {x : EssenceGroup} (h : TrEq c c' x.visits) :
    x.norm c = x.norm c' := by
  unfold EssenceGroup.norm
  try dsimp only
  congr 1
  all_goals first
    | exact TrackGroup.norm_congr fun _ _ => h _ (by vmem TrackGroup.visits)
    | exact h (.prop _) (by vmem TrackGroup.visits)
    | exact h (.item _) (by vmem TrackGroup.visits)
    | exact optMap_congr fun _ _ => h (.prop _) (by vmem TrackGroup.visits)
    | exact map_congr' fun _ _ => h (.prop _) (by vmem TrackGroup.visits)
    | exact map_congr' fun _ _ => h (.item _) (by vmem TrackGroup.visits)

theorem TransitionEffect.norm_congr {x : TransitionEffect} (h : TrEq c c' x.visits) :
    x.norm c = x.norm c' := by
  unfold TransitionEffect.norm
  try dsimp only
  congr 1
  all_goals first
    | exact TrackGroup.norm_congr fun _ _ => h _ (by vmem TransitionEffect.visits)
    | exact h (.prop _) (by vmem TransitionEffect.visits)
    | exact h (.item _) (by vmem TransitionEffect.visits)
    | exact optMap_congr fun _ _ => h (.prop _) (by vmem TransitionEffect.visits)
    | exact map_congr' fun _ _ => h (.prop _) (by vmem TransitionEffect.visits)
    | exact map_congr' fun _ _ => h (.item _) (by vmem TransitionEffect.visits)

theorem Selector.norm_congr {x : Selector} (h : TrEq c c' x.visits) :
    x.norm c = x.norm c' := by
  unfold Selector.norm
  try dsimp only
  congr 1
  all_goals first
    | exact TrackGroup.norm_congr fun _ _ => h _ (by vmem TrackGroup.visits)
    | exact h (.prop _) (by vmem TrackGroup.visits)
    | exact h (.item _) (by vmem TrackGroup.visits)
    | exact optMap_congr fun _ _ => h (.prop _) (by vmem TrackGroup.visits)
    | exact map_congr' fun _ _ => h (.prop _) (by vmem TrackGroup.visits)
    | exact map_congr' fun _ _ => h (.item _) (by vmem TrackGroup.visits)

theorem Composition.norm_congr {x : Composition} (h : TrEq c c' x.visits) :
    x.norm c = x.norm c' := by
  unfold Composition.norm
  try dsimp only
  congr 1
  all_goals first
    | exact TrackGroup.norm_congr fun _ _ => h _ (by vmem Composition.visits)
    | exact h (.prop _) (by vmem Composition.visits)
    | exact h (.item _) (by vmem Composition.visits)
    | exact optMap_congr fun _ _ => h (.prop _) (by vmem Composition.visits)
    | exact map_congr' fun _ _ => h (.prop _) (by vmem Composition.visits)
    | exact map_congr' fun _ _ => h (.item _) (by vmem Composition.visits)

theorem ParameterItem.norm_congr {x : ParameterItem} (h : TrEq c c' x.visits) :
    x.norm c = x.norm c' := by
  unfold ParameterItem.norm
  try dsimp only
  congr 1
  all_goals first
    | exact PVal.norm_congr (by
        rw [PVal.stored_visits]; exact fun _ _ => h _ (by vmem ParameterItem.visits))
    | exact h (.prop _) (by vmem ParameterItem.visits)
    | exact h (.item _) (by vmem ParameterItem.visits)
    | exact optMap_congr fun _ _ => h (.prop _) (by vmem ParameterItem.visits)
    | exact map_congr' fun _ _ => h (.prop _) (by vmem ParameterItem.visits)
    | exact map_congr' fun _ _ => h (.item _) (by vmem ParameterItem.visits)

theorem Marker.norm_congr {x : Marker} (h : TrEq c c' x.visits) :
    x.norm c = x.norm c' := by
  unfold Marker.norm
  try dsimp only
  congr 1
  all_goals first
    | exact h (.prop _) (by vmem Marker.visits)
    | exact h (.item _) (by vmem Marker.visits)
    | exact optMap_congr fun _ _ => h (.prop _) (by vmem Marker.visits)
    | exact map_congr' fun _ _ => h (.prop _) (by vmem Marker.visits)
    | exact map_congr' fun _ _ => h (.item _) (by vmem Marker.visits)

theorem TrackerManager.norm_congr {x : TrackerManager} (h : TrEq c c' x.visits) :
    x.norm c = x.norm c' := by
  unfold TrackerManager.norm
  try dsimp only
  congr 1
  all_goals first
    | exact h (.prop _) (by vmem TrackerManager.visits)
    | exact h (.item _) (by vmem TrackerManager.visits)
    | exact optMap_congr fun _ _ => h (.prop _) (by vmem TrackerManager.visits)
    | exact map_congr' fun _ _ => h (.prop _) (by vmem TrackerManager.visits)
    | exact map_congr' fun _ _ => h (.item _) (by vmem TrackerManager.visits)

theorem TrackerDataSlot.norm_congr {x : TrackerDataSlot} (h : TrEq c c' x.visits) :
    x.norm c = x.norm c' := by
  unfold TrackerDataSlot.norm
  try dsimp only
  congr 1
  all_goals first
    | exact h (.prop _) (by vmem TrackerDataSlot.visits)
    | exact h (.item _) (by vmem TrackerDataSlot.visits)
    | exact optMap_congr fun _ _ => h (.prop _) (by vmem TrackerDataSlot.visits)
    | exact map_congr' fun _ _ => h (.prop _) (by vmem TrackerDataSlot.visits)
    | exact map_congr' fun _ _ => h (.item _) (by vmem TrackerDataSlot.visits)

theorem TrackerParameterSlot.norm_congr {x : TrackerParameterSlot} (h : TrEq c c' x.visits) :
    x.norm c = x.norm c' := by
  unfold TrackerParameterSlot.norm
  try dsimp only
  congr 1
  all_goals first
    | exact h (.prop _) (by vmem TrackerParameterSlot.visits)
    | exact h (.item _) (by vmem TrackerParameterSlot.visits)
    | exact optMap_congr fun _ _ => h (.prop _) (by vmem TrackerParameterSlot.visits)
    | exact map_congr' fun _ _ => h (.prop _) (by vmem TrackerParameterSlot.visits)
    | exact map_congr' fun _ _ => h (.item _) (by vmem TrackerParameterSlot.visits)

theorem TrackerData.norm_congr {x : TrackerData} (h : TrEq c c' x.visits) :
    x.norm c = x.norm c' := by
  unfold TrackerData.norm
  try dsimp only
  congr 1
  all_goals first
    | exact h (.prop _) (by vmem TrackerData.visits)
    | exact h (.item _) (by vmem TrackerData.visits)
    | exact optMap_congr fun _ _ => h (.prop _) (by vmem TrackerData.visits)
    | exact map_congr' fun _ _ => h (.prop _) (by vmem TrackerData.visits)
    | exact map_congr' fun _ _ => h (.item _) (by vmem TrackerData.visits)

theorem MediaDescriptor.norm_congr {x : MediaDescriptor} (h : TrEq c c' x.visits) :
    x.norm c = x.norm c' := by
  unfold MediaDescriptor.norm
  try dsimp only
  congr 1
  all_goals first
    | exact h (.prop _) (by vmem MediaDescriptor.visits)
    | exact h (.item _) (by vmem MediaDescriptor.visits)
    | exact optMap_congr fun _ _ => h (.prop _) (by vmem MediaDescriptor.visits)
    | exact map_congr' fun _ _ => h (.prop _) (by vmem MediaDescriptor.visits)
    | exact map_congr' fun _ _ => h (.item _) (by vmem MediaDescriptor.visits)

theorem TapeDescriptor.norm_congr {x : TapeDescriptor} (h : TrEq c c' x.visits) :
    x.norm c = x.norm c' := by
  unfold TapeDescriptor.norm
  try dsimp only
  congr 1
  all_goals first
    | exact MediaDescriptor.norm_congr fun _ _ => h _ (by vmem MediaDescriptor.visits)
    | exact h (.prop _) (by vmem MediaDescriptor.visits)
    | exact h (.item _) (by vmem MediaDescriptor.visits)
    | exact optMap_congr fun _ _ => h (.prop _) (by vmem MediaDescriptor.visits)
    | exact map_congr' fun _ _ => h (.prop _) (by vmem MediaDescriptor.visits)
    | exact map_congr' fun _ _ => h (.item _) (by vmem MediaDescriptor.visits)

theorem FilmDescriptor.norm_congr {x : FilmDescriptor} (h : TrEq c c' x.visits) :
    x.norm c = x.norm c' := by
  unfold FilmDescriptor.norm
  try dsimp only
  congr 1
  all_goals first
    | exact MediaDescriptor.norm_congr fun _ _ => h _ (by vmem MediaDescriptor.visits)
    | exact h (.prop _) (by vmem MediaDescriptor.visits)
    | exact h (.item _) (by vmem MediaDescriptor.visits)
    | exact optMap_congr fun _ _ => h (.prop _) (by vmem MediaDescriptor.visits)
    | exact map_congr' fun _ _ => h (.prop _) (by vmem MediaDescriptor.visits)
    | exact map_congr' fun _ _ => h (.item _) (by vmem MediaDescriptor.visits)

theorem NagraDescriptor.norm_congr {x : NagraDescriptor} (h : TrEq c c' x.visits) :
    x.norm c = x.norm c' := by
  unfold NagraDescriptor.norm
  try dsimp only
  congr 1
  all_goals first
    | exact MediaDescriptor.norm_congr fun _ _ => h _ (by vmem MediaDescriptor.visits)
    | exact h (.prop _) (by vmem MediaDescriptor.visits)
    | exact h (.item _) (by vmem MediaDescriptor.visits)
    | exact optMap_congr fun _ _ => h (.prop _) (by vmem MediaDescriptor.visits)
    | exact map_congr' fun _ _ => h (.prop _) (by vmem MediaDescriptor.visits)
    | exact map_congr' fun _ _ => h (.item _) (by vmem MediaDescriptor.visits)

theorem MediaFileDescriptor.norm_congr {x : MediaFileDescriptor} (h : TrEq c c' x.visits) :
    x.norm c = x.norm c' := by
  unfold MediaFileDescriptor.norm
  try dsimp only
  congr 1
  all_goals first
    | exact MediaDescriptor.norm_congr fun _ _ => h _ (by vmem MediaDescriptor.visits)
    | exact h (.prop _) (by vmem MediaDescriptor.visits)
    | exact h (.item _) (by vmem MediaDescriptor.visits)
    | exact optMap_congr fun _ _ => h (.prop _) (by vmem MediaDescriptor.visits)
    | exact map_congr' fun _ _ => h (.prop _) (by vmem MediaDescriptor.visits)
    | exact map_congr' fun _ _ => h (.item _) (by vmem MediaDescriptor.visits)

theorem MultiDescriptor.norm_congr {x : MultiDescriptor} (h : TrEq c c' x.visits) :
    x.norm c = x.norm c' := by
  unfold MultiDescriptor.norm
  try dsimp only
  congr 1
  all_goals first
    | exact MediaFileDescriptor.norm_congr fun _ _ => h _ (by vmem MultiDescriptor.visits)
    | exact h (.prop _) (by vmem MultiDescriptor.visits)
    | exact h (.item _) (by vmem MultiDescriptor.visits)
    | exact optMap_congr fun _ _ => h (.prop _) (by vmem MultiDescriptor.visits)
    | exact map_congr' fun _ _ => h (.prop _) (by vmem MultiDescriptor.visits)
    | exact map_congr' fun _ _ => h (.item _) (by vmem MultiDescriptor.visits)

theorem WaveDescriptor.norm_congr {x : WaveDescriptor} (h : TrEq c c' x.visits) :
    x.norm c = x.norm c' := by
  unfold WaveDescriptor.norm
  try dsimp only
  congr 1
  all_goals first
    | exact MediaFileDescriptor.norm_congr fun _ _ => h _ (by vmem MediaDescriptor.visits)
    | exact h (.prop _) (by vmem MediaDescriptor.visits)
    | exact h (.item _) (by vmem MediaDescriptor.visits)
    | exact optMap_congr fun _ _ => h (.prop _) (by vmem MediaDescriptor.visits)
    | exact map_congr' fun _ _ => h (.prop _) (by vmem MediaDescriptor.visits)
    | exact map_congr' fun _ _ => h (.item _) (by vmem MediaDescriptor.visits)

theorem AIFCDescriptor.norm_congr {x : AIFCDescriptor} (h : TrEq c c' x.visits) :
    x.norm c = x.norm c' := by
  unfold AIFCDescriptor.norm
  try dsimp only
  congr 1
  all_goals first
    | exact MediaFileDescriptor.norm_congr fun _ _ => h _ (by vmem MediaDescriptor.visits)
    | exact h (.prop _) (by vmem MediaDescriptor.visits)
    | exact h (.item _) (by vmem MediaDescriptor.visits)
    | exact optMap_congr fun _ _ => h (.prop _) (by vmem MediaDescriptor.visits)
    | exact map_congr' fun _ _ => h (.prop _) (by vmem MediaDescriptor.visits)
    | exact map_congr' fun _ _ => h (.item _) (by vmem MediaDescriptor.visits)

theorem PCMADescriptor.norm_congr {x : PCMADescriptor} (h : TrEq c c' x.visits) :
    x.norm c = x.norm c' := by
  unfold PCMADescriptor.norm
  try dsimp only
  congr 1
  all_goals first
    | exact MediaFileDescriptor.norm_congr fun _ _ => h _ (by vmem MediaDescriptor.visits)
    | exact h (.prop _) (by vmem MediaDescriptor.visits)
    | exact h (.item _) (by vmem MediaDescriptor.visits)
    | exact optMap_congr fun _ _ => h (.prop _) (by vmem MediaDescriptor.visits)
    | exact map_congr' fun _ _ => h (.prop _) (by vmem MediaDescriptor.visits)
    | exact map_congr' fun _ _ => h (.item _) (by vmem MediaDescriptor.visits)

theorem MPGADescriptor.norm_congr {x : MPGADescriptor} (h : TrEq c c' x.visits) :
    x.norm c = x.norm c' := by
  unfold MPGADescriptor.norm
  try dsimp only
  congr 1
  all_goals first
    | exact MediaFileDescriptor.norm_congr fun _ _ => h _ (by vmem MediaDescriptor.visits)
    | exact h (.prop _) (by vmem MediaDescriptor.visits)
    | exact h (.item _) (by vmem MediaDescriptor.visits)
    | exact optMap_congr fun _ _ => h (.prop _) (by vmem MediaDescriptor.visits)
    | exact map_congr' fun _ _ => h (.prop _) (by vmem MediaDescriptor.visits)
    | exact map_congr' fun _ _ => h (.item _) (by vmem MediaDescriptor.visits)

theorem DIDDescriptor.norm_congr {x : DIDDescriptor} (h : TrEq c c' x.visits) :
    x.norm c = x.norm c' := by
  unfold DIDDescriptor.norm
  try dsimp only
  congr 1
  all_goals first
    | exact MediaFileDescriptor.norm_congr fun _ _ => h _ (by vmem DIDDescriptor.visits)
    | exact h (.prop _) (by vmem DIDDescriptor.visits)
    | exact h (.item _) (by vmem DIDDescriptor.visits)
    | exact optMap_congr fun _ _ => h (.prop _) (by vmem DIDDescriptor.visits)
    | exact map_congr' fun _ _ => h (.prop _) (by vmem DIDDescriptor.visits)
    | exact map_congr' fun _ _ => h (.item _) (by vmem DIDDescriptor.visits)

theorem CDCIDescriptor.norm_congr {x : CDCIDescriptor} (h : TrEq c c' x.visits) :
    x.norm c = x.norm c' := by
  unfold CDCIDescriptor.norm
  try dsimp only
  congr 1
  all_goals first
    | exact DIDDescriptor.norm_congr fun _ _ => h _ (by vmem DIDDescriptor.visits)
    | exact h (.prop _) (by vmem DIDDescriptor.visits)
    | exact h (.item _) (by vmem DIDDescriptor.visits)
    | exact optMap_congr fun _ _ => h (.prop _) (by vmem DIDDescriptor.visits)
    | exact map_congr' fun _ _ => h (.prop _) (by vmem DIDDescriptor.visits)
    | exact map_congr' fun _ _ => h (.item _) (by vmem DIDDescriptor.visits)

theorem MPGIDescriptor.norm_congr {x : MPGIDescriptor} (h : TrEq c c' x.visits) :
    x.norm c = x.norm c' := by
  unfold MPGIDescriptor.norm
  try dsimp only
  congr 1
  all_goals first
    | exact CDCIDescriptor.norm_congr fun _ _ => h _ (by vmem DIDDescriptor.visits)
    | exact h (.prop _) (by vmem DIDDescriptor.visits)
    | exact h (.item _) (by vmem DIDDescriptor.visits)
    | exact optMap_congr fun _ _ => h (.prop _) (by vmem DIDDescriptor.visits)
    | exact map_congr' fun _ _ => h (.prop _) (by vmem DIDDescriptor.visits)
    | exact map_congr' fun _ _ => h (.item _) (by vmem DIDDescriptor.visits)

theorem JPEGDescriptor.norm_congr {x : JPEGDescriptor} (h : TrEq c c' x.visits) :
    x.norm c = x.norm c' := by
  unfold JPEGDescriptor.norm
  try dsimp only
  congr 1
  all_goals first
    | exact CDCIDescriptor.norm_congr fun _ _ => h _ (by vmem DIDDescriptor.visits)
    | exact h (.prop _) (by vmem DIDDescriptor.visits)
    | exact h (.item _) (by vmem DIDDescriptor.visits)
    | exact optMap_congr fun _ _ => h (.prop _) (by vmem DIDDescriptor.visits)
    | exact map_congr' fun _ _ => h (.prop _) (by vmem DIDDescriptor.visits)
    | exact map_congr' fun _ _ => h (.item _) (by vmem DIDDescriptor.visits)

theorem RGBADescriptor.norm_congr {x : RGBADescriptor} (h : TrEq c c' x.visits) :
    x.norm c = x.norm c' := by
  unfold RGBADescriptor.norm
  try dsimp only
  congr 1
  all_goals first
    | exact DIDDescriptor.norm_congr fun _ _ => h _ (by vmem DIDDescriptor.visits)
    | exact h (.prop _) (by vmem DIDDescriptor.visits)
    | exact h (.item _) (by vmem DIDDescriptor.visits)
    | exact optMap_congr fun _ _ => h (.prop _) (by vmem DIDDescriptor.visits)
    | exact map_congr' fun _ _ => h (.prop _) (by vmem DIDDescriptor.visits)
    | exact map_congr' fun _ _ => h (.item _) (by vmem DIDDescriptor.visits)

theorem DataDescriptor.norm_congr {x : DataDescriptor} (h : TrEq c c' x.visits) :
    x.norm c = x.norm c' := by
  unfold DataDescriptor.norm
  try dsimp only
  congr 1
  all_goals first
    | exact MediaFileDescriptor.norm_congr fun _ _ => h _ (by vmem MediaDescriptor.visits)
    | exact h (.prop _) (by vmem MediaDescriptor.visits)
    | exact h (.item _) (by vmem MediaDescriptor.visits)
    | exact optMap_congr fun _ _ => h (.prop _) (by vmem MediaDescriptor.visits)
    | exact map_congr' fun _ _ => h (.prop _) (by vmem MediaDescriptor.visits)
    | exact map_congr' fun _ _ => h (.item _) (by vmem MediaDescriptor.visits)

theorem ANCDataDescriptor.norm_congr {x : ANCDataDescriptor} (h : TrEq c c' x.visits) :
    x.norm c = x.norm c' := by
  unfold ANCDataDescriptor.norm
  try dsimp only
  congr 1
  all_goals first
    | exact DataDescriptor.norm_congr fun _ _ => h _ (by vmem MediaDescriptor.visits)
    | exact h (.prop _) (by vmem MediaDescriptor.visits)
    | exact h (.item _) (by vmem MediaDescriptor.visits)
    | exact optMap_congr fun _ _ => h (.prop _) (by vmem MediaDescriptor.visits)
    | exact map_congr' fun _ _ => h (.prop _) (by vmem MediaDescriptor.visits)
    | exact map_congr' fun _ _ => h (.item _) (by vmem MediaDescriptor.visits)

theorem Attributes.norm_congr {x : Attributes} (h : TrEq c c' x.visits) :
    x.norm c = x.norm c' := by
  unfold Attributes.norm
  rw [map_congr' fun _ _ => Attributes.normItem_congr fun _ _ => h _ (by vmem Attributes.visits)]

theorem ParameterList.norm_congr {x : ParameterList} (h : TrEq c c' x.visits) :
    x.norm c = x.norm c' := by
  unfold ParameterList.norm
  try dsimp only
  congr 1
  all_goals first
    | exact h (.prop _) (by vmem ParameterList.visits)
    | exact h (.item _) (by vmem ParameterList.visits)
    | exact optMap_congr fun _ _ => h (.prop _) (by vmem ParameterList.visits)
    | exact map_congr' fun _ _ => h (.prop _) (by vmem ParameterList.visits)
    | exact map_congr' fun _ _ => h (.item _) (by vmem ParameterList.visits)

theorem TimeCrumbList.norm_congr {x : TimeCrumbList} (h : TrEq c c' x.visits) :
    x.norm c = x.norm c' := by
  unfold TimeCrumbList.norm
  try dsimp only
  congr 1
  all_goals first
    | exact h (.prop _) (by vmem TimeCrumbList.visits)
    | exact h (.item _) (by vmem TimeCrumbList.visits)
    | exact optMap_congr fun _ _ => h (.prop _) (by vmem TimeCrumbList.visits)
    | exact map_congr' fun _ _ => h (.prop _) (by vmem TimeCrumbList.visits)
    | exact map_congr' fun _ _ => h (.item _) (by vmem TimeCrumbList.visits)

theorem Setting.norm_congr {x : Setting} (h : c.tr x.attributes = c'.tr x.attributes) :
    x.norm c = x.norm c' := by
  unfold Setting.norm; rw [h]

theorem BinViewSetting.norm_congr {x : BinViewSetting} (h : TrEq c c' x.visits) :
    x.norm c = x.norm c' := by
  unfold BinViewSetting.norm
  try dsimp only
  congr 1
  all_goals first
    | exact Setting.norm_congr (h (.prop _) (by vmem BinViewSetting.visits))
    | exact h (.prop _) (by vmem BinViewSetting.visits)
    | exact h (.item _) (by vmem BinViewSetting.visits)
    | exact optMap_congr fun _ _ => h (.prop _) (by vmem BinViewSetting.visits)
    | exact map_congr' fun _ _ => h (.prop _) (by vmem BinViewSetting.visits)
    | exact map_congr' fun _ _ => h (.item _) (by vmem BinViewSetting.visits)

theorem BinItem.norm_congr {b : BinItem} (h : c.tr b.mob = c'.tr b.mob) : b.norm c = b.norm c' := by
  unfold BinItem.norm; rw [h]

theorem Bin.norm_congr {x : Bin} (h : TrEq c c' x.visits) :
    x.norm c = x.norm c' := by
  unfold Bin.norm
  try dsimp only
  congr 1
  all_goals first
    | exact map_congr' fun _ _ => BinItem.norm_congr (h (.prop _) (by vmem Bin.visits))
    | exact h (.prop _) (by vmem Bin.visits)
    | exact h (.item _) (by vmem Bin.visits)
    | exact optMap_congr fun _ _ => h (.prop _) (by vmem Bin.visits)
    | exact map_congr' fun _ _ => h (.prop _) (by vmem Bin.visits)
    | exact map_congr' fun _ _ => h (.item _) (by vmem Bin.visits)

theorem BinFirst.norm_congr {x : BinFirst} (h : TrEq c c' x.visits) :
    x.norm c = x.norm c' := by
  unfold BinFirst.norm
  try dsimp only
  congr 1
  all_goals first
    | exact Bin.norm_congr fun _ _ => h _ (by vmem Bin.visits)
    | exact h (.prop _) (by vmem Bin.visits)
    | exact h (.item _) (by vmem Bin.visits)
    | exact optMap_congr fun _ _ => h (.prop _) (by vmem Bin.visits)
    | exact map_congr' fun _ _ => h (.prop _) (by vmem Bin.visits)
    | exact map_congr' fun _ _ => h (.item _) (by vmem Bin.visits)

theorem Obj.norm_congr {x : Obj} (h : TrEq c c' x.visits) : x.norm c = x.norm c' := by
  cases x
  case ATTR x => exact congrArg Obj.ATTR (Attributes.norm_congr h)
  case PRLS x => exact congrArg Obj.PRLS (ParameterList.norm_congr h)
  case TMCS x => exact congrArg Obj.TMCS (TimeCrumbList.norm_congr h)
  case BVst x => exact congrArg Obj.BVst (BinViewSetting.norm_congr h)
  case ABIN x => exact congrArg Obj.ABIN (Bin.norm_congr h)
  case BINF x => exact congrArg Obj.BINF (BinFirst.norm_congr h)
  case SEQU x => exact congrArg Obj.SEQU (Sequence.norm_congr h)
  case SCLP x => exact congrArg Obj.SCLP (SourceClip.norm_congr h)
  case TCCP x => exact congrArg Obj.TCCP (Timecode.norm_congr h)
  case ECCP x => exact congrArg Obj.ECCP (Edgecode.norm_congr h)
  case TRKR x => exact congrArg Obj.TRKR (TrackRef.norm_congr h)
  case PRCL x => exact congrArg Obj.PRCL (ParamClip.norm_congr h)
  case CTRL x => exact congrArg Obj.CTRL (ControlClip.norm_congr h)
  case FILL x => exact congrArg Obj.FILL (Filler.norm_congr h)
  case TRKG x => exact congrArg Obj.TRKG (TrackGroup.norm_congr h)
  case TKFX x => exact congrArg Obj.TKFX (TrackEffect.norm_congr h)
  case PVOL x => exact congrArg Obj.PVOL (PanVolumeEffect.norm_congr h)
  case ASPI x => exact congrArg Obj.ASPI (AudioSuitePluginEffect.norm_congr h)
  case EQMB x => exact congrArg Obj.EQMB (EqualizerMultiBand.norm_congr h)
  case MASK x => exact congrArg Obj.MASK (CaptureMask.norm_congr h)
  case STRB x => exact congrArg Obj.STRB (StrobeEffect.norm_congr h)
  case SPED x => exact congrArg Obj.SPED (MotionEffect.norm_congr h)
  case REPT x => exact congrArg Obj.REPT (Repeat.norm_congr h)
  case RSET x => exact congrArg Obj.RSET (EssenceGroup.norm_congr h)
  case TNFX x => exact congrArg Obj.TNFX (TransitionEffect.norm_congr h)
  case SLCT x => exact congrArg Obj.SLCT (Selector.norm_congr h)
  case CMPO x => exact congrArg Obj.CMPO (Composition.norm_congr h)
  case FILE => rfl
  case WINF => rfl
  case URLL => rfl
  case GRFX => rfl
  case SHLP => rfl
  case CCFX => rfl
  case FXPS => rfl
  case AVUP => rfl
  case PRIT x => exact congrArg Obj.PRIT (ParameterItem.norm_congr h)
  case MSML => rfl
  case APOS => rfl
  case ABOB => rfl
  case DIDP => rfl
  case MPGP => rfl
  case MCBR => rfl
  case MCMR => rfl
  case TMBC x => exact congrArg Obj.TMBC (Marker.norm_congr h)
  case TKMN x => exact congrArg Obj.TKMN (TrackerManager.norm_congr h)
  case TKDS x => exact congrArg Obj.TKDS (TrackerDataSlot.norm_congr h)
  case TKPS x => exact congrArg Obj.TKPS (TrackerParameterSlot.norm_congr h)
  case TKDA x => exact congrArg Obj.TKDA (TrackerData.norm_congr h)
  case TKPA => rfl
  case MDES x => exact congrArg Obj.MDES (MediaDescriptor.norm_congr h)
  case MDTP x => exact congrArg Obj.MDTP (TapeDescriptor.norm_congr h)
  case MDFM x => exact congrArg Obj.MDFM (FilmDescriptor.norm_congr h)
  case MDNG x => exact congrArg Obj.MDNG (NagraDescriptor.norm_congr h)
  case MDFL x => exact congrArg Obj.MDFL (MediaFileDescriptor.norm_congr h)
  case MULD x => exact congrArg Obj.MULD (MultiDescriptor.norm_congr h)
  case WAVE x => exact congrArg Obj.WAVE (WaveDescriptor.norm_congr h)
  case AIFC x => exact congrArg Obj.AIFC (AIFCDescriptor.norm_congr h)
  case PCMA x => exact congrArg Obj.PCMA (PCMADescriptor.norm_congr h)
  case MPGA x => exact congrArg Obj.MPGA (MPGADescriptor.norm_congr h)
  case DIDD x => exact congrArg Obj.DIDD (DIDDescriptor.norm_congr h)
  case CDCI x => exact congrArg Obj.CDCI (CDCIDescriptor.norm_congr h)
  case MPGI x => exact congrArg Obj.MPGI (MPGIDescriptor.norm_congr h)
  case JPED x => exact congrArg Obj.JPED (JPEGDescriptor.norm_congr h)
  case RGBA x => exact congrArg Obj.RGBA (RGBADescriptor.norm_congr h)
  case DATD x => exact congrArg Obj.DATD (DataDescriptor.norm_congr h)
  case ANCD x => exact congrArg Obj.ANCD (ANCDataDescriptor.norm_congr h)

end Avb
