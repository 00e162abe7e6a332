import Verif.Lemmas.Congr

/-
References of a loaded object: the references of the saved object, renumbered.
-/

set_option linter.unusedSimpArgs false

namespace Avb

variable {c : WCtx}

/-- Renumber the reference met. -/
def Visit.map (f : Ref → Ref) : Visit → Visit
  | .prop r => .prop (f r)
  | .item r => .item (f r)

theorem Visit.map_ref {f : Ref → Ref} {v : Visit} : (v.map f).ref = f v.ref := by cases v <;> rfl

theorem optProp_map {f : Ref → Ref} {o : Option Ref} :
    optProp (o.map f) = (optProp o).map (Visit.map f) := by
  cases o <;> rfl

@[simp] theorem Component.norm_visits {x : Component} : (x.norm c).visits = x.visits.map (Visit.map c.tr) := by
  simp [Component.norm, Component.visits, optProp_map, Visit.map, PCP.norm, BinItem.norm, Setting.norm, List.map_flatMap, List.flatMap_map, Function.comp_def]

@[simp] theorem Sequence.norm_visits {x : Sequence} : (x.norm c).visits = x.visits.map (Visit.map c.tr) := by
  simp [Sequence.norm, Sequence.visits, optProp_map, Visit.map, PCP.norm, BinItem.norm, Setting.norm, List.map_flatMap, List.flatMap_map, Function.comp_def]

@[simp] theorem Clip.norm_visits {x : Clip} : (x.norm c).visits = x.visits.map (Visit.map c.tr) := by
  simp [Clip.norm, optProp_map, Visit.map, PCP.norm, BinItem.norm, Setting.norm, List.map_flatMap, List.flatMap_map, Function.comp_def]

@[simp] theorem SourceClip.norm_visits {x : SourceClip} : (x.norm c).visits = x.visits.map (Visit.map c.tr) := by
  simp [SourceClip.norm, optProp_map, Visit.map, PCP.norm, BinItem.norm, Setting.norm, List.map_flatMap, List.flatMap_map, Function.comp_def]

@[simp] theorem Timecode.norm_visits {x : Timecode} : (x.norm c).visits = x.visits.map (Visit.map c.tr) := by
  simp [Timecode.norm, optProp_map, Visit.map, PCP.norm, BinItem.norm, Setting.norm, List.map_flatMap, List.flatMap_map, Function.comp_def]

@[simp] theorem Edgecode.norm_visits {x : Edgecode} : (x.norm c).visits = x.visits.map (Visit.map c.tr) := by
  simp [Edgecode.norm, optProp_map, Visit.map, PCP.norm, BinItem.norm, Setting.norm, List.map_flatMap, List.flatMap_map, Function.comp_def]

@[simp] theorem TrackRef.norm_visits {x : TrackRef} : (x.norm c).visits = x.visits.map (Visit.map c.tr) := by
  simp [TrackRef.norm, optProp_map, Visit.map, PCP.norm, BinItem.norm, Setting.norm, List.map_flatMap, List.flatMap_map, Function.comp_def]

@[simp] theorem PVal.norm_visits {x : PVal} : (x.norm c).visits = x.visits.map (Visit.map c.tr) := by
  cases x <;> rfl

@[simp] theorem ParamClip.norm_visits {x : ParamClip} : (x.norm c).visits = x.visits.map (Visit.map c.tr) := by
  simp [ParamClip.norm, ParamClip.visits, optProp_map, Visit.map, PCP.norm, BinItem.norm, Setting.norm, List.map_flatMap, List.flatMap_map, Function.comp_def]

@[simp] theorem ControlClip.norm_visits {x : ControlClip} : (x.norm c).visits = x.visits.map (Visit.map c.tr) := by
  simp [ControlClip.norm, optProp_map, Visit.map, PCP.norm, BinItem.norm, Setting.norm, List.map_flatMap, List.flatMap_map, Function.comp_def]

@[simp] theorem Filler.norm_visits {x : Filler} : (x.norm c).visits = x.visits.map (Visit.map c.tr) := by
  simp [Filler.norm, optProp_map, Visit.map, PCP.norm, BinItem.norm, Setting.norm, List.map_flatMap, List.flatMap_map, Function.comp_def]

@[simp] theorem Track.norm_visits {x : Track} : (x.norm c).visits = x.visits.map (Visit.map c.tr) := by
  simp [Track.norm, Track.visits, optProp_map, Visit.map, PCP.norm, BinItem.norm, Setting.norm, List.map_flatMap, List.flatMap_map, Function.comp_def]

@[simp] theorem TrackGroup.norm_visits {x : TrackGroup} : (x.norm c).visits = x.visits.map (Visit.map c.tr) := by
  simp [TrackGroup.norm, TrackGroup.visits, optProp_map, Visit.map, PCP.norm, BinItem.norm, Setting.norm, List.map_flatMap, List.flatMap_map, Function.comp_def]

@[simp] theorem TrackEffect.norm_visits {x : TrackEffect} : (x.norm c).visits = x.visits.map (Visit.map c.tr) := by
  simp [TrackEffect.norm, TrackEffect.visits, optProp_map, Visit.map, PCP.norm, BinItem.norm, Setting.norm, List.map_flatMap, List.flatMap_map, Function.comp_def]

@[simp] theorem PanVolumeEffect.norm_visits {x : PanVolumeEffect} : (x.norm c).visits = x.visits.map (Visit.map c.tr) := by
  simp [PanVolumeEffect.norm, optProp_map, Visit.map, PCP.norm, BinItem.norm, Setting.norm, List.map_flatMap, List.flatMap_map, Function.comp_def]

@[simp] theorem AudioSuitePluginEffect.norm_visits {x : AudioSuitePluginEffect} : (x.norm c).visits = x.visits.map (Visit.map c.tr) := by
  simp [AudioSuitePluginEffect.norm, optProp_map, Visit.map, PCP.norm, BinItem.norm, Setting.norm, List.map_flatMap, List.flatMap_map, Function.comp_def]

@[simp] theorem EqualizerMultiBand.norm_visits {x : EqualizerMultiBand} : (x.norm c).visits = x.visits.map (Visit.map c.tr) := by
  simp [EqualizerMultiBand.norm, optProp_map, Visit.map, PCP.norm, BinItem.norm, Setting.norm, List.map_flatMap, List.flatMap_map, Function.comp_def]

@[simp] theorem TimeWarp.norm_visits {x : TimeWarp} : (x.norm c).visits = x.visits.map (Visit.map c.tr) := by
  simp [TimeWarp.norm, optProp_map, Visit.map, PCP.norm, BinItem.norm, Setting.norm, List.map_flatMap, List.flatMap_map, Function.comp_def]

@[simp] theorem CaptureMask.norm_visits {x : CaptureMask} : (x.norm c).visits = x.visits.map (Visit.map c.tr) := by
  simp [CaptureMask.norm, optProp_map, Visit.map, PCP.norm, BinItem.norm, Setting.norm, List.map_flatMap, List.flatMap_map, Function.comp_def]

@[simp] theorem StrobeEffect.norm_visits {x : StrobeEffect} : (x.norm c).visits = x.visits.map (Visit.map c.tr) := by
  simp [StrobeEffect.norm, optProp_map, Visit.map, PCP.norm, BinItem.norm, Setting.norm, List.map_flatMap, List.flatMap_map, Function.comp_def]

@[simp] theorem MotionEffect.norm_visits {x : MotionEffect} : (x.norm c).visits = x.visits.map (Visit.map c.tr) := by
  simp [MotionEffect.norm, MotionEffect.visits, optProp_map, Visit.map, PCP.norm, BinItem.norm, Setting.norm, List.map_flatMap, List.flatMap_map, Function.comp_def]

@[simp] theorem Repeat.norm_visits {x : Repeat} : (x.norm c).visits = x.visits.map (Visit.map c.tr) := by
  simp [Repeat.norm, optProp_map, Visit.map, PCP.norm, BinItem.norm, Setting.norm, List.map_flatMap, List.flatMap_map, Function.comp_def]

@[simp] theorem EssenceGroup.norm_visits {x : EssenceGroup} : (x.norm c).visits = x.visits.map (Visit.map c.tr) := by
  simp [EssenceGroup.norm, optProp_map, Visit.map, PCP.norm, BinItem.norm, Setting.norm, List.map_flatMap, List.flatMap_map, Function.comp_def]

@[simp] theorem TransitionEffect.norm_visits {x : TransitionEffect} : (x.norm c).visits = x.visits.map (Visit.map c.tr) := by
  simp [TransitionEffect.norm, TransitionEffect.visits, optProp_map, Visit.map, PCP.norm, BinItem.norm, Setting.norm, List.map_flatMap, List.flatMap_map, Function.comp_def]

@[simp] theorem Selector.norm_visits {x : Selector} : (x.norm c).visits = x.visits.map (Visit.map c.tr) := by
  simp [Selector.norm, optProp_map, Visit.map, PCP.norm, BinItem.norm, Setting.norm, List.map_flatMap, List.flatMap_map, Function.comp_def]

@[simp] theorem Composition.norm_visits {x : Composition} : (x.norm c).visits = x.visits.map (Visit.map c.tr) := by
  simp [Composition.norm, Composition.visits, optProp_map, Visit.map, PCP.norm, BinItem.norm, Setting.norm, List.map_flatMap, List.flatMap_map, Function.comp_def]

@[simp] theorem ParameterItem.norm_visits {x : ParameterItem} : (x.norm c).visits = x.visits.map (Visit.map c.tr) := by
  simp [ParameterItem.norm, ParameterItem.visits, optProp_map, Visit.map, PCP.norm, BinItem.norm, Setting.norm, List.map_flatMap, List.flatMap_map, Function.comp_def]

@[simp] theorem Marker.norm_visits {x : Marker} : (x.norm c).visits = x.visits.map (Visit.map c.tr) := by
  simp [Marker.norm, Marker.visits, optProp_map, Visit.map, PCP.norm, BinItem.norm, Setting.norm, List.map_flatMap, List.flatMap_map, Function.comp_def]

@[simp] theorem TrackerManager.norm_visits {x : TrackerManager} : (x.norm c).visits = x.visits.map (Visit.map c.tr) := by
  simp [TrackerManager.norm, TrackerManager.visits, optProp_map, Visit.map, PCP.norm, BinItem.norm, Setting.norm, List.map_flatMap, List.flatMap_map, Function.comp_def]

@[simp] theorem TrackerDataSlot.norm_visits {x : TrackerDataSlot} : (x.norm c).visits = x.visits.map (Visit.map c.tr) := by
  simp [TrackerDataSlot.norm, TrackerDataSlot.visits, optProp_map, Visit.map, PCP.norm, BinItem.norm, Setting.norm, List.map_flatMap, List.flatMap_map, Function.comp_def]

@[simp] theorem TrackerParameterSlot.norm_visits {x : TrackerParameterSlot} : (x.norm c).visits = x.visits.map (Visit.map c.tr) := by
  simp [TrackerParameterSlot.norm, TrackerParameterSlot.visits, optProp_map, Visit.map, PCP.norm, BinItem.norm, Setting.norm, List.map_flatMap, List.flatMap_map, Function.comp_def]

@[simp] theorem TrackerData.norm_visits {x : TrackerData} : (x.norm c).visits = x.visits.map (Visit.map c.tr) := by
  simp [TrackerData.norm, TrackerData.visits, optProp_map, Visit.map, PCP.norm, BinItem.norm, Setting.norm, List.map_flatMap, List.flatMap_map, Function.comp_def]

@[simp] theorem MediaDescriptor.norm_visits {x : MediaDescriptor} : (x.norm c).visits = x.visits.map (Visit.map c.tr) := by
  simp [MediaDescriptor.norm, MediaDescriptor.visits, optProp_map, Visit.map, PCP.norm, BinItem.norm, Setting.norm, List.map_flatMap, List.flatMap_map, Function.comp_def]

@[simp] theorem TapeDescriptor.norm_visits {x : TapeDescriptor} : (x.norm c).visits = x.visits.map (Visit.map c.tr) := by
  simp [TapeDescriptor.norm, optProp_map, Visit.map, PCP.norm, BinItem.norm, Setting.norm, List.map_flatMap, List.flatMap_map, Function.comp_def]

@[simp] theorem FilmDescriptor.norm_visits {x : FilmDescriptor} : (x.norm c).visits = x.visits.map (Visit.map c.tr) := by
  simp [FilmDescriptor.norm, optProp_map, Visit.map, PCP.norm, BinItem.norm, Setting.norm, List.map_flatMap, List.flatMap_map, Function.comp_def]

@[simp] theorem NagraDescriptor.norm_visits {x : NagraDescriptor} : (x.norm c).visits = x.visits.map (Visit.map c.tr) := by
  simp [NagraDescriptor.norm, optProp_map, Visit.map, PCP.norm, BinItem.norm, Setting.norm, List.map_flatMap, List.flatMap_map, Function.comp_def]

@[simp] theorem MediaFileDescriptor.norm_visits {x : MediaFileDescriptor} : (x.norm c).visits = x.visits.map (Visit.map c.tr) := by
  simp [MediaFileDescriptor.norm, optProp_map, Visit.map, PCP.norm, BinItem.norm, Setting.norm, List.map_flatMap, List.flatMap_map, Function.comp_def]

@[simp] theorem MultiDescriptor.norm_visits {x : MultiDescriptor} : (x.norm c).visits = x.visits.map (Visit.map c.tr) := by
  simp [MultiDescriptor.norm, MultiDescriptor.visits, optProp_map, Visit.map, PCP.norm, BinItem.norm, Setting.norm, List.map_flatMap, List.flatMap_map, Function.comp_def]

@[simp] theorem WaveDescriptor.norm_visits {x : WaveDescriptor} : (x.norm c).visits = x.visits.map (Visit.map c.tr) := by
  simp [WaveDescriptor.norm, optProp_map, Visit.map, PCP.norm, BinItem.norm, Setting.norm, List.map_flatMap, List.flatMap_map, Function.comp_def]

@[simp] theorem AIFCDescriptor.norm_visits {x : AIFCDescriptor} : (x.norm c).visits = x.visits.map (Visit.map c.tr) := by
  simp [AIFCDescriptor.norm, optProp_map, Visit.map, PCP.norm, BinItem.norm, Setting.norm, List.map_flatMap, List.flatMap_map, Function.comp_def]

@[simp] theorem PCMADescriptor.norm_visits {x : PCMADescriptor} : (x.norm c).visits = x.visits.map (Visit.map c.tr) := by
  simp [PCMADescriptor.norm, optProp_map, Visit.map, PCP.norm, BinItem.norm, Setting.norm, List.map_flatMap, List.flatMap_map, Function.comp_def]

@[simp] theorem MPGADescriptor.norm_visits {x : MPGADescriptor} : (x.norm c).visits = x.visits.map (Visit.map c.tr) := by
  simp [MPGADescriptor.norm, optProp_map, Visit.map, PCP.norm, BinItem.norm, Setting.norm, List.map_flatMap, List.flatMap_map, Function.comp_def]

@[simp] theorem DIDDescriptor.norm_visits {x : DIDDescriptor} : (x.norm c).visits = x.visits.map (Visit.map c.tr) := by
  simp [DIDDescriptor.norm, DIDDescriptor.visits, optProp_map, Visit.map, PCP.norm, BinItem.norm, Setting.norm, List.map_flatMap, List.flatMap_map, Function.comp_def]

@[simp] theorem CDCIDescriptor.norm_visits {x : CDCIDescriptor} : (x.norm c).visits = x.visits.map (Visit.map c.tr) := by
  simp [CDCIDescriptor.norm, optProp_map, Visit.map, PCP.norm, BinItem.norm, Setting.norm, List.map_flatMap, List.flatMap_map, Function.comp_def]

@[simp] theorem MPGIDescriptor.norm_visits {x : MPGIDescriptor} : (x.norm c).visits = x.visits.map (Visit.map c.tr) := by
  simp [MPGIDescriptor.norm, optProp_map, Visit.map, PCP.norm, BinItem.norm, Setting.norm, List.map_flatMap, List.flatMap_map, Function.comp_def]

@[simp] theorem JPEGDescriptor.norm_visits {x : JPEGDescriptor} : (x.norm c).visits = x.visits.map (Visit.map c.tr) := by
  simp [JPEGDescriptor.norm, optProp_map, Visit.map, PCP.norm, BinItem.norm, Setting.norm, List.map_flatMap, List.flatMap_map, Function.comp_def]

@[simp] theorem RGBADescriptor.norm_visits {x : RGBADescriptor} : (x.norm c).visits = x.visits.map (Visit.map c.tr) := by
  simp [RGBADescriptor.norm, optProp_map, Visit.map, PCP.norm, BinItem.norm, Setting.norm, List.map_flatMap, List.flatMap_map, Function.comp_def]

@[simp] theorem DataDescriptor.norm_visits {x : DataDescriptor} : (x.norm c).visits = x.visits.map (Visit.map c.tr) := by
  simp [DataDescriptor.norm, optProp_map, Visit.map, PCP.norm, BinItem.norm, Setting.norm, List.map_flatMap, List.flatMap_map, Function.comp_def]

@[simp] theorem ANCDataDescriptor.norm_visits {x : ANCDataDescriptor} : (x.norm c).visits = x.visits.map (Visit.map c.tr) := by
  simp [ANCDataDescriptor.norm, optProp_map, Visit.map, PCP.norm, BinItem.norm, Setting.norm, List.map_flatMap, List.flatMap_map, Function.comp_def]

@[simp] theorem AttrVal.norm_visits {x : AttrVal} : (x.norm c).visits = x.visits.map (Visit.map c.tr) := by
  cases x <;> rfl

@[simp] theorem ParameterList.norm_visits {x : ParameterList} : (x.norm c).visits = x.visits.map (Visit.map c.tr) := by
  simp [ParameterList.norm, ParameterList.visits, optProp_map, Visit.map, PCP.norm, BinItem.norm, Setting.norm, List.map_flatMap, List.flatMap_map, Function.comp_def]

@[simp] theorem TimeCrumbList.norm_visits {x : TimeCrumbList} : (x.norm c).visits = x.visits.map (Visit.map c.tr) := by
  simp [TimeCrumbList.norm, TimeCrumbList.visits, optProp_map, Visit.map, PCP.norm, BinItem.norm, Setting.norm, List.map_flatMap, List.flatMap_map, Function.comp_def]

@[simp] theorem BinViewSetting.norm_visits {x : BinViewSetting} : (x.norm c).visits = x.visits.map (Visit.map c.tr) := by
  simp [BinViewSetting.norm, BinViewSetting.visits, optProp_map, Visit.map, PCP.norm, BinItem.norm, Setting.norm, List.map_flatMap, List.flatMap_map, Function.comp_def]

@[simp] theorem Bin.norm_visits {x : Bin} : (x.norm c).visits = x.visits.map (Visit.map c.tr) := by
  simp [Bin.norm, Bin.visits, optProp_map, Visit.map, PCP.norm, BinItem.norm, Setting.norm, List.map_flatMap, List.flatMap_map, Function.comp_def]

@[simp] theorem BinFirst.norm_visits {x : BinFirst} : (x.norm c).visits = x.visits.map (Visit.map c.tr) := by
  simp [BinFirst.norm, optProp_map, Visit.map, PCP.norm, BinItem.norm, Setting.norm, List.map_flatMap, List.flatMap_map, Function.comp_def]

theorem Attributes.norm_visits {x : Attributes} {v : Visit} (hv : v ∈ (x.norm c).visits) :
    ∃ u ∈ x.visits, u.map c.tr = v := by
  have key : ∀ (l acc : List (Text × AttrVal)) q, q ∈ l.foldl (fun l p => dictSet l p.1 p.2) acc →
      q ∈ acc ∨ q ∈ l := by
    intro l
    induction l with
    | nil => intro acc q hq; exact .inl hq
    | cons p l ih =>
      intro acc q hq
      rcases ih _ q hq with h | h
      · have : ∀ (m : List (Text × AttrVal)), q ∈ dictSet m p.1 p.2 → q ∈ m ∨ q = p := by
          intro m
          induction m with
          | nil => intro h; exact .inr (by simpa [dictSet] using h)
          | cons r m ihm =>
            intro h
            simp only [dictSet] at h
            split at h
            · rcases List.mem_cons.1 h with h | h
              · exact .inr h
              · exact .inl (List.mem_cons_of_mem _ h)
            · rcases List.mem_cons.1 h with h | h
              · exact .inl (by rw [h]; exact List.mem_cons_self)
              · rcases ihm h with h | h
                · exact .inl (List.mem_cons_of_mem _ h)
                · exact .inr h
        rcases this acc h with h | h
        · exact .inl h
        · exact .inr (by rw [h]; exact List.mem_cons_self)
      · exact .inr (List.mem_cons_of_mem _ h)
  obtain ⟨q, hq, hv⟩ := List.mem_flatMap.1 hv
  rcases key _ _ _ hq with h | h
  · cases h
  · obtain ⟨p, hp, rfl⟩ := List.mem_map.1 h
    simp only [Attributes.normItem, AttrVal.norm_visits, List.mem_map] at hv
    obtain ⟨u, hu, rfl⟩ := hv
    exact ⟨u, List.mem_flatMap.2 ⟨p, hp, hu⟩, rfl⟩

/-- Every reference of the loaded object comes from a reference of the saved object. -/
theorem Obj.norm_visits {x : Obj} {v : Visit} (hv : v ∈ (x.norm c).visits) :
    ∃ u ∈ x.visits, u.map c.tr = v := by
  cases x
  case ATTR x => exact Attributes.norm_visits hv
  case PRLS x => simp only [Obj.norm, Obj.visits, ParameterList.norm_visits, List.mem_map] at hv; exact hv
  case TMCS x => simp only [Obj.norm, Obj.visits, TimeCrumbList.norm_visits, List.mem_map] at hv; exact hv
  case BVst x => simp only [Obj.norm, Obj.visits, BinViewSetting.norm_visits, List.mem_map] at hv; exact hv
  case ABIN x => simp only [Obj.norm, Obj.visits, Bin.norm_visits, List.mem_map] at hv; exact hv
  case BINF x => simp only [Obj.norm, Obj.visits, BinFirst.norm_visits, List.mem_map] at hv; exact hv
  case SEQU x => simp only [Obj.norm, Obj.visits, Sequence.norm_visits, List.mem_map] at hv; exact hv
  case SCLP x => simp only [Obj.norm, Obj.visits, SourceClip.norm_visits, List.mem_map] at hv; exact hv
  case TCCP x => simp only [Obj.norm, Obj.visits, Timecode.norm_visits, List.mem_map] at hv; exact hv
  case ECCP x => simp only [Obj.norm, Obj.visits, Edgecode.norm_visits, List.mem_map] at hv; exact hv
  case TRKR x => simp only [Obj.norm, Obj.visits, TrackRef.norm_visits, List.mem_map] at hv; exact hv
  case PRCL x => simp only [Obj.norm, Obj.visits, ParamClip.norm_visits, List.mem_map] at hv; exact hv
  case CTRL x => simp only [Obj.norm, Obj.visits, ControlClip.norm_visits, List.mem_map] at hv; exact hv
  case FILL x => simp only [Obj.norm, Obj.visits, Filler.norm_visits, List.mem_map] at hv; exact hv
  case TRKG x => simp only [Obj.norm, Obj.visits, TrackGroup.norm_visits, List.mem_map] at hv; exact hv
  case TKFX x => simp only [Obj.norm, Obj.visits, TrackEffect.norm_visits, List.mem_map] at hv; exact hv
  case PVOL x => simp only [Obj.norm, Obj.visits, PanVolumeEffect.norm_visits, List.mem_map] at hv; exact hv
  case ASPI x => simp only [Obj.norm, Obj.visits, AudioSuitePluginEffect.norm_visits, List.mem_map] at hv; exact hv
  case EQMB x => simp only [Obj.norm, Obj.visits, EqualizerMultiBand.norm_visits, List.mem_map] at hv; exact hv
  case MASK x => simp only [Obj.norm, Obj.visits, CaptureMask.norm_visits, List.mem_map] at hv; exact hv
  case STRB x => simp only [Obj.norm, Obj.visits, StrobeEffect.norm_visits, List.mem_map] at hv; exact hv
  case SPED x => simp only [Obj.norm, Obj.visits, MotionEffect.norm_visits, List.mem_map] at hv; exact hv
  case REPT x => simp only [Obj.norm, Obj.visits, Repeat.norm_visits, List.mem_map] at hv; exact hv
  case RSET x => simp only [Obj.norm, Obj.visits, EssenceGroup.norm_visits, List.mem_map] at hv; exact hv
  case TNFX x => simp only [Obj.norm, Obj.visits, TransitionEffect.norm_visits, List.mem_map] at hv; exact hv
  case SLCT x => simp only [Obj.norm, Obj.visits, Selector.norm_visits, List.mem_map] at hv; exact hv
  case CMPO x => simp only [Obj.norm, Obj.visits, Composition.norm_visits, List.mem_map] at hv; exact hv
  case FILE => simp [Obj.norm, Obj.visits] at hv
  case WINF => simp [Obj.norm, Obj.visits] at hv
  case URLL => simp [Obj.norm, Obj.visits] at hv
  case GRFX => simp [Obj.norm, Obj.visits] at hv
  case SHLP => simp [Obj.norm, Obj.visits] at hv
  case CCFX => simp [Obj.norm, Obj.visits] at hv
  case FXPS => simp [Obj.norm, Obj.visits] at hv
  case AVUP => simp [Obj.norm, Obj.visits] at hv
  case PRIT x => simp only [Obj.norm, Obj.visits, ParameterItem.norm_visits, List.mem_map] at hv; exact hv
  case MSML => simp [Obj.norm, Obj.visits] at hv
  case APOS => simp [Obj.norm, Obj.visits] at hv
  case ABOB => simp [Obj.norm, Obj.visits] at hv
  case DIDP => simp [Obj.norm, Obj.visits] at hv
  case MPGP => simp [Obj.norm, Obj.visits] at hv
  case MCBR => simp [Obj.norm, Obj.visits] at hv
  case MCMR => simp [Obj.norm, Obj.visits] at hv
  case TMBC x => simp only [Obj.norm, Obj.visits, Marker.norm_visits, List.mem_map] at hv; exact hv
  case TKMN x => simp only [Obj.norm, Obj.visits, TrackerManager.norm_visits, List.mem_map] at hv; exact hv
  case TKDS x => simp only [Obj.norm, Obj.visits, TrackerDataSlot.norm_visits, List.mem_map] at hv; exact hv
  case TKPS x => simp only [Obj.norm, Obj.visits, TrackerParameterSlot.norm_visits, List.mem_map] at hv; exact hv
  case TKDA x => simp only [Obj.norm, Obj.visits, TrackerData.norm_visits, List.mem_map] at hv; exact hv
  case TKPA => simp [Obj.norm, Obj.visits] at hv
  case MDES x => simp only [Obj.norm, Obj.visits, MediaDescriptor.norm_visits, List.mem_map] at hv; exact hv
  case MDTP x => simp only [Obj.norm, Obj.visits, TapeDescriptor.norm_visits, List.mem_map] at hv; exact hv
  case MDFM x => simp only [Obj.norm, Obj.visits, FilmDescriptor.norm_visits, List.mem_map] at hv; exact hv
  case MDNG x => simp only [Obj.norm, Obj.visits, NagraDescriptor.norm_visits, List.mem_map] at hv; exact hv
  case MDFL x => simp only [Obj.norm, Obj.visits, MediaFileDescriptor.norm_visits, List.mem_map] at hv; exact hv
  case MULD x => simp only [Obj.norm, Obj.visits, MultiDescriptor.norm_visits, List.mem_map] at hv; exact hv
  case WAVE x => simp only [Obj.norm, Obj.visits, WaveDescriptor.norm_visits, List.mem_map] at hv; exact hv
  case AIFC x => simp only [Obj.norm, Obj.visits, AIFCDescriptor.norm_visits, List.mem_map] at hv; exact hv
  case PCMA x => simp only [Obj.norm, Obj.visits, PCMADescriptor.norm_visits, List.mem_map] at hv; exact hv
  case MPGA x => simp only [Obj.norm, Obj.visits, MPGADescriptor.norm_visits, List.mem_map] at hv; exact hv
  case DIDD x => simp only [Obj.norm, Obj.visits, DIDDescriptor.norm_visits, List.mem_map] at hv; exact hv
  case CDCI x => simp only [Obj.norm, Obj.visits, CDCIDescriptor.norm_visits, List.mem_map] at hv; exact hv
  case MPGI x => simp only [Obj.norm, Obj.visits, MPGIDescriptor.norm_visits, List.mem_map] at hv; exact hv
  case JPED x => simp only [Obj.norm, Obj.visits, JPEGDescriptor.norm_visits, List.mem_map] at hv; exact hv
  case RGBA x => simp only [Obj.norm, Obj.visits, RGBADescriptor.norm_visits, List.mem_map] at hv; exact hv
  case DATD x => simp only [Obj.norm, Obj.visits, DataDescriptor.norm_visits, List.mem_map] at hv; exact hv
  case ANCD x => simp only [Obj.norm, Obj.visits, ANCDataDescriptor.norm_visits, List.mem_map] at hv; exact hv

end Avb
