import Verif.Lemmas.Components
import Verif.Model.TrackGroups

/-
Round trips of every class of src/avb/trackgroups.py.
-/

namespace Avb

theorem testBit_flagBit {α : Type} (o : Option α) (i j : Nat) :
    (flagBit o i).testBit j = (o.isSome && decide (i = j)) := by
  unfold flagBit
  cases o with
  | none => simp
  | some a => simp [Nat.one_shiftLeft, Nat.testBit_two_pow]

theorem flagBit_map {α β : Type} (o : Option α) (g : α → β) (i : Nat) :
    flagBit (o.map g) i = flagBit o i := by
  simp only [flagBit, Option.isSome_map]

theorem flagBit_lt {α : Type} (o : Option α) {i : Nat} (h : i < 10) : flagBit o i < 2 ^ 10 := by
  unfold flagBit
  split
  · rw [Nat.one_shiftLeft]
    exact Nat.pow_lt_pow_right (by omega) h
  · omega

theorem Track.flags_lt (t : Track) : t.flags < 2 ^ 10 := by
  unfold Track.flags
  repeat' apply Nat.or_lt_two_pow
  all_goals exact flagBit_lt _ (by omega)

theorem and_unknown_flags {n : Nat} (h : n < 2 ^ 10) : n &&& 0xFC00 = 0 := by
  have : ∀ k : Fin 1024, k.val &&& 0xFC00 = 0 := by decide +kernel
  exact this ⟨n, by simpa using h⟩

/-- A track after saving and loading: references renumbered, an absent lock number becomes 0. -/
def Track.norm (c : WCtx) (t : Track) : Track :=
  { t with
    attributes := t.attributes.map c.tr, session_attr := t.session_attr.map c.tr
    component := t.component.map c.tr, filler_proxy := t.filler_proxy.map c.tr
    bob_data := t.bob_data.map c.tr, lock_number := some (t.lock_number.getD 0) }

/-- The track as it stands before extension 1 is read. -/
def Track.norm0 (c : WCtx) (t : Track) : Track := { t.norm c with lock_number := none }

section
variable {c : WCtx} {d : RCtx} {α β : Type} {F : Bytes → Prop}

theorem RT.flagged {b : Bool} {o : Option α} {w : α → Wr Unit} {r : Rd β} {g : α → β}
    (hb : b = o.isSome) (h : ∀ a, RT (w a) r (g a)) :
    RT (wFlagged b o w) (Rd.opt b r) (o.map g) := by
  subst hb
  cases o with
  | none => exact RT.pure rfl
  | some a =>
    simp only [wFlagged, Rd.opt, Option.isSome_some, if_true]
    refine RT.wget fun a' ha => ?_
    cases ha
    exact RT.last (h a) rfl

theorem RT.flagged_id {b : Bool} {o : Option α} {w : α → Wr Unit} {r : Rd α}
    (hb : b = o.isSome) (h : ∀ a, RT (w a) r a) : RT (wFlagged b o w) (Rd.opt b r) o := by
  have := RT.flagged (g := id) hb h
  simpa using this

theorem Track.flags_norm0 (t : Track) : (t.norm0 c).flags = t.flags := by
  simp only [Track.flags, Track.norm0, Track.norm, flagBit_map]

theorem Track.rt (h : Linked c d) {x : Track} : RT (x.write c) (Track.read d) (x.norm0 c) := by
  unfold Track.write Track.read
  have hfl := x.flags_norm0 (c := c)
  rt_step
  rt_step
  simp only [Int.toNat_natCast]
  refine RT.bind (RT.flagged_id (by simp [Track.flags, testBit_flagBit, -Nat.testBit_zero]) fun _ => RT.intL h) ?_
  refine RT.bind (RT.flagged (by simp [Track.flags, testBit_flagBit]) fun _ => RT.ref h) ?_
  refine RT.bind (RT.flagged (by simp [Track.flags, testBit_flagBit]) fun _ => RT.ref h) ?_
  refine RT.bind (RT.flagged (by simp [Track.flags, testBit_flagBit]) fun _ => RT.ref h) ?_
  refine RT.bind (RT.flagged (by simp [Track.flags, testBit_flagBit]) fun _ => RT.ref h) ?_
  refine RT.bind (RT.flagged (by simp [Track.flags, testBit_flagBit]) fun _ => RT.ref h) ?_
  refine RT.bind (RT.flagged_id (by simp [Track.flags, testBit_flagBit]) fun _ => RT.intL h) ?_
  refine RT.bind (RT.flagged_id (by simp [Track.flags, testBit_flagBit]) fun _ => RT.intL h) ?_
  refine RT.bind (RT.flagged_id (by simp [Track.flags, testBit_flagBit]) fun _ => RT.intL h) ?_
  refine RT.last (RT.flagged_id (by simp [Track.flags, testBit_flagBit]) fun _ => RT.bool) ?_
  funext bs
  simp only [Rd.bind_apply, Rd.guard_apply, and_unknown_flags x.flags_lt, if_true]
  unfold Track.norm0 Track.norm at hfl
  simp only at hfl
  rw [if_pos hfl]
  rfl

def TrackGroup.norm (c : WCtx) (x : TrackGroup) : TrackGroup :=
  { x with toComponent := x.toComponent.norm c, tracks := x.tracks.map (Track.norm c) }

theorem lock_zip (c : WCtx) (ts : List Track) :
    (ts.map (Track.norm0 c)).zipWith (fun (t : Track) l => { t with lock_number := some l })
      (ts.map fun t => t.lock_number.getD 0) = ts.map (Track.norm c) := by
  induction ts with
  | nil => rfl
  | cons t ts ih => simp only [List.map_cons, List.zipWith_cons_cons, ih]; rfl

theorem wLock.rt (h : Linked c d) {x : Track} : RT (wLock c x) (rLock d) (x.lock_number.getD 0) := by
  unfold wLock rLock
  rt_steps
  rt_last
  rfl

theorem TrackGroup.rt (h : Linked c d) {x : TrackGroup} (ht : TextsOK x.texts) :
    RTN (x.write c) (TrackGroup.read d) (x.norm c) := by
  unfold TrackGroup.write TrackGroup.read
  refine RTN.bind (Component.rt h ht) (by starts) ?_
  rt_steps
  refine RT.bind (RT.list (by simp) fun _ _ => Track.rt h) ?_
  refine RT.ext_end' (RTX.when (s' := x.norm c) (fun _ => RTX.item ?_) ?_) rfl
  · rt_ext TrackGroup.ext
    refine RT.last (RT.list (by simp) fun _ _ => wLock.rt h) ?_
    simp only [lock_zip]
    rfl
  · intro hne
    have : x.tracks = [] := by simpa using hne
    cases x
    simp_all [TrackGroup.norm]

def TrackEffect.norm (c : WCtx) (x : TrackEffect) : TrackEffect :=
  { x with
    toTrackGroup := x.toTrackGroup.norm c
    keyframes := c.tr x.keyframes
    trackman := x.trackman.map c.tr }

theorem TrackEffect.rt_body (h : Linked c d) {x : TrackEffect} (ht : TextsOK x.texts) :
    RTN (x.writeBody c) (TrackEffect.readBody d) (x.norm c) := by
  unfold TrackEffect.writeBody TrackEffect.readBody
  refine RTN.bind (TrackGroup.rt h ht) (by starts) ?_
  rt_steps
  refine RT.ext_end' ?_ rfl
  refine RTX.has (fun (s : TrackEffect) o => { s with trackman := o }) c.tr rfl fun r _ => ?_
  refine RTX.item ?_
  rt_ext TrackEffect.ext
  rt_steps
  rt_last
  rfl

theorem TrackEffect.rt (h : Linked c d) {x : TrackEffect} (ht : TextsOK x.texts) :
    RT (x.write c) (TrackEffect.read d) (x.norm c) := by
  unfold TrackEffect.write TrackEffect.read
  refine RTN.bind (TrackEffect.rt_body h ht) (by starts) ?_
  rt_last
  rfl

def PanVolumeEffect.norm (c : WCtx) (x : PanVolumeEffect) : PanVolumeEffect :=
  { x with toTrackEffect := x.toTrackEffect.norm c }

theorem PanVolumeEffect.rt (h : Linked c d) {x : PanVolumeEffect} (ht : TextsOK x.texts) :
    RT (x.write c) (PanVolumeEffect.read d) (x.norm c) := by
  unfold PanVolumeEffect.write PanVolumeEffect.read
  refine RTN.bind (TrackEffect.rt_body h ht) (by starts) ?_
  rt_steps
  rt_opt PanVolumeEffect supports_seperate_gain id PanVolumeEffect.ext
  rt_opt PanVolumeEffect is_trim_gain_effect id PanVolumeEffect.ext
  refine RT.ext_done (by starts) ?_
  rt_last
  cases x; simp [PanVolumeEffect.norm]

def ASPIPluginChunk.norm (x : ASPIPluginChunk) : ASPIPluginChunk :=
  { x with name := stripText x.name }

def ASPIPlugin.norm (x : ASPIPlugin) : ASPIPlugin :=
  { x with name := stripText x.name, chunks := x.chunks.map ASPIPluginChunk.norm }

def ASPIPlugin.texts (x : ASPIPlugin) : List (Enc × Text) :=
  (.macroman, x.name) :: x.chunks.map fun k => (.macroman, k.name)

def AudioSuitePluginEffect.norm (c : WCtx) (x : AudioSuitePluginEffect) :
    AudioSuitePluginEffect :=
  { x with toTrackEffect := x.toTrackEffect.norm c, plugins := x.plugins.map ASPIPlugin.norm }

def AudioSuitePluginEffect.allTexts (x : AudioSuitePluginEffect) : List (Enc × Text) :=
  x.texts ++ x.plugins.flatMap ASPIPlugin.texts

theorem ASPIPluginChunk.rt (h : Linked c d) {x : ASPIPluginChunk} (ht : TextOK .macroman x.name) :
    RT (x.write c) (ASPIPluginChunk.read d) x.norm := by
  unfold ASPIPluginChunk.write ASPIPluginChunk.read
  rt_steps
  rt_last
  rfl

theorem ASPIPlugin.rt (h : Linked c d) {x : ASPIPlugin} (ht : TextsOK x.texts) :
    RT (x.write c) (ASPIPlugin.read d) x.norm := by
  unfold ASPIPlugin.write ASPIPlugin.read
  have h1 : TextOK .macroman x.name := ht (_, _) (by simp [ASPIPlugin.texts])
  rt_steps
  refine RT.last (RT.list (by simp) fun y hy => ASPIPluginChunk.rt h ?_) rfl
  exact ht (.macroman, y.name) (by simp only [ASPIPlugin.texts]; simp; exact Or.inr ⟨y, hy, rfl⟩)

theorem RT.presetPath (h : Linked c d) {v : Bytes} : RT (wPresetPath c v) (rPresetPath d) v := by
  unfold wPresetPath rPresetPath
  rt_step
  unfold Wr.when
  by_cases hv : v.length > 0
  · rw [if_pos hv, if_pos (by omega)]
    rt_steps
    rt_last
    rfl
  · rw [if_neg hv, if_neg (by omega)]
    have : v = [] := by simpa using hv
    subst this
    exact RT.pure rfl

macro_rules
  | `(tactic| rt_prim) => `(tactic| with_reducible exact RT.presetPath ‹Linked _ _›)

theorem AudioSuitePluginEffect.rt (h : Linked c d) {x : AudioSuitePluginEffect}
    (ht : TextsOK x.allTexts) (hp : x.plugins.length = 1) :
    RT (x.write c) (AudioSuitePluginEffect.read d) (x.norm c) := by
  unfold AudioSuitePluginEffect.write AudioSuitePluginEffect.read
  have h1 : TextsOK x.texts := fun p hp => ht p (by simp [AudioSuitePluginEffect.allTexts, hp])
  have h2 : ∀ p ∈ x.plugins, TextsOK p.texts := fun p hp q hq => ht q (by
    simp only [AudioSuitePluginEffect.allTexts, List.mem_append, List.mem_flatMap]
    exact Or.inr ⟨p, hp, hq⟩)
  refine RTN.bind (TrackEffect.rt_body h h1) (by starts) ?_
  rt_steps
  have hp1 : ∃ p, x.plugins = [p] := by
    match hx : x.plugins, hp with
    | [p], _ => exact ⟨p, rfl⟩
  obtain ⟨p, hp1⟩ := hp1
  rw [hp1]
  unfold forW
  refine RT.wassoc ?_
  refine RT.bind (ASPIPlugin.rt h (h2 p (by simp [hp1]))) ?_
  unfold forW
  refine RT.wpure_bind ?_
  refine RT.ext_step (RTX.ifHas (fun m _ => RTX.item ?_) fun _ => rfl) ?_
  · rt_ext AudioSuitePluginEffect.ext
    rt_steps
    rt_last
    rfl
  rt_opt AudioSuitePluginEffect mob_id id AudioSuitePluginEffect.ext
  rt_opt AudioSuitePluginEffect mark_in id AudioSuitePluginEffect.ext
  rt_opt AudioSuitePluginEffect mark_out id AudioSuitePluginEffect.ext
  rt_opt AudioSuitePluginEffect tracks_to_affect id AudioSuitePluginEffect.ext
  rt_opt AudioSuitePluginEffect rendering_mode id AudioSuitePluginEffect.ext
  rt_opt AudioSuitePluginEffect padding_secs id AudioSuitePluginEffect.ext
  rt_opt AudioSuitePluginEffect preset_path id AudioSuitePluginEffect.ext
  refine RT.ext_done (by starts) ?_
  rt_last
  cases x; simp_all [AudioSuitePluginEffect.norm]

def EqualizerMultiBand.norm (c : WCtx) (x : EqualizerMultiBand) : EqualizerMultiBand :=
  { x with toTrackEffect := x.toTrackEffect.norm c, filter_name := stripText x.filter_name }

def EqualizerMultiBand.allTexts (x : EqualizerMultiBand) : List (Enc × Text) :=
  x.texts ++ [(.macroman, x.filter_name)]

theorem EqualizerBand.rt (h : Linked c d) {x : EqualizerBand} :
    RT (x.write c) (EqualizerBand.read d) x := by
  unfold EqualizerBand.write EqualizerBand.read
  rt_steps
  rt_last
  rfl

theorem EqualizerMultiBand.rt (h : Linked c d) {x : EqualizerMultiBand}
    (ht : TextsOK x.allTexts) : RT (x.write c) (EqualizerMultiBand.read d) (x.norm c) := by
  unfold EqualizerMultiBand.write EqualizerMultiBand.read
  have h1 : TextsOK x.texts := fun p hp => ht p (by simp [EqualizerMultiBand.allTexts, hp])
  have h2 : TextOK .macroman x.filter_name := ht (_, _) (by simp [EqualizerMultiBand.allTexts])
  refine RTN.bind (TrackEffect.rt_body h h1) (by starts) ?_
  rt_steps
  refine RT.bind (RT.list_id (by simp) fun _ _ => EqualizerBand.rt h) ?_
  rt_steps
  rt_last
  rfl

def TimeWarp.norm (c : WCtx) (x : TimeWarp) : TimeWarp :=
  { x with toTrackGroup := x.toTrackGroup.norm c }

theorem TimeWarp.rt (h : Linked c d) {x : TimeWarp} (ht : TextsOK x.texts) :
    RT (x.write c) (TimeWarp.read d) (x.norm c) := by
  unfold TimeWarp.write TimeWarp.read
  refine RTN.bind (TrackGroup.rt h ht) (by starts) ?_
  rt_steps
  rt_last
  rfl

def CaptureMask.norm (c : WCtx) (x : CaptureMask) : CaptureMask :=
  { x with toTimeWarp := x.toTimeWarp.norm c }

theorem CaptureMask.rt (h : Linked c d) {x : CaptureMask} (ht : TextsOK x.texts) :
    RT (x.write c) (CaptureMask.read d) (x.norm c) := by
  unfold CaptureMask.write CaptureMask.read
  refine RT.bind (TimeWarp.rt h ht) ?_
  rt_steps
  rt_last
  rfl

def StrobeEffect.norm (c : WCtx) (x : StrobeEffect) : StrobeEffect :=
  { x with toTimeWarp := x.toTimeWarp.norm c }

theorem StrobeEffect.rt (h : Linked c d) {x : StrobeEffect} (ht : TextsOK x.texts) :
    RT (x.write c) (StrobeEffect.read d) (x.norm c) := by
  unfold StrobeEffect.write StrobeEffect.read
  refine RT.bind (TimeWarp.rt h ht) ?_
  rt_steps
  rt_last
  rfl

def MotionEffect.norm (c : WCtx) (x : MotionEffect) : MotionEffect :=
  { x with
    toTimeWarp := x.toTimeWarp.norm c
    source_param_list := x.source_param_list.map c.tr }

theorem MotionEffect.rt (h : Linked c d) {x : MotionEffect} (ht : TextsOK x.texts) :
    RT (x.write c) (MotionEffect.read d) (x.norm c) := by
  unfold MotionEffect.write MotionEffect.read
  refine RT.bind (TimeWarp.rt h ht) ?_
  rt_steps
  rt_opt MotionEffect offset_adjust id MotionEffect.ext
  rt_opt MotionEffect source_param_list c.tr MotionEffect.ext
  rt_opt MotionEffect new_source_calculation id MotionEffect.ext
  refine RT.ext_done (by starts) ?_
  rt_last
  cases x; simp [MotionEffect.norm]

def Repeat.norm (c : WCtx) (x : Repeat) : Repeat := { x with toTimeWarp := x.toTimeWarp.norm c }

theorem Repeat.rt (h : Linked c d) {x : Repeat} (ht : TextsOK x.texts) :
    RT (x.write c) (Repeat.read d) (x.norm c) := by
  unfold Repeat.write Repeat.read
  refine RT.bind (TimeWarp.rt h ht) ?_
  rt_steps
  rt_last
  rfl

def EssenceGroup.norm (c : WCtx) (x : EssenceGroup) : EssenceGroup :=
  { x with toTrackGroup := x.toTrackGroup.norm c }

theorem EssenceGroup.rt (h : Linked c d) {x : EssenceGroup} (ht : TextsOK x.texts) :
    RT (x.write c) (EssenceGroup.read d) (x.norm c) := by
  unfold EssenceGroup.write EssenceGroup.read
  refine RTN.bind (TrackGroup.rt h ht) (by starts) ?_
  rt_steps
  rt_opt EssenceGroup rep_set_type id EssenceGroup.ext
  refine RT.ext_done (by starts) ?_
  rt_last
  cases x; simp [EssenceGroup.norm]

def TransitionEffect.norm (c : WCtx) (x : TransitionEffect) : TransitionEffect :=
  { x with
    toTrackGroup := x.toTrackGroup.norm c
    keyframes := c.tr x.keyframes
    trackman := x.trackman.map c.tr }

theorem TransitionEffect.rt (h : Linked c d) {x : TransitionEffect} (ht : TextsOK x.texts) :
    RT (x.write c) (TransitionEffect.read d) (x.norm c) := by
  unfold TransitionEffect.write TransitionEffect.read
  refine RTN.bind (TrackGroup.rt h ht) (by starts) ?_
  rt_steps
  rt_opt TransitionEffect trackman c.tr TransitionEffect.ext
  refine RT.ext_done (by starts) ?_
  rt_last
  rfl

def Selector.norm (c : WCtx) (x : Selector) : Selector :=
  { x with toTrackGroup := x.toTrackGroup.norm c }

theorem Selector.rt (h : Linked c d) {x : Selector} (ht : TextsOK x.texts)
    (hs : x.selected < x.tracks.length) :
    RT (x.write c) (Selector.read d) (x.norm c) := by
  unfold Selector.write Selector.read
  refine RTN.bind (TrackGroup.rt h ht) (by starts) ?_
  have hs' : x.selected < (x.toTrackGroup.norm c).tracks.length := by
    simpa [TrackGroup.norm] using hs
  rt_steps
  rt_last
  rfl

def Composition.norm (c : WCtx) (x : Composition) : Composition :=
  { x with toTrackGroup := x.toTrackGroup.norm c, descriptor := c.tr x.descriptor }

theorem Composition.rt (h : Linked c d) {x : Composition} (ht : TextsOK x.texts) :
    RT (x.write c) (Composition.read d) (x.norm c) := by
  unfold Composition.write Composition.read
  refine RTN.bind (TrackGroup.rt h ht) (by starts) ?_
  rt_steps
  rt_opt Composition creation_time id Composition.ext
  rt_opt Composition mob_id id Composition.ext
  refine RT.ext_done (by starts) ?_
  rt_last
  cases x; simp [Composition.norm]

end

end Avb
