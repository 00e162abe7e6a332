import Verif.Model.CopyObj

/-
An object is its references and the rest.
-/

namespace Avb

set_option linter.unusedSimpArgs false

variable {α β X : Type}

/-- `take` replaces the references `refs`, which `ren` renames, and nothing else. -/
structure Law (take : α → Take α) (refs : α → List Ref) (ren : (Ref → Ref) → α → α) : Prop where
  done : ∀ x l1 l2, l1.length = (refs x).length →
    ∃ y, take x (l1 ++ l2) = (y, l2) ∧ refs y = l1 ∧ ren (fun _ => 0) y = ren (fun _ => 0) x
  back : ∀ x g l, take (ren g x) (refs x ++ l) = (x, l)
  refs : ∀ x g, refs (ren g x) = (refs x).map g
  twice : ∀ x g g', ren g' (ren g x) = ren (fun r => g' (g r)) x

theorem Law.congr {take take' : α → Take α} {refs refs' : α → List Ref} {ren ren' : (Ref → Ref) → α → α}
    (h : Law take refs ren) (h1 : ∀ x, take x = take' x) (h2 : ∀ x, refs x = refs' x)
    (h3 : ∀ g x, ren g x = ren' g x) : Law take' refs' ren' := by
  obtain rfl : take = take' := funext h1
  obtain rfl : refs = refs' := funext h2
  obtain rfl : ren = ren' := funext fun g => funext fun x => h3 g x
  exact h

theorem Law.lens {take : α → Take α} {refs : α → List Ref} {ren : (Ref → Ref) → α → α} (h : Law take refs ren)
    (get : X → α) (set : X → α → X) (gs : ∀ x a, get (set x a) = a) (sg : ∀ x, set x (get x) = x)
    (ss : ∀ x a b, set (set x a) b = set x b) :
    Law (fun x l => (set x (take (get x) l).1, (take (get x) l).2)) (fun x => refs (get x))
      (fun g x => set x (ren g (get x))) where
  done x l1 l2 hl := by
    obtain ⟨y, h1, h2, h3⟩ := h.done (get x) l1 l2 hl
    exact ⟨set x y, by simp only [h1], by simp only [gs, h2], by simp only [gs, ss, h3]⟩
  back x g l := by simp only [gs, ss, h.back, sg]
  refs x g := by simp only [gs, h.refs]
  twice x g g' := by simp only [gs, ss, h.twice]

theorem Law.prod {t1 : α → Take α} {r1 : α → List Ref} {n1 : (Ref → Ref) → α → α} {t2 : β → Take β}
    {r2 : β → List Ref} {n2 : (Ref → Ref) → β → β} (h1 : Law t1 r1 n1) (h2 : Law t2 r2 n2) :
    Law (fun p l => (((t1 p.1 l).1, (t2 p.2 (t1 p.1 l).2).1), (t2 p.2 (t1 p.1 l).2).2))
      (fun p : α × β => r1 p.1 ++ r2 p.2) (fun g p => (n1 g p.1, n2 g p.2)) where
  done x l1 l2 hl := by
    rw [List.length_append] at hl
    obtain ⟨y, a1, a2, a3⟩ := h1.done x.1 (l1.take (r1 x.1).length) (l1.drop (r1 x.1).length ++ l2)
      (by rw [List.length_take]; omega)
    obtain ⟨z, b1, b2, b3⟩ := h2.done x.2 (l1.drop (r1 x.1).length) l2 (by rw [List.length_drop]; omega)
    rw [← List.append_assoc, List.take_append_drop] at a1
    refine ⟨(y, z), by simp only [a1, b1], ?_, by simp only [a3, b3]⟩
    simp only [a2, b2, List.take_append_drop]
  back x g l := by simp only [List.append_assoc, h1.back, h2.back]
  refs x g := by simp only [h1.refs, h2.refs, List.map_append]
  twice x g g' := by simp only [h1.twice, h2.twice]

theorem Law.ref : Law (fun _ => popRef) (fun r => [r]) (fun g r => g r) where
  done x l1 l2 h := by
    obtain ⟨a, rfl⟩ : ∃ a, l1 = [a] := List.length_eq_one_iff.1 h
    exact ⟨a, rfl, rfl, rfl⟩
  back _ _ _ := rfl
  refs _ _ := rfl
  twice _ _ _ := rfl

theorem Law.opt : Law popOpt (fun o => o.toList) (fun g o => o.map g) where
  done x l1 l2 h := by
    cases x with
    | none =>
      obtain rfl : l1 = [] := List.length_eq_zero_iff.1 h
      exact ⟨_, rfl, rfl, rfl⟩
    | some r =>
      obtain ⟨a, rfl⟩ : ∃ a, l1 = [a] := List.length_eq_one_iff.1 h
      exact ⟨some a, rfl, rfl, rfl⟩
  back x _ _ := by cases x <;> rfl
  refs x _ := by cases x <;> rfl
  twice x _ _ := by cases x <;> rfl

theorem relinkAll_cons {f : α → Take α} {x : α} {xs : List α} {l : List Ref} :
    relinkAll f (x :: xs) l = ((f x l).1 :: (relinkAll f xs (f x l).2).1, (relinkAll f xs (f x l).2).2) := rfl

theorem Law.all {take : α → Take α} {refs : α → List Ref} {ren : (Ref → Ref) → α → α} (h : Law take refs ren) :
    Law (relinkAll take) (fun l => l.flatMap refs) (fun g l => l.map (ren g)) where
  done x := by
    induction x with
    | nil =>
      intro l1 l2 hl
      obtain rfl : l1 = [] := List.length_eq_zero_iff.1 hl
      exact ⟨[], rfl, rfl, rfl⟩
    | cons x xs ih =>
      intro l1 l2 hl
      rw [List.flatMap_cons, List.length_append] at hl
      obtain ⟨y, a1, a2, a3⟩ := h.done x (l1.take (refs x).length) (l1.drop (refs x).length ++ l2)
        (by rw [List.length_take]; omega)
      obtain ⟨ys, b1, b2, b3⟩ := ih (l1.drop (refs x).length) l2 (by rw [List.length_drop]; omega)
      rw [← List.append_assoc, List.take_append_drop] at a1
      refine ⟨y :: ys, by rw [relinkAll_cons, a1, b1], ?_, by simp only [List.map_cons, a3, b3]⟩
      rw [List.flatMap_cons, a2, b2, List.take_append_drop]
  back x g := by
    induction x with
    | nil => intro l; rfl
    | cons x xs ih =>
      intro l
      rw [List.map_cons, relinkAll_cons, List.flatMap_cons, List.append_assoc, h.back, ih]
  refs x g := by
    induction x with
    | nil => rfl
    | cons x xs ih => rw [List.map_cons, List.flatMap_cons, List.flatMap_cons, List.map_append, ← ih, h.refs]
  twice x g g' := by
    simp only [List.map_map, List.map_inj_left, Function.comp_apply]
    exact fun a _ => h.twice a g g'

theorem popList_all (l : List Ref) : popList l = relinkAll (fun _ => popRef) l := by
  induction l with
  | nil => rfl
  | cons x xs ih =>
    unfold popList relinkAll
    rw [ih]

theorem Law.list : Law popList (fun l => l) (fun g l => l.map g) :=
  Law.ref.all.congr (fun l => (popList_all l).symm) (fun l => by simp) (fun _ _ => rfl)

theorem flatMap_single (f : α → β) (l : List α) : l.flatMap (fun x => [f x]) = l.map f := by
  induction l with
  | nil => rfl
  | cons x xs ih => rw [List.flatMap_cons, ih]; rfl

/-- The law for one object. -/
structure Law1 (take : X → Take X) (refs : X → List Ref) (ren : (Ref → Ref) → X → X) (x : X) : Prop where
  done : ∀ l1 l2, l1.length = (refs x).length →
    ∃ y, take x (l1 ++ l2) = (y, l2) ∧ refs y = l1 ∧ ren (fun _ => 0) y = ren (fun _ => 0) x
  back : ∀ g l, take (ren g x) (refs x ++ l) = (x, l)
  refs : ∀ g, refs (ren g x) = (refs x).map g
  twice : ∀ g g', ren g' (ren g x) = ren (fun r => g' (g r)) x

theorem Law.of_each {take : α → Take α} {refs : α → List Ref} {ren : (Ref → Ref) → α → α}
    (h : ∀ x, Law1 take refs ren x) : Law take refs ren :=
  ⟨fun x => (h x).done, fun x => (h x).back, fun x => (h x).refs, fun x => (h x).twice⟩

theorem Law.obj {take : α → Take α} {refs : α → List Ref} {ren : (Ref → Ref) → α → α} (h : Law take refs ren)
    {take' : X → Take X} {refs' : X → List Ref} {ren' : (Ref → Ref) → X → X} (c : α → X)
    (h1 : ∀ x, take' (c x) = fun l => (c (take x l).1, (take x l).2)) (h2 : ∀ x, refs' (c x) = refs x)
    (h3 : ∀ g x, ren' g (c x) = c (ren g x)) (x : α) : Law1 take' refs' ren' (c x) where
  done l1 l2 hl := by
    rw [h2] at hl
    obtain ⟨y, a1, a2, a3⟩ := h.done x l1 l2 hl
    exact ⟨c y, by rw [h1]; simp only [a1], by rw [h2, a2], by rw [h3, h3, a3]⟩
  back g l := by rw [h3, h1, h2]; simp only [h.back]
  refs g := by rw [h3, h2, h2, h.refs]
  twice g g' := by rw [h3, h3, h3, h.twice]

theorem Law.bare {take : X → Take X} {refs : X → List Ref} {ren : (Ref → Ref) → X → X} {x : X}
    (h1 : ∀ l, take x l = (x, l)) (h2 : refs x = []) (h3 : ∀ g, ren g x = x) : Law1 take refs ren x where
  done l1 l2 hl := by
    rw [h2] at hl
    obtain rfl : l1 = [] := List.length_eq_zero_iff.1 hl
    exact ⟨x, h1 _, h2, rfl⟩
  back g l := by rw [h3, h2, List.nil_append, h1]
  refs g := by rw [h3, h2]; rfl
  twice g g' := by rw [h3, h3, h3]

theorem Component.law : Law Component.relink (fun x => x.visits.map Visit.ref) Component.renumber :=
  (Law.lens (Law.prod Law.ref (Law.prod Law.ref (Law.prod Law.ref (Law.prod Law.ref (Law.prod Law.ref Law.opt))))) (fun x : Component => (x.left_bob, x.right_bob, x.attributes, x.session_attrs, x.precomputed, x.param_list)) (fun x p => { x with left_bob := p.1, right_bob := p.2.1, attributes := p.2.2.1, session_attrs := p.2.2.2.1, precomputed := p.2.2.2.2.1, param_list := p.2.2.2.2.2 })
    (fun _ _ => rfl) (fun _ => rfl) (fun _ _ _ => rfl)).congr (fun _ => rfl) (fun _ => by simp [Component.visits, optProp, Visit.ref, Function.comp_def, flatMap_single, List.map_flatMap, List.flatMap_map]) (fun _ _ => rfl)

theorem Clip.law : Law Clip.relink (fun x => x.visits.map Visit.ref) Clip.renumber :=
  (Law.lens Component.law (fun x : Clip => x.toComponent) (fun x p => { x with toComponent := p })
    (fun _ _ => rfl) (fun _ => rfl) (fun _ _ _ => rfl)).congr (fun _ => rfl) (fun _ => rfl) (fun _ _ => rfl)

theorem Sequence.law : Law Sequence.relink (fun x => x.visits.map Visit.ref) Sequence.renumber :=
  (Law.lens (Law.prod Component.law Law.list) (fun x : Sequence => (x.toComponent, x.components)) (fun x p => { x with toComponent := p.1, components := p.2 })
    (fun _ _ => rfl) (fun _ => rfl) (fun _ _ _ => rfl)).congr (fun _ => rfl) (fun _ => by simp [Sequence.visits, optProp, Visit.ref, Function.comp_def, flatMap_single, List.map_flatMap, List.flatMap_map]) (fun _ _ => rfl)

theorem SourceClip.law : Law SourceClip.relink (fun x => x.visits.map Visit.ref) SourceClip.renumber :=
  (Law.lens Clip.law (fun x : SourceClip => x.toClip) (fun x p => { x with toClip := p })
    (fun _ _ => rfl) (fun _ => rfl) (fun _ _ _ => rfl)).congr (fun _ => rfl) (fun _ => rfl) (fun _ _ => rfl)

theorem Timecode.law : Law Timecode.relink (fun x => x.visits.map Visit.ref) Timecode.renumber :=
  (Law.lens Clip.law (fun x : Timecode => x.toClip) (fun x p => { x with toClip := p })
    (fun _ _ => rfl) (fun _ => rfl) (fun _ _ _ => rfl)).congr (fun _ => rfl) (fun _ => rfl) (fun _ _ => rfl)

theorem Edgecode.law : Law Edgecode.relink (fun x => x.visits.map Visit.ref) Edgecode.renumber :=
  (Law.lens Clip.law (fun x : Edgecode => x.toClip) (fun x p => { x with toClip := p })
    (fun _ _ => rfl) (fun _ => rfl) (fun _ _ _ => rfl)).congr (fun _ => rfl) (fun _ => rfl) (fun _ _ => rfl)

theorem TrackRef.law : Law TrackRef.relink (fun x => x.visits.map Visit.ref) TrackRef.renumber :=
  (Law.lens Clip.law (fun x : TrackRef => x.toClip) (fun x p => { x with toClip := p })
    (fun _ _ => rfl) (fun _ => rfl) (fun _ _ _ => rfl)).congr (fun _ => rfl) (fun _ => rfl) (fun _ _ => rfl)

theorem ControlClip.law : Law ControlClip.relink (fun x => x.visits.map Visit.ref) ControlClip.renumber :=
  (Law.lens Clip.law (fun x : ControlClip => x.toClip) (fun x p => { x with toClip := p })
    (fun _ _ => rfl) (fun _ => rfl) (fun _ _ _ => rfl)).congr (fun _ => rfl) (fun _ => rfl) (fun _ _ => rfl)

theorem Filler.law : Law Filler.relink (fun x => x.visits.map Visit.ref) Filler.renumber :=
  (Law.lens Clip.law (fun x : Filler => x.toClip) (fun x p => { x with toClip := p })
    (fun _ _ => rfl) (fun _ => rfl) (fun _ _ _ => rfl)).congr (fun _ => rfl) (fun _ => rfl) (fun _ _ => rfl)

theorem PVal.law : Law PVal.relink (fun x => x.visits.map Visit.ref) PVal.renumber where
  done x l1 l2 h := by
    cases x with
    | ref r =>
      obtain ⟨a, rfl⟩ : ∃ a, l1 = [a] := List.length_eq_one_iff.1 h
      exact ⟨.ref a, rfl, rfl, rfl⟩
    | _ =>
      obtain rfl : l1 = [] := List.length_eq_zero_iff.1 h
      exact ⟨_, rfl, rfl, rfl⟩
  back x g l := by cases x <;> rfl
  refs x g := by cases x <;> rfl
  twice x g g' := by cases x <;> rfl

theorem PCP.law : Law PCP.relink (fun x => x.value.visits.map Visit.ref) PCP.renumber :=
  (Law.lens PVal.law (fun x : PCP => x.value) (fun x p => { x with value := p })
    (fun _ _ => rfl) (fun _ => rfl) (fun _ _ _ => rfl)).congr (fun _ => rfl) (fun _ => rfl) (fun _ _ => rfl)

theorem ParamClip.law : Law ParamClip.relink (fun x => x.visits.map Visit.ref) ParamClip.renumber :=
  (Law.lens (Law.prod Clip.law (Law.all PCP.law)) (fun x : ParamClip => (x.toClip, x.control_points)) (fun x p => { x with toClip := p.1, control_points := p.2 })
    (fun _ _ => rfl) (fun _ => rfl) (fun _ _ _ => rfl)).congr (fun _ => rfl) (fun _ => by simp [ParamClip.visits, optProp, Visit.ref, Function.comp_def, flatMap_single, List.map_flatMap, List.flatMap_map]) (fun _ _ => rfl)

theorem Track.law : Law Track.relink (fun x => x.visits.map Visit.ref) Track.renumber :=
  (Law.lens (Law.prod Law.opt (Law.prod Law.opt (Law.prod Law.opt (Law.prod Law.opt Law.opt)))) (fun x : Track => (x.attributes, x.session_attr, x.component, x.filler_proxy, x.bob_data)) (fun x p => { x with attributes := p.1, session_attr := p.2.1, component := p.2.2.1, filler_proxy := p.2.2.2.1, bob_data := p.2.2.2.2 })
    (fun _ _ => rfl) (fun _ => rfl) (fun _ _ _ => rfl)).congr (fun _ => rfl) (fun _ => by simp [Track.visits, optProp, Visit.ref, Function.comp_def, flatMap_single, List.map_flatMap, List.flatMap_map]) (fun _ _ => rfl)

theorem TrackGroup.law : Law TrackGroup.relink (fun x => x.visits.map Visit.ref) TrackGroup.renumber :=
  (Law.lens (Law.prod Component.law (Law.all Track.law)) (fun x : TrackGroup => (x.toComponent, x.tracks)) (fun x p => { x with toComponent := p.1, tracks := p.2 })
    (fun _ _ => rfl) (fun _ => rfl) (fun _ _ _ => rfl)).congr (fun _ => rfl) (fun _ => by simp [TrackGroup.visits, optProp, Visit.ref, Function.comp_def, flatMap_single, List.map_flatMap, List.flatMap_map]) (fun _ _ => rfl)

theorem TrackEffect.law : Law TrackEffect.relink (fun x => x.visits.map Visit.ref) TrackEffect.renumber :=
  (Law.lens (Law.prod TrackGroup.law (Law.prod Law.ref Law.opt)) (fun x : TrackEffect => (x.toTrackGroup, x.keyframes, x.trackman)) (fun x p => { x with toTrackGroup := p.1, keyframes := p.2.1, trackman := p.2.2 })
    (fun _ _ => rfl) (fun _ => rfl) (fun _ _ _ => rfl)).congr (fun _ => rfl) (fun _ => by simp [TrackEffect.visits, optProp, Visit.ref, Function.comp_def, flatMap_single, List.map_flatMap, List.flatMap_map]) (fun _ _ => rfl)

theorem PanVolumeEffect.law : Law PanVolumeEffect.relink (fun x => x.visits.map Visit.ref) PanVolumeEffect.renumber :=
  (Law.lens TrackEffect.law (fun x : PanVolumeEffect => x.toTrackEffect) (fun x p => { x with toTrackEffect := p })
    (fun _ _ => rfl) (fun _ => rfl) (fun _ _ _ => rfl)).congr (fun _ => rfl) (fun _ => rfl) (fun _ _ => rfl)

theorem AudioSuitePluginEffect.law : Law AudioSuitePluginEffect.relink (fun x => x.visits.map Visit.ref) AudioSuitePluginEffect.renumber :=
  (Law.lens TrackEffect.law (fun x : AudioSuitePluginEffect => x.toTrackEffect) (fun x p => { x with toTrackEffect := p })
    (fun _ _ => rfl) (fun _ => rfl) (fun _ _ _ => rfl)).congr (fun _ => rfl) (fun _ => rfl) (fun _ _ => rfl)

theorem EqualizerMultiBand.law : Law EqualizerMultiBand.relink (fun x => x.visits.map Visit.ref) EqualizerMultiBand.renumber :=
  (Law.lens TrackEffect.law (fun x : EqualizerMultiBand => x.toTrackEffect) (fun x p => { x with toTrackEffect := p })
    (fun _ _ => rfl) (fun _ => rfl) (fun _ _ _ => rfl)).congr (fun _ => rfl) (fun _ => rfl) (fun _ _ => rfl)

theorem TimeWarp.law : Law TimeWarp.relink (fun x => x.visits.map Visit.ref) TimeWarp.renumber :=
  (Law.lens TrackGroup.law (fun x : TimeWarp => x.toTrackGroup) (fun x p => { x with toTrackGroup := p })
    (fun _ _ => rfl) (fun _ => rfl) (fun _ _ _ => rfl)).congr (fun _ => rfl) (fun _ => rfl) (fun _ _ => rfl)

theorem CaptureMask.law : Law CaptureMask.relink (fun x => x.visits.map Visit.ref) CaptureMask.renumber :=
  (Law.lens TimeWarp.law (fun x : CaptureMask => x.toTimeWarp) (fun x p => { x with toTimeWarp := p })
    (fun _ _ => rfl) (fun _ => rfl) (fun _ _ _ => rfl)).congr (fun _ => rfl) (fun _ => rfl) (fun _ _ => rfl)

theorem StrobeEffect.law : Law StrobeEffect.relink (fun x => x.visits.map Visit.ref) StrobeEffect.renumber :=
  (Law.lens TimeWarp.law (fun x : StrobeEffect => x.toTimeWarp) (fun x p => { x with toTimeWarp := p })
    (fun _ _ => rfl) (fun _ => rfl) (fun _ _ _ => rfl)).congr (fun _ => rfl) (fun _ => rfl) (fun _ _ => rfl)

theorem Repeat.law : Law Repeat.relink (fun x => x.visits.map Visit.ref) Repeat.renumber :=
  (Law.lens TimeWarp.law (fun x : Repeat => x.toTimeWarp) (fun x p => { x with toTimeWarp := p })
    (fun _ _ => rfl) (fun _ => rfl) (fun _ _ _ => rfl)).congr (fun _ => rfl) (fun _ => rfl) (fun _ _ => rfl)

theorem MotionEffect.law : Law MotionEffect.relink (fun x => x.visits.map Visit.ref) MotionEffect.renumber :=
  (Law.lens (Law.prod TimeWarp.law Law.opt) (fun x : MotionEffect => (x.toTimeWarp, x.source_param_list)) (fun x p => { x with toTimeWarp := p.1, source_param_list := p.2 })
    (fun _ _ => rfl) (fun _ => rfl) (fun _ _ _ => rfl)).congr (fun _ => rfl) (fun _ => by simp [MotionEffect.visits, optProp, Visit.ref, Function.comp_def, flatMap_single, List.map_flatMap, List.flatMap_map]) (fun _ _ => rfl)

theorem EssenceGroup.law : Law EssenceGroup.relink (fun x => x.visits.map Visit.ref) EssenceGroup.renumber :=
  (Law.lens TrackGroup.law (fun x : EssenceGroup => x.toTrackGroup) (fun x p => { x with toTrackGroup := p })
    (fun _ _ => rfl) (fun _ => rfl) (fun _ _ _ => rfl)).congr (fun _ => rfl) (fun _ => rfl) (fun _ _ => rfl)

theorem Selector.law : Law Selector.relink (fun x => x.visits.map Visit.ref) Selector.renumber :=
  (Law.lens TrackGroup.law (fun x : Selector => x.toTrackGroup) (fun x p => { x with toTrackGroup := p })
    (fun _ _ => rfl) (fun _ => rfl) (fun _ _ _ => rfl)).congr (fun _ => rfl) (fun _ => rfl) (fun _ _ => rfl)

theorem TransitionEffect.law : Law TransitionEffect.relink (fun x => x.visits.map Visit.ref) TransitionEffect.renumber :=
  (Law.lens (Law.prod TrackGroup.law (Law.prod Law.ref Law.opt)) (fun x : TransitionEffect => (x.toTrackGroup, x.keyframes, x.trackman)) (fun x p => { x with toTrackGroup := p.1, keyframes := p.2.1, trackman := p.2.2 })
    (fun _ _ => rfl) (fun _ => rfl) (fun _ _ _ => rfl)).congr (fun _ => rfl) (fun _ => by simp [TransitionEffect.visits, optProp, Visit.ref, Function.comp_def, flatMap_single, List.map_flatMap, List.flatMap_map]) (fun _ _ => rfl)

theorem Composition.law : Law Composition.relink (fun x => x.visits.map Visit.ref) Composition.renumber :=
  (Law.lens (Law.prod TrackGroup.law Law.ref) (fun x : Composition => (x.toTrackGroup, x.descriptor)) (fun x p => { x with toTrackGroup := p.1, descriptor := p.2 })
    (fun _ _ => rfl) (fun _ => rfl) (fun _ _ _ => rfl)).congr (fun _ => rfl) (fun _ => by simp [Composition.visits, optProp, Visit.ref, Function.comp_def, flatMap_single, List.map_flatMap, List.flatMap_map]) (fun _ _ => rfl)

theorem ParameterItem.law : Law ParameterItem.relink (fun x => x.visits.map Visit.ref) ParameterItem.renumber :=
  (Law.lens (Law.prod PVal.law Law.ref) (fun x : ParameterItem => (x.value, x.control_track)) (fun x p => { x with value := p.1, control_track := p.2 })
    (fun _ _ => rfl) (fun _ => rfl) (fun _ _ _ => rfl)).congr (fun _ => rfl) (fun _ => by simp [ParameterItem.visits, optProp, Visit.ref, Function.comp_def, flatMap_single, List.map_flatMap, List.flatMap_map]) (fun _ _ => rfl)

theorem Marker.law : Law Marker.relink (fun x => x.visits.map Visit.ref) Marker.renumber :=
  (Law.lens Law.ref (fun x : Marker => x.attributes) (fun x p => { x with attributes := p })
    (fun _ _ => rfl) (fun _ => rfl) (fun _ _ _ => rfl)).congr (fun _ => rfl) (fun _ => by simp [Marker.visits, optProp, Visit.ref, Function.comp_def, flatMap_single, List.map_flatMap, List.flatMap_map]) (fun _ _ => rfl)

theorem TrackerManager.law : Law TrackerManager.relink (fun x => x.visits.map Visit.ref) TrackerManager.renumber :=
  (Law.lens (Law.prod Law.ref Law.ref) (fun x : TrackerManager => (x.data_slots, x.param_slots)) (fun x p => { x with data_slots := p.1, param_slots := p.2 })
    (fun _ _ => rfl) (fun _ => rfl) (fun _ _ _ => rfl)).congr (fun _ => rfl) (fun _ => by simp [TrackerManager.visits, optProp, Visit.ref, Function.comp_def, flatMap_single, List.map_flatMap, List.flatMap_map]) (fun _ _ => rfl)

theorem TrackerDataSlot.law : Law TrackerDataSlot.relink (fun x => x.visits.map Visit.ref) TrackerDataSlot.renumber :=
  (Law.lens Law.list (fun x : TrackerDataSlot => x.tracker_data) (fun x p => { x with tracker_data := p })
    (fun _ _ => rfl) (fun _ => rfl) (fun _ _ _ => rfl)).congr (fun _ => rfl) (fun _ => by simp [TrackerDataSlot.visits, optProp, Visit.ref, Function.comp_def, flatMap_single, List.map_flatMap, List.flatMap_map]) (fun _ _ => rfl)

theorem TrackerParameterSlot.law : Law TrackerParameterSlot.relink (fun x => x.visits.map Visit.ref) TrackerParameterSlot.renumber :=
  (Law.lens Law.list (fun x : TrackerParameterSlot => x.params) (fun x p => { x with params := p })
    (fun _ _ => rfl) (fun _ => rfl) (fun _ _ _ => rfl)).congr (fun _ => rfl) (fun _ => by simp [TrackerParameterSlot.visits, optProp, Visit.ref, Function.comp_def, flatMap_single, List.map_flatMap, List.flatMap_map]) (fun _ _ => rfl)

theorem TrackerData.law : Law TrackerData.relink (fun x => x.visits.map Visit.ref) TrackerData.renumber :=
  (Law.lens (Law.prod Law.list (Law.prod Law.opt Law.opt)) (fun x : TrackerData => (x.clips, x.clip5, x.clip6)) (fun x p => { x with clips := p.1, clip5 := p.2.1, clip6 := p.2.2 })
    (fun _ _ => rfl) (fun _ => rfl) (fun _ _ _ => rfl)).congr (fun _ => rfl) (fun _ => by simp [TrackerData.visits, optProp, Visit.ref, Function.comp_def, flatMap_single, List.map_flatMap, List.flatMap_map]) (fun _ _ => rfl)

theorem MediaDescriptor.law : Law MediaDescriptor.relink (fun x => x.visits.map Visit.ref) MediaDescriptor.renumber :=
  (Law.lens (Law.prod Law.ref (Law.prod Law.ref Law.opt)) (fun x : MediaDescriptor => (x.locator, x.physical_media, x.attributes)) (fun x p => { x with locator := p.1, physical_media := p.2.1, attributes := p.2.2 })
    (fun _ _ => rfl) (fun _ => rfl) (fun _ _ _ => rfl)).congr (fun _ => rfl) (fun _ => by simp [MediaDescriptor.visits, optProp, Visit.ref, Function.comp_def, flatMap_single, List.map_flatMap, List.flatMap_map]) (fun _ _ => rfl)

theorem TapeDescriptor.law : Law TapeDescriptor.relink (fun x => x.visits.map Visit.ref) TapeDescriptor.renumber :=
  (Law.lens MediaDescriptor.law (fun x : TapeDescriptor => x.toMediaDescriptor) (fun x p => { x with toMediaDescriptor := p })
    (fun _ _ => rfl) (fun _ => rfl) (fun _ _ _ => rfl)).congr (fun _ => rfl) (fun _ => rfl) (fun _ _ => rfl)

theorem FilmDescriptor.law : Law FilmDescriptor.relink (fun x => x.visits.map Visit.ref) FilmDescriptor.renumber :=
  (Law.lens MediaDescriptor.law (fun x : FilmDescriptor => x.toMediaDescriptor) (fun x p => { x with toMediaDescriptor := p })
    (fun _ _ => rfl) (fun _ => rfl) (fun _ _ _ => rfl)).congr (fun _ => rfl) (fun _ => rfl) (fun _ _ => rfl)

theorem NagraDescriptor.law : Law NagraDescriptor.relink (fun x => x.visits.map Visit.ref) NagraDescriptor.renumber :=
  (Law.lens MediaDescriptor.law (fun x : NagraDescriptor => x.toMediaDescriptor) (fun x p => { x with toMediaDescriptor := p })
    (fun _ _ => rfl) (fun _ => rfl) (fun _ _ _ => rfl)).congr (fun _ => rfl) (fun _ => rfl) (fun _ _ => rfl)

theorem MediaFileDescriptor.law : Law MediaFileDescriptor.relink (fun x => x.visits.map Visit.ref) MediaFileDescriptor.renumber :=
  (Law.lens MediaDescriptor.law (fun x : MediaFileDescriptor => x.toMediaDescriptor) (fun x p => { x with toMediaDescriptor := p })
    (fun _ _ => rfl) (fun _ => rfl) (fun _ _ _ => rfl)).congr (fun _ => rfl) (fun _ => rfl) (fun _ _ => rfl)

theorem MultiDescriptor.law : Law MultiDescriptor.relink (fun x => x.visits.map Visit.ref) MultiDescriptor.renumber :=
  (Law.lens (Law.prod MediaFileDescriptor.law Law.list) (fun x : MultiDescriptor => (x.toMediaFileDescriptor, x.descriptors)) (fun x p => { x with toMediaFileDescriptor := p.1, descriptors := p.2 })
    (fun _ _ => rfl) (fun _ => rfl) (fun _ _ _ => rfl)).congr (fun _ => rfl) (fun _ => by simp [MultiDescriptor.visits, optProp, Visit.ref, Function.comp_def, flatMap_single, List.map_flatMap, List.flatMap_map]) (fun _ _ => rfl)

theorem WaveDescriptor.law : Law WaveDescriptor.relink (fun x => x.visits.map Visit.ref) WaveDescriptor.renumber :=
  (Law.lens MediaFileDescriptor.law (fun x : WaveDescriptor => x.toMediaFileDescriptor) (fun x p => { x with toMediaFileDescriptor := p })
    (fun _ _ => rfl) (fun _ => rfl) (fun _ _ _ => rfl)).congr (fun _ => rfl) (fun _ => rfl) (fun _ _ => rfl)

theorem AIFCDescriptor.law : Law AIFCDescriptor.relink (fun x => x.visits.map Visit.ref) AIFCDescriptor.renumber :=
  (Law.lens MediaFileDescriptor.law (fun x : AIFCDescriptor => x.toMediaFileDescriptor) (fun x p => { x with toMediaFileDescriptor := p })
    (fun _ _ => rfl) (fun _ => rfl) (fun _ _ _ => rfl)).congr (fun _ => rfl) (fun _ => rfl) (fun _ _ => rfl)

theorem DataDescriptor.law : Law DataDescriptor.relink (fun x => x.visits.map Visit.ref) DataDescriptor.renumber :=
  (Law.lens MediaFileDescriptor.law (fun x : DataDescriptor => x.toMediaFileDescriptor) (fun x p => { x with toMediaFileDescriptor := p })
    (fun _ _ => rfl) (fun _ => rfl) (fun _ _ _ => rfl)).congr (fun _ => rfl) (fun _ => rfl) (fun _ _ => rfl)

theorem PCMADescriptor.law : Law PCMADescriptor.relink (fun x => x.visits.map Visit.ref) PCMADescriptor.renumber :=
  (Law.lens MediaFileDescriptor.law (fun x : PCMADescriptor => x.toMediaFileDescriptor) (fun x p => { x with toMediaFileDescriptor := p })
    (fun _ _ => rfl) (fun _ => rfl) (fun _ _ _ => rfl)).congr (fun _ => rfl) (fun _ => rfl) (fun _ _ => rfl)

theorem MPGADescriptor.law : Law MPGADescriptor.relink (fun x => x.visits.map Visit.ref) MPGADescriptor.renumber :=
  (Law.lens MediaFileDescriptor.law (fun x : MPGADescriptor => x.toMediaFileDescriptor) (fun x p => { x with toMediaFileDescriptor := p })
    (fun _ _ => rfl) (fun _ => rfl) (fun _ _ _ => rfl)).congr (fun _ => rfl) (fun _ => rfl) (fun _ _ => rfl)

theorem ANCDataDescriptor.law : Law ANCDataDescriptor.relink (fun x => x.visits.map Visit.ref) ANCDataDescriptor.renumber :=
  (Law.lens DataDescriptor.law (fun x : ANCDataDescriptor => x.toDataDescriptor) (fun x p => { x with toDataDescriptor := p })
    (fun _ _ => rfl) (fun _ => rfl) (fun _ _ _ => rfl)).congr (fun _ => rfl) (fun _ => rfl) (fun _ _ => rfl)

theorem DIDDescriptor.law : Law DIDDescriptor.relink (fun x => x.visits.map Visit.ref) DIDDescriptor.renumber :=
  (Law.lens (Law.prod MediaFileDescriptor.law Law.ref) (fun x : DIDDescriptor => (x.toMediaFileDescriptor, x.next_did_desc)) (fun x p => { x with toMediaFileDescriptor := p.1, next_did_desc := p.2 })
    (fun _ _ => rfl) (fun _ => rfl) (fun _ _ _ => rfl)).congr (fun _ => rfl) (fun _ => by simp [DIDDescriptor.visits, optProp, Visit.ref, Function.comp_def, flatMap_single, List.map_flatMap, List.flatMap_map]) (fun _ _ => rfl)

theorem CDCIDescriptor.law : Law CDCIDescriptor.relink (fun x => x.visits.map Visit.ref) CDCIDescriptor.renumber :=
  (Law.lens DIDDescriptor.law (fun x : CDCIDescriptor => x.toDIDDescriptor) (fun x p => { x with toDIDDescriptor := p })
    (fun _ _ => rfl) (fun _ => rfl) (fun _ _ _ => rfl)).congr (fun _ => rfl) (fun _ => rfl) (fun _ _ => rfl)

theorem RGBADescriptor.law : Law RGBADescriptor.relink (fun x => x.visits.map Visit.ref) RGBADescriptor.renumber :=
  (Law.lens DIDDescriptor.law (fun x : RGBADescriptor => x.toDIDDescriptor) (fun x p => { x with toDIDDescriptor := p })
    (fun _ _ => rfl) (fun _ => rfl) (fun _ _ _ => rfl)).congr (fun _ => rfl) (fun _ => rfl) (fun _ _ => rfl)

theorem MPGIDescriptor.law : Law MPGIDescriptor.relink (fun x => x.visits.map Visit.ref) MPGIDescriptor.renumber :=
  (Law.lens CDCIDescriptor.law (fun x : MPGIDescriptor => x.toCDCIDescriptor) (fun x p => { x with toCDCIDescriptor := p })
    (fun _ _ => rfl) (fun _ => rfl) (fun _ _ _ => rfl)).congr (fun _ => rfl) (fun _ => rfl) (fun _ _ => rfl)

theorem JPEGDescriptor.law : Law JPEGDescriptor.relink (fun x => x.visits.map Visit.ref) JPEGDescriptor.renumber :=
  (Law.lens CDCIDescriptor.law (fun x : JPEGDescriptor => x.toCDCIDescriptor) (fun x p => { x with toCDCIDescriptor := p })
    (fun _ _ => rfl) (fun _ => rfl) (fun _ _ _ => rfl)).congr (fun _ => rfl) (fun _ => rfl) (fun _ _ => rfl)

theorem AttrVal.law : Law AttrVal.relink (fun x => x.visits.map Visit.ref) AttrVal.renumber where
  done x l1 l2 h := by
    cases x with
    | obj r =>
      obtain ⟨a, rfl⟩ : ∃ a, l1 = [a] := List.length_eq_one_iff.1 h
      exact ⟨.obj a, rfl, rfl, rfl⟩
    | _ =>
      obtain rfl : l1 = [] := List.length_eq_zero_iff.1 h
      exact ⟨_, rfl, rfl, rfl⟩
  back x g l := by cases x <;> rfl
  refs x g := by cases x <;> rfl
  twice x g g' := by cases x <;> rfl

theorem relinkEntry_law : Law relinkEntry (fun p => p.2.visits.map Visit.ref) (fun g p => (p.1, p.2.renumber g)) :=
  (Law.lens AttrVal.law (fun p : Text × AttrVal => p.2) (fun p v => (p.1, v)) (fun _ _ => rfl) (fun _ => rfl)
    (fun _ _ _ => rfl)).congr (fun _ => rfl) (fun _ => rfl) (fun _ _ => rfl)

theorem Attributes.law : Law Attributes.relink (fun x => x.visits.map Visit.ref) Attributes.renumber :=
  (Law.lens (Law.all relinkEntry_law) (fun x : Attributes => x.items) (fun x p => { x with items := p })
    (fun _ _ => rfl) (fun _ => rfl) (fun _ _ _ => rfl)).congr (fun _ => rfl) (fun _ => by simp [Attributes.visits, optProp, Visit.ref, Function.comp_def, flatMap_single, List.map_flatMap, List.flatMap_map]) (fun _ _ => rfl)

theorem ParameterList.law : Law ParameterList.relink (fun x => x.visits.map Visit.ref) ParameterList.renumber :=
  (Law.lens Law.list (fun x : ParameterList => x.items) (fun x p => { x with items := p })
    (fun _ _ => rfl) (fun _ => rfl) (fun _ _ _ => rfl)).congr (fun _ => rfl) (fun _ => by simp [ParameterList.visits, optProp, Visit.ref, Function.comp_def, flatMap_single, List.map_flatMap, List.flatMap_map]) (fun _ _ => rfl)

theorem TimeCrumbList.law : Law TimeCrumbList.relink (fun x => x.visits.map Visit.ref) TimeCrumbList.renumber :=
  (Law.lens Law.list (fun x : TimeCrumbList => x.items) (fun x p => { x with items := p })
    (fun _ _ => rfl) (fun _ => rfl) (fun _ _ _ => rfl)).congr (fun _ => rfl) (fun _ => by simp [TimeCrumbList.visits, optProp, Visit.ref, Function.comp_def, flatMap_single, List.map_flatMap, List.flatMap_map]) (fun _ _ => rfl)

theorem BinViewSetting.law : Law BinViewSetting.relink (fun x => x.visits.map Visit.ref) BinViewSetting.renumber :=
  (Law.lens Law.ref (fun x : BinViewSetting => x.attributes) (fun x p => { x with attributes := p })
    (fun _ _ => rfl) (fun _ => rfl) (fun _ _ _ => rfl)).congr (fun _ => rfl) (fun _ => by simp [BinViewSetting.visits, optProp, Visit.ref, Function.comp_def, flatMap_single, List.map_flatMap, List.flatMap_map]) (fun _ _ => rfl)

theorem BinItem.law : Law BinItem.relink (fun x => [x.mob]) (fun g x => { x with mob := g x.mob }) :=
  (Law.lens Law.ref (fun x : BinItem => x.mob) (fun x p => { x with mob := p }) (fun _ _ => rfl) (fun _ => rfl)
    (fun _ _ _ => rfl)).congr (fun _ => rfl) (fun _ => rfl) (fun _ _ => rfl)

theorem Bin.law : Law Bin.relink (fun x => x.visits.map Visit.ref) Bin.renumber :=
  (Law.lens (Law.prod Law.ref (Law.prod (Law.all BinItem.law) Law.ref)) (fun x : Bin => (x.view_setting, x.items, x.attributes)) (fun x p => { x with view_setting := p.1, items := p.2.1, attributes := p.2.2 })
    (fun _ _ => rfl) (fun _ => rfl) (fun _ _ _ => rfl)).congr (fun _ => rfl) (fun _ => by simp [Bin.visits, optProp, Visit.ref, Function.comp_def, flatMap_single, List.map_flatMap, List.flatMap_map]) (fun _ _ => rfl)

theorem BinFirst.law : Law BinFirst.relink (fun x => x.visits.map Visit.ref) BinFirst.renumber :=
  (Law.lens Bin.law (fun x : BinFirst => x.toBin) (fun x p => { x with toBin := p })
    (fun _ _ => rfl) (fun _ => rfl) (fun _ _ _ => rfl)).congr (fun _ => rfl) (fun _ => rfl) (fun _ _ => rfl)


theorem Obj.law : Law Obj.relink Obj.refs Obj.renumber := by
  refine Law.of_each fun x => ?_
  cases x with
  | ATTR x => exact Attributes.law.obj Obj.ATTR (fun _ => rfl) (fun _ => rfl) (fun _ _ => rfl) x
  | PRLS x => exact ParameterList.law.obj Obj.PRLS (fun _ => rfl) (fun _ => rfl) (fun _ _ => rfl) x
  | TMCS x => exact TimeCrumbList.law.obj Obj.TMCS (fun _ => rfl) (fun _ => rfl) (fun _ _ => rfl) x
  | BVst x => exact BinViewSetting.law.obj Obj.BVst (fun _ => rfl) (fun _ => rfl) (fun _ _ => rfl) x
  | ABIN x => exact Bin.law.obj Obj.ABIN (fun _ => rfl) (fun _ => rfl) (fun _ _ => rfl) x
  | BINF x => exact BinFirst.law.obj Obj.BINF (fun _ => rfl) (fun _ => rfl) (fun _ _ => rfl) x
  | SEQU x => exact Sequence.law.obj Obj.SEQU (fun _ => rfl) (fun _ => rfl) (fun _ _ => rfl) x
  | SCLP x => exact SourceClip.law.obj Obj.SCLP (fun _ => rfl) (fun _ => rfl) (fun _ _ => rfl) x
  | TCCP x => exact Timecode.law.obj Obj.TCCP (fun _ => rfl) (fun _ => rfl) (fun _ _ => rfl) x
  | ECCP x => exact Edgecode.law.obj Obj.ECCP (fun _ => rfl) (fun _ => rfl) (fun _ _ => rfl) x
  | TRKR x => exact TrackRef.law.obj Obj.TRKR (fun _ => rfl) (fun _ => rfl) (fun _ _ => rfl) x
  | PRCL x => exact ParamClip.law.obj Obj.PRCL (fun _ => rfl) (fun _ => rfl) (fun _ _ => rfl) x
  | CTRL x => exact ControlClip.law.obj Obj.CTRL (fun _ => rfl) (fun _ => rfl) (fun _ _ => rfl) x
  | FILL x => exact Filler.law.obj Obj.FILL (fun _ => rfl) (fun _ => rfl) (fun _ _ => rfl) x
  | TRKG x => exact TrackGroup.law.obj Obj.TRKG (fun _ => rfl) (fun _ => rfl) (fun _ _ => rfl) x
  | TKFX x => exact TrackEffect.law.obj Obj.TKFX (fun _ => rfl) (fun _ => rfl) (fun _ _ => rfl) x
  | PVOL x => exact PanVolumeEffect.law.obj Obj.PVOL (fun _ => rfl) (fun _ => rfl) (fun _ _ => rfl) x
  | ASPI x => exact AudioSuitePluginEffect.law.obj Obj.ASPI (fun _ => rfl) (fun _ => rfl) (fun _ _ => rfl) x
  | EQMB x => exact EqualizerMultiBand.law.obj Obj.EQMB (fun _ => rfl) (fun _ => rfl) (fun _ _ => rfl) x
  | MASK x => exact CaptureMask.law.obj Obj.MASK (fun _ => rfl) (fun _ => rfl) (fun _ _ => rfl) x
  | STRB x => exact StrobeEffect.law.obj Obj.STRB (fun _ => rfl) (fun _ => rfl) (fun _ _ => rfl) x
  | SPED x => exact MotionEffect.law.obj Obj.SPED (fun _ => rfl) (fun _ => rfl) (fun _ _ => rfl) x
  | REPT x => exact Repeat.law.obj Obj.REPT (fun _ => rfl) (fun _ => rfl) (fun _ _ => rfl) x
  | RSET x => exact EssenceGroup.law.obj Obj.RSET (fun _ => rfl) (fun _ => rfl) (fun _ _ => rfl) x
  | TNFX x => exact TransitionEffect.law.obj Obj.TNFX (fun _ => rfl) (fun _ => rfl) (fun _ _ => rfl) x
  | SLCT x => exact Selector.law.obj Obj.SLCT (fun _ => rfl) (fun _ => rfl) (fun _ _ => rfl) x
  | CMPO x => exact Composition.law.obj Obj.CMPO (fun _ => rfl) (fun _ => rfl) (fun _ _ => rfl) x
  | FILE x => exact Law.bare (fun _ => rfl) rfl (fun _ => rfl)
  | WINF x => exact Law.bare (fun _ => rfl) rfl (fun _ => rfl)
  | URLL x => exact Law.bare (fun _ => rfl) rfl (fun _ => rfl)
  | GRFX x => exact Law.bare (fun _ => rfl) rfl (fun _ => rfl)
  | SHLP x => exact Law.bare (fun _ => rfl) rfl (fun _ => rfl)
  | CCFX x => exact Law.bare (fun _ => rfl) rfl (fun _ => rfl)
  | FXPS x => exact Law.bare (fun _ => rfl) rfl (fun _ => rfl)
  | AVUP x => exact Law.bare (fun _ => rfl) rfl (fun _ => rfl)
  | PRIT x => exact ParameterItem.law.obj Obj.PRIT (fun _ => rfl) (fun _ => rfl) (fun _ _ => rfl) x
  | MSML x => exact Law.bare (fun _ => rfl) rfl (fun _ => rfl)
  | APOS x => exact Law.bare (fun _ => rfl) rfl (fun _ => rfl)
  | ABOB x => exact Law.bare (fun _ => rfl) rfl (fun _ => rfl)
  | DIDP x => exact Law.bare (fun _ => rfl) rfl (fun _ => rfl)
  | MPGP x => exact Law.bare (fun _ => rfl) rfl (fun _ => rfl)
  | MCBR x => exact Law.bare (fun _ => rfl) rfl (fun _ => rfl)
  | MCMR x => exact Law.bare (fun _ => rfl) rfl (fun _ => rfl)
  | TMBC x => exact Marker.law.obj Obj.TMBC (fun _ => rfl) (fun _ => rfl) (fun _ _ => rfl) x
  | TKMN x => exact TrackerManager.law.obj Obj.TKMN (fun _ => rfl) (fun _ => rfl) (fun _ _ => rfl) x
  | TKDS x => exact TrackerDataSlot.law.obj Obj.TKDS (fun _ => rfl) (fun _ => rfl) (fun _ _ => rfl) x
  | TKPS x => exact TrackerParameterSlot.law.obj Obj.TKPS (fun _ => rfl) (fun _ => rfl) (fun _ _ => rfl) x
  | TKDA x => exact TrackerData.law.obj Obj.TKDA (fun _ => rfl) (fun _ => rfl) (fun _ _ => rfl) x
  | TKPA x => exact Law.bare (fun _ => rfl) rfl (fun _ => rfl)
  | MDES x => exact MediaDescriptor.law.obj Obj.MDES (fun _ => rfl) (fun _ => rfl) (fun _ _ => rfl) x
  | MDTP x => exact TapeDescriptor.law.obj Obj.MDTP (fun _ => rfl) (fun _ => rfl) (fun _ _ => rfl) x
  | MDFM x => exact FilmDescriptor.law.obj Obj.MDFM (fun _ => rfl) (fun _ => rfl) (fun _ _ => rfl) x
  | MDNG x => exact NagraDescriptor.law.obj Obj.MDNG (fun _ => rfl) (fun _ => rfl) (fun _ _ => rfl) x
  | MDFL x => exact MediaFileDescriptor.law.obj Obj.MDFL (fun _ => rfl) (fun _ => rfl) (fun _ _ => rfl) x
  | MULD x => exact MultiDescriptor.law.obj Obj.MULD (fun _ => rfl) (fun _ => rfl) (fun _ _ => rfl) x
  | WAVE x => exact WaveDescriptor.law.obj Obj.WAVE (fun _ => rfl) (fun _ => rfl) (fun _ _ => rfl) x
  | AIFC x => exact AIFCDescriptor.law.obj Obj.AIFC (fun _ => rfl) (fun _ => rfl) (fun _ _ => rfl) x
  | PCMA x => exact PCMADescriptor.law.obj Obj.PCMA (fun _ => rfl) (fun _ => rfl) (fun _ _ => rfl) x
  | MPGA x => exact MPGADescriptor.law.obj Obj.MPGA (fun _ => rfl) (fun _ => rfl) (fun _ _ => rfl) x
  | DIDD x => exact DIDDescriptor.law.obj Obj.DIDD (fun _ => rfl) (fun _ => rfl) (fun _ _ => rfl) x
  | CDCI x => exact CDCIDescriptor.law.obj Obj.CDCI (fun _ => rfl) (fun _ => rfl) (fun _ _ => rfl) x
  | MPGI x => exact MPGIDescriptor.law.obj Obj.MPGI (fun _ => rfl) (fun _ => rfl) (fun _ _ => rfl) x
  | JPED x => exact JPEGDescriptor.law.obj Obj.JPED (fun _ => rfl) (fun _ => rfl) (fun _ _ => rfl) x
  | RGBA x => exact RGBADescriptor.law.obj Obj.RGBA (fun _ => rfl) (fun _ => rfl) (fun _ _ => rfl) x
  | DATD x => exact DataDescriptor.law.obj Obj.DATD (fun _ => rfl) (fun _ => rfl) (fun _ _ => rfl) x
  | ANCD x => exact ANCDataDescriptor.law.obj Obj.ANCD (fun _ => rfl) (fun _ => rfl) (fun _ _ => rfl) x

end Avb
