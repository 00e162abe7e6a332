import Verif.Lemmas.Loaded
import Verif.Model.Obj

/-
References in what the readers give are below the number of objects.
-/

namespace Avb

/-- All references are below `n`. -/
def In (n : Nat) (vs : List Visit) : Prop := ∀ v ∈ vs, v.ref < n

theorem In.nil {n : Nat} : In n [] ↔ True := by simp [In]

theorem In.cons {n : Nat} {v : Visit} {vs : List Visit} : In n (v :: vs) ↔ v.ref < n ∧ In n vs := by
  simp [In]

theorem In.append {n : Nat} {a b : List Visit} : In n (a ++ b) ↔ In n a ∧ In n b := by
  simp [In, or_imp, forall_and]

theorem In.items {n : Nat} {l : List Ref} : In n (l.map .item) ↔ ∀ r ∈ l, r < n := by
  simp [In, Visit.ref]

theorem In.props {n : Nat} {l : List Ref} : In n (l.map .prop) ↔ ∀ r ∈ l, r < n := by
  simp [In, Visit.ref]

theorem In.propsOf {α : Type} {n : Nat} {l : List α} {f : α → Ref} :
    In n (l.map fun a => .prop (f a)) ↔ ∀ a ∈ l, f a < n := by
  simp [In, Visit.ref]

theorem In.flat {α : Type} {n : Nat} {l : List α} {f : α → List Visit} :
    In n (l.flatMap f) ↔ ∀ a ∈ l, In n (f a) := by
  simp only [In, List.mem_flatMap]
  exact ⟨fun h a ha v hv => h v ⟨a, ha, hv⟩, fun h v ⟨a, ha, hv⟩ => h a ha v hv⟩

theorem In.opt {n : Nat} {o : Option Ref} : In n (optProp o) ↔ OptIn (· < n) o := by
  cases o <;> simp [In, optProp, OptIn, Visit.ref]

/-- Values with references. -/
class Vis (α : Type) where
  vis : α → List Visit

/-- The references of the value are below `n`. -/
def Inside {α : Type} [Vis α] (n : Nat) (x : α) : Prop := In n (Vis.vis x)

theorem Post.ref {d : RCtx} : Post (rRef d) (· < d.nobj) := by
  intro bs v rest h
  obtain ⟨i, m, h1, h2⟩ := Rd.bind_eq_ok' h
  obtain ⟨_, m2, h3, h4⟩ := Rd.bind_eq_ok' h2
  cases h4
  exact Post.guard _ _ _ h3

theorem Post.optRef {α : Type} {r : Rd α} {P : α → Prop} {c : Bool} (h : Post r P) :
    Post (Rd.opt c r) (OptIn P) := by
  unfold Rd.opt
  split
  · exact Post.bindP h fun a ha => Post.pure ha
  · exact Post.pure trivial

/-- Readers already treated. -/
class IsWithin {α : Type} [Vis α] (d : outParam RCtx) (r : Rd α) : Prop where
  h : Post r (Inside d.nobj)

/-- Loop bodies already treated. -/
class IsWithinExt {σ : Type} [Vis σ] (d : outParam RCtx) (b : Int → σ → Rd σ) : Prop where
  h : ∀ t s, In d.nobj (Vis.vis s) → Post (b t s) (Inside d.nobj)

theorem Post.ext {σ : Type} [Vis σ] {d : RCtx} {b : Int → σ → Rd σ} [hb : IsWithinExt d b] {s : σ}
    (hs : Inside d.nobj s) : Post (Avb.iterExt b s) (Inside d.nobj) :=
  Post.iterExt (fun t s h => hb.h t s h) hs

/-- Walk through a reader, keeping what is known about references. -/
macro "within_walk" : tactic => `(tactic| repeat' with_reducible first
  | exact Post.fail
  | exact Post.mono Post.ref fun _ _ => trivial
  | refine Post.bindP Post.ref fun _ _ => ?_
  | refine Post.bindP (Post.readN' Post.ref _) fun _ _ => ?_
  | refine Post.bindP (Post.optRef Post.ref) fun _ _ => ?_
  | refine Post.bindP IsWithin.h fun _ _ => ?_
  | refine Post.bindP (Post.readN' IsWithin.h _) fun _ _ => ?_
  | refine Post.bindP (Post.ext ?_) fun _ _ => ?_
  | refine Post.ext ?_
  | refine Post.bind fun _ => ?_
  | refine Post.ite ?_ ?_
  | refine Post.pure ?_
  | split)

/-- Walk through a reader and look at the result. -/
macro "within" : tactic => `(tactic| (within_walk <;> (try simp_all [Inside, Vis.vis, Component.visits,
  Sequence.visits, PVal.visits, ParamClip.visits, Track.visits, TrackGroup.visits, TrackEffect.visits,
  MotionEffect.visits, TransitionEffect.visits, Composition.visits, ParameterItem.visits, Marker.visits,
  TrackerManager.visits, TrackerDataSlot.visits, TrackerParameterSlot.visits, TrackerData.visits,
  MediaDescriptor.visits, MultiDescriptor.visits, DIDDescriptor.visits, AttrVal.visits,
  ParameterList.visits, TimeCrumbList.visits, BinViewSetting.visits, Bin.visits, In.nil, In.cons, In.append,
  In.items, In.props, In.propsOf, In.flat, In.opt, Visit.ref])))

end Avb
