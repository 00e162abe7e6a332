import Verif.Lemmas.Obj
import Verif.Lemmas.NormVisits

/-
Writing an object again after it was saved and loaded gives the same bytes, when its texts have no NULs
at their ends and its edit rates are stable.
-/

set_option linter.unusedSimpArgs false

namespace Avb

/-- If `w` succeeds so does `w'`, with the same result and the same bytes. -/
def WImp {α : Type} (w w' : Wr α) : Prop := ∀ a bs, w = .ok (a, bs) → w' = .ok (a, bs)

/-- The mapping `m` maps every number handed out by the context to itself. -/
def Renum (c : WCtx) (m : Nat → Option Nat) : Prop :=
  ∀ r k, r ≠ 0 → c.refMap r = some k → k ≠ 0 ∧ m k = some k

/-- The context of the second save. -/
abbrev WCtx.again (c : WCtx) (m : Nat → Option Nat) : WCtx := { bo := c.bo, refMap := m }

/-- No text has a NUL at its ends. -/
def Stripped (ts : List (Enc × Text)) : Prop := ∀ p ∈ ts, stripText p.2 = p.2

/-- Every rate is read back as it was. -/
def Stable (rs : List Rate) : Prop := ∀ r ∈ rs, rateNorm r = r

theorem Stripped.left {a b : List (Enc × Text)} (h : Stripped (a ++ b)) : Stripped a :=
  fun p hp => h p (List.mem_append_left _ hp)

theorem Stripped.right {a b : List (Enc × Text)} (h : Stripped (a ++ b)) : Stripped b :=
  fun p hp => h p (List.mem_append_right _ hp)

theorem Stripped.opt {e : Enc} {o : Option Text} (h : Stripped (optText e o)) :
    o.map stripText = o := by
  cases o with
  | none => rfl
  | some t => exact congrArg some (h (e, t) (by simp [optText]))

section
variable {α β : Type} {c : WCtx} {m : Nat → Option Nat}

theorem WImp.refl {w : Wr α} : WImp w w := fun _ _ h => h

theorem WImp.fail {e : Err} {w : Wr α} : WImp (Wr.fail e) w := fun _ _ h => by cases h

theorem WImp.bind {w w' : Wr α} {k k' : α → Wr β} (h1 : WImp w w')
    (h2 : ∀ a, WImp (k a) (k' a)) : WImp (w >>= k) (w' >>= k') := by
  intro b bs h
  obtain ⟨a, o1, o2, e1, e2, rfl⟩ := Wr.bind_eq_ok h
  exact Wr.bind_ok (h1 _ _ e1) (h2 a _ _ e2)

theorem WImp.ref (hm : Renum c m) {r : Ref} : WImp (wRef c r) (wRef (c.again m) (c.tr r)) := by
  intro a bs h
  unfold wRef at h ⊢
  unfold WCtx.tr
  by_cases h0 : r = 0
  · simp only [h0, if_true] at h ⊢
    exact h
  · simp only [h0, if_false] at h ⊢
    cases hk : c.refMap r with
    | none => rw [hk] at h; cases h
    | some k =>
      rw [hk] at h
      obtain ⟨k0, hk'⟩ := hm r k h0 hk
      simp only [Option.getD_some, k0, if_false, hk']
      exact h

theorem WImp.ifHas {o : Option α} {w w' : α → Wr Unit}
    (h : ∀ a, o = some a → WImp (w a) (w' a)) : WImp (Wr.ifHas o w) (Wr.ifHas o w') := by
  cases o with
  | none => exact WImp.refl
  | some a => exact h a rfl

theorem WImp.ifHas_map {o : Option α} {f : α → β} {w : α → Wr Unit} {w' : β → Wr Unit}
    (h : ∀ a, o = some a → WImp (w a) (w' (f a))) : WImp (Wr.ifHas o w) (Wr.ifHas (o.map f) w') := by
  cases o with
  | none => exact WImp.refl
  | some a => exact h a rfl

theorem WImp.flagged {p : Bool} {o : Option α} {w w' : α → Wr Unit}
    (h : ∀ a, WImp (w a) (w' a)) : WImp (wFlagged p o w) (wFlagged p o w') := by
  unfold wFlagged
  cases p with
  | false => exact WImp.refl
  | true =>
    simp only [if_true]
    exact WImp.bind WImp.refl h

theorem WImp.flagged_map {p : Bool} {o : Option α} {f : α → β} {w : α → Wr Unit} {w' : β → Wr Unit}
    (h : ∀ a, WImp (w a) (w' (f a))) : WImp (wFlagged p o w) (wFlagged p (o.map f) w') := by
  unfold wFlagged
  cases p with
  | false => exact WImp.refl
  | true =>
    simp only [if_true]
    cases o with
    | none => intro a bs h; cases h
    | some a =>
      intro b bs hb
      obtain ⟨a', o1, o2, e1, e2, rfl⟩ := Wr.bind_eq_ok hb
      obtain ⟨rfl, rfl⟩ := Wr.pure_eq_ok e1
      exact Wr.bind_ok (a := f a) (o1 := []) rfl (h _ _ _ e2)

theorem WImp.get_map {o : Option α} {f : α → β} {k : α → Wr Unit} {k' : β → Wr Unit}
    (h : ∀ a, WImp (k a) (k' (f a))) : WImp (Wr.get o >>= k) (Wr.get (o.map f) >>= k') := by
  cases o with
  | none => intro a bs h; cases h
  | some a =>
    intro b bs hb
    obtain ⟨a', o1, o2, e1, e2, rfl⟩ := Wr.bind_eq_ok hb
    obtain ⟨rfl, rfl⟩ := Wr.pure_eq_ok e1
    exact Wr.bind_ok (a := f a) (o1 := []) rfl (h _ _ _ e2)

theorem WImp.when {p p' : Prop} [Decidable p] [Decidable p'] {w w' : Wr Unit} (hp : p ↔ p')
    (h : p → WImp w w') : WImp (Wr.when p w) (Wr.when p' w') := by
  unfold Wr.when
  by_cases h1 : p
  · simp only [h1, hp.1 h1, if_true]; exact h h1
  · have h2 : ¬ p' := fun h2 => h1 (hp.2 h2)
    simp only [h1, h2, if_false]; exact WImp.refl

theorem WImp.ite {p : Prop} [Decidable p] {w1 w1' w2 w2' : Wr α} (h1 : p → WImp w1 w1')
    (h2 : ¬ p → WImp w2 w2') : WImp (if p then w1 else w2) (if p then w1' else w2') := by
  by_cases hp : p
  · simp only [hp, if_true]; exact h1 hp
  · simp only [hp, if_false]; exact h2 hp

theorem WImp.each {xs : List α} {w w' : α → Wr Unit} (h : ∀ x ∈ xs, WImp (w x) (w' x)) :
    WImp (forW xs w) (forW xs w') := by
  induction xs with
  | nil => exact WImp.refl
  | cons x xs ih =>
    exact WImp.bind (h x List.mem_cons_self) fun _ =>
      ih fun y hy => h y (List.mem_cons_of_mem _ hy)

theorem WImp.each_map {xs : List α} {f : α → β} {w : α → Wr Unit} {w' : β → Wr Unit}
    (h : ∀ x ∈ xs, WImp (w x) (w' (f x))) : WImp (forW xs w) (forW (xs.map f) w') := by
  induction xs with
  | nil => exact WImp.refl
  | cons x xs ih =>
    exact WImp.bind (h x List.mem_cons_self) fun _ =>
      ih fun y hy => h y (List.mem_cons_of_mem _ hy)

theorem WImp.str {bo : BO} {e : Enc} {t : Text} (h : stripText t = t) :
    WImp (wStr bo e t) (wStr bo e (stripText t)) := by rw [h]; exact WImp.refl

theorem WImp.rate {bo : BO} {r : Rate} (h : rateNorm r = r) :
    WImp (wRate bo r) (wRate bo (rateNorm r)) := by rw [h]; exact WImp.refl

theorem WImp.name {n : Option Text} (h : stripText (n.getD []) = n.getD []) :
    WImp (wName c n) (wName (c.again m) (normName n)) := by
  have e : (normName n).getD [] = n.getD [] := by
    unfold normName orNone
    rw [h]
    split
    · rename_i h0; rw [h0]; rfl
    · rfl
  unfold wName
  rw [e]
  exact WImp.refl

/-- Parts of writers already treated, found by instance search. -/
class IsImp {α : Type} (w w' : Wr α) : Prop where
  h : WImp w w'

/-- Walk through a writer. -/
macro "imp" : tactic => `(tactic| ((repeat' with_reducible first
  | exact WImp.refl
  | exact IsImp.h
  | assumption
  | exact WImp.ref ‹Renum _ _›
  | refine WImp.bind ?_ fun _ => ?_
  | refine WImp.ifHas_map fun _ _ => ?_
  | refine WImp.ifHas fun _ _ => ?_
  | refine WImp.flagged_map fun _ => ?_
  | refine WImp.flagged fun _ => ?_
  | refine WImp.when Iff.rfl fun _ => ?_
  | refine WImp.each_map fun _ _ => ?_
  | refine WImp.each fun _ _ => ?_
  | refine WImp.ite (fun _ => ?_) (fun _ => ?_)) <;> first | exact WImp.refl | skip))

theorem Wr.nth_take4 {xs : List α} {i : Nat} (h : i < 4) : Wr.nth (xs.take 4) i = Wr.nth xs i := by
  unfold Wr.nth
  rw [List.getElem?_take_of_lt h]

/-- The rates of a component. -/
def Component.rates (x : Component) : List Rate := [x.edit_rate]

theorem Component.write_imp (hm : Renum c m) {x : Component} (ht : Stripped x.texts)
    (hs : Stable x.rates) : WImp (x.write c) ((x.norm c).write (c.again m)) := by
  unfold Component.write
  dsimp only [Component.norm]
  imp
  · exact WImp.rate (hs _ (by simp [Component.rates]))
  · exact WImp.name (ht (.macroman, x.name.getD []) (by simp [Component.texts]))
  · exact WImp.name (ht (.macroman, x.effect_id.getD []) (by simp [Component.texts]))

theorem Sequence.write_imp (hm : Renum c m) {x : Sequence} (ht : Stripped x.texts)
    (hs : Stable x.rates) : WImp (x.write c) ((x.norm c).write (c.again m)) := by
  unfold Sequence.write
  dsimp only [Sequence.norm]
  simp only [List.length_map]
  refine WImp.bind (Component.write_imp hm ht hs) fun _ => ?_
  imp

theorem Clip.write_imp (hm : Renum c m) {x : Clip} (ht : Stripped x.texts)
    (hs : Stable x.rates) : WImp (x.write c) ((x.norm c).write (c.again m)) := by
  unfold Clip.write
  dsimp only [Clip.norm]
  refine WImp.bind (Component.write_imp hm ht hs) fun _ => ?_
  imp

theorem SourceClip.write_imp (hm : Renum c m) {x : SourceClip} (ht : Stripped x.texts)
    (hs : Stable x.rates) : WImp (x.write c) ((x.norm c).write (c.again m)) := by
  unfold SourceClip.write
  dsimp only [SourceClip.norm]
  refine WImp.bind (Clip.write_imp hm ht hs) fun _ => ?_
  imp

theorem Timecode.write_imp (hm : Renum c m) {x : Timecode} (ht : Stripped x.texts)
    (hs : Stable x.rates) : WImp (x.write c) ((x.norm c).write (c.again m)) := by
  unfold Timecode.write
  dsimp only [Timecode.norm]
  refine WImp.bind (Clip.write_imp hm ht hs) fun _ => ?_
  imp

theorem Edgecode.write_imp (hm : Renum c m) {x : Edgecode} (ht : Stripped x.texts)
    (hs : Stable x.rates) : WImp (x.write c) ((x.norm c).write (c.again m)) := by
  unfold Edgecode.write
  dsimp only [Edgecode.norm]
  refine WImp.bind (Clip.write_imp hm ht hs) fun _ => ?_
  imp

theorem TrackRef.write_imp (hm : Renum c m) {x : TrackRef} (ht : Stripped x.texts)
    (hs : Stable x.rates) : WImp (x.write c) ((x.norm c).write (c.again m)) := by
  unfold TrackRef.write
  dsimp only [TrackRef.norm]
  refine WImp.bind (Clip.write_imp hm ht hs) fun _ => ?_
  imp

theorem Filler.write_imp (hm : Renum c m) {x : Filler} (ht : Stripped x.texts)
    (hs : Stable x.rates) : WImp (x.write c) ((x.norm c).write (c.again m)) := by
  unfold Filler.write
  dsimp only [Filler.norm]
  refine WImp.bind (Clip.write_imp hm ht hs) fun _ => ?_
  imp

theorem PVal.wRef_imp (hm : Renum c m) {x : PVal} :
    WImp (PVal.wRef c x) (PVal.wRef (c.again m) (x.norm c)) := by
  cases x
  · exact WImp.fail
  · exact WImp.fail
  · exact WImp.ref hm

theorem PVal.wS32_imp {bo : BO} {x : PVal} : WImp (PVal.wS32 bo x) (PVal.wS32 bo (x.norm c)) := by
  cases x
  · exact WImp.refl
  · exact WImp.fail
  · exact WImp.fail

theorem PVal.wDbl_self_imp {x : PVal} : WImp (PVal.wDbl x) (PVal.wDbl x.asDouble) := by
  cases x with
  | int v =>
    simp only [PVal.asDouble, PVal.wDbl, wDoubleInt]
    cases F64.ofInt v with
    | none => exact WImp.fail
    | some d => exact WImp.refl
  | dbl => exact WImp.refl
  | ref => exact WImp.fail

theorem PVal.wDbl_imp {x : PVal} : WImp (PVal.wDbl x) (PVal.wDbl (x.asDouble.norm c)) := by
  cases x with
  | int v => exact PVal.wDbl_self_imp (x := .int v)
  | dbl => exact WImp.refl
  | ref => exact WImp.fail

theorem PCPProp.write_imp {x : PCPProp} : WImp (PCPProp.write c x) (PCPProp.write (c.again m) x.norm) := by
  unfold PCPProp.write PCPProp.writeValue
  dsimp only [PCPProp.norm, PVal.stored]
  imp
  by_cases h : x.type = 2
  · simp only [if_pos h]; exact PVal.wDbl_self_imp
  · simp only [if_neg h]; exact WImp.refl

theorem PCP.write_imp (hm : Renum c m) {t : Int} {x : PCP} :
    WImp (PCP.write c t x) (PCP.write (c.again m) t (x.norm c t)) := by
  unfold PCP.write PCP.writeValue
  dsimp only [PCP.norm, PVal.stored]
  simp only [List.length_map]
  imp
  · next h => rw [if_neg (by omega)]; exact PVal.wS32_imp
  · next h => rw [if_pos h]; exact PVal.wDbl_imp
  · next h _ => rw [if_neg h]; exact PVal.wRef_imp hm
  · exact PCPProp.write_imp

theorem ParamClip.write_imp (hm : Renum c m) {x : ParamClip} (ht : Stripped x.texts)
    (hs : Stable x.rates) : WImp (x.write c) ((x.norm c).write (c.again m)) := by
  unfold ParamClip.write
  dsimp only [ParamClip.norm]
  simp only [List.length_map]
  refine WImp.bind (Clip.write_imp hm ht hs) fun _ => ?_
  imp
  exact PCP.write_imp hm

instance {x : CP} : IsImp (CP.write c x) (CP.write (c.again m) x) := ⟨WImp.refl⟩

theorem ControlClip.write_imp (hm : Renum c m) {x : ControlClip} (ht : Stripped x.texts)
    (hs : Stable x.rates) : WImp (x.write c) ((x.norm c).write (c.again m)) := by
  unfold ControlClip.write
  dsimp only [ControlClip.norm]
  refine WImp.bind (Clip.write_imp hm ht hs) fun _ => ?_
  imp

theorem Track.write_imp (hm : Renum c m) {x : Track} :
    WImp (x.write c) ((x.norm c).write (c.again m)) := by
  have hf : (x.norm c).flags = x.flags := by
    simp only [Track.flags, Track.norm, flagBit_map]
  unfold Track.write
  rw [hf]
  dsimp only [Track.norm]
  imp

theorem wLock_imp {x : Track} : WImp (wLock c x) (wLock (c.again m) (x.norm c)) := WImp.refl

theorem TrackGroup.write_imp (hm : Renum c m) {x : TrackGroup} (ht : Stripped x.texts)
    (hs : Stable x.rates) : WImp (x.write c) ((x.norm c).write (c.again m)) := by
  unfold TrackGroup.write
  dsimp only [TrackGroup.norm]
  simp only [List.length_map]
  refine WImp.bind (Component.write_imp hm ht hs) fun _ => ?_
  imp
  · exact Track.write_imp hm
  · exact WImp.when (by simp) fun _ =>
      WImp.bind WImp.refl fun _ => WImp.bind WImp.refl fun _ => WImp.each_map fun _ _ => wLock_imp

theorem TrackEffect.writeBody_imp (hm : Renum c m) {x : TrackEffect} (ht : Stripped x.texts)
    (hs : Stable x.rates) : WImp (x.writeBody c) ((x.norm c).writeBody (c.again m)) := by
  unfold TrackEffect.writeBody
  dsimp only [TrackEffect.norm]
  refine WImp.bind (TrackGroup.write_imp hm ht hs) fun _ => ?_
  imp

theorem TrackEffect.write_imp (hm : Renum c m) {x : TrackEffect} (ht : Stripped x.texts)
    (hs : Stable x.rates) : WImp (x.write c) ((x.norm c).write (c.again m)) := by
  unfold TrackEffect.write
  exact WImp.bind (TrackEffect.writeBody_imp hm ht hs) fun _ => WImp.refl

theorem PanVolumeEffect.write_imp (hm : Renum c m) {x : PanVolumeEffect} (ht : Stripped x.texts)
    (hs : Stable x.rates) : WImp (x.write c) ((x.norm c).write (c.again m)) := by
  unfold PanVolumeEffect.write
  dsimp only [PanVolumeEffect.norm]
  refine WImp.bind (TrackEffect.writeBody_imp hm ht hs) fun _ => ?_
  imp

theorem ASPIPluginChunk.write_imp {x : ASPIPluginChunk} (ht : stripText x.name = x.name) :
    WImp (x.write c) (x.norm.write (c.again m)) := by
  have : x.norm = x := by unfold ASPIPluginChunk.norm; rw [ht]
  rw [this]; exact WImp.refl

theorem ASPIPlugin.write_imp {x : ASPIPlugin} (ht : Stripped x.texts) :
    WImp (x.write c) (x.norm.write (c.again m)) := by
  unfold ASPIPlugin.write
  dsimp only [ASPIPlugin.norm]
  simp only [List.length_map]
  imp
  all_goals first
    | exact WImp.str (ht (.macroman, x.name) (by simp [ASPIPlugin.texts]))
    | exact ASPIPluginChunk.write_imp (ht (.macroman, _) (by simp [ASPIPlugin.texts]; right; exact ⟨_, ‹_›, rfl⟩))

theorem AudioSuitePluginEffect.write_imp (hm : Renum c m) {x : AudioSuitePluginEffect}
    (ht : Stripped x.allTexts) (hs : Stable x.rates) :
    WImp (x.write c) ((x.norm c).write (c.again m)) := by
  unfold AudioSuitePluginEffect.write
  dsimp only [AudioSuitePluginEffect.norm]
  simp only [List.length_map]
  refine WImp.bind (TrackEffect.writeBody_imp hm ht.left hs) fun _ => ?_
  imp
  rename_i p hp
  exact ASPIPlugin.write_imp fun q hq => ht.right q (List.mem_flatMap.2 ⟨p, hp, hq⟩)

instance {x : EqualizerBand} : IsImp (EqualizerBand.write c x) (EqualizerBand.write (c.again m) x) :=
  ⟨WImp.refl⟩

theorem EqualizerMultiBand.write_imp (hm : Renum c m) {x : EqualizerMultiBand}
    (ht : Stripped x.allTexts) (hs : Stable x.rates) :
    WImp (x.write c) ((x.norm c).write (c.again m)) := by
  unfold EqualizerMultiBand.write
  dsimp only [EqualizerMultiBand.norm]
  refine WImp.bind (TrackEffect.writeBody_imp hm ht.left hs) fun _ => ?_
  imp
  exact WImp.str (ht.right (.macroman, x.filter_name) (by simp))

theorem TimeWarp.write_imp (hm : Renum c m) {x : TimeWarp} (ht : Stripped x.texts)
    (hs : Stable x.rates) : WImp (x.write c) ((x.norm c).write (c.again m)) := by
  unfold TimeWarp.write
  dsimp only [TimeWarp.norm]
  refine WImp.bind (TrackGroup.write_imp hm ht hs) fun _ => ?_
  imp

theorem CaptureMask.write_imp (hm : Renum c m) {x : CaptureMask} (ht : Stripped x.texts)
    (hs : Stable x.rates) : WImp (x.write c) ((x.norm c).write (c.again m)) := by
  unfold CaptureMask.write
  dsimp only [CaptureMask.norm]
  refine WImp.bind (TimeWarp.write_imp hm ht hs) fun _ => ?_
  imp

theorem StrobeEffect.write_imp (hm : Renum c m) {x : StrobeEffect} (ht : Stripped x.texts)
    (hs : Stable x.rates) : WImp (x.write c) ((x.norm c).write (c.again m)) := by
  unfold StrobeEffect.write
  dsimp only [StrobeEffect.norm]
  refine WImp.bind (TimeWarp.write_imp hm ht hs) fun _ => ?_
  imp

theorem MotionEffect.write_imp (hm : Renum c m) {x : MotionEffect} (ht : Stripped x.texts)
    (hs : Stable x.rates) : WImp (x.write c) ((x.norm c).write (c.again m)) := by
  unfold MotionEffect.write
  dsimp only [MotionEffect.norm]
  refine WImp.bind (TimeWarp.write_imp hm ht hs) fun _ => ?_
  imp

theorem Repeat.write_imp (hm : Renum c m) {x : Repeat} (ht : Stripped x.texts)
    (hs : Stable x.rates) : WImp (x.write c) ((x.norm c).write (c.again m)) := by
  unfold Repeat.write
  dsimp only [Repeat.norm]
  refine WImp.bind (TimeWarp.write_imp hm ht hs) fun _ => ?_
  imp

theorem EssenceGroup.write_imp (hm : Renum c m) {x : EssenceGroup} (ht : Stripped x.texts)
    (hs : Stable x.rates) : WImp (x.write c) ((x.norm c).write (c.again m)) := by
  unfold EssenceGroup.write
  dsimp only [EssenceGroup.norm]
  refine WImp.bind (TrackGroup.write_imp hm ht hs) fun _ => ?_
  imp

theorem TransitionEffect.write_imp (hm : Renum c m) {x : TransitionEffect} (ht : Stripped x.texts)
    (hs : Stable x.rates) : WImp (x.write c) ((x.norm c).write (c.again m)) := by
  unfold TransitionEffect.write
  dsimp only [TransitionEffect.norm]
  refine WImp.bind (TrackGroup.write_imp hm ht hs) fun _ => ?_
  imp

theorem Selector.write_imp (hm : Renum c m) {x : Selector} (ht : Stripped x.texts)
    (hs : Stable x.rates) : WImp (x.write c) ((x.norm c).write (c.again m)) := by
  unfold Selector.write
  dsimp only [Selector.norm]
  refine WImp.bind (TrackGroup.write_imp hm ht hs) fun _ => ?_
  imp

theorem Composition.write_imp (hm : Renum c m) {x : Composition} (ht : Stripped x.texts)
    (hs : Stable x.rates) : WImp (x.write c) ((x.norm c).write (c.again m)) := by
  unfold Composition.write
  dsimp only [Composition.norm]
  refine WImp.bind (TrackGroup.write_imp hm ht hs) fun _ => ?_
  imp

theorem FileLocator.write_imp {x : FileLocator} (ht : Stripped x.texts) :
    WImp (x.write c) (x.norm.write (c.again m)) := by
  have e : x.norm = x := by
    unfold FileLocator.norm
    rw [ht.left (.macroman, x.path) (by simp), ht.right.left.opt, ht.right.right.left.opt,
      ht.right.right.right.opt]
  rw [e]; exact WImp.refl

theorem EffectParam.write_imp {x : EffectParam} : WImp (x.write c) (x.norm.write (c.again m)) := by
  unfold EffectParam.write
  dsimp only [EffectParam.norm]
  simp only [Wr.nth_take4 (show 0 < 4 by decide), Wr.nth_take4 (show 1 < 4 by decide),
    Wr.nth_take4 (show 2 < 4 by decide), Wr.nth_take4 (show 3 < 4 by decide)]
  imp

theorem EffectParamList.write_imp {x : EffectParamList} : WImp (x.write c) (x.norm.write (c.again m)) := by
  unfold EffectParamList.write
  dsimp only [EffectParamList.norm]
  simp only [List.length_map]
  imp
  exact EffectParam.write_imp

theorem ParameterItem.writeValue_imp (hm : Renum c m) {x : ParameterItem} :
    WImp (x.writeValue c) ((x.norm c).writeValue (c.again m)) := by
  unfold ParameterItem.writeValue
  dsimp only [ParameterItem.norm]
  refine WImp.ite (fun _ => ?_) fun _ => WImp.ite (fun _ => ?_) fun _ => WImp.ite (fun _ => ?_) fun _ => ?_
  · next h => rw [PVal.stored, if_neg (by omega)]; exact PVal.wS32_imp
  · next h => rw [PVal.stored, if_pos h]; exact PVal.wDbl_imp
  · next h _ => rw [PVal.stored, if_neg (by omega)]; exact PVal.wRef_imp hm
  · exact WImp.refl

theorem ParameterItem.write_imp (hm : Renum c m) {x : ParameterItem} (ht : Stripped x.texts) :
    WImp (x.write c) ((x.norm c).write (c.again m)) := by
  unfold ParameterItem.write
  refine WImp.bind WImp.refl fun _ => ?_
  refine WImp.bind WImp.refl fun _ => ?_
  imp
  all_goals first
    | (change WImp (wName c (some x.name)) (wName c (some (stripText x.name)))
       rw [show stripText x.name = x.name from ht (.macroman, x.name) (by simp [ParameterItem.texts])]
       exact WImp.refl)
    | exact WImp.ref hm
    | exact ParameterItem.writeValue_imp hm

theorem MSMLocator.write_imp {x : MSMLocator} (ht : Stripped x.texts) :
    WImp (x.write c) (x.norm.write (c.again m)) := by
  have e : x.norm = x := by
    unfold MSMLocator.norm
    rw [ht.left (.macroman, x.last_known_volume) (by simp), ht.right.opt]
  rw [e]; exact WImp.refl

theorem BinRef.write_imp {x : BinRef} (ht : Stripped x.texts) :
    WImp (x.write c) (x.norm.write (c.again m)) := by
  have e : x.norm = x := by
    unfold BinRef.norm
    rw [ht.left (.macroman, x.name) (by simp), ht.right.opt]
  rw [e]; exact WImp.refl

instance {x : MobRef} : IsImp (MobRef.writeBody c x) (MobRef.writeBody (c.again m) x) := ⟨WImp.refl⟩

theorem TrackerManager.write_imp (hm : Renum c m) {x : TrackerManager} :
    WImp (x.write c) ((x.norm c).write (c.again m)) := by
  unfold TrackerManager.write
  dsimp only [TrackerManager.norm]
  imp

theorem Marker.write_imp (hm : Renum c m) {x : Marker} :
    WImp (x.write c) ((x.norm c).write (c.again m)) := by
  unfold Marker.write
  dsimp only [Marker.norm]
  imp

theorem TrackerDataSlot.write_imp (hm : Renum c m) {x : TrackerDataSlot} :
    WImp (x.write c) ((x.norm c).write (c.again m)) := by
  unfold TrackerDataSlot.write
  dsimp only [TrackerDataSlot.norm]
  simp only [List.length_map]
  imp

theorem TrackerParameterSlot.write_imp (hm : Renum c m) {x : TrackerParameterSlot} :
    WImp (x.write c) ((x.norm c).write (c.again m)) := by
  unfold TrackerParameterSlot.write
  dsimp only [TrackerParameterSlot.norm]
  simp only [List.length_map]
  imp

theorem TrackerData.write_imp (hm : Renum c m) {x : TrackerData} :
    WImp (x.write c) ((x.norm c).write (c.again m)) := by
  unfold TrackerData.write
  dsimp only [TrackerData.norm]
  simp only [List.length_map]
  imp

theorem MediaDescriptor.writeBody_imp (hm : Renum c m) {x : MediaDescriptor} :
    WImp (x.writeBody c) ((x.norm c).writeBody (c.again m)) := by
  unfold MediaDescriptor.writeBody
  dsimp only [MediaDescriptor.norm]
  imp

theorem MediaDescriptor.write_imp (hm : Renum c m) {x : MediaDescriptor} :
    WImp (x.write c) ((x.norm c).write (c.again m)) := by
  unfold MediaDescriptor.write
  exact WImp.bind (MediaDescriptor.writeBody_imp hm) fun _ => WImp.refl

theorem TapeDescriptor.write_imp (hm : Renum c m) {x : TapeDescriptor} :
    WImp (x.write c) ((x.norm c).write (c.again m)) := by
  unfold TapeDescriptor.write
  dsimp only [TapeDescriptor.norm]
  refine WImp.bind (MediaDescriptor.writeBody_imp hm) fun _ => ?_
  imp

theorem FilmDescriptor.write_imp (hm : Renum c m) {x : FilmDescriptor} :
    WImp (x.write c) ((x.norm c).write (c.again m)) := by
  unfold FilmDescriptor.write
  dsimp only [FilmDescriptor.norm]
  refine WImp.bind (MediaDescriptor.writeBody_imp hm) fun _ => ?_
  imp

theorem NagraDescriptor.write_imp (hm : Renum c m) {x : NagraDescriptor} :
    WImp (x.write c) ((x.norm c).write (c.again m)) := by
  unfold NagraDescriptor.write
  dsimp only [NagraDescriptor.norm]
  refine WImp.bind (MediaDescriptor.writeBody_imp hm) fun _ => ?_
  imp

/-- The rates of a media file descriptor. -/
def MediaFileDescriptor.rates (x : MediaFileDescriptor) : List Rate := [x.edit_rate]

theorem MediaFileDescriptor.writeBody_imp (hm : Renum c m) {x : MediaFileDescriptor}
    (hs : Stable x.rates) : WImp (x.writeBody c) ((x.norm c).writeBody (c.again m)) := by
  unfold MediaFileDescriptor.writeBody
  dsimp only [MediaFileDescriptor.norm]
  refine WImp.bind (MediaDescriptor.writeBody_imp hm) fun _ => ?_
  imp
  exact WImp.rate (hs _ (by simp [MediaFileDescriptor.rates]))

theorem MediaFileDescriptor.write_imp (hm : Renum c m) {x : MediaFileDescriptor}
    (hs : Stable x.rates) : WImp (x.write c) ((x.norm c).write (c.again m)) := by
  unfold MediaFileDescriptor.write
  exact WImp.bind (MediaFileDescriptor.writeBody_imp hm hs) fun _ => WImp.refl

theorem MultiDescriptor.write_imp (hm : Renum c m) {x : MultiDescriptor} (hs : Stable x.rates) :
    WImp (x.write c) ((x.norm c).write (c.again m)) := by
  unfold MultiDescriptor.write
  dsimp only [MultiDescriptor.norm]
  simp only [List.length_map]
  refine WImp.bind (MediaFileDescriptor.writeBody_imp hm hs) fun _ => ?_
  imp

theorem WaveDescriptor.write_imp (hm : Renum c m) {x : WaveDescriptor} (hs : Stable x.rates) :
    WImp (x.write c) ((x.norm c).write (c.again m)) := by
  unfold WaveDescriptor.write
  dsimp only [WaveDescriptor.norm]
  refine WImp.bind (MediaFileDescriptor.writeBody_imp hm hs) fun _ => ?_
  imp

theorem AIFCDescriptor.write_imp (hm : Renum c m) {x : AIFCDescriptor} (hs : Stable x.rates) :
    WImp (x.write c) ((x.norm c).write (c.again m)) := by
  unfold AIFCDescriptor.write
  dsimp only [AIFCDescriptor.norm]
  refine WImp.bind (MediaFileDescriptor.writeBody_imp hm hs) fun _ => ?_
  imp

/-- The rates of a PCM audio descriptor. -/
def PCMADescriptor.allRates (x : PCMADescriptor) : List Rate := [x.edit_rate, x.sample_rate]

theorem PCMADescriptor.write_imp (hm : Renum c m) {x : PCMADescriptor} (ht : Stripped x.texts)
    (hs : Stable x.allRates) : WImp (x.write c) ((x.norm c).write (c.again m)) := by
  unfold PCMADescriptor.write
  dsimp only [PCMADescriptor.norm]
  rw [Stripped.opt ht]
  refine WImp.bind (MediaFileDescriptor.writeBody_imp hm fun r hr => hs r ?_) fun _ => ?_
  · rw [List.mem_singleton.1 hr]; simp [PCMADescriptor.allRates]
  imp
  exact WImp.rate (hs _ (by simp [PCMADescriptor.allRates]))

/-- The rates of an MPEG audio descriptor. -/
def MPGADescriptor.allRates (x : MPGADescriptor) : List Rate := [x.edit_rate, x.sample_rate]

theorem MPGADescriptor.write_imp (hm : Renum c m) {x : MPGADescriptor} (hs : Stable x.allRates)
    (ha : ∀ v, x.sub_frame_alignment = some v → 0 ≤ v) :
    WImp (x.write c) ((x.norm c).write (c.again m)) := by
  unfold MPGADescriptor.write
  dsimp only [MPGADescriptor.norm]
  refine WImp.bind (MediaFileDescriptor.writeBody_imp hm fun r hr => hs r ?_) fun _ => ?_
  · rw [List.mem_singleton.1 hr]; simp [MPGADescriptor.allRates]
  imp
  · exact WImp.rate (hs _ (by simp [MPGADescriptor.allRates]))
  · rename_i v hv _ _ _
    have h0 := ha v hv
    intro a bs hb
    obtain ⟨h1, h2, _⟩ := wInt_eq_ok hb
    simp only [IntTy.hi, IntTy.signed, IntTy.width] at h2
    have : v % 2 ^ 64 = v := Int.emod_eq_of_lt h0 (by simp at h2; omega)
    rw [this]; exact hb

theorem wBox_imp {b : Box} : WImp (wBox c b) (wBox (c.again m) (b.take 4)) := by
  unfold wBox
  simp only [Wr.nth_take4 (show 0 < 4 by decide), Wr.nth_take4 (show 1 < 4 by decide),
    Wr.nth_take4 (show 2 < 4 by decide), Wr.nth_take4 (show 3 < 4 by decide)]
  exact WImp.refl

instance {b : Box} : IsImp (wBox c b) (wBox (c.again m) (b.take 4)) := ⟨wBox_imp⟩

theorem DIDDescriptor.writeBody_imp (hm : Renum c m) {x : DIDDescriptor} (hs : Stable x.rates) :
    WImp (x.writeBody c) ((x.norm c).writeBody (c.again m)) := by
  unfold DIDDescriptor.writeBody
  dsimp only [DIDDescriptor.norm]
  refine WImp.bind (MediaFileDescriptor.writeBody_imp hm hs) fun _ => ?_
  imp
  · simp only [‹x.client_fill_start = some _›, Option.bind]; imp
  · cases x.valid_box <;> cases x.essence_box <;> cases x.source_box <;>
      simp only [andHas, Option.map, Wr.ifHas] <;> imp
  · cases x.framing_box <;> cases x.reformatting_option <;> simp only [andHas, Option.map, Wr.ifHas] <;>
      imp
  · cases x.color_primaries <;> cases x.coding_equations <;> simp only [andHas, Option.map, Wr.ifHas] <;>
      imp

theorem CDCIDescriptor.writeBody_imp (hm : Renum c m) {x : CDCIDescriptor} (hs : Stable x.rates) :
    WImp (x.writeBody c) ((x.norm c).writeBody (c.again m)) := by
  unfold CDCIDescriptor.writeBody
  dsimp only [CDCIDescriptor.norm]
  refine WImp.bind (DIDDescriptor.writeBody_imp hm hs) fun _ => ?_
  imp

theorem DIDDescriptor.write_imp (hm : Renum c m) {x : DIDDescriptor} (hs : Stable x.rates) :
    WImp (x.write c) ((x.norm c).write (c.again m)) := by
  unfold DIDDescriptor.write
  exact WImp.bind (DIDDescriptor.writeBody_imp hm hs) fun _ => WImp.refl

theorem CDCIDescriptor.write_imp (hm : Renum c m) {x : CDCIDescriptor} (hs : Stable x.rates) :
    WImp (x.write c) ((x.norm c).write (c.again m)) := by
  unfold CDCIDescriptor.write
  exact WImp.bind (CDCIDescriptor.writeBody_imp hm hs) fun _ => WImp.refl

theorem MPGIDescriptor.write_imp (hm : Renum c m) {x : MPGIDescriptor} (hs : Stable x.rates) :
    WImp (x.write c) ((x.norm c).write (c.again m)) := by
  unfold MPGIDescriptor.write
  dsimp only [MPGIDescriptor.norm]
  refine WImp.bind (CDCIDescriptor.writeBody_imp hm hs) fun _ => ?_
  imp

theorem JPEGDescriptor.write_imp (hm : Renum c m) {x : JPEGDescriptor} (hs : Stable x.rates) :
    WImp (x.write c) ((x.norm c).write (c.again m)) := by
  unfold JPEGDescriptor.write
  dsimp only [JPEGDescriptor.norm]
  refine WImp.bind (CDCIDescriptor.writeBody_imp hm hs) fun _ => ?_
  imp

theorem RGBADescriptor.write_imp (hm : Renum c m) {x : RGBADescriptor} (hs : Stable x.rates) :
    WImp (x.write c) ((x.norm c).write (c.again m)) := by
  unfold RGBADescriptor.write
  dsimp only [RGBADescriptor.norm]
  refine WImp.bind (DIDDescriptor.writeBody_imp hm hs) fun _ => ?_
  imp
  · simp only [‹x.has_comp_min_ref = some _›, Option.bind]; imp
  · simp only [‹x.has_comp_min_ref = some _›, Option.bind]; imp
  · simp only [‹x.has_comp_min_ref = some _›, Option.bind]; imp
  · simp only [‹x.alpha_min_ref = some _›, Option.bind]; imp

theorem DataDescriptor.write_imp (hm : Renum c m) {x : DataDescriptor} (hs : Stable x.rates) :
    WImp (x.write c) ((x.norm c).write (c.again m)) := by
  unfold DataDescriptor.write
  dsimp only [DataDescriptor.norm]
  refine WImp.bind (MediaFileDescriptor.writeBody_imp hm hs) fun _ => ?_
  imp

theorem ANCDataDescriptor.write_imp (hm : Renum c m) {x : ANCDataDescriptor} (hs : Stable x.rates) :
    WImp (x.write c) ((x.norm c).write (c.again m)) := by
  unfold ANCDataDescriptor.write
  dsimp only [ANCDataDescriptor.norm]
  refine WImp.bind (DataDescriptor.write_imp hm hs) fun _ => ?_
  imp

theorem dictSet_new {l : List (Text × AttrVal)} {k : Text} {v : AttrVal} (h : k ∉ l.map (·.1)) :
    dictSet l k v = l ++ [(k, v)] := by
  induction l with
  | nil => rfl
  | cons p l ih =>
    simp only [List.map_cons, List.mem_cons, not_or] at h
    have h1 : ¬ p.1 = k := fun e => h.1 e.symm
    simp only [dictSet, h1, if_false, ih h.2, List.cons_append]

theorem dictSet_fold {l : List (Text × AttrVal)} (acc : List (Text × AttrVal))
    (h : ((acc ++ l).map (·.1)).Nodup) :
    l.foldl (fun l p => dictSet l p.1 p.2) acc = acc ++ l := by
  induction l generalizing acc with
  | nil => simp
  | cons p l ih =>
    have hp : p.1 ∉ acc.map (·.1) := by
      simp only [List.map_append, List.map_cons] at h
      intro hm
      exact (List.nodup_append.1 h).2.2 _ hm p.1 (by simp) rfl
    simp only [List.foldl_cons]
    rw [dictSet_new hp, ih _ (by simpa using h)]
    simp

theorem AttrVal.norm_strip {k : Text} {v : AttrVal} (h : stripText k = k) :
    Attributes.normItem c (k, v) = (k, v.norm c) := by
  unfold Attributes.normItem; rw [h]

theorem Attributes.writeItem_imp (hm : Renum c m) {p : Text × AttrVal}
    (ht : Stripped ((.macroman, p.1) :: p.2.texts)) :
    WImp (Attributes.writeItem c p) (Attributes.writeItem (c.again m) (Attributes.normItem c p)) := by
  obtain ⟨k, v⟩ := p
  have hk : stripText k = k := ht (.macroman, k) (by simp)
  rw [AttrVal.norm_strip hk]
  unfold Attributes.writeItem
  cases v with
  | int v => exact WImp.refl
  | str v =>
    have hv : stripText v = v := ht (.macroman, v) (by simp [AttrVal.texts])
    simp only [AttrVal.norm, hv]
    exact WImp.refl
  | obj v => simp only [AttrVal.norm]; imp
  | bob v => exact WImp.refl
  | raw v => exact WImp.fail

theorem Attributes.norm_items {x : Attributes} (ht : Stripped x.texts)
    (hk : (x.items.map (·.1)).Nodup) : (x.norm c).items = x.items.map (Attributes.normItem c) := by
  have e : (x.items.map (Attributes.normItem c)).map (·.1) = x.items.map (·.1) := by
    rw [List.map_map]
    refine List.map_congr_left fun p hp => ?_
    exact ht (.macroman, p.1) (List.mem_flatMap.2 ⟨p, hp, by simp⟩)
  unfold Attributes.norm
  simpa using dictSet_fold (l := x.items.map (Attributes.normItem c)) [] (by simpa [e] using hk)

theorem Attributes.write_imp (hm : Renum c m) {x : Attributes} (ht : Stripped x.texts)
    (hk : (x.items.map (·.1)).Nodup) : WImp (x.write c) ((x.norm c).write (c.again m)) := by
  unfold Attributes.write
  rw [Attributes.norm_items ht hk]
  simp only [List.length_map]
  imp
  rename_i p hp
  exact Attributes.writeItem_imp hm fun q hq => ht q (List.mem_flatMap.2 ⟨p, hp, hq⟩)

theorem ParameterList.write_imp (hm : Renum c m) {x : ParameterList} :
    WImp (x.write c) ((x.norm c).write (c.again m)) := by
  unfold ParameterList.write
  dsimp only [ParameterList.norm]
  simp only [List.length_map]
  imp

theorem TimeCrumbList.write_imp (hm : Renum c m) {x : TimeCrumbList} :
    WImp (x.write c) ((x.norm c).write (c.again m)) := by
  unfold TimeCrumbList.write
  dsimp only [TimeCrumbList.norm]
  simp only [List.length_map]
  imp

theorem Setting.write_imp (hm : Renum c m) {x : Setting} (ht : Stripped x.texts) :
    WImp (x.write c) ((x.norm c).write (c.again m)) := by
  unfold Setting.write
  dsimp only [Setting.norm]
  imp
  · exact WImp.str (ht (.macroman, x.name) (by simp [Setting.texts]))
  · exact WImp.str (ht (.macroman, x.kind) (by simp [Setting.texts]))

instance {x : FormatDescriptor} : IsImp (FormatDescriptor.write c x)
    (FormatDescriptor.write (c.again m) x) := ⟨WImp.refl⟩

theorem BinViewSetting.write_imp (hm : Renum c m) {x : BinViewSetting} (ht : Stripped x.texts) :
    WImp (x.write c) ((x.norm c).write (c.again m)) := by
  unfold BinViewSetting.write
  dsimp only [BinViewSetting.norm]
  simp only [List.length_map]
  refine WImp.bind (Setting.write_imp hm ht.left) fun _ => ?_
  imp
  rename_i b hb
  have e : b.norm = b := by
    unfold BinColumn.norm
    rw [ht.right (.macroman, b.title) (List.mem_map.2 ⟨b, hb, rfl⟩)]
  rw [e]; exact WImp.refl

theorem BinItem.write_imp (hm : Renum c m) {x : BinItem} :
    WImp (x.write c) ((x.norm c).write (c.again m)) := by
  unfold BinItem.write
  dsimp only [BinItem.norm]
  imp

theorem Bin.writeBody_imp (hm : Renum c m) {x : Bin} (ht : Stripped x.texts) :
    WImp (x.writeBody c) ((x.norm c).writeBody (c.again m)) := by
  have hl : (x.norm c).isLarge = x.isLarge := by
    simp only [Bin.isLarge, Bin.norm, List.length_map]
    cases x.large_bin <;> simp
  have hsift : (x.sifted_settings.take 6).map SiftItem.norm = x.sifted_settings.take 6 := by
    rw [List.map_congr_left (g := id)]
    · simp
    · intro s hs
      have hs' := List.mem_of_mem_take hs
      have h1 := ht.left (.macroman, s.string) (List.mem_flatMap.2 ⟨s, hs', by simp [SiftItem.texts]⟩)
      have h2 := ht.left (.macroman, s.column) (List.mem_flatMap.2 ⟨s, hs', by simp [SiftItem.texts]⟩)
      unfold SiftItem.norm
      rw [h1, h2]; rfl
  have hsort : (x.sort_columns.map fun p => (p.1, stripText p.2)) = x.sort_columns := by
    rw [List.map_congr_left (g := id)]
    · simp
    · intro p hp
      have h1 := ht.right (.macroman, p.2) (List.mem_map.2 ⟨p, hp, rfl⟩)
      rw [h1]; rfl
  unfold Bin.writeBody Bin.writeCount
  rw [hl]
  dsimp only [Bin.norm]
  simp only [List.length_map]
  rw [hsift, hsort]
  have hn : ∀ i ∈ List.range' 0 6, Wr.nth (x.sifted_settings.take 6) i = Wr.nth x.sifted_settings i := by
    intro i hi
    unfold Wr.nth
    rw [List.getElem?_take_of_lt (by simpa using hi)]
  imp
  · exact BinItem.write_imp hm
  · rename_i hi
    rw [hn _ hi]
    exact WImp.refl

theorem Bin.write_imp (hm : Renum c m) {x : Bin} (ht : Stripped x.texts) :
    WImp (x.write c) ((x.norm c).write (c.again m)) := by
  unfold Bin.write
  exact WImp.bind (Bin.writeBody_imp hm ht) fun _ => WImp.refl

theorem BinFirst.write_imp (hm : Renum c m) {x : BinFirst} (ht : Stripped x.texts) :
    WImp (x.write c) ((x.norm c).write (c.again m)) := by
  unfold BinFirst.write
  dsimp only [BinFirst.norm]
  refine WImp.bind (Bin.writeBody_imp hm ht) fun _ => ?_
  imp

end

/-- The texts of an object, with the encoding each is stored in. -/
def Obj.texts : Obj → List (Enc × Text)
  | .ATTR x => x.texts
  | .PRLS _ => []
  | .TMCS _ => []
  | .BVst x => x.texts
  | .ABIN x => x.texts
  | .BINF x => x.texts
  | .SEQU x => x.texts
  | .SCLP x => x.texts
  | .TCCP x => x.texts
  | .ECCP x => x.texts
  | .TRKR x => x.texts
  | .PRCL x => x.texts
  | .CTRL x => x.texts
  | .FILL x => x.texts
  | .TRKG x => x.texts
  | .TKFX x => x.texts
  | .PVOL x => x.texts
  | .ASPI x => x.allTexts
  | .EQMB x => x.allTexts
  | .MASK x => x.texts
  | .STRB x => x.texts
  | .SPED x => x.texts
  | .REPT x => x.texts
  | .RSET x => x.texts
  | .TNFX x => x.texts
  | .SLCT x => x.texts
  | .CMPO x => x.texts
  | .FILE x => x.texts
  | .WINF x => x.texts
  | .URLL _ => []
  | .GRFX _ => []
  | .SHLP _ => []
  | .CCFX _ => []
  | .FXPS _ => []
  | .AVUP _ => []
  | .PRIT x => x.texts
  | .MSML x => x.texts
  | .APOS _ => []
  | .ABOB _ => []
  | .DIDP _ => []
  | .MPGP _ => []
  | .MCBR x => x.texts
  | .MCMR _ => []
  | .TMBC _ => []
  | .TKMN _ => []
  | .TKDS _ => []
  | .TKPS _ => []
  | .TKDA _ => []
  | .TKPA _ => []
  | .MDES _ => []
  | .MDTP _ => []
  | .MDFM _ => []
  | .MDNG _ => []
  | .MDFL _ => []
  | .MULD _ => []
  | .WAVE _ => []
  | .AIFC _ => []
  | .PCMA x => x.texts
  | .MPGA _ => []
  | .DIDD _ => []
  | .CDCI _ => []
  | .MPGI _ => []
  | .JPED _ => []
  | .RGBA _ => []
  | .DATD _ => []
  | .ANCD _ => []

/-- The rates of an object. -/
def Obj.rates : Obj → List Rate
  | .ATTR _ => []
  | .PRLS _ => []
  | .TMCS _ => []
  | .BVst _ => []
  | .ABIN _ => []
  | .BINF _ => []
  | .SEQU x => x.rates
  | .SCLP x => x.rates
  | .TCCP x => x.rates
  | .ECCP x => x.rates
  | .TRKR x => x.rates
  | .PRCL x => x.rates
  | .CTRL x => x.rates
  | .FILL x => x.rates
  | .TRKG x => x.rates
  | .TKFX x => x.rates
  | .PVOL x => x.rates
  | .ASPI x => x.rates
  | .EQMB x => x.rates
  | .MASK x => x.rates
  | .STRB x => x.rates
  | .SPED x => x.rates
  | .REPT x => x.rates
  | .RSET x => x.rates
  | .TNFX x => x.rates
  | .SLCT x => x.rates
  | .CMPO x => x.rates
  | .FILE _ => []
  | .WINF _ => []
  | .URLL _ => []
  | .GRFX _ => []
  | .SHLP _ => []
  | .CCFX _ => []
  | .FXPS _ => []
  | .AVUP _ => []
  | .PRIT _ => []
  | .MSML _ => []
  | .APOS _ => []
  | .ABOB _ => []
  | .DIDP _ => []
  | .MPGP _ => []
  | .MCBR _ => []
  | .MCMR _ => []
  | .TMBC _ => []
  | .TKMN _ => []
  | .TKDS _ => []
  | .TKPS _ => []
  | .TKDA _ => []
  | .TKPA _ => []
  | .MDES _ => []
  | .MDTP _ => []
  | .MDFM _ => []
  | .MDNG _ => []
  | .MDFL x => x.rates
  | .MULD x => x.rates
  | .WAVE x => x.rates
  | .AIFC x => x.rates
  | .PCMA x => x.allRates
  | .MPGA x => x.allRates
  | .DIDD x => x.rates
  | .CDCI x => x.rates
  | .MPGI x => x.rates
  | .JPED x => x.rates
  | .RGBA x => x.rates
  | .DATD x => x.rates
  | .ANCD x => x.rates

/-- Conditions of single classes: the keys of a dictionary differ, and the one field written as signed
and read as unsigned is not negative. -/
def Obj.Special : Obj → Prop
  | .ATTR x => (x.items.map (·.1)).Nodup
  | .MPGA x => ∀ v, x.sub_frame_alignment = some v → 0 ≤ v
  | _ => True

/-- Nothing about the object changes when it is saved and loaded, other than the numbers of references. -/
structure Obj.Clean (x : Obj) : Prop where
  texts : Stripped x.texts
  rates : Stable x.rates
  special : x.Special

theorem Obj.write_imp {c : WCtx} {m : Nat → Option Nat} (hm : Renum c m) {x : Obj} (hc : x.Clean) :
    WImp (x.write c) ((x.norm c).write (c.again m)) := by
  obtain ⟨ht, hs, hp⟩ := hc
  cases x with
  | ATTR x => exact Attributes.write_imp hm ht hp
  | PRLS x => exact ParameterList.write_imp hm
  | TMCS x => exact TimeCrumbList.write_imp hm
  | BVst x => exact BinViewSetting.write_imp hm ht
  | ABIN x => exact Bin.write_imp hm ht
  | BINF x => exact BinFirst.write_imp hm ht
  | SEQU x => exact Sequence.write_imp hm ht hs
  | SCLP x => exact SourceClip.write_imp hm ht hs
  | TCCP x => exact Timecode.write_imp hm ht hs
  | ECCP x => exact Edgecode.write_imp hm ht hs
  | TRKR x => exact TrackRef.write_imp hm ht hs
  | PRCL x => exact ParamClip.write_imp hm ht hs
  | CTRL x => exact ControlClip.write_imp hm ht hs
  | FILL x => exact Filler.write_imp hm ht hs
  | TRKG x => exact TrackGroup.write_imp hm ht hs
  | TKFX x => exact TrackEffect.write_imp hm ht hs
  | PVOL x => exact PanVolumeEffect.write_imp hm ht hs
  | ASPI x => exact AudioSuitePluginEffect.write_imp hm ht hs
  | EQMB x => exact EqualizerMultiBand.write_imp hm ht hs
  | MASK x => exact CaptureMask.write_imp hm ht hs
  | STRB x => exact StrobeEffect.write_imp hm ht hs
  | SPED x => exact MotionEffect.write_imp hm ht hs
  | REPT x => exact Repeat.write_imp hm ht hs
  | RSET x => exact EssenceGroup.write_imp hm ht hs
  | TNFX x => exact TransitionEffect.write_imp hm ht hs
  | SLCT x => exact Selector.write_imp hm ht hs
  | CMPO x => exact Composition.write_imp hm ht hs
  | FILE x => exact FileLocator.write_imp ht
  | WINF x => exact FileLocator.write_imp ht
  | URLL x => exact WImp.refl
  | GRFX x => exact WImp.refl
  | SHLP x => exact WImp.refl
  | CCFX x => exact WImp.refl
  | FXPS x => exact EffectParamList.write_imp
  | AVUP x => exact WImp.refl
  | PRIT x => exact ParameterItem.write_imp hm ht
  | MSML x => exact MSMLocator.write_imp ht
  | APOS x => exact WImp.refl
  | ABOB x => exact WImp.refl
  | DIDP x => exact WImp.refl
  | MPGP x => exact WImp.refl
  | MCBR x => exact BinRef.write_imp ht
  | MCMR x => exact WImp.refl
  | TMBC x => exact Marker.write_imp hm
  | TKMN x => exact TrackerManager.write_imp hm
  | TKDS x => exact TrackerDataSlot.write_imp hm
  | TKPS x => exact TrackerParameterSlot.write_imp hm
  | TKDA x => exact TrackerData.write_imp hm
  | TKPA x => exact WImp.refl
  | MDES x => exact MediaDescriptor.write_imp hm
  | MDTP x => exact TapeDescriptor.write_imp hm
  | MDFM x => exact FilmDescriptor.write_imp hm
  | MDNG x => exact NagraDescriptor.write_imp hm
  | MDFL x => exact MediaFileDescriptor.write_imp hm hs
  | MULD x => exact MultiDescriptor.write_imp hm hs
  | WAVE x => exact WaveDescriptor.write_imp hm hs
  | AIFC x => exact AIFCDescriptor.write_imp hm hs
  | PCMA x => exact PCMADescriptor.write_imp hm ht hs
  | MPGA x => exact MPGADescriptor.write_imp hm hs hp
  | DIDD x => exact DIDDescriptor.write_imp hm hs
  | CDCI x => exact CDCIDescriptor.write_imp hm hs
  | MPGI x => exact MPGIDescriptor.write_imp hm hs
  | JPED x => exact JPEGDescriptor.write_imp hm hs
  | RGBA x => exact RGBADescriptor.write_imp hm hs
  | DATD x => exact DataDescriptor.write_imp hm hs
  | ANCD x => exact ANCDataDescriptor.write_imp hm hs

theorem Attributes.norm_visits_eq {c : WCtx} {x : Attributes} (ht : Stripped x.texts)
    (hk : (x.items.map (·.1)).Nodup) : (x.norm c).visits = x.visits.map (Visit.map c.tr) := by
  unfold Attributes.visits
  rw [Attributes.norm_items ht hk, List.map_flatMap, List.flatMap_map]
  congr 1
  funext p
  obtain ⟨k, v⟩ := p
  cases v <;> rfl

/-- The references of a loaded object are those of the saved object, in the same order. -/
theorem Obj.norm_visits_eq {c : WCtx} {x : Obj} (hc : x.Clean) :
    (x.norm c).visits = x.visits.map (Visit.map c.tr) := by
  obtain ⟨ht, hs, hp⟩ := hc
  cases x with
  | ATTR x => exact Attributes.norm_visits_eq ht hp
  | PRLS x => exact ParameterList.norm_visits
  | TMCS x => exact TimeCrumbList.norm_visits
  | BVst x => exact BinViewSetting.norm_visits
  | ABIN x => exact Bin.norm_visits
  | BINF x => exact BinFirst.norm_visits
  | SEQU x => exact Sequence.norm_visits
  | SCLP x => exact SourceClip.norm_visits
  | TCCP x => exact Timecode.norm_visits
  | ECCP x => exact Edgecode.norm_visits
  | TRKR x => exact TrackRef.norm_visits
  | PRCL x => exact ParamClip.norm_visits
  | CTRL x => exact ControlClip.norm_visits
  | FILL x => exact Filler.norm_visits
  | TRKG x => exact TrackGroup.norm_visits
  | TKFX x => exact TrackEffect.norm_visits
  | PVOL x => exact PanVolumeEffect.norm_visits
  | ASPI x => exact AudioSuitePluginEffect.norm_visits
  | EQMB x => exact EqualizerMultiBand.norm_visits
  | MASK x => exact CaptureMask.norm_visits
  | STRB x => exact StrobeEffect.norm_visits
  | SPED x => exact MotionEffect.norm_visits
  | REPT x => exact Repeat.norm_visits
  | RSET x => exact EssenceGroup.norm_visits
  | TNFX x => exact TransitionEffect.norm_visits
  | SLCT x => exact Selector.norm_visits
  | CMPO x => exact Composition.norm_visits
  | FILE x => rfl
  | WINF x => rfl
  | URLL x => rfl
  | GRFX x => rfl
  | SHLP x => rfl
  | CCFX x => rfl
  | FXPS x => rfl
  | AVUP x => rfl
  | PRIT x => exact ParameterItem.norm_visits
  | MSML x => rfl
  | APOS x => rfl
  | ABOB x => rfl
  | DIDP x => rfl
  | MPGP x => rfl
  | MCBR x => rfl
  | MCMR x => rfl
  | TMBC x => exact Marker.norm_visits
  | TKMN x => exact TrackerManager.norm_visits
  | TKDS x => exact TrackerDataSlot.norm_visits
  | TKPS x => exact TrackerParameterSlot.norm_visits
  | TKDA x => exact TrackerData.norm_visits
  | TKPA x => rfl
  | MDES x => exact MediaDescriptor.norm_visits
  | MDTP x => exact TapeDescriptor.norm_visits
  | MDFM x => exact FilmDescriptor.norm_visits
  | MDNG x => exact NagraDescriptor.norm_visits
  | MDFL x => exact MediaFileDescriptor.norm_visits
  | MULD x => exact MultiDescriptor.norm_visits
  | WAVE x => exact WaveDescriptor.norm_visits
  | AIFC x => exact AIFCDescriptor.norm_visits
  | PCMA x => exact PCMADescriptor.norm_visits
  | MPGA x => exact MPGADescriptor.norm_visits
  | DIDD x => exact DIDDescriptor.norm_visits
  | CDCI x => exact CDCIDescriptor.norm_visits
  | MPGI x => exact MPGIDescriptor.norm_visits
  | JPED x => exact JPEGDescriptor.norm_visits
  | RGBA x => exact RGBADescriptor.norm_visits
  | DATD x => exact DataDescriptor.norm_visits
  | ANCD x => exact ANCDataDescriptor.norm_visits

theorem Obj.norm_listItems {c : WCtx} {x : Obj} : (x.norm c).listItems = x.listItems.map c.tr := by
  cases x <;> rfl

theorem Obj.norm_cls {c : WCtx} {x : Obj} : (x.norm c).cls = x.cls := by
  cases x <;> rfl

theorem Obj.listItems_visits {x : Obj} {r : Ref} (h : r ∈ x.listItems) : .prop r ∈ x.visits := by
  cases x with
  | PRLS x => exact List.mem_map.2 ⟨r, h, rfl⟩
  | TMCS x => exact List.mem_map.2 ⟨r, h, rfl⟩
  | _ => cases h

end Avb
