import Verif.Lemmas.RTTac
import Verif.Model.Components

/-
What a saved component looks like after loading, and the round trip of every class of
src/avb/components.py.
-/

namespace Avb

/-- An optional name after saving and loading: outer NULs dropped, empty becomes `None`. -/
def normName (n : Option Text) : Option Text := orNone (stripText (n.getD []))

/-- A component after saving and loading. -/
def Component.norm (c : WCtx) (x : Component) : Component :=
  { x with
    left_bob := c.tr x.left_bob, right_bob := c.tr x.right_bob
    edit_rate := rateNorm x.edit_rate
    name := normName x.name, effect_id := normName x.effect_id
    attributes := c.tr x.attributes, session_attrs := c.tr x.session_attrs
    precomputed := c.tr x.precomputed, param_list := x.param_list.map c.tr }

/-- The text fields of a component with their encoding. -/
def Component.texts (x : Component) : List (Enc × Text) :=
  [(.macroman, x.name.getD []), (.macroman, x.effect_id.getD [])]

/-- All texts of an object can be told from an empty one. -/
def TextsOK (ts : List (Enc × Text)) : Prop := ∀ p ∈ ts, TextOK p.1 p.2

section
variable {c : WCtx} {d : RCtx}

theorem RT.name (h : Linked c d) {n : Option Text} (ht : TextOK .macroman (n.getD [])) :
    RT (wName c n) (rStr d.bo .macroman) (stripText (n.getD [])) := by
  unfold wName
  refine RT.wif (fun _ => RT.strL h ht) fun he => ?_
  have he : n.getD [] = [] := by simpa using he
  rw [he, h.bo]
  exact RT.last RT.int rfl

macro_rules
  | `(tactic| rt_prim) => `(tactic| with_reducible exact RT.name ‹Linked _ _› (by text_ok))

theorem Component.rt (h : Linked c d) {x : Component} (ht : TextsOK x.texts) :
    RTN (x.write c) (Component.read d) (x.norm c) := by
  unfold Component.write Component.read
  unfold TextsOK Component.texts at ht
  rt_steps
  refine RT.ext_end' ?_ rfl
  refine RTX.has (fun (s : Component) o => { s with param_list := o }) c.tr rfl fun r _ => ?_
  refine RTX.item ?_
  rt_ext Component.ext
  rt_steps
  rt_last
  rfl

def Sequence.norm (c : WCtx) (x : Sequence) : Sequence :=
  { x with toComponent := x.toComponent.norm c, components := x.components.map c.tr }

theorem Sequence.rt (h : Linked c d) {x : Sequence} (ht : TextsOK x.texts) :
    RT (x.write c) (Sequence.read d) (x.norm c) := by
  unfold Sequence.write Sequence.read
  refine RTN.bind (Component.rt h ht) (by starts) ?_
  rt_steps
  rt_last
  rfl

def Clip.norm (c : WCtx) (x : Clip) : Clip := { x with toComponent := x.toComponent.norm c }

theorem Clip.rt (h : Linked c d) {x : Clip} (ht : TextsOK x.texts) :
    RT (x.write c) (Clip.read d) (x.norm c) := by
  unfold Clip.write Clip.read
  refine RTN.bind (Component.rt h ht) (by starts) ?_
  rt_steps
  rt_last
  rfl

def SourceClip.norm (c : WCtx) (x : SourceClip) : SourceClip :=
  { x with toClip := x.toClip.norm c }

theorem SourceClip.rt (h : Linked c d) {x : SourceClip} (ht : TextsOK x.texts) :
    RT (x.write c) (SourceClip.read d) (x.norm c) := by
  unfold SourceClip.write SourceClip.read
  refine RT.bind (Clip.rt h ht) ?_
  rt_steps
  rt_opt SourceClip mob_id id SourceClip.ext
  refine RT.ext_done (by starts) ?_
  rt_last
  cases x; simp [SourceClip.norm]

def Timecode.norm (c : WCtx) (x : Timecode) : Timecode := { x with toClip := x.toClip.norm c }

theorem Timecode.rt (h : Linked c d) {x : Timecode} (ht : TextsOK x.texts) :
    RT (x.write c) (Timecode.read d) (x.norm c) := by
  unfold Timecode.write Timecode.read
  refine RT.bind (Clip.rt h ht) ?_
  rt_steps
  rt_last
  rfl

def Edgecode.norm (c : WCtx) (x : Edgecode) : Edgecode := { x with toClip := x.toClip.norm c }

theorem Edgecode.rt (h : Linked c d) {x : Edgecode} (ht : TextsOK x.texts) :
    RT (x.write c) (Edgecode.read d) (x.norm c) := by
  unfold Edgecode.write Edgecode.read
  refine RT.bind (Clip.rt h ht) ?_
  rt_steps
  rt_last
  rfl

def TrackRef.norm (c : WCtx) (x : TrackRef) : TrackRef := { x with toClip := x.toClip.norm c }

theorem TrackRef.rt (h : Linked c d) {x : TrackRef} (ht : TextsOK x.texts) :
    RT (x.write c) (TrackRef.read d) (x.norm c) := by
  unfold TrackRef.write TrackRef.read
  refine RT.bind (Clip.rt h ht) ?_
  rt_steps
  rt_last
  rfl

def PVal.norm (c : WCtx) : PVal → PVal
  | .ref r => .ref (c.tr r)
  | v => v

/-- A value as it is stored where a double is written. -/
def PVal.asDouble : PVal → PVal
  | .int v => .dbl ((F64.ofInt v).getD ⟨0⟩)
  | v => v

/-- A value as it is stored for a type code. -/
def PVal.stored (t : Int) (v : PVal) : PVal := if t = 2 then v.asDouble else v

def PCPProp.norm (x : PCPProp) : PCPProp := { x with value := x.value.stored x.type }

def PCP.norm (c : WCtx) (t : Int) (x : PCP) : PCP :=
  { x with value := (x.value.stored t).norm c, pp := x.pp.map PCPProp.norm }

def ParamClip.norm (c : WCtx) (x : ParamClip) : ParamClip :=
  { x with toClip := x.toClip.norm c, control_points := x.control_points.map (PCP.norm c x.value_type) }

theorem PCPProp.rt (h : Linked c d) {x : PCPProp} : RT (x.write c) (PCPProp.read d) x.norm := by
  unfold PCPProp.write PCPProp.read
  rt_steps
  unfold PCPProp.writeValue PCPProp.readValue
  obtain ⟨code, type, value⟩ := x
  dsimp only
  split
  · next ht =>
    cases value
    case dbl v => exact RT.last (RT.last RT.double rfl) (by simp [PCPProp.norm, PVal.stored, PVal.asDouble])
    case int v => exact RT.last (RT.last RT.doubleInt rfl) (by simp [PCPProp.norm, PVal.stored, PVal.asDouble, ht])
    all_goals exact RT.wfail
  · next ht =>
    split
    · cases value
      case int v => exact RT.last (RT.last (RT.intL h) rfl) (by simp [PCPProp.norm, PVal.stored, ht])
      all_goals exact RT.wfail
    · exact RT.wfail

theorem PCP.rt_value (h : Linked c d) {t : Int} {x : PCP} :
    RT (x.writeValue c t) (PCP.readValue d t) ((x.value.stored t).norm c) := by
  unfold PCP.writeValue PCP.readValue
  obtain ⟨_, _, _, value, _⟩ := x
  dsimp only
  split
  · next ht =>
    cases value
    case int v => exact RT.last (RT.intL h) (by subst ht; rfl)
    all_goals exact RT.wfail
  · split
    · next ht =>
      cases value
      case dbl v => exact RT.last RT.double (by subst ht; rfl)
      case int v => exact RT.last RT.doubleInt (by subst ht; rfl)
      all_goals exact RT.wfail
    · split
      · next ht =>
        cases value
        case ref v => exact RT.last (RT.ref h) (by subst ht; rfl)
        all_goals exact RT.wfail
      · exact RT.wfail

theorem PCP.rt (h : Linked c d) {t : Int} {x : PCP} :
    RT (x.write c t) (PCP.read d t) (x.norm c t) := by
  unfold PCP.write PCP.read
  rt_steps
  refine RT.bind (PCP.rt_value h) ?_
  rt_steps
  exact RT.last (RT.list (by simp) fun _ _ => PCPProp.rt h) rfl

theorem ParamClip.rt (h : Linked c d) {x : ParamClip} (ht : TextsOK x.texts)
    (hv : x.value_type = 1 ∨ x.value_type = 2 ∨ x.value_type = 4) :
    RT (x.write c) (ParamClip.read d) (x.norm c) := by
  unfold ParamClip.write ParamClip.read
  refine RT.bind (Clip.rt h ht) ?_
  rt_steps
  refine RT.bind (RT.list (by simp) fun _ _ => PCP.rt h) ?_
  rt_opt ParamClip extrap_kind id ParamClip.ext
  rt_opt ParamClip fields id ParamClip.ext
  refine RT.ext_done (by starts) ?_
  rt_last
  cases x; simp [ParamClip.norm]

theorem CPProp.rt (h : Linked c d) {x : CPProp} : RT (x.write c) (CPProp.read d) x := by
  unfold CPProp.write CPProp.read
  rt_steps
  rt_last
  rfl

theorem CP.rt (h : Linked c d) {x : CP} : RT (x.write c) (CP.read d) x := by
  unfold CP.write CP.read
  rt_steps
  exact RT.last (RT.list_id (by simp) fun _ _ => CPProp.rt h) rfl

def ControlClip.norm (c : WCtx) (x : ControlClip) : ControlClip :=
  { x with toClip := x.toClip.norm c }

theorem ControlClip.rt (h : Linked c d) {x : ControlClip} (ht : TextsOK x.texts) :
    RT (x.write c) (ControlClip.read d) (x.norm c) := by
  unfold ControlClip.write ControlClip.read
  refine RT.bind (Clip.rt h ht) ?_
  rt_steps
  refine RT.bind (RT.list_id (by simp) fun _ _ => CP.rt h) ?_
  rt_steps
  rt_last
  rfl

def Filler.norm (c : WCtx) (x : Filler) : Filler := { x with toClip := x.toClip.norm c }

theorem Filler.rt (h : Linked c d) {x : Filler} (ht : TextsOK x.texts) :
    RT (x.write c) (Filler.read d) (x.norm c) := by
  unfold Filler.write Filler.read
  refine RT.bind (Clip.rt h ht) ?_
  rt_steps
  rt_last
  rfl

end

end Avb
