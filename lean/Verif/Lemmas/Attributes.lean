import Verif.Model.Attributes
import Verif.Lemmas.Essence

/-
Round trips of src/avb/attributes.py.
-/

namespace Avb

section
variable {F : Bytes → Prop} {α : Type} {c : WCtx} {d : RCtx}

/-- An attribute value after saving and loading. -/
def AttrVal.norm (c : WCtx) : AttrVal → AttrVal
  | .int v => .int v
  | .str v => .str (stripText v)
  | .obj v => .obj (c.tr v)
  | .bob v => .bob v
  | .raw v => .raw v

/-- One attribute after saving and loading. -/
def Attributes.normItem (c : WCtx) (p : Text × AttrVal) : Text × AttrVal :=
  (stripText p.1, p.2.norm c)

/-- Attributes after saving and loading: names that become equal overwrite each other. -/
def Attributes.norm (c : WCtx) (x : Attributes) : Attributes :=
  { items := (x.items.map (Attributes.normItem c)).foldl (fun l p => dictSet l p.1 p.2) [] }

/-- The texts of an attribute value. -/
def AttrVal.texts : AttrVal → List (Enc × Text)
  | .str v => [(.macroman, v)]
  | _ => []

/-- The texts of an attribute dictionary. -/
def Attributes.texts (x : Attributes) : List (Enc × Text) :=
  x.items.flatMap fun p => (.macroman, p.1) :: p.2.texts

theorem Attributes.rt_item (h : Linked c d) {p : Text × AttrVal}
    (ht : TextsOK ((.macroman, p.1) :: p.2.texts)) :
    RT (Attributes.writeItem c p) (Attributes.readItem d) (Attributes.normItem c p) := by
  obtain ⟨k, v⟩ := p
  have hk : TextOK .macroman k := ht (.macroman, k) (by simp)
  unfold Attributes.writeItem Attributes.readItem
  cases v with
  | int v =>
    rt_steps
    simp only [Int.reduceEq, if_true, if_false]
    rt_steps
    rt_last
    rfl
  | str v =>
    have hv : TextOK .macroman v := ht (.macroman, v) (by simp [AttrVal.texts])
    rt_steps
    simp only [Int.reduceEq, if_true, if_false]
    rt_steps
    rt_last
    rfl
  | obj v =>
    rt_steps
    simp only [Int.reduceEq, if_true, if_false]
    rt_steps
    rt_last
    rfl
  | bob v =>
    rt_steps
    simp only [Int.reduceEq, if_true, if_false]
    rt_steps
    rt_last
    rfl
  | raw v => exact RT.wfail

theorem Attributes.rt (h : Linked c d) {x : Attributes} (ht : TextsOK x.texts) :
    RT (x.write c) (Attributes.read d) (x.norm c) := by
  unfold Attributes.write Attributes.read
  rt_steps
  refine RT.bind (RT.list (by simp) fun p hp => Attributes.rt_item h ?_) ?_
  · intro q hq
    exact ht q (List.mem_flatMap.2 ⟨p, hp, hq⟩)
  rt_last
  rfl

/-- What is read back for a parameter list. -/
def ParameterList.norm (c : WCtx) (x : ParameterList) : ParameterList :=
  { items := x.items.map c.tr }

theorem ParameterList.rt (h : Linked c d) {x : ParameterList} :
    RT (x.write c) (ParameterList.read d) (x.norm c) := by
  unfold ParameterList.write ParameterList.read
  rt_steps
  rt_last
  rfl

/-- What is read back for a time crumb list. -/
def TimeCrumbList.norm (c : WCtx) (x : TimeCrumbList) : TimeCrumbList :=
  { items := x.items.map c.tr }

theorem TimeCrumbList.rt (h : Linked c d) {x : TimeCrumbList} :
    RT (x.write c) (TimeCrumbList.read d) (x.norm c) := by
  unfold TimeCrumbList.write TimeCrumbList.read
  rt_steps
  rt_last
  rfl

end

end Avb
