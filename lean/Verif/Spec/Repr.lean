import Verif.Model.File
import Mathlib.Logic.Relation

/-! What printing an object depends on. -/

namespace Avb.Print

variable (get : Ref → Except Err (Option Obj))

/-- The value of the parameter item `r` is a reference to `s`. -/
def ValueOf (r s : Ref) : Prop := ∃ x, get r = .ok (some (.PRIT x)) ∧ x.value = .ref s

/-- `s` is an entry of the attributes `r`. -/
def EntryOf (r s : Ref) : Prop := ∃ a k, get r = .ok (some (.ATTR a)) ∧ (k, AttrVal.obj s) ∈ a.items

/-- `s` is printed inside of `r`. -/
def Shows (r s : Ref) : Prop := ValueOf get r s ∨ EntryOf get r s

/-- `s` is printed somewhere inside of `r`, or is `r`. -/
def Inside (r s : Ref) : Prop := Relation.ReflTransGen (Shows get) r s

/-- Parameter items that refer to each other as values without end. -/
def Endless (r : Ref) : Prop := ∃ g : Nat → Ref, g 0 = r ∧ ∀ i, ValueOf get (g i) (g (i + 1))

/-- A composition whose type is not one of the three that have a name. -/
def Untyped (r : Ref) : Prop :=
  ∃ x : Composition, get r = .ok (some (.CMPO x)) ∧ ¬ (x.mob_type_id = 1 ∨ x.mob_type_id = 2 ∨ x.mob_type_id = 3)

/-- The references of a list with a class id. -/
def ListItem (r i : Ref) : Prop :=
  (∃ x, get r = .ok (some (.PRLS x)) ∧ i ∈ x.items) ∨ ∃ x, get r = .ok (some (.TMCS x)) ∧ i ∈ x.items

end Avb.Print
