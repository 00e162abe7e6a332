import Verif.Spec.Fast
import Verif.Model.FastSave

/-
The integers that the accelerated readers take without sign, by class.
-/

namespace Avb

/-- An integer value of a control point or of a point property. -/
def PVal.ints : PVal → List (Nat × Int)
  | .int v => [(4, v)]
  | _ => []

/-- The integers of a parameter clip's control points. -/
def PCP.ints (c : PCP) : List (Nat × Int) := c.value.ints ++ c.pp.flatMap fun q => q.value.ints

/-- The integers of an object that an accelerated reader takes without sign, each with its number of
bytes. -/
def Obj.unsignedInts : Obj → List (Nat × Int)
  | .SEQU x => [(2, x.media_kind_id)]
  | .FILL x => [(2, x.media_kind_id)]
  | .SCLP x => [(2, x.media_kind_id)]
  | .TRKR x => [(2, x.media_kind_id)]
  | .SLCT x => [(2, x.media_kind_id)]
  | .TKFX x => [(2, x.media_kind_id)]
  | .CMPO x => [(2, x.media_kind_id), (4, x.usage_code)]
  | .PRCL x => (2, x.media_kind_id) :: x.control_points.flatMap PCP.ints
  | .CDCI x => [(4, x.component_width)]
  | _ => []

/-- The integers an accelerated reader takes without sign are not negative. -/
def Obj.NonNeg (o : Obj) : Prop := ∀ q ∈ o.unsignedInts, 0 ≤ q.2

/-- The references of an object in the order in which the dictionary made by an accelerated reader has
them: the tracks of an effect or a composition come last.  All other classes keep their order. -/
def Obj.dictVisits : Obj → List Visit
  | .TKFX x => x.toComponent.visits ++ [.prop x.keyframes] ++ optProp x.trackman ++ x.tracks.flatMap Track.visits
  | .CMPO x => x.toComponent.visits ++ [.prop x.descriptor] ++ x.tracks.flatMap Track.visits
  | o => o.visits

/-- How much longer an object can get when its texts keep their outer NULs: two texts for each attribute
of a dictionary, two for any other object. -/
def Obj.slack : Obj → Nat
  | .ATTR x => 131072 * x.items.length
  | _ => 131072

end Avb
