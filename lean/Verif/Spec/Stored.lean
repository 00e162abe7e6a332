import Verif.Model.Obj

/-
The form of objects that saving and loading leaves as it is: what a user has to keep to for an object to
be read back exactly as it was.  Nothing here mentions readers or writers.
-/

namespace Avb

/-- A name or effect id is absent or not empty (an empty one is read back as absent). -/
def Component.Stored (x : Component) : Prop := x.name ≠ some [] ∧ x.effect_id ≠ some []

/-- Every track has a lock number (a missing one is read back as 0). -/
def TrackGroup.Stored (x : TrackGroup) : Prop :=
  x.toComponent.Stored ∧ ∀ t ∈ x.tracks, t.lock_number.isSome

/-- Optional properties stored together are all there or all absent, and boxes have four numbers. -/
def DIDDescriptor.Stored (x : DIDDescriptor) : Prop :=
  (x.client_fill_end.isSome → x.client_fill_start.isSome) ∧
  (x.valid_box.isSome ↔ x.essence_box.isSome) ∧ (x.essence_box.isSome ↔ x.source_box.isSome) ∧
  (x.framing_box.isSome ↔ x.reformatting_option.isSome) ∧
  (x.color_primaries.isSome ↔ x.coding_equations.isSome) ∧
  ∀ b ∈ [x.valid_box, x.essence_box, x.source_box, x.framing_box], ∀ l, b = some l → l.length ≤ 4

/-- Also for the optional properties of this class. -/
def RGBADescriptor.Stored (x : RGBADescriptor) : Prop :=
  x.toDIDDescriptor.Stored ∧
  (x.comp_min_ref.isSome → x.has_comp_min_ref.isSome) ∧
  (x.has_comp_max_ref.isSome → x.has_comp_min_ref.isSome) ∧
  (x.comp_max_ref.isSome → x.has_comp_min_ref.isSome) ∧
  (x.alpha_max_ref.isSome → x.alpha_min_ref.isSome)

/-- A bin has at most six sift settings and is marked large when it has to be. -/
def Bin.Stored (x : Bin) : Prop :=
  x.sifted_settings.length ≤ 6 ∧ (65535 < x.items.length → x.large_bin = true)

/-- The value is not an int (an int stored as a double is read back as a double). -/
def PVal.NotInt (v : PVal) : Prop := ∀ i, v ≠ .int i

/-- Values of parameter clips whose type is double are not ints. -/
def ParamClip.Doubles (x : ParamClip) : Prop :=
  (x.value_type = 2 → ∀ p ∈ x.control_points, p.value.NotInt) ∧
  ∀ p ∈ x.control_points, ∀ q ∈ p.pp, q.type = 2 → q.value.NotInt

/-- The conditions of every class. -/
def Obj.Shape : Obj → Prop
  | .ATTR x => (x.items.map (·.1)).Nodup
  | .ABIN x => x.Stored
  | .BINF x => x.toBin.Stored
  | .SEQU x => x.toComponent.Stored
  | .SCLP x => x.toComponent.Stored
  | .TCCP x => x.toComponent.Stored
  | .ECCP x => x.toComponent.Stored
  | .TRKR x => x.toComponent.Stored
  | .PRCL x => x.toComponent.Stored ∧ x.Doubles
  | .CTRL x => x.toComponent.Stored
  | .FILL x => x.toComponent.Stored
  | .TRKG x => x.Stored
  | .TKFX x => x.toTrackGroup.Stored
  | .PVOL x => x.toTrackGroup.Stored
  | .ASPI x => x.toTrackGroup.Stored
  | .EQMB x => x.toTrackGroup.Stored
  | .MASK x => x.toTrackGroup.Stored
  | .STRB x => x.toTrackGroup.Stored
  | .SPED x => x.toTrackGroup.Stored
  | .REPT x => x.toTrackGroup.Stored
  | .RSET x => x.toTrackGroup.Stored
  | .TNFX x => x.toTrackGroup.Stored
  | .SLCT x => x.toTrackGroup.Stored
  | .CMPO x => x.toTrackGroup.Stored
  | .FXPS x => ∀ p ∈ x.parameters, p.box.length ≤ 4
  | .AVUP x => x.byte_order = 0x4949
  | .PRIT x => x.value_type = 2 → x.value.NotInt
  | .MPGA x => ∀ v, x.sub_frame_alignment = some v → 0 ≤ v ∧ v < 2 ^ 64
  | .DIDD x => x.Stored
  | .CDCI x => x.toDIDDescriptor.Stored
  | .MPGI x => x.toDIDDescriptor.Stored
  | .JPED x => x.toDIDDescriptor.Stored
  | .RGBA x => x.Stored
  | _ => True

end Avb
