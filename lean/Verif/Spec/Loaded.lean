import Verif.Lemmas.Resave

/-
What a loaded object has to satisfy to be saved again.  Only properties are mentioned, no bytes.
-/

namespace Avb

/-- The rate is a number whose whole part has 32 bits. -/
def RateFits (r : Rate) : Prop := ∃ q : Rat, r = .fin q ∧ -2147483649 < q ∧ q < 2147483648

/-- The number of bytes of a text in UTF-8. -/
def utf8Bytes (t : Text) : Nat := (t.map fun c => (String.utf8EncodeChar c).length).sum

/-- The conditions on an object's rates, its UTF-8 texts and, for some classes, on single properties. -/
def Obj.Resavable (o : Obj) : Prop :=
  (∀ r ∈ o.rates, RateFits r) ∧ (∀ t, (Enc.utf8, t) ∈ o.texts → utf8Bytes t ≤ 65533) ∧
  match o with
  | .SCLP x => x.mob_id.isSome
  | .CMPO x => x.mob_id.isSome
  | .MSML x => x.mob_id.isSome
  | .APOS x => x.mob_id.isSome
  | .ABOB x => x.mob_id.isSome
  | .DIDP x => x.mob_id.isSome
  | .MPGP x => x.mob_id.isSome ∧ x.fields.length ≤ 16383
  | .MCMR x => x.mob_id.isSome
  | .TMBC x => x.mob_id.isSome
  | .MCBR x => x.name_utf8.isSome
  | .ASPI x => ∀ m, x.mob_id = some m → m.bytes[19]! < 128 ∧ m.bytes[23]! < 128
  | .MPGA x => ∀ v, x.sub_frame_alignment = some v → v < 2 ^ 63
  | .BVst x => ∀ l, x.format_descriptors = some l → ∀ f ∈ l, utf8Bytes f.format_descriptor ≤ 32765
  | _ => True

/-- Every track has a lock number. -/
def Obj.Locked (o : Obj) : Prop :=
  match o with
  | .TRKG x => ∀ t ∈ x.tracks, t.lock_number.isSome
  | .TKFX x => ∀ t ∈ x.tracks, t.lock_number.isSome
  | .PVOL x => ∀ t ∈ x.tracks, t.lock_number.isSome
  | .ASPI x => ∀ t ∈ x.tracks, t.lock_number.isSome
  | .EQMB x => ∀ t ∈ x.tracks, t.lock_number.isSome
  | .MASK x => ∀ t ∈ x.tracks, t.lock_number.isSome
  | .STRB x => ∀ t ∈ x.tracks, t.lock_number.isSome
  | .SPED x => ∀ t ∈ x.tracks, t.lock_number.isSome
  | .REPT x => ∀ t ∈ x.tracks, t.lock_number.isSome
  | .RSET x => ∀ t ∈ x.tracks, t.lock_number.isSome
  | .TNFX x => ∀ t ∈ x.tracks, t.lock_number.isSome
  | .SLCT x => ∀ t ∈ x.tracks, t.lock_number.isSome
  | .CMPO x => ∀ t ∈ x.tracks, t.lock_number.isSome
  | _ => True

end Avb
