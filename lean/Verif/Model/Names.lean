import Verif.Model.BinFind
import Verif.Model.MobID
import Mathlib.Data.Nat.Digits.Defs

/-!
Names for codes: media kinds (src/avb/components.py:95-139), usages and mob types
(src/avb/trackgroups.py:1113-1157); and the constructor of mobs, which takes a mob type by name
(src/avb/trackgroups.py:1038-1056).
-/
namespace Avb

/-- `"%d" % n` (used in src/avb/components.py:115). -/
def decText (n : Int) : Text :=
  (if n < 0 then ['-'] else []) ++
    (if n = 0 then ['0'] else (Nat.digits 10 n.natAbs).reverse.map fun d => Char.ofNat (48 + d))

/-- `Component.media_kind` (src/avb/components.py:95-115) as a function of `media_kind_id`. -/
def mediaKind (media_kind_id : Int) : Option Text :=
  if media_kind_id = 0 then none
  else if media_kind_id = 1 then some "picture".toList
  else if media_kind_id = 2 then some "sound".toList
  else if media_kind_id = 3 then some "timecode".toList
  else if media_kind_id = 4 then some "edgecode".toList
  else if media_kind_id = 5 then some "attribute".toList
  else if media_kind_id = 6 then some "effectdata".toList
  else if media_kind_id = 7 then some "DescriptiveMetadata".toList
  else if media_kind_id = 16 then some "DataEssenceTrack".toList
  else some ("unknown".toList ++ decText media_kind_id)

/-- Assignment to `Component.media_kind` (src/avb/components.py:117-139), giving the new
`media_kind_id`. -/
def setMediaKind (value : Option Text) : Except Err Int :=
  if value = none then .ok 0
  else if value = some "picture".toList then .ok 1
  else if value = some "sound".toList then .ok 2
  else if value = some "timecode".toList then .ok 3
  else if value = some "edgecode".toList then .ok 4
  else if value = some "attribute".toList then .ok 5
  else if value = some "effectdata".toList then .ok 6
  else if value = some "DescriptiveMetadata".toList then .ok 7
  else if value = some "DataEssenceTrack".toList then .ok 16
  else .error .value

/-- `Composition.usage` (src/avb/trackgroups.py:1113-1142) as a function of `usage_code`. -/
def usage (usage_code : Int) : Option Text :=
  if usage_code = 0 then none
  else if usage_code = 1 then some "precompute".toList
  else if usage_code = 2 then some "subclip".toList
  else if usage_code = 3 then some "effect".toList
  else if usage_code = 4 then some "group".toList
  else if usage_code = 5 then some "groupoofter".toList
  else if usage_code = 6 then some "motion".toList
  else if usage_code = 7 then some "mastermob".toList
  else if usage_code = 9 then some "precompute_file".toList
  else some "unknown".toList

/-- The branches on the mob type name in `Composition.__init__` (src/avb/trackgroups.py:1042-1051).  For
another text the message of the `ValueError` cannot be formatted with `%d`, which raises `TypeError`. -/
def mobTypeId (mob_type : Text) : Except Err Int :=
  if mob_type = "CompositionMob".toList then .ok 1
  else if mob_type = "MasterMob".toList then .ok 2
  else if mob_type = "SourceMob".toList then .ok 3
  else .error .type

/-- `Composition.__init__` (src/avb/trackgroups.py:1038-1056) with the constructors it calls
(src/avb/trackgroups.py:100-102, src/avb/components.py:32-36, src/avb/core.py:178-182): the properties of
the new mob, when the new `Attributes` object is `attrs`, `uuid.uuid4()` gives `u` and the time is `now`.
A mob type that is not a text is not modelled. -/
def Composition.create (_name mob_type : Text) (attrs : Ref) (u : UUID) (now : Int) : Except Err Composition := do
  let media_kind_id ← setMediaKind none
  let mob_type_id ← mobTypeId mob_type
  let mob_id ← MobID.new u
  return {
    left_bob := 0, right_bob := 0, media_kind_id, edit_rate := .fin 25, name := some mob_type, effect_id := none
    attributes := attrs, session_attrs := 0, precomputed := 0, param_list := none
    mc_mode := 0, length := 0, num_scalars := 0, tracks := []
    last_modified := now, mob_type_id, usage_code := 0, descriptor := 0, creation_time := some now
    mob_id := some mob_id }

end Avb
