import Verif.Model.Obj
import Verif.Model.Names
import Verif.Model.BinFind

/-! The mob and the track that a source clip refers to. -/

namespace Avb.Resolve

/-- `media_kind` of an object: a property of components (src/avb/components.py:95-115), `None` for all
others (src/avb/core.py:244-246). -/
def kindOf : Obj → Option Text
  | .SEQU x => mediaKind x.media_kind_id
  | .SCLP x => mediaKind x.media_kind_id
  | .TCCP x => mediaKind x.media_kind_id
  | .ECCP x => mediaKind x.media_kind_id
  | .TRKR x => mediaKind x.media_kind_id
  | .PRCL x => mediaKind x.media_kind_id
  | .CTRL x => mediaKind x.media_kind_id
  | .FILL x => mediaKind x.media_kind_id
  | .TRKG x => mediaKind x.media_kind_id
  | .TKFX x => mediaKind x.media_kind_id
  | .PVOL x => mediaKind x.media_kind_id
  | .ASPI x => mediaKind x.media_kind_id
  | .EQMB x => mediaKind x.media_kind_id
  | .MASK x => mediaKind x.media_kind_id
  | .STRB x => mediaKind x.media_kind_id
  | .SPED x => mediaKind x.media_kind_id
  | .REPT x => mediaKind x.media_kind_id
  | .RSET x => mediaKind x.media_kind_id
  | .TNFX x => mediaKind x.media_kind_id
  | .SLCT x => mediaKind x.media_kind_id
  | .CMPO x => mediaKind x.media_kind_id
  | _ => none

/-- Whether an object counts as true: attribute sets and lists of references do unless they are empty
(src/avb/core.py:35, 53, src/avb/attributes.py:21, 132, 160), all others always. -/
def truth : Obj → Bool
  | .ATTR x => !x.items.isEmpty
  | .PRLS x => !x.items.isEmpty
  | .TMCS x => !x.items.isEmpty
  | _ => true

/-- `o.media_kind`: attribute sets and lists of references have no such property
(src/avb/core.py:35, 53, 244-246). -/
def mediaKindOf : Obj → Except Err (Option Text)
  | .ATTR _ => .error .attribute
  | .PRLS _ => .error .attribute
  | .TMCS _ => .error .attribute
  | o => .ok (kindOf o)

/-- The loop of `SourceClip.track` over the tracks of the mob (src/avb/components.py:325-327).  `deref` is
the lookup of a component, which may raise; a track without index or component raises `AttributeError` when
it is asked for them (src/avb/core.py:208-213). -/
def searchTracks (deref : Ref → Except Err (Option Obj)) (c : SourceClip) :
    List Track → Except Err (Option Track)
  | [] => .ok none
  | t :: ts =>
    match t.index with
    | none => .error .attribute
    | some index =>
      if index = c.track_id then
        match t.component with
        | none => .error .attribute
        | some r =>
          match deref r with
          | .error e => .error e
          | .ok none => searchTracks deref c ts
          | .ok (some o) =>
            if truth o then
              match mediaKindOf o with
              | .error e => .error e
              | .ok k => if mediaKind c.media_kind_id = k then .ok (some t) else searchTracks deref c ts
            else searchTracks deref c ts
      else searchTracks deref c ts

/-- `SourceClip.mob` (src/avb/components.py:315-319), with the bin it changes. -/
def mob (s : BinFind.St) (c : SourceClip) : Except Err (Option Nat) × BinFind.St :=
  match c.mob_id with
  | none => (.ok none, s)
  | some mob_id => BinFind.find s mob_id

/-- `SourceClip.track` (src/avb/components.py:322-327). -/
def track (deref : Ref → Except Err (Option Obj)) (s : BinFind.St) (c : SourceClip) :
    Except Err (Option (Nat × Track)) × BinFind.St :=
  match mob s c with
  | (.error e, s) => (.error e, s)
  | (.ok none, s) => (.ok none, s)
  | (.ok (some m), s) =>
    match searchTracks deref c (s.mobs m).tracks with
    | .error e => (.error e, s)
    | .ok none => (.ok none, s)
    | .ok (some t) => (.ok (some (m, t)), s)

end Avb.Resolve
