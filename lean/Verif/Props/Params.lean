import Verif.Lemmas.Params
import Verif.Lemmas.LoadedMisc
import Verif.Props.File
import Verif.Props.Repr
import Verif.Props.Resolve
import Verif.Props.FastSave

/-
C72: names of parameters, names of the types of their values, media kinds of tracks.
-/

namespace Avb
namespace Params

open Print (uuidText)

/-! ### names of parameters -/

/-- C72: every row of the table is the row of exactly one uuid, and a parameter with this uuid has its name. -/
theorem C72_named {p : String × String} (hp : p ∈ parameterUuids) :
    ∃ u, (∀ v, uuidText v = p.1.toList ↔ v = u) ∧ ∀ x : ParameterItem, x.uuid = u → parameterName x = p.2.toList := by
  obtain ⟨u, hu⟩ := table_keys p hp
  refine ⟨u, fun v => ⟨fun h => uuidText_inj (h.trans hu.symm), fun h => h ▸ hu⟩, ?_⟩
  rintro x rfl
  unfold parameterName
  cases hf : parameterUuids.find? fun p => decide (p.1.toList = uuidText x.uuid) with
  | none => exact absurd (List.find?_eq_none.1 hf p hp) (by simp [hu])
  | some q =>
    have h1 := List.find?_some hf
    have h2 : q.1.toList = uuidText x.uuid := of_decide_eq_true h1
    have : q = p := table_unique (List.mem_of_find?_eq_some hf) hp (String.toList_injective (h2.trans hu))
    rw [this]

/-- C72: a parameter whose uuid is in no row has the text of its uuid as name. -/
theorem C72_unnamed {x : ParameterItem} (h : ∀ p ∈ parameterUuids, p.1.toList ≠ uuidText x.uuid) :
    parameterName x = uuidText x.uuid := by
  unfold parameterName
  rw [List.find?_eq_none.2 fun p hp => by simpa using h p hp]

/-- C72: the name is the text of a uuid exactly if the uuid is in no row of the table, and then it is the text
of this uuid and of no other. -/
theorem C72_tells (x : ParameterItem) (u : UUID) :
    parameterName x = uuidText u ↔ u = x.uuid ∧ ∀ p ∈ parameterUuids, p.1.toList ≠ uuidText x.uuid := by
  constructor
  · intro h
    have hn : ∀ p ∈ parameterUuids, p.1.toList ≠ uuidText x.uuid := by
      intro p hp he
      obtain ⟨v, h1, h2⟩ := C72_named hp
      rw [h2 x ((h1 x.uuid).1 he.symm)] at h
      exact table_names p hp u h.symm
    rw [C72_unnamed hn] at h
    exact ⟨(uuidText_inj h).symm, hn⟩
  · rintro ⟨rfl, h⟩
    exact C72_unnamed h

/-! ### types of values -/

/-- What the name of a type says of a value. -/
def OfType (n : Text) (v : PVal) : Prop :=
  (n = "int".toList ∧ ∃ i : Int, v = .int i ∧ -2 ^ 31 ≤ i ∧ i < 2 ^ 31) ∨ (n = "double".toList ∧ ∃ d, v = .dbl d) ∨
  (n = "reference".toList ∧ ∃ r, v = .ref r)

theorem readValue_type {d : RCtx} {t : Int} : Post (ParameterItem.readValue d t) fun v =>
    ∀ x : ParameterItem, x.value_type = t → x.value = v → OfType (valueTypeName x) x.value := by
  unfold ParameterItem.readValue
  refine Post.ifP (fun h => ?_) fun h1 => Post.ifP (fun h => ?_) fun h2 => Post.ifP (fun h => ?_)
    fun _ => Post.fail
  · refine Post.bindP (Post.int .s32) fun v hv => Post.pure ?_
    rintro x hx hy
    rw [hy, valueTypeName, hx, if_pos h]
    have h1 : (-2147483648 : Int) ≤ v := hv.1
    have h2 : v ≤ (2147483647 : Int) := hv.2
    exact .inl ⟨rfl, v, rfl, by omega, by omega⟩
  · refine Post.bindP Post.all fun v _ => Post.pure ?_
    rintro x hx hy
    rw [hy, valueTypeName, hx, if_neg h1, if_pos h]
    exact .inr (.inl ⟨rfl, v, rfl⟩)
  · refine Post.bindP Post.all fun v _ => Post.pure ?_
    rintro x hx hy
    rw [hy, valueTypeName, hx, if_neg h1, if_neg h2, if_pos h]
    exact .inr (.inr ⟨rfl, v, rfl⟩)

theorem read_type {d : RCtx} : Post (ParameterItem.read d) fun x => OfType (valueTypeName x) x.value := by
  unfold ParameterItem.read
  walk
  refine Post.bindP readValue_type fun value hv => ?_
  rename_i uuid _ value_type _
  walk
  rename_i name _ enable _ control_track _
  refine Post.bindP (Post.iterExt (P := fun s => ∃ o, s =
    { uuid, value_type, value, name, enable, control_track, contribs_to_sig := o }) ?_ ⟨_, rfl⟩) ?_
  · rintro t _ ⟨o, rfl⟩
    unfold ParameterItem.ext
    refine Post.ite ?_ Post.fail
    walk
    exact Post.pure ⟨_, rfl⟩
  · rintro _ ⟨o, rfl⟩
    walk
    exact Post.pure (hv _ rfl rfl)

/-- C72: a parameter of any file has a value of the type that is named. -/
theorem C72_type {f : AvbFile} {r : Ref} {x : ParameterItem} (h : readObject f r = .ok (some (.PRIT x))) :
    OfType (valueTypeName x) x.value := by
  obtain ⟨payload, hc⟩ := Fast.readObject_chunk h
  obtain ⟨a, h1, h2⟩ := Fast.as_ok (r := ParameterItem.read f.ctx) (g := Obj.PRIT) ((C47_accepted (k := .PRIT) hc _).1 h)
  cases h2
  exact read_type _ _ _ h1

/-- C72: after a save, in either byte order, every parameter has the name it had, and the type of its value the
name it had. -/
theorem C72_saved {h : Heap} {fuel : Nat} {bo : BO} {hd : HeaderInfo} {content : Ref}
    {bytes : Bytes} (hh : HeapOK h) (hinj : IidInj h content) (ht : TextOK .macroman hd.last_save_str)
    (hread : ∀ a e, Reach h content a → h a = .ok e → e.obj.Readable)
    (hs : save h fuel bo hd content = .ok bytes) :
    ∃ f num, openTable bytes = .ok f ∧ SameGraph h content f num ∧
      ∀ a e x, Reach h content a → h a = .ok e → e.obj = .PRIT x → ∃ y, readObject f (num a) = .ok (some (.PRIT y)) ∧
        parameterName y = parameterName x ∧ valueTypeName y = valueTypeName x ∧ OfType (valueTypeName x) y.value := by
  obtain ⟨f, num, h1, _, h2, _⟩ := C12_save_open hh hinj ht hread hs
  refine ⟨f, num, h1, h2, fun a e x ha he hx => ?_⟩
  have h3 := h2.same a e ha he
  rw [hx] at h3
  exact ⟨_, h3, rfl, rfl, C72_type h3⟩

/-! ### media kinds of tracks -/

/-- C72: a track is the one a clip means exactly if it has the index the clip names, and a component, and the
media kind of the clip. -/
theorem C72_track (deref : Ref → Except Err (Option Obj)) (c : SourceClip) (t : Track) :
    Resolve.Fits deref c t ↔ t.index = some c.track_id ∧ (∃ r, t.component = some r ∧ deref r ≠ .error .attribute) ∧
      trackMediaKind deref t = .ok (mediaKind c.media_kind_id) := by
  unfold Resolve.Fits trackMediaKind
  refine and_congr_right fun _ => ?_
  cases hc : t.component with
  | none => simp
  | some r =>
    dsimp only
    cases hd : deref r with
    | error e => by_cases he : e = .attribute <;> simp [he, hd]
    | ok o =>
      cases o with
      | none => simp [hd]
      | some o =>
        have one : (∃ r' o', some r = some r' ∧ deref r' = .ok (some o') ∧ Resolve.entries o' = none ∧
            Resolve.code o' = c.media_kind_id) ↔ Resolve.entries o = none ∧ Resolve.code o = c.media_kind_id := by
          constructor
          · rintro ⟨r', o', h0, h1, h2⟩
            cases h0
            rw [hd] at h1
            cases h1
            exact h2
          · exact fun h => ⟨r, o, rfl, hd, h⟩
        rw [one]
        have has : ∃ r', some r = some r' ∧ deref r' ≠ .error .attribute := ⟨r, rfl, by rw [hd]; exact nofun⟩
        simp only [has, true_and]
        rcases Resolve.kind_cases o with ⟨h1, h2, h3⟩ | ⟨h1, h2, h3⟩ | ⟨n, h1, h2, h3⟩
        · rw [h3, h1, Except.ok.injEq, eq_comm (a := Resolve.kindOf o), Resolve.kindOf_eq, eq_comm (a := c.media_kind_id)]
          simp
        · rw [h1, h3]
          simp
        · rw [h1, h3]
          simp

/-- C72: the track found by `clip.track` has the media kind of the clip. -/
theorem C72_found {deref : Ref → Except Err (Option Obj)} {c : SourceClip} {ts : List Track} {t : Track}
    (h : Resolve.searchTracks deref c ts = .ok (some t)) :
    t ∈ ts ∧ t.index = some c.track_id ∧ trackMediaKind deref t = .ok (mediaKind c.media_kind_id) := by
  obtain ⟨b, a, rfl, _, hf⟩ := (Resolve.C59_search ..).1 h
  obtain ⟨h1, _, h2⟩ := (C72_track ..).1 hf
  exact ⟨by simp, h1, h2⟩

/-! ### examples -/

/-- The uuid in the first row of the table. -/
def exUuid : UUID := ⟨[0x00, 0x82, 0xb8, 0x59, 0x87, 0xf0, 0x42, 0x6d, 0x85, 0xde, 0xff, 0x14, 0xe5, 0xc9, 0x08, 0x0b], rfl⟩

/-- A parameter with a given uuid and the value of a given type. -/
def exParam (u : UUID) (type : Int) (v : PVal) : ParameterItem := ⟨u, type, v, "p".toList, true, 0, none⟩

theorem exRow : ("0082b859-87f0-426d-85de-ff14e5c9080b", "Blue") ∈ parameterUuids :=
  List.mem_of_getElem? (i := 0) rfl

theorem exText : uuidText exUuid = "0082b859-87f0-426d-85de-ff14e5c9080b".toList := by decide +kernel

/-- The first row. -/
example (type : Int) (v : PVal) : parameterName (exParam exUuid type v) = "Blue".toList := by
  obtain ⟨u, h1, h2⟩ := C72_named exRow
  exact h2 _ ((h1 exUuid).1 exText)

/-- A uuid that is in no row. -/
theorem exFree : ∀ p ∈ parameterUuids, p.1.toList ≠ uuidText ⟨List.replicate 16 7, rfl⟩ := by
  intro p hp h
  have h1 : p.1 ∈ parameterUuids.map Prod.fst := List.mem_map_of_mem hp
  rw [keys_all] at h1
  obtain ⟨v, hv, h1⟩ := List.mem_map.1 h1
  rw [← h1, keyText_eq] at h
  have h2 := congrArg UUID.bytes (uuidText_inj h)
  have h3 : unpackNat .big (packNat .big 16 v) = unpackNat .big (List.replicate 16 7) := congrArg _ h2
  rw [unpackNat_packNat, Nat.mod_eq_of_lt (by have := numbers_lt v hv; omega)] at h3
  have h4 : (numbers.all fun v => v != 0x07070707070707070707070707070707) = true := by decide +kernel
  have h5 : unpackNat .big (List.replicate 16 7) = 0x07070707070707070707070707070707 := by decide +kernel
  have h6 := List.all_eq_true.1 h4 v hv
  rw [h3, h5] at h6
  simp at h6

example (type : Int) (v : PVal) : parameterName (exParam ⟨List.replicate 16 7, rfl⟩ type v) =
    "07070707-0707-0707-0707-070707070707".toList := by
  rw [C72_unnamed (x := exParam ⟨List.replicate 16 7, rfl⟩ type v) exFree]
  show uuidText ⟨List.replicate 16 7, rfl⟩ = _
  decide +kernel

example (type : Int) (v : PVal) (u : UUID) :
    parameterName (exParam ⟨List.replicate 16 7, rfl⟩ type v) = uuidText u ↔ u = ⟨List.replicate 16 7, rfl⟩ := by
  rw [C72_tells]
  exact and_iff_left exFree

/-- A parameter "Blue" that refers to a parameter that is not in the table. -/
def exHeap : Heap := fun r =>
  if r = 1 then .ok ⟨11, true, .PRIT (exParam exUuid 4 (.ref 2)), (Obj.PRIT (exParam exUuid 4 (.ref 2))).visits⟩
  else if r = 2 then .ok ⟨12, true, .PRIT (exParam ⟨List.replicate 16 7, rfl⟩ 1 (.int (-5))),
    (Obj.PRIT (exParam ⟨List.replicate 16 7, rfl⟩ 1 (.int (-5)))).visits⟩
  else .error .index

theorem exHeap_cases {r : Ref} {e : Entry} (h : exHeap r = .ok e) :
    (r = 1 ∧ e = ⟨11, true, .PRIT (exParam exUuid 4 (.ref 2)), (Obj.PRIT (exParam exUuid 4 (.ref 2))).visits⟩) ∨
    (r = 2 ∧ e = ⟨12, true, .PRIT (exParam ⟨List.replicate 16 7, rfl⟩ 1 (.int (-5))),
      (Obj.PRIT (exParam ⟨List.replicate 16 7, rfl⟩ 1 (.int (-5)))).visits⟩) := by
  unfold exHeap at h
  split at h
  · injection h with h; exact .inl ⟨by assumption, h.symm⟩
  · split at h
    · injection h with h; exact .inr ⟨by assumption, h.symm⟩
    · cases h

/-- The names in the saved file. -/
example (bo : BO) : ∃ (bytes : Bytes) (f : AvbFile) (num : Ref → Nat) (y : ParameterItem),
    save exHeap 10 bo exInfo 1 = .ok bytes ∧ openTable bytes = .ok f ∧
    readObject f (num 1) = .ok (some (.PRIT y)) ∧ parameterName y = "Blue".toList ∧
    valueTypeName y = "reference".toList ∧ ∃ r, y.value = .ref r := by
  obtain ⟨bytes, hs⟩ : ∃ bytes, save exHeap 10 bo exInfo 1 = .ok bytes := by
    have : ∀ x : Except Err Bytes, x.isOk = true → ∃ b, x = .ok b := by
      intro x hx; cases x with
      | ok b => exact ⟨b, rfl⟩
      | error e => cases hx
    apply this
    cases bo <;> decide +kernel
  obtain ⟨f, num, h1, h2, h3⟩ := C72_saved (h := exHeap)
    (fun r e he v => by rcases exHeap_cases he with ⟨rfl, rfl⟩ | ⟨rfl, rfl⟩ <;> rfl)
    (fun a b ea eb _ _ ha hb hab => by
      rcases exHeap_cases ha with ⟨rfl, rfl⟩ | ⟨rfl, rfl⟩ <;> rcases exHeap_cases hb with ⟨rfl, rfl⟩ | ⟨rfl, rfl⟩ <;>
        first | rfl | (simp at hab)) exInfo_ok
    (fun a e _ he => by
      rcases exHeap_cases he with ⟨rfl, rfl⟩ | ⟨rfl, rfl⟩ <;> exact textsOK_short (by decide)) hs
  obtain ⟨y, h4, h5, h6, h7⟩ := h3 1 _ (exParam exUuid 4 (.ref 2)) ⟨by decide, .refl⟩ rfl rfl
  refine ⟨bytes, f, num, y, hs, h1, h4, ?_, h6, ?_⟩
  · obtain ⟨u, k1, k2⟩ := C72_named exRow
    rw [h5]
    exact k2 _ ((k1 exUuid).1 exText)
  · rcases h7 with ⟨h7, _⟩ | ⟨h7, _⟩ | ⟨_, h7⟩
    · exact absurd h7 (by decide)
    · exact absurd h7 (by decide)
    · exact h7

/-- The value of a parameter in a file. -/
example : ∃ f x, openTable Print.exNested = .ok f ∧ readObject f 2 = .ok (some (.PRIT x)) ∧ x.value = .ref 1 ∧
    OfType (valueTypeName x) x.value ∧ valueTypeName x = "reference".toList := by
  obtain ⟨f, hf, h⟩ := Print.exOpen (bytes := Print.exNested) (p := fun f => Print.isItem f 2 (.ref 1)) (by decide +kernel)
  obtain ⟨x, hx, hv⟩ := Print.isItem_iff h
  have ht := C72_type hx
  refine ⟨f, x, hf, hx, hv, ht, ?_⟩
  rcases ht with ⟨_, i, h, _⟩ | ⟨_, d, h⟩ | ⟨h, _⟩
  · rw [hv] at h; cases h
  · rw [hv] at h; cases h
  · exact h

/-- The sound track of a mob with picture and sound. -/
example : Resolve.Fits Resolve.exDeref Resolve.exRefClip (Resolve.exTrack 2 2) ∧
    ¬ Resolve.Fits Resolve.exDeref Resolve.exRefClip (Resolve.exTrack 2 1) ∧
    trackMediaKind Resolve.exDeref (Resolve.exTrack 2 1) = .ok (some "picture".toList) ∧
    trackMediaKind Resolve.exDeref (Resolve.exTrack 2 0) = .error .attribute ∧
    trackMediaKind Resolve.exDeref (Resolve.exTrack 2 3) = .error .value ∧
    trackMediaKind Resolve.exDeref { Resolve.exTrack 2 3 with component := none } = .ok none := by
  refine ⟨(C72_track ..).2 ⟨rfl, ⟨2, rfl, nofun⟩, by decide⟩, fun h => ?_, by decide, by decide, by decide, by decide⟩
  exact absurd ((C72_track ..).1 h).2.2 (by decide)

example : Resolve.searchTracks Resolve.exDeref Resolve.exRefClip [Resolve.exTrack 1 2, Resolve.exTrack 2 1, Resolve.exTrack 2 2] =
    .ok (some (Resolve.exTrack 2 2)) ∧
    trackMediaKind Resolve.exDeref (Resolve.exTrack 2 2) = .ok (mediaKind Resolve.exRefClip.media_kind_id) := by
  have h : Resolve.searchTracks Resolve.exDeref Resolve.exRefClip
    [Resolve.exTrack 1 2, Resolve.exTrack 2 1, Resolve.exTrack 2 2] = .ok (some (Resolve.exTrack 2 2)) := by decide
  exact ⟨h, (C72_found h).2.2⟩

end Params
end Avb
