import Verif.Lemmas.Repr
import Verif.Spec.Classes
import Verif.Props.Reach
import Verif.Props.Examples

/-
C71: printing objects of a file.
-/

namespace Avb
namespace Print

/-! ### in an opened file -/

theorem read_lt {f : AvbFile} (r : Ref) (o : Obj) (h : readObject f r = .ok (some o)) : r < f.positions.length := by
  by_contra hn
  by_cases h0 : r = 0
  · subst h0; simp [readObject] at h
  · rw [(C47_index f).2 r (Nat.le_of_not_lt hn) h0] at h
    cases h

theorem read_ne_recursion {f : AvbFile} (r : Ref) : readObject f r ≠ .error .recursion := by
  intro h
  rcases C64_read h with ⟨h, _⟩ | ⟨h | h, _⟩ | ⟨h, _⟩ | ⟨k, p, _, h⟩
  · cases h
  · cases h
  · cases h
  · cases h
  · simp [DamageOf] at h

theorem refText_ok {bytes : Bytes} {f : AvbFile} (ho : openTable bytes = .ok f) (fmt : Fmt) (i : Ref) :
    ∃ t, refText fmt f i = .ok t := by
  unfold refText
  split
  · next h =>
    obtain ⟨cks, h1, -⟩ := C56_chunks ho
    obtain ⟨ck, -, h2⟩ := mapM_get h1 i i (by rw [List.getElem?_range h.2])
    exact ⟨_, by rw [h2]; rfl⟩
  · exact ⟨_, rfl⟩

theorem refText_no_error {bytes : Bytes} {f : AvbFile} (ho : openTable bytes = .ok f) (fmt : Fmt) (i : Ref) (e : Err) :
    refText fmt f i ≠ .error e := by
  obtain ⟨t, h⟩ := refText_ok ho fmt i
  rw [h]; exact nofun

/-- C71: an object of an opened file can be printed, with enough nested calls, if and only if everything
printed inside of it can be loaded, no composition in it has a type without a name, and no values of
parameters refer to each other without end.  The text is then the same however many calls are allowed. -/
theorem C71_prints {bytes : Bytes} {f : AvbFile} (ho : openTable bytes = .ok f) (fmt : Fmt) (r : Ref) :
    (∃ t depth, ∀ n, depth ≤ n → printFile fmt f n r = .ok t) ↔
      ∀ s, Inside (readObject f) r s →
        (∃ o, readObject f s = .ok o) ∧ ¬ Untyped (readObject f) s ∧ ¬ Endless (readObject f) s := by
  constructor
  · rintro ⟨t, n, h⟩ s hs
    have h' := h n (Nat.le_refl n)
    have h1 := ok_fine (by simp) h' s (clear_nil.2 hs)
    exact ⟨h1.1, h1.2.1, ok_ended (by simp) h' s (clear_nil.2 hs)⟩
  · intro h
    obtain ⟨n, hn⟩ := enough (fmt := fmt) (rt := refText fmt f) read_lt read_ne_recursion
      (fun i => refText_no_error ho fmt i _) _ [] r List.nodup_nil (by simp) rfl fun s hs => (h s hs).2.2
    rcases hp : print fmt (readObject f) (refText fmt f) n [] r with e | t
    · exfalso
      rcases print_why hp with rfl | ⟨s, hs, he | ⟨-, hu⟩ | ⟨i, -, hi⟩⟩
      · exact hn hp
      · obtain ⟨o, ho⟩ := (h s hs).1
        rw [ho] at he; cases he
      · exact (h s hs).2.1 hu
      · exact refText_no_error ho fmt i e hi
    · exact ⟨t, n, fun m hm => (print_stable hm hn).trans hp⟩

/-- C71: if printing raises then the nested calls were not enough, or something printed inside cannot be
loaded, and this is the exception, or it is the `ValueError` for a composition of another type. -/
theorem C71_raises {bytes : Bytes} {f : AvbFile} (ho : openTable bytes = .ok f) {fmt : Fmt} {n : Nat} {r : Ref}
    {e : Err} (h : printFile fmt f n r = .error e) :
    e = .recursion ∨ ∃ s, Inside (readObject f) r s ∧
      (readObject f s = .error e ∨ (e = .value ∧ Untyped (readObject f) s)) := by
  refine (print_why h).imp id ?_
  rintro ⟨s, hs, he | hu | ⟨i, -, hi⟩⟩
  · exact ⟨s, hs, .inl he⟩
  · exact ⟨s, hs, .inr hu⟩
  · exact absurd hi (refText_no_error ho fmt i e)

/-- C71: where everything inside loads and has a type, printing raises `RecursionError` however many calls
are allowed if and only if there are values without end inside. -/
theorem C71_endless {bytes : Bytes} {f : AvbFile} (ho : openTable bytes = .ok f) {fmt : Fmt} {r : Ref}
    (hl : ∀ s, Inside (readObject f) r s → (∃ o, readObject f s = .ok o) ∧ ¬ Untyped (readObject f) s) :
    (∀ n, printFile fmt f n r = .error .recursion) ↔
      ∃ s, Inside (readObject f) r s ∧ Endless (readObject f) s := by
  constructor
  · intro h
    by_contra hc
    obtain ⟨t, n, hn⟩ := (C71_prints ho fmt r).2 fun s hs => ⟨(hl s hs).1, (hl s hs).2, fun he => hc ⟨s, hs, he⟩⟩
    have := hn n (Nat.le_refl n)
    rw [h n] at this
    cases this
  · rintro ⟨s, hs, he⟩ n
    rcases hp : printFile fmt f n r with e | t
    · rcases C71_raises ho hp with rfl | ⟨q, hq, hqe | ⟨-, hu⟩⟩
      · rfl
      · obtain ⟨o, ho⟩ := (hl q hq).1
        rw [ho] at hqe; cases hqe
      · exact absurd hu (hl q hq).2
    · exact absurd he (ok_ended (by simp) hp s (clear_nil.2 hs))

/-- C71: any result but `RecursionError` is the same with more calls. -/
theorem C71_depth {f : AvbFile} {fmt : Fmt} {n m : Nat} {r : Ref} (hnm : n ≤ m)
    (h : printFile fmt f n r ≠ .error .recursion) : printFile fmt f m r = printFile fmt f n r :=
  print_stable hnm h

/-- C71: printing depends on nothing but the objects printed inside and, for the references in lists, the
ids and places of their chunks: in two files that agree on these, the text is the same.  -/
theorem C71_local {f g : AvbFile} {fmt : Fmt} {n : Nat} {r : Ref}
    (h : ∀ s, Inside (readObject f) r s → readObject g s = readObject f s)
    (hc : ∀ s i, Inside (readObject f) r s → ListItem (readObject f) s i →
      readChunk g i = readChunk f i ∧ (i < g.positions.length ↔ i < f.positions.length)) :
    printFile fmt g n r = printFile fmt f n r := by
  refine print_congr h fun s i hs hi => ?_
  obtain ⟨h1, h2⟩ := hc s i hs hi
  unfold refText
  simp only [h1, h2]

/-- C71: printing a composition of another type raises `ValueError`. -/
theorem C71_untyped {f : AvbFile} {r : Ref} (h : Untyped (readObject f) r) (fmt : Fmt) (n : Nat) :
    printFile fmt f (n + 1) r = .error .value := by
  obtain ⟨x, hx, ht⟩ := h
  unfold printFile
  rw [print_plain hx trivial, objText_eq]
  rcases hm : x.mobType with e | t
  · obtain ⟨rfl, -⟩ := mobType_error hm
    simp [shown, hm, bind, Except.bind, Except.map]
  · exact absurd (mobType_ok.1 ⟨t, hm⟩) ht

/-! ### what the text says -/

theorem class_text {f : AvbFile} {fmt : Fmt} {n : Nat} {r : Ref} {o : Obj} {t : Text}
    (ho : readObject f r = .ok (some o)) (hp : o.cls ≠ .ATTR ∧ o.cls ≠ .PRLS ∧ o.cls ≠ .TMCS)
    (h : printFile fmt f n r = .ok t) :
    ∃ rest, t = "<b'".toList ++ o.cls.id.map macDecodeByte ++ "' ".toList ++ className o.cls ++ rest := by
  have hpl : Plain o := by
    cases o
    case ATTR => exact hp.1 rfl
    case PRLS => exact hp.2.1 rfl
    case TMCS => exact hp.2.2 rfl
    all_goals trivial
  cases n with
  | zero => cases h
  | succ n =>
    unfold printFile at h
    rw [print_plain ho hpl, objText_eq] at h
    simp only [bind, Except.bind] at h
    split at h
    · cases h
    · split at h
      · cases h
      · replace h := (Except.ok.inj h).symm
        subst h
        rw [show "<b'".toList = ['<'] ++ "b'".toList from rfl]
        simp only [front_def, List.append_assoc]
        exact ⟨_, rfl⟩

theorem registered_names (k : Cls) : ∃ p ∈ Spec.registered, k.id = p.1.toList.map (fun c => UInt8.ofNat c.toNat) ∧
    k.id.map macDecodeByte = p.1.toList ∧ className k = p.2.toList := by
  have h : (Cls.all.all fun k => Spec.registered.any fun p => k.id == p.1.toList.map (fun c => UInt8.ofNat c.toNat) &&
      k.id.map macDecodeByte == p.1.toList && className k == p.2.toList) = true := by
    decide +kernel
  have hk : k ∈ Cls.all := by cases k <;> decide
  obtain ⟨p, hp, h'⟩ := List.any_eq_true.1 (List.all_eq_true.1 h k hk)
  simp only [Bool.and_eq_true, beq_iff_eq] at h'
  exact ⟨p, hp, h'.1.1, h'.1.2, h'.2⟩

/-- C71: the text of an object that is neither a dictionary of attributes nor a list begins with its class
id and the name of the class registered for this id. -/
theorem C71_class {f : AvbFile} {fmt : Fmt} {n : Nat} {r : Ref} {o : Obj} {t : Text}
    (ho : readObject f r = .ok (some o)) (hp : o.cls ≠ .ATTR ∧ o.cls ≠ .PRLS ∧ o.cls ≠ .TMCS)
    (h : printFile fmt f n r = .ok t) :
    ∃ id name rest, (id, name) ∈ Spec.registered ∧ o.cls.id = id.toList.map (fun c => UInt8.ofNat c.toNat) ∧
      t = "<b'".toList ++ id.toList ++ "' ".toList ++ name.toList ++ rest := by
  obtain ⟨rest, ht⟩ := class_text ho hp h
  obtain ⟨⟨id, name⟩, hm, h1, h2, h3⟩ := registered_names o.cls
  exact ⟨id, name, rest, hm, h1, by rw [ht, h2, h3]⟩

theorem id_length (k : Cls) : k.id.length = 4 := by cases k <;> rfl

/-- C71: objects of different classes have different texts. -/
theorem C71_distinct {f g : AvbFile} {fmt fmt' : Fmt} {n m : Nat} {r s : Ref} {o p : Obj} {t : Text}
    (ho : readObject f r = .ok (some o)) (hp : readObject g s = .ok (some p))
    (ho' : o.cls ≠ .ATTR ∧ o.cls ≠ .PRLS ∧ o.cls ≠ .TMCS) (hp' : p.cls ≠ .ATTR ∧ p.cls ≠ .PRLS ∧ p.cls ≠ .TMCS)
    (h : printFile fmt f n r = .ok t) (h' : printFile fmt' g m s = .ok t) : o.cls = p.cls := by
  obtain ⟨a, ha⟩ := class_text ho ho' h
  obtain ⟨b, hb⟩ := class_text hp hp' h'
  rw [ha] at hb
  simp only [List.append_assoc] at hb
  have h1 := List.append_cancel_left hb
  have h2 := (List.append_inj h1 (by simp [id_length])).1
  have h3 : o.cls.id = p.cls.id := by
    have := congrArg macEncode h2
    rw [macEncode_map, macEncode_map] at this
    injection this
  have := congrArg Cls.ofId h3
  rw [Cls.ofId_id, Cls.ofId_id] at this
  injection this

/-- A text that is printed if it is there and not empty. -/
def Opt (t : Option Text) (p : Text) : Prop := (∃ w, t = some w ∧ w ≠ [] ∧ p = ' ' :: w) ∨ ((t = none ∨ t = some []) ∧ p = [])

theorem opt_word (t : Option Text) : Opt t (word t) := by
  unfold Opt
  rcases t with _ | _ | ⟨c, t⟩
  · exact .inr ⟨.inl rfl, rfl⟩
  · exact .inr ⟨.inr rfl, rfl⟩
  · exact .inl ⟨_, rfl, by simp, rfl⟩

/-- C71: the text of a source clip: its name, effect, media kind, length, track, start and mob id. -/
theorem C71_clip {f : AvbFile} {fmt : Fmt} {n : Nat} {r : Ref} {x : SourceClip}
    (ho : readObject f r = .ok (some (.SCLP x))) :
    ∃ name effect kind mob, Opt x.name name ∧ Opt x.effect_id effect ∧ Opt (mediaKind x.media_kind_id) kind ∧
      Opt (x.mob_id.map MobID.urn) mob ∧
      printFile fmt f (n + 1) r = .ok ("<b'SCLP' avb.components.SourceClip".toList ++ name ++ effect ++ kind ++
        " len: ".toList ++ decText x.length ++ " track_id: ".toList ++ decText x.track_id ++
        " start_time: ".toList ++ decText x.start_time ++ mob ++ " at 0x".toList ++ fmt.addr r ++ ">".toList) := by
  refine ⟨word x.name, word x.effect_id, word (mediaKind x.media_kind_id), word (x.mob_id.map MobID.urn),
    opt_word _, opt_word _, opt_word _, opt_word _, ?_⟩
  unfold printFile
  rw [print_plain ho trivial, objText_eq]
  rw [show "<b'SCLP' avb.components.SourceClip".toList = ['<'] ++ ("b'".toList ++ Cls.SCLP.id.map macDecodeByte ++
    "' ".toList ++ className .SCLP) from by decide +kernel]
  have h1 : word none = [] := rfl
  have h2 : ">".toList = ['>'] := rfl
  simp only [shown, front_def, Component.shown, number, h1, h2, bind, Except.bind, Option.map_none, List.append_nil,
    List.append_assoc, Obj.cls]

/-- C71: the text of a composition of a type with a name. -/
theorem C71_composition {f : AvbFile} {fmt : Fmt} {n : Nat} {r : Ref} {x : Composition}
    (ho : readObject f r = .ok (some (.CMPO x))) {type : Text}
    (ht : (x.mob_type_id = 1 ∧ type = "CompositionMob".toList) ∨ (x.mob_type_id = 2 ∧ type = "MasterMob".toList) ∨
      (x.mob_type_id = 3 ∧ type = "SourceMob".toList)) :
    ∃ name effect kind mob, Opt x.name name ∧ Opt x.effect_id effect ∧ Opt (mediaKind x.media_kind_id) kind ∧
      Opt (x.mob_id.map MobID.urn) mob ∧
      printFile fmt f (n + 1) r = .ok ("<b'CMPO' avb.trackgroups.Composition".toList ++ name ++ " ".toList ++ type ++
        effect ++ kind ++ " len: ".toList ++ decText x.length ++ mob ++ " at 0x".toList ++ fmt.addr r ++
        ">".toList) := by
  refine ⟨word x.name, word x.effect_id, word (mediaKind x.media_kind_id), word (x.mob_id.map MobID.urn),
    opt_word _, opt_word _, opt_word _, opt_word _, ?_⟩
  have hm : x.mobType = .ok type := by
    unfold Composition.mobType
    rcases ht with ⟨h, rfl⟩ | ⟨h, rfl⟩ | ⟨h, rfl⟩ <;> simp [h]
  have hw : word (some type) = ' ' :: type := by
    rcases ht with ⟨h, rfl⟩ | ⟨h, rfl⟩ | ⟨h, rfl⟩ <;> rfl
  unfold printFile
  rw [print_plain ho trivial, objText_eq]
  rw [show "<b'CMPO' avb.trackgroups.Composition".toList = ['<'] ++ ("b'".toList ++ Cls.CMPO.id.map macDecodeByte ++
    "' ".toList ++ className .CMPO) from by decide +kernel]
  have h1 : word none = [] := rfl
  have h2 : ">".toList = ['>'] := rfl
  have h3 : " ".toList = [' '] := rfl
  simp only [shown, hm, Except.map, hw, front_def, Component.shown, number, h1, h2, h3, bind, Except.bind,
    Option.map_none, List.append_nil, List.append_assoc, Obj.cls]
  rfl

/-- What a value is printed as: a number, a float, or the text of the object it refers to. -/
inductive ValueIs (fmt : Fmt) (sub : Ref → Text → Prop) : PVal → Text → Prop
  | int (n : Int) : ValueIs fmt sub (.int n) (decText n)
  | dbl (d : F64) : ValueIs fmt sub (.dbl d) (fmt.float d)
  | ref (s : Ref) (t : Text) : sub s t → ValueIs fmt sub (.ref s) t

/-- C71: the text of a parameter: name, uuid and value. -/
theorem C71_parameter {f : AvbFile} {fmt : Fmt} {n : Nat} {r : Ref} {x : ParameterItem} {t : Text}
    (ho : readObject f r = .ok (some (.PRIT x))) :
    printFile fmt f (n + 1) r = .ok t ↔ ∃ name value, Opt (some x.name) name ∧
      ValueIs fmt (fun s u => printFile fmt f n s = .ok u) x.value value ∧
      t = "<b'PRIT' avb.misc.ParameterItem".toList ++ name ++ " ".toList ++ uuidText x.uuid ++ " ".toList ++ value ++
        " at 0x".toList ++ fmt.addr r ++ ">".toList := by
  have hu : word (some (uuidText x.uuid)) = ' ' :: uuidText x.uuid := by
    have : uuidText x.uuid ≠ [] := by simp [uuidText]
    cases h : uuidText x.uuid with
    | nil => exact absurd h this
    | cons c w => rfl
  have opt_iff : ∀ (w : Option Text) (p : Text), Opt w p ↔ p = word w := by
    intro w p
    constructor
    · rintro (⟨v, rfl, hv, rfl⟩ | ⟨rfl | rfl, rfl⟩)
      · cases v with
        | nil => exact absurd rfl hv
        | cons c v => rfl
      · rfl
      · rfl
    · rintro rfl; exact opt_word w
  have key : ∀ value, ['<'] ++ front (.PRIT x) [] ++ ' ' :: value ++ " at 0x".toList ++ fmt.addr r ++ ['>'] =
      "<b'PRIT' avb.misc.ParameterItem".toList ++ word (some x.name) ++ " ".toList ++ uuidText x.uuid ++ " ".toList ++
        value ++ " at 0x".toList ++ fmt.addr r ++ ">".toList := by
    intro value
    rw [show "<b'PRIT' avb.misc.ParameterItem".toList = ['<'] ++ ("b'".toList ++ Cls.PRIT.id.map macDecodeByte ++
      "' ".toList ++ className .PRIT) from by decide +kernel]
    have h1 : word none = [] := rfl
    have h2 : ">".toList = ['>'] := rfl
    have h3 : " ".toList = [' '] := rfl
    simp only [shown, front_def, number, h1, h2, h3, hu, Option.map_none, Option.map_some, List.append_nil,
      List.append_assoc, Obj.cls]
    rfl
  unfold printFile
  rw [print_plain ho trivial, objText_eq]
  simp only [shown]
  cases hv : x.value with
  | int i =>
    simp only [valueText, Except.map, bind, Except.bind, key, Except.ok.injEq]
    constructor
    · rintro rfl
      exact ⟨_, _, opt_word _, .int i, rfl⟩
    · rintro ⟨name, value, h1, h2, rfl⟩
      cases h2
      rw [(opt_iff _ _).1 h1]
  | dbl d =>
    simp only [valueText, Except.map, bind, Except.bind, key, Except.ok.injEq]
    constructor
    · rintro rfl
      exact ⟨_, _, opt_word _, .dbl d, rfl⟩
    · rintro ⟨name, value, h1, h2, rfl⟩
      cases h2
      rw [(opt_iff _ _).1 h1]
  | ref s =>
    rcases hs : print fmt (readObject f) (refText fmt f) n [] s with e | u
    · simp only [valueText, hs, Except.map, bind, Except.bind]
      constructor
      · intro h; cases h
      · rintro ⟨name, value, h1, h2, rfl⟩
        cases h2 with
        | ref _ _ h => rw [hs] at h; cases h
    · simp only [valueText, hs, Except.map, bind, Except.bind, key, Except.ok.injEq]
      constructor
      · rintro rfl
        exact ⟨_, _, opt_word _, .ref s u hs, rfl⟩
      · rintro ⟨name, value, h1, h2, rfl⟩
        cases h2 with
        | ref _ _ h =>
          rw [hs] at h
          cases h
          rw [(opt_iff _ _).1 h1]

/-- What an attribute is printed as. -/
inductive AttrIs (fmt : Fmt) (sub : Ref → Text → Prop) : AttrVal → Text → Prop
  | int (n : Int) : AttrIs fmt sub (.int n) (decText n)
  | str (t : Text) : AttrIs fmt sub (.str t) (fmt.text t)
  | bob (b : Bytes) : AttrIs fmt sub (.bob b) (fmt.bytearray b)
  | raw (b : Bytes) : AttrIs fmt sub (.raw b) (fmt.bytes b)
  | obj (s : Ref) (t : Text) : sub s t → AttrIs fmt sub (.obj s) t

theorem mapM_forall {α β : Type} {g : α → Except Err β} : ∀ {l : List α} {ys : List β}, l.mapM g = .ok ys →
    List.Forall₂ (fun x y => g x = .ok y) l ys
  | [], ys, h => by
    have : ys = [] := by simpa [pure, Except.pure] using h.symm
    subst this; exact .nil
  | x :: l, ys, h => by
    rw [List.mapM_cons] at h
    rcases hx : g x with e | y
    · rw [hx] at h; simp [bind, Except.bind] at h
    · rcases hl : l.mapM g with e | zs
      · rw [hx, hl] at h; simp [bind, Except.bind] at h
      · rw [hx, hl] at h
        have : ys = y :: zs := by simpa [bind, Except.bind, pure, Except.pure] using h.symm
        subst this
        exact .cons hx (mapM_forall hl)

/-- C71: the text of attributes has every name, in order, with the text of its value.  Inside, attributes
that are being printed appear as three dots. -/
theorem C71_attributes {f : AvbFile} {fmt : Fmt} {n : Nat} {r : Ref} {a : Attributes} {t : Text}
    (ho : readObject f r = .ok (some (.ATTR a))) (h : printFile fmt f (n + 1) r = .ok t) :
    ∃ ts, t = fmt.dict ts ∧ List.Forall₂ (fun (p : Text × AttrVal) q => q.1 = fmt.text p.1 ∧
      AttrIs fmt (fun s u => (s = r ∧ u = "...".toList) ∨
        (s ≠ r ∧ print fmt (readObject f) (refText fmt f) n [r] s = .ok u)) p.2 q.2) a.items ts := by
  unfold printFile at h
  rw [print_attr ho] at h
  split at h
  · rename_i h0
    refine ⟨[], (Except.ok.inj h).symm, ?_⟩
    rw [h0]; exact .nil
  · rename_i h0
    rw [if_neg (by simp)] at h
    unfold attrStep at h
    simp only [bind, Except.bind] at h
    split at h
    · cases h
    · split at h
      · cases h
      · rename_i ts hts
        refine ⟨ts, (Except.ok.inj h).symm, ?_⟩
        have hall := mapM_forall hts
        refine hall.imp ?_
        rintro ⟨k, v⟩ q hq
        cases v with
        | int i => cases hq; exact ⟨rfl, .int i⟩
        | str i => cases hq; exact ⟨rfl, .str i⟩
        | bob i => cases hq; exact ⟨rfl, .bob i⟩
        | raw i => cases hq; exact ⟨rfl, .raw i⟩
        | obj s =>
          simp only [attrText] at hq
          rcases hs : print fmt (readObject f) (refText fmt f) n [r] s with e | u
          · rw [hs] at hq; cases hq
          · rw [hs] at hq
            cases hq
            refine ⟨rfl, .obj s u ?_⟩
            by_cases hsr : s = r
            · subst hsr
              cases n with
              | zero => cases hs
              | succ n =>
                rw [print_attr ho, if_neg h0, if_pos (by simp)] at hs
                exact .inl ⟨rfl, (Except.ok.inj hs).symm⟩
            · exact .inr ⟨hsr, hs⟩

/-- C71: the text of a list shows the number, class id and place of the chunk of every item, and does not
load the items: it is printed also where they cannot be loaded. -/
theorem C71_list {bytes : Bytes} {f : AvbFile} (ho : openTable bytes = .ok f) {fmt : Fmt} {n : Nat} {r : Ref}
    {o : Obj} {items : List Ref} (hr : readObject f r = .ok (some o))
    (hi : (∃ x, o = .PRLS x ∧ x.items = items) ∨ ∃ x, o = .TMCS x ∧ x.items = items) :
    ∃ ts : List Text, printFile fmt f (n + 1) r = .ok ("[".toList ++ ", ".toList.intercalate ts ++ "]".toList) ∧
      List.Forall₂ (fun i u =>
        (i ≠ 0 ∧ i < f.positions.length ∧ ∃ ck, readChunk f i = .ok ck ∧
          u = "<avb.utils.AVBObjectRef ".toList ++ fmt.bytes ck.class_id ++ " idx: ".toList ++ decText i ++
            " pos: ".toList ++ decText ck.pos ++ " at 0x".toList ++ fmt.refAddr i ++ ">".toList) ∨
        ((i = 0 ∨ f.positions.length ≤ i) ∧
          u = "<avb.utils.AVBObjectRef at 0x".toList ++ fmt.refAddr i ++ ">".toList)) items ts := by
  have hc : ∀ ts : List Text, commas ts = ", ".toList.intercalate ts := by
    intro ts
    induction ts with
    | nil => rfl
    | cons t ts ih =>
      cases ts with
      | nil => simp [commas, List.intercalate]
      | cons u ts => simp only [commas, ih]; simp [List.intercalate]
  unfold printFile
  rw [print_list hr hi]
  obtain ⟨ts, hts⟩ := mapM_ok.2 (fun i (_ : i ∈ items) => refText_ok ho fmt i)
  refine ⟨ts, ?_, (mapM_forall hts).imp ?_⟩
  · unfold listText
    rw [hts]
    simp only [bind, Except.bind, hc]
    rfl
  · intro i u hu
    unfold refText at hu
    split at hu
    · rename_i hv
      left
      refine ⟨hv.1, hv.2, ?_⟩
      rcases hck : readChunk f i with e | ck
      · rw [hck] at hu; cases hu
      · rw [hck] at hu
        refine ⟨ck, rfl, ?_⟩
        rw [← Except.ok.inj hu]
        rw [show "<avb.utils.AVBObjectRef ".toList = ['<'] ++ "avb.utils.AVBObjectRef".toList ++ [' '] from
          by decide +kernel]
        rfl
    · rename_i hv
      right
      refine ⟨?_, ?_⟩
      · by_cases h0 : i = 0
        · exact .inl h0
        · exact .inr (Nat.le_of_not_lt fun hl => hv ⟨h0, hl⟩)
      · rw [← Except.ok.inj hu]
        rw [show "<avb.utils.AVBObjectRef at 0x".toList = ['<'] ++ "avb.utils.AVBObjectRef".toList ++ " at 0x".toList from
          by decide +kernel]
        rfl

/-! ### the message of a refused save -/

/-- Objects looked up in memory. -/
def lookIn (h : Heap) (r : Ref) : Except Err (Option Obj) :=
  if r = 0 then .ok none else (h r).map fun e => some e.obj

theorem lookIn_some {h : Heap} {r : Ref} {o : Obj} (hr : lookIn h r = .ok (some o)) :
    r ≠ 0 ∧ ∃ e, h r = .ok e ∧ e.obj = o := by
  unfold lookIn at hr
  split at hr
  · cases hr
  · next h0 =>
    rcases he : h r with e | e
    · rw [he] at hr; cases hr
    · rw [he] at hr
      refine ⟨h0, e, rfl, ?_⟩
      have := Except.ok.inj hr
      injection this

theorem shows_edge {h : Heap} (hh : HeapOK h) {r s : Ref} (hs : Shows (lookIn h) r s) (h0 : s ≠ 0) : Edge h r s := by
  rcases hs with ⟨x, hx, hv⟩ | ⟨a, k, hx, hm⟩
  · obtain ⟨hr, e, he, ho⟩ := lookIn_some hx
    refine ⟨e, he, hr, h0, .prop s, (hh r e he _).2 ?_, rfl⟩
    rw [ho]
    simp [Obj.visits, ParameterItem.visits, hv, PVal.visits]
  · obtain ⟨hr, e, he, ho⟩ := lookIn_some hx
    refine ⟨e, he, hr, h0, .prop s, (hh r e he _).2 ?_, rfl⟩
    rw [ho]
    simp only [Obj.visits, Attributes.visits, List.mem_flatMap]
    exact ⟨_, hm, by simp [AttrVal.visits]⟩

theorem walked_inside {h : Heap} (hh : HeapOK h) {n : Nat} {r s : Ref} (hok : (walkObj h n r).err = none)
    (hs : Inside (lookIn h) r s) : s = 0 ∨ ∃ m, m ≤ n ∧ (walkObj h m s).err = none := by
  induction hs with
  | refl => exact .inr ⟨n, Nat.le_refl n, hok⟩
  | @tail b c _ hbc ih =>
    by_cases h0 : c = 0
    · exact .inl h0
    · have he := shows_edge hh hbc h0
      rcases ih with rfl | ⟨m, hm, hb⟩
      · obtain ⟨_, _, hb0, _⟩ := he
        exact absurd rfl hb0
      · obtain ⟨k, hk, hc⟩ := walkObj_edge hb he
        exact .inr ⟨k, by omega, hc⟩

theorem walked_loads {h : Heap} {n : Nat} {r : Ref} (hok : (walkObj h n r).err = none) : ∃ o, lookIn h r = .ok o := by
  by_cases h0 : r = 0
  · exact ⟨none, by simp [lookIn, h0]⟩
  · obtain ⟨m, e, -, he, -⟩ := walkObj_last h0 hok
    exact ⟨some e.obj, by simp [lookIn, h0, he, Except.map]⟩

theorem walked_depth {h : Heap} (hh : HeapOK h) {fmt : Fmt} {rt : Ref → Except Err Text}
    (hrt : ∀ i, rt i ≠ .error .recursion) : ∀ (n : Nat) (r : Ref) (m : Nat) (busy : List Ref),
    (walkObj h n r).err = none → n < m → print fmt (lookIn h) rt m busy r ≠ .error .recursion := by
  intro n
  induction n using Nat.strong_induction_on with
  | _ n ih =>
    intro r m busy hok hm
    obtain ⟨m, rfl⟩ : ∃ k, m = k + 1 := ⟨m - 1, by omega⟩
    have sub : ∀ s b, Shows (lookIn h) r s → print fmt (lookIn h) rt m b s ≠ .error .recursion := by
      intro s b hs
      by_cases h0 : s = 0
      · have hn : n ≠ 0 := by rintro rfl; simp [walkObj] at hok
        obtain ⟨k, rfl⟩ : ∃ k, m = k + 1 := ⟨m - 1, by omega⟩
        rw [print_none (by simp [lookIn, h0])]
        exact nofun
      · obtain ⟨k, hk, hc⟩ := walkObj_edge hok (shows_edge hh hs h0)
        exact ih k hk s m b hc (by omega)
    intro h
    rcases cases_of (lookIn _) r with ⟨e, hg⟩ | hg | ⟨a, hg⟩ | ⟨o, is, hg, ho⟩ | ⟨o, hg, ho⟩
    · obtain ⟨o, ho⟩ := walked_loads hok
      rw [ho] at hg; cases hg
    · rw [print_none hg] at h; cases h
    · rw [print_attr hg] at h
      split at h
      · cases h
      · split at h
        · cases h
        · obtain ⟨k, s, hm, hs | hs⟩ := attrStep_error h
          · rcases walked_inside hh hok (.single (.inr ⟨a, k, hg, hm⟩)) with rfl | ⟨j, -, hj⟩
            · simp [lookIn] at hs
            · obtain ⟨o, ho⟩ := walked_loads hj
              rw [ho] at hs; cases hs
          · exact sub s _ (.inr ⟨a, k, hg, hm⟩) hs
    · rw [print_list hg ho] at h
      obtain ⟨i, -, hi⟩ := listText_error h
      exact hrt i hi
    · rw [print_plain hg ho] at h
      rcases objText_error h with ⟨he, -⟩ | ⟨x, s, rfl, hv, hs⟩
      · cases he
      · exact sub s _ (.inl ⟨x, hg, hv⟩) hs

theorem andThen_mem {a b : Walk} {x : Ref} (h : x ∈ (a.andThen b).out) : x ∈ a.out ∨ (a.err = none ∧ x ∈ b.out) := by
  unfold Walk.andThen at h
  split at h
  · exact .inl h
  · next ha => exact (List.mem_append.1 h).imp id fun hb => ⟨ha, hb⟩

theorem walkItems_from {f : Ref → Walk} {x : Ref} : ∀ {rs : List Ref}, x ∈ (walkItems f rs).out → ∃ r, x ∈ (f r).out
  | [], h => by simp [walkItems, Walk.nil] at h
  | r :: rs, h => by
    rcases andThen_mem h with h | ⟨-, h⟩
    · exact ⟨r, h⟩
    · exact walkItems_from h

theorem walkVisits_from {h : Heap} {f : Ref → Walk} {x : Ref} : ∀ {vs : List Visit},
    x ∈ (walkVisits h f vs).out → ∃ r, x ∈ (f r).out
  | [], hx => by simp [walkVisits, Walk.nil] at hx
  | .item r :: vs, hx => by
    rcases andThen_mem hx with hx | ⟨-, hx⟩
    · exact ⟨r, hx⟩
    · exact walkVisits_from hx
  | .prop r :: vs, hx => by
    unfold walkVisits at hx
    split at hx
    · exact walkVisits_from hx
    · split at hx
      · cases hx
      · rcases andThen_mem hx with hx | ⟨-, hx⟩
        · exact walkItems_from hx
        · rcases andThen_mem hx with hx | ⟨-, hx⟩
          · exact ⟨r, hx⟩
          · exact walkVisits_from hx

/-- What the walk yields has been walked to the end. -/
theorem yielded_walked {h : Heap} : ∀ {n : Nat} {r x : Ref}, x ∈ (walkObj h n r).out →
    ∃ k, k ≤ n ∧ (walkObj h k x).err = none
  | 0, r, x, hx => by simp [walkObj] at hx
  | n + 1, r, x, hx => by
    have hx' := hx
    unfold walkObj at hx
    split at hx
    · simp [Walk.nil] at hx
    · next h0 =>
      split at hx
      · cases hx
      · next e he =>
        rcases andThen_mem hx with hx | ⟨hok, hx⟩
        · obtain ⟨q, hq⟩ := walkVisits_from hx
          obtain ⟨k, hk, hc⟩ := yielded_walked hq
          exact ⟨k, by omega, hc⟩
        · have : x = r := by simpa using hx
          subst this
          refine ⟨n + 1, Nat.le_refl _, ?_⟩
          unfold walkObj
          rw [if_neg h0, he]
          simp only [Walk.andThen, hok]

/-- C71: the text in the message of a save that is refused because an object is from another file
(src/avb/file.py:327-328).  Any object yielded by the walk is printed, if one more call is allowed than for
the walk, or the printing raises `ValueError`: the save raises `ValueError` in both cases. -/
theorem C71_refused {h : Heap} (hh : HeapOK h) {n m : Nat} {r s : Ref} (hs : s ∈ (walkObj h n r).out) {fmt : Fmt}
    {rt : Ref → Except Err Text} (hrt : ∀ i, ∃ t, rt i = .ok t) (hm : n < m) :
    (∃ t, print fmt (lookIn h) rt m [] s = .ok t) ∨ print fmt (lookIn h) rt m [] s = .error .value := by
  have hw := yielded_walked hs
  obtain ⟨k, hk, hc⟩ := hw
  rcases hp : print fmt (lookIn h) rt m [] s with e | t
  · right
    rcases print_why hp with rfl | ⟨q, hq, he | ⟨rfl, -⟩ | ⟨i, -, hi⟩⟩
    · refine absurd hp (walked_depth hh (fun i => ?_) k s m [] hc (by omega))
      obtain ⟨t, ht⟩ := hrt i
      rw [ht]; exact nofun
    · rcases walked_inside hh hc hq with rfl | ⟨j, -, hj⟩
      · simp [lookIn] at he
      · obtain ⟨o, ho⟩ := walked_loads hj
        rw [ho] at he; cases he
    · rfl
    · obtain ⟨t, ht⟩ := hrt i
      rw [ht] at hi; cases hi
  · exact .inl ⟨t, rfl⟩

/-! ### examples -/

/-- Objects at 1, 2, …. -/
def exObjs (objs : List Obj) : Heap := fun r =>
  match r with
  | 0 => .error .index
  | i + 1 => match objs[i]? with
    | none => .error .index
    | some o => .ok ⟨i + 1, true, o, o.visits⟩

/-- The file with these objects. -/
def exBytes (objs : List Obj) : Bytes :=
  match save (exObjs objs) 10 .little exInfo 1 with
  | .ok b => b
  | .error _ => []

/-- A parameter. -/
def exItem (type : Int) (v : PVal) (n : Text) : Obj := .PRIT ⟨⟨List.replicate 16 7, rfl⟩, type, v, n, true, 0, none⟩

/-- Some formatting. -/
def exFmt : Fmt where
  addr n := decText n
  refAddr n := decText n
  float _ := []
  text t := t
  bytes b := b.map macDecodeByte
  bytearray b := b.map macDecodeByte
  dict l := l.flatMap fun p => p.1 ++ [':'] ++ p.2 ++ [';']

/-- A parameter whose value is another parameter. -/
def exNested : Bytes := exBytes [exItem 4 (.ref 2) "amount".toList, exItem 1 (.int (-5)) "x".toList]

/-- The same with the value referring to the parameter itself. -/
def exSelf : Bytes := exNested.set 179 2

/-- Attributes with a number and a parameter. -/
def exAttrs : Bytes := exBytes [.ATTR ⟨[("a".toList, .int 3), ("b".toList, .obj 2)]⟩, exItem 1 (.int (-5)) "x".toList]

/-- Attributes with a number and themselves. -/
def exAttrsSelf : Bytes := exAttrs.set 183 2

/-- A composition of type 4, a list with it, and a list of lists. -/
def exBad : Bytes :=
  exBytes [.PRLS ⟨[2, 3]⟩, .CMPO
    { left_bob := 0, right_bob := 0, media_kind_id := 0, edit_rate := .fin 25, name := none, effect_id := none,
      attributes := 0, session_attrs := 0, precomputed := 0, param_list := none, mc_mode := 0, length := 0,
      num_scalars := 0, tracks := [], last_modified := 0, mob_type_id := 4, usage_code := 0, descriptor := 0,
      creation_time := some 0, mob_id := some MobID.zero }, exItem 4 (.ref 2) "c".toList]

theorem exOpen {bytes : Bytes} {p : AvbFile → Bool}
    (h : (match openTable bytes with
      | .ok f => p f
      | .error _ => false) = true) : ∃ f, openTable bytes = .ok f ∧ p f = true := by
  split at h
  · next f hf => exact ⟨f, hf, h⟩
  · cases h

/-- Is object `r` a parameter with the value `v`? -/
def isItem (f : AvbFile) (r : Ref) (v : PVal) : Bool :=
  match readObject f r with
  | .ok (some (.PRIT x)) => decide (x.value = v)
  | _ => false

theorem isItem_iff {f : AvbFile} {r : Ref} {v : PVal} (h : isItem f r v = true) :
    ∃ x, readObject f r = .ok (some (.PRIT x)) ∧ x.value = v := by
  unfold isItem at h
  split at h
  · next x hx => exact ⟨x, hx, of_decide_eq_true h⟩
  · cases h

/-- Is this the result? -/
def printed (x : Except Err Text) (t : Text) : Bool :=
  match x with
  | .ok u => decide (u = t)
  | .error _ => false

theorem printed_iff {x : Except Err Text} {t : Text} (h : printed x t = true) : x = .ok t := by
  unfold printed at h
  split at h
  · rw [of_decide_eq_true h]
  · cases h

/-- The nested parameter is printed, with its value. -/
example : ∃ f, openTable exNested = .ok f ∧
    (∃ x, readObject f 2 = .ok (some (.PRIT x)) ∧ x.value = .ref 1) ∧
    printFile exFmt f 2 2 = .ok
      ("<b'PRIT' avb.misc.ParameterItem amount 07070707-0707-0707-0707-070707070707 <b'PRIT' avb.misc." ++
      "ParameterItem x 07070707-0707-0707-0707-070707070707 -5 at 0x1> at 0x2>").toList ∧
    ∀ s, Inside (readObject f) 2 s → ¬ Endless (readObject f) s := by
  obtain ⟨f, hf, h⟩ := exOpen (bytes := exNested) (p := fun f => isItem f 2 (.ref 1) && printed (printFile exFmt f 2 2)
    ("<b'PRIT' avb.misc.ParameterItem amount 07070707-0707-0707-0707-070707070707 <b'PRIT' avb.misc." ++
      "ParameterItem x 07070707-0707-0707-0707-070707070707 -5 at 0x1> at 0x2>").toList) (by decide +kernel)
  rw [Bool.and_eq_true] at h
  have hp := printed_iff h.2
  refine ⟨f, hf, isItem_iff h.1, hp, fun s hs => ?_⟩
  exact ((C71_prints hf exFmt 2).1 ⟨_, 2, fun n hn => (C71_depth hn (by rw [hp]; exact nofun)).trans hp⟩ s hs).2.2

/-- A parameter that is its own value cannot be printed. -/
example (fmt : Fmt) : ∃ f, openTable exSelf = .ok f ∧ ∀ n, printFile fmt f n 2 = .error .recursion := by
  obtain ⟨f, hf, h⟩ := exOpen (bytes := exSelf) (p := fun f => isItem f 2 (.ref 2)) (by decide +kernel)
  obtain ⟨x, hx, hv⟩ := isItem_iff h
  have hself : ∀ s, Inside (readObject f) 2 s → s = 2 := by
    intro s hs
    induction hs with
    | refl => rfl
    | tail _ hbc ih =>
      subst ih
      rcases hbc with hbc | ⟨a, k, ha, -⟩
      · exact valueOf_inj hbc ⟨x, hx, hv⟩
      · rw [hx] at ha; cases ha
  refine ⟨f, hf, (C71_endless hf ?_).2 ⟨2, .refl, fun _ => 2, rfl, fun _ => ⟨x, hx, hv⟩⟩⟩
  intro s hs
  rw [hself s hs]
  refine ⟨⟨_, hx⟩, ?_⟩
  rintro ⟨y, hy, -⟩
  rw [hx] at hy; cases hy

/-- Attributes that hold themselves are printed, with dots. -/
example : ∃ f, openTable exAttrsSelf = .ok f ∧ (∃ s, EntryOf (readObject f) 2 s ∧ s = 2) ∧
    printFile exFmt f 2 2 = .ok "a:3;b:...;".toList := by
  obtain ⟨f, hf, h⟩ := exOpen (bytes := exAttrsSelf) (p := fun f => (match readObject f 2 with
    | .ok (some (.ATTR a)) => decide (("b".toList, AttrVal.obj 2) ∈ a.items)
    | _ => false) && printed (printFile exFmt f 2 2) "a:3;b:...;".toList) (by decide +kernel)
  rw [Bool.and_eq_true] at h
  refine ⟨f, hf, ⟨2, ?_, rfl⟩, printed_iff h.2⟩
  have h1 := h.1
  split at h1
  · next a ha => exact ⟨a, _, ha, of_decide_eq_true h1⟩
  · cases h1

/-- Attributes with a parameter inside. -/
example : ∃ f, openTable exAttrs = .ok f ∧ printFile exFmt f 2 2 = .ok
    "a:3;b:<b'PRIT' avb.misc.ParameterItem x 07070707-0707-0707-0707-070707070707 -5 at 0x1>;".toList := by
  obtain ⟨f, hf, h⟩ := exOpen (bytes := exAttrs) (p := fun f => printed (printFile exFmt f 2 2)
    "a:3;b:<b'PRIT' avb.misc.ParameterItem x 07070707-0707-0707-0707-070707070707 -5 at 0x1>;".toList) (by decide +kernel)
  exact ⟨f, hf, printed_iff h⟩

/-- A list is printed without its items; the composition of type 4 and a parameter with it are not. -/
example (fmt : Fmt) : ∃ f, openTable exBad = .ok f ∧
    (∃ t, ∀ n, printFile fmt f (n + 1) 3 = .ok t) ∧
    (∀ n, printFile fmt f (n + 1) 1 = .error .value) ∧
    ∃ s, Inside (readObject f) 2 s ∧ Untyped (readObject f) s := by
  obtain ⟨f, hf, h⟩ := exOpen (bytes := exBad) (p := fun f => (match readObject f 1 with
    | .ok (some (.CMPO x)) => decide (x.mob_type_id = 4)
    | _ => false) && (isItem f 2 (.ref 1) && (match readObject f 3 with
    | .ok (some (.PRLS x)) => decide (x.items = [1, 2])
    | _ => false))) (by decide +kernel)
  rw [Bool.and_eq_true, Bool.and_eq_true] at h
  obtain ⟨h1, h2, h3⟩ := h
  have hu : Untyped (readObject f) 1 := by
    split at h1
    · next x hx =>
      refine ⟨x, hx, ?_⟩
      rw [of_decide_eq_true h1]
      decide
    · cases h1
  obtain ⟨x, hx, hv⟩ := isItem_iff h2
  refine ⟨f, hf, ?_, fun n => C71_untyped hu fmt n, 1, .single (.inl ⟨x, hx, hv⟩), hu⟩
  split at h3
  · next y hy =>
    obtain ⟨ts, ht, -⟩ := C71_list (n := 0) (fmt := fmt) hf hy (.inl ⟨y, rfl, rfl⟩)
    exact ⟨_, fun n => (C71_depth (by omega) (by rw [ht]; exact nofun)).trans ht⟩
  · cases h3

/-- The clip of the example file and its text. -/
example (fmt : Fmt) : ∃ bytes f r x, openTable bytes = .ok f ∧ readObject f r = .ok (some (.SCLP x)) ∧
    (∀ n, ∃ t, printFile fmt f (n + 1) r = .ok t) ∧
    ∀ n t, printFile fmt f n r = .ok t → ∃ rest, t = "<b'SCLP' avb.components.SourceClip".toList ++ rest := by
  obtain ⟨f, hf, h⟩ := exOpen (bytes := exBytes [exClip]) (p := fun f => match readObject f 1 with
    | .ok (some (.SCLP _)) => true
    | _ => false) (by decide +kernel)
  split at h
  · next x hx =>
    refine ⟨_, f, 1, x, hf, hx, fun n => ?_, fun n t ht => ?_⟩
    · obtain ⟨_, _, _, _, -, -, -, -, h⟩ := C71_clip (n := n) (fmt := fmt) hx
      exact ⟨_, h⟩
    · obtain ⟨id, name, rest, hm, hid, rfl⟩ := C71_class hx ⟨nofun, nofun, nofun⟩ ht
      have hu : ∀ p ∈ Spec.registered, Cls.SCLP.id = p.1.toList.map (fun c => UInt8.ofNat c.toNat) →
          p = ("SCLP", "avb.components.SourceClip") := by decide +kernel
      obtain ⟨rfl, rfl⟩ := Prod.mk.inj (hu _ hm hid)
      refine ⟨rest, ?_⟩
      rw [show "<b'SCLP' avb.components.SourceClip".toList = "<b'".toList ++ Cls.SCLP.id.map macDecodeByte ++
        "' ".toList ++ className .SCLP from by decide +kernel]
      rfl
  · cases h

/-- A parameter with another parameter as value, walked and printed. -/
example (fmt : Fmt) : (walkObj (exObjs [exItem 4 (.ref 2) "amount".toList, exItem 1 (.int (-5)) "x".toList]) 10 1).err = none ∧
    1 ∈ (walkObj (exObjs [exItem 4 (.ref 2) "amount".toList, exItem 1 (.int (-5)) "x".toList]) 10 1).out ∧
    ((∃ t, print fmt (lookIn (exObjs [exItem 4 (.ref 2) "amount".toList, exItem 1 (.int (-5)) "x".toList]))
      (fun _ => .ok []) 11 [] 1 = .ok t) ∨
    print fmt (lookIn (exObjs [exItem 4 (.ref 2) "amount".toList, exItem 1 (.int (-5)) "x".toList]))
      (fun _ => .ok []) 11 [] 1 = .error .value) := by
  have h1 : (walkObj (exObjs [exItem 4 (.ref 2) "amount".toList, exItem 1 (.int (-5)) "x".toList]) 10 1).err = none := by
    decide +kernel
  have h2 : 1 ∈ (walkObj (exObjs [exItem 4 (.ref 2) "amount".toList, exItem 1 (.int (-5)) "x".toList]) 10 1).out := by
    decide +kernel
  refine ⟨h1, h2, C71_refused ?_ h2 (fun _ => ⟨_, rfl⟩) (by omega)⟩
  intro r e he v
  unfold exObjs at he
  split at he
  · cases he
  · split at he
    · cases he
    · cases he; rfl

end Print
end Avb
