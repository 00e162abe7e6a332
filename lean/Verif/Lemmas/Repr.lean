import Verif.Model.Repr
import Verif.Spec.Repr
import Mathlib.Order.WellFounded
import Mathlib.Data.List.Perm.Subperm
import Mathlib.Data.List.Nodup

/-! Lemmas on printing. -/

namespace Avb.Print

variable {fmt : Fmt} {get : Ref → Except Err (Option Obj)} {rt : Ref → Except Err Text}

/-! ### `mapM` in `Except` -/

theorem mapM_ok {α β : Type} {g : α → Except Err β} : ∀ {l : List α},
    (∃ ys, l.mapM g = .ok ys) ↔ ∀ x ∈ l, ∃ y, g x = .ok y
  | [] => by simp [pure, Except.pure]
  | x :: l => by
    rw [List.mapM_cons, List.forall_mem_cons, ← mapM_ok]
    rcases hx : g x with e | y
    · simp [bind, Except.bind]
    · rcases hl : l.mapM g with e | ys
      · simp [bind, Except.bind]
      · simp [bind, Except.bind, pure, Except.pure]

theorem mapM_error {α β : Type} {g : α → Except Err β} : ∀ {l : List α} {e : Err},
    l.mapM g = .error e → ∃ x ∈ l, g x = .error e
  | [], e, h => by simp [pure, Except.pure] at h
  | x :: l, e, h => by
    rw [List.mapM_cons] at h
    rcases hx : g x with e' | y
    · rw [hx] at h
      exact ⟨x, by simp, by simpa [bind, Except.bind, hx] using h⟩
    · rw [hx] at h
      rcases hl : l.mapM g with e' | ys
      · rw [hl] at h
        obtain ⟨z, hz, hze⟩ := mapM_error hl
        have : e' = e := by simpa [bind, Except.bind] using h
        exact ⟨z, by simp [hz], this ▸ hze⟩
      · rw [hl] at h
        simp [bind, Except.bind, pure, Except.pure] at h

/-- If nothing stops at `e`, and `g'` agrees with `g` where `g` does not stop with `e`. -/
theorem mapM_stable {α β : Type} {g g' : α → Except Err β} {e : Err} : ∀ {l : List α},
    (∀ x ∈ l, g x ≠ .error e → g' x = g x) → l.mapM g ≠ .error e → l.mapM g' = l.mapM g
  | [], _, _ => rfl
  | x :: l, h, hne => by
    rw [List.mapM_cons] at hne ⊢
    rw [List.mapM_cons]
    have hx : g x ≠ .error e := by
      intro hx
      rw [hx] at hne
      exact hne rfl
    rw [h x (by simp) hx]
    rcases hgx : g x with e' | y
    · rfl
    · rw [hgx] at hne
      have hl : l.mapM g ≠ .error e := by
        intro hl
        rw [hl] at hne
        exact hne rfl
      rw [mapM_stable (fun z hz => h z (by simp [hz])) hl]

theorem mapM_congr {α β : Type} {g g' : α → Except Err β} : ∀ {l : List α},
    (∀ x ∈ l, g' x = g x) → l.mapM g' = l.mapM g
  | [], _ => rfl
  | x :: l, h => by
    rw [List.mapM_cons, List.mapM_cons, h x (by simp), mapM_congr fun z hz => h z (by simp [hz])]

/-! ### one step of printing -/

/-- Attributes. -/
def attrStep (fmt : Fmt) (get : Ref → Except Err (Option Obj)) (rec : Ref → Except Err Text) (a : Attributes) :
    Except Err Text := do
  let _ ← a.items.mapM fun p => loadValue get p.2
  let ts ← a.items.mapM fun p => do
    let t ← attrText fmt rec p.2
    pure (fmt.text p.1, t)
  return fmt.dict ts

/-- The classes with a `__repr__` of their own. -/
def Plain : Obj → Prop
  | .ATTR _ => False
  | .PRLS _ => False
  | .TMCS _ => False
  | _ => True

theorem print_error {n : Nat} {busy : List Ref} {r : Ref} {e : Err} (h : get r = .error e) :
    print fmt get rt (n + 1) busy r = .error e := by rw [print, h]

theorem print_none {n : Nat} {busy : List Ref} {r : Ref} (h : get r = .ok none) :
    print fmt get rt (n + 1) busy r = .ok "None".toList := by rw [print, h]

theorem print_attr {n : Nat} {busy : List Ref} {r : Ref} {a : Attributes} (h : get r = .ok (some (.ATTR a))) :
    print fmt get rt (n + 1) busy r =
      if a.items = [] then .ok (fmt.dict [])
      else if r ∈ busy then .ok "...".toList
      else attrStep fmt get (print fmt get rt n (r :: busy)) a := by rw [print, h]; rfl

theorem print_list {n : Nat} {busy : List Ref} {r : Ref} {o : Obj} (h : get r = .ok (some o)) {is : List Ref}
    (ho : (∃ x, o = .PRLS x ∧ x.items = is) ∨ ∃ x, o = .TMCS x ∧ x.items = is) :
    print fmt get rt (n + 1) busy r = listText rt is := by
  rcases ho with ⟨x, rfl, rfl⟩ | ⟨x, rfl, rfl⟩ <;> rw [print, h]

theorem print_plain {n : Nat} {busy : List Ref} {r : Ref} {o : Obj} (h : get r = .ok (some o)) (ho : Plain o) :
    print fmt get rt (n + 1) busy r = objText fmt (print fmt get rt n busy) r o := by
  rw [print, h]
  cases o <;> first | rfl | exact ho.elim

/-- The cases. -/
theorem cases_of (get : Ref → Except Err (Option Obj)) (r : Ref) :
    (∃ e, get r = .error e) ∨ get r = .ok none ∨ (∃ a, get r = .ok (some (.ATTR a))) ∨
      (∃ o is, get r = .ok (some o) ∧ ((∃ x, o = .PRLS x ∧ x.items = is) ∨ ∃ x, o = .TMCS x ∧ x.items = is)) ∨
      ∃ o, get r = .ok (some o) ∧ Plain o := by
  rcases h : get r with e | _ | o
  · exact .inl ⟨e, rfl⟩
  · exact .inr (.inl rfl)
  · cases o
    case ATTR a => exact .inr (.inr (.inl ⟨a, rfl⟩))
    case PRLS x => exact .inr (.inr (.inr (.inl ⟨_, _, rfl, .inl ⟨x, rfl, rfl⟩⟩)))
    case TMCS x => exact .inr (.inr (.inr (.inl ⟨_, _, rfl, .inr ⟨x, rfl, rfl⟩⟩)))
    all_goals exact .inr (.inr (.inr (.inr ⟨_, rfl, trivial⟩)))

/-! ### `objText` -/

/-- Which reference `__repr__` follows. -/
theorem shown_value {o : Obj} {v : PVal} (h : (shown o).value = some v) : ∃ x, o = .PRIT x ∧ x.value = v := by
  cases o
  case PRIT x => exact ⟨x, rfl, by simpa [shown] using h⟩
  all_goals exact absurd h (by simp [shown, Component.shown])

/-- Only compositions have a type. -/
theorem shown_mob_type {o : Obj} {t : Except Err Text} (h : (shown o).mob_type = some t) :
    ∃ x, o = .CMPO x ∧ x.mobType = t := by
  cases o
  case CMPO x => exact ⟨x, rfl, by simpa [shown] using h⟩
  all_goals exact absurd h (by simp [shown, Component.shown])

/-- The text up to the value. -/
def front (o : Obj) (t : Text) : Text :=
  "b'".toList ++ o.cls.id.map macDecodeByte ++ "' ".toList ++ className o.cls ++ word (shown o).name ++ t ++
    word (shown o).effect_id ++ word (shown o).media_kind ++ number " len: ".toList (shown o).length ++
    number " track_id: ".toList (shown o).track_id ++ number " start_time: ".toList (shown o).start_time ++
    word ((shown o).mob_id.map MobID.urn) ++ word ((shown o).uuid.map uuidText)

theorem front_def (o : Obj) (t : Text) : front o t =
    "b'".toList ++ o.cls.id.map macDecodeByte ++ "' ".toList ++ className o.cls ++ word (shown o).name ++ t ++
    word (shown o).effect_id ++ word (shown o).media_kind ++ number " len: ".toList (shown o).length ++
    number " track_id: ".toList (shown o).track_id ++ number " start_time: ".toList (shown o).start_time ++
    word ((shown o).mob_id.map MobID.urn) ++ word ((shown o).uuid.map uuidText) := by
  delta front
  rfl

theorem objText_eq (rec : Ref → Except Err Text) (r : Ref) (o : Obj) :
    objText fmt rec r o =
      (match (shown o).mob_type with
        | none => .ok []
        | some t => t.map fun t => word (some t)) >>= fun t =>
      (match (shown o).value with
        | none => .ok []
        | some v => (valueText fmt rec v).map fun t => ' ' :: t) >>= fun v =>
      .ok (['<'] ++ front o t ++ v ++ " at 0x".toList ++ fmt.addr r ++ ['>']) := by
  unfold objText front
  rcases hm : (shown o).mob_type with _ | _ | t
  · rcases hv : (shown o).value with _ | v
    · simp [bind, Except.bind, pure, Except.pure, hm, hv]
    · rcases h : valueText fmt rec v <;> simp [bind, Except.bind, pure, Except.pure, Except.map, h, hm, hv]
  · simp [bind, Except.bind, Except.map, hm]
  · rcases hv : (shown o).value with _ | v
    · simp [bind, Except.bind, pure, Except.pure, Except.map, hm, hv]
    · rcases h : valueText fmt rec v <;> simp [bind, Except.bind, pure, Except.pure, Except.map, h, hm, hv]

theorem mobType_ok {x : Composition} :
    (∃ t, x.mobType = .ok t) ↔ (x.mob_type_id = 1 ∨ x.mob_type_id = 2 ∨ x.mob_type_id = 3) := by
  unfold Composition.mobType
  split
  · simp [*]
  · split
    · simp [*]
    · split
      · simp [*]
      · simp [*]

theorem mobType_error {x : Composition} {e : Err} (h : x.mobType = .error e) :
    e = .value ∧ ¬ (x.mob_type_id = 1 ∨ x.mob_type_id = 2 ∨ x.mob_type_id = 3) := by
  refine ⟨?_, fun hc => ?_⟩
  · unfold Composition.mobType at h
    split at h
    · cases h
    · split at h
      · cases h
      · split at h
        · cases h
        · injection h with h; exact h.symm
  · obtain ⟨t, ht⟩ := mobType_ok.2 hc
    rw [ht] at h; cases h

/-- When `__repr__` returns a text. -/
theorem objText_ok {rec : Ref → Except Err Text} {r : Ref} {o : Obj} :
    (∃ t, objText fmt rec r o = .ok t) ↔
      (∀ x, o = .CMPO x → x.mob_type_id = 1 ∨ x.mob_type_id = 2 ∨ x.mob_type_id = 3) ∧
      ∀ x s, o = .PRIT x → x.value = .ref s → ∃ t, rec s = .ok t := by
  rw [objText_eq]
  constructor
  · intro h
    constructor
    · rintro x rfl
      rw [← mobType_ok]
      simp only [shown] at h
      rcases hm : x.mobType with e | t
      · simp [hm, bind, Except.bind, Except.map] at h
      · exact ⟨t, rfl⟩
    · rintro x s rfl hv
      simp only [shown, hv] at h
      rcases hm : rec s with e | t
      · simp [hm, valueText, bind, Except.bind, Except.map] at h
      · exact ⟨t, rfl⟩
  · rintro ⟨h1, h2⟩
    have ha : ∃ t, (match (shown o).mob_type with
        | none => .ok []
        | some t => t.map fun t => word (some t)) = (.ok t : Except Err Text) := by
      rcases hm : (shown o).mob_type with _ | t
      · exact ⟨_, rfl⟩
      · obtain ⟨x, rfl, rfl⟩ := shown_mob_type hm
        obtain ⟨t, ht⟩ := mobType_ok.2 (h1 x rfl)
        exact ⟨word (some t), by simp [ht, Except.map]⟩
    have hb : ∃ t, (match (shown o).value with
        | none => .ok []
        | some v => (valueText fmt rec v).map fun t => ' ' :: t) = (.ok t : Except Err Text) := by
      rcases hm : (shown o).value with _ | v
      · exact ⟨_, rfl⟩
      · obtain ⟨x, rfl, hv⟩ := shown_value hm
        cases v with
        | int n => exact ⟨_, rfl⟩
        | dbl d => exact ⟨_, rfl⟩
        | ref s =>
          obtain ⟨t, ht⟩ := h2 x s rfl hv
          exact ⟨' ' :: t, by simp [valueText, ht, Except.map]⟩
    obtain ⟨a, ha⟩ := ha
    obtain ⟨b, hb⟩ := hb
    rw [ha, hb]
    exact ⟨_, rfl⟩

/-- Why `__repr__` raises. -/
theorem objText_error {rec : Ref → Except Err Text} {r : Ref} {o : Obj} {e : Err}
    (h : objText fmt rec r o = .error e) :
    (e = .value ∧ ∃ x, o = .CMPO x ∧ ¬ (x.mob_type_id = 1 ∨ x.mob_type_id = 2 ∨ x.mob_type_id = 3)) ∨
      ∃ x s, o = .PRIT x ∧ x.value = .ref s ∧ rec s = .error e := by
  rw [objText_eq] at h
  rcases hm : (shown o).mob_type with _ | t
  · rw [hm] at h
    rcases hv : (shown o).value with _ | v
    · rw [hv] at h; simp [bind, Except.bind] at h
    · obtain ⟨x, rfl, hx⟩ := shown_value hv
      rw [hv] at h
      cases v with
      | int n => simp [bind, Except.bind, valueText, Except.map] at h
      | dbl n => simp [bind, Except.bind, valueText, Except.map] at h
      | ref s =>
        rcases hs : rec s with e' | t
        · have : e' = e := by simpa [bind, Except.bind, valueText, Except.map, hs] using h
          exact .inr ⟨x, s, rfl, hx, this ▸ hs⟩
        · simp [bind, Except.bind, valueText, Except.map, hs] at h
  · obtain ⟨x, rfl, rfl⟩ := shown_mob_type hm
    rcases ht : x.mobType with e' | t
    · have : e' = e := by
        rw [hm, ht] at h
        simpa [bind, Except.bind, Except.map] using h
      subst this
      obtain ⟨h1, h2⟩ := mobType_error ht
      exact .inl ⟨h1, x, rfl, h2⟩
    · rw [hm, ht] at h
      simp [bind, Except.bind, Except.map, shown, Component.shown] at h

/-- `__repr__` depends on the printing of its value only. -/
theorem objText_congr {rec rec' : Ref → Except Err Text} {r : Ref} {o : Obj}
    (h : ∀ x s, o = .PRIT x → x.value = .ref s → rec' s = rec s) :
    objText fmt rec' r o = objText fmt rec r o := by
  rw [objText_eq, objText_eq]
  have : (match (shown o).value with
      | none => .ok []
      | some v => (valueText fmt rec' v).map fun t => ' ' :: t) =
    (match (shown o).value with
      | none => (.ok [] : Except Err Text)
      | some v => (valueText fmt rec v).map fun t => ' ' :: t) := by
    rcases hv : (shown o).value with _ | v
    · rfl
    · obtain ⟨x, rfl, hx⟩ := shown_value hv
      cases v with
      | int n => rfl
      | dbl n => rfl
      | ref s => simp only [valueText, h x s rfl hx]
  rw [this]

/-! ### `Attributes` -/

theorem attrEntry_ok {rec : Ref → Except Err Text} {p : Text × AttrVal} :
    (∃ y, (do let t ← attrText fmt rec p.2; pure (fmt.text p.1, t) : Except Err (Text × Text)) = .ok y) ↔
      ∀ s, p.2 = .obj s → ∃ t, rec s = .ok t := by
  obtain ⟨k, v⟩ := p
  cases v with
  | obj s =>
    rcases hs : rec s with e | t <;> simp [attrText, bind, Except.bind, pure, Except.pure, hs]
  | _ => simp [attrText, bind, Except.bind, pure, Except.pure]

theorem attrEntry_error {rec : Ref → Except Err Text} {p : Text × AttrVal} {e : Err}
    (h : (do let t ← attrText fmt rec p.2; pure (fmt.text p.1, t) : Except Err (Text × Text)) = .error e) :
    ∃ s, p.2 = .obj s ∧ rec s = .error e := by
  obtain ⟨k, v⟩ := p
  cases v with
  | obj s =>
    rcases hs : rec s with e' | t
    · have : e' = e := by simpa [attrText, bind, Except.bind, pure, Except.pure, hs] using h
      exact ⟨s, rfl, this ▸ hs⟩
    · simp [attrText, bind, Except.bind, pure, Except.pure, hs] at h
  | _ => simp [attrText, bind, Except.bind, pure, Except.pure] at h

theorem attrStep_ok {rec : Ref → Except Err Text} {a : Attributes} :
    (∃ t, attrStep fmt get rec a = .ok t) ↔
      ∀ k s, (k, AttrVal.obj s) ∈ a.items → (∃ o, get s = .ok o) ∧ ∃ t, rec s = .ok t := by
  have h1 : (∃ t, attrStep fmt get rec a = .ok t) ↔
      (∃ ys, (a.items.mapM fun p => loadValue get p.2) = .ok ys) ∧
      ∃ ts, (a.items.mapM fun p => do
        let t ← attrText fmt rec p.2
        pure (fmt.text p.1, t) : Except Err (List (Text × Text))) = .ok ts := by
    unfold attrStep
    rcases h1 : (a.items.mapM fun p => loadValue get p.2) with e | ys
    · simp [bind, Except.bind, h1]
    · rcases h2 : (a.items.mapM fun p => do
        let t ← attrText fmt rec p.2
        pure (fmt.text p.1, t) : Except Err (List (Text × Text))) with e | ts
      · simp only [bind, Except.bind] at h2 ⊢
        simp [h1, h2]
      · simp only [bind, Except.bind] at h2 ⊢
        rw [h1, h2]
        exact ⟨fun _ => ⟨⟨ys, rfl⟩, ts, rfl⟩, fun _ => ⟨_, rfl⟩⟩
  rw [h1, mapM_ok, mapM_ok]
  constructor
  · rintro ⟨ha, hb⟩ k s hm
    refine ⟨?_, attrEntry_ok.1 (hb _ hm) s rfl⟩
    obtain ⟨y, hy⟩ := ha _ hm
    rcases hs : get s with e | o
    · simp [loadValue, hs, Except.map] at hy
    · exact ⟨o, rfl⟩
  · intro h
    constructor
    · rintro ⟨k, v⟩ hm
      cases v with
      | obj s =>
        obtain ⟨o, ho⟩ := (h k s hm).1
        exact ⟨(), by simp [loadValue, ho, Except.map]⟩
      | _ => exact ⟨(), rfl⟩
    · rintro ⟨k, v⟩ hm
      exact attrEntry_ok.2 fun s hs => (h k s (hs ▸ hm)).2

theorem attrStep_error {rec : Ref → Except Err Text} {a : Attributes} {e : Err}
    (h : attrStep fmt get rec a = .error e) :
    ∃ k s, (k, AttrVal.obj s) ∈ a.items ∧ (get s = .error e ∨ rec s = .error e) := by
  unfold attrStep at h
  rcases h1 : (a.items.mapM fun p => loadValue get p.2) with e' | ys
  · have : e' = e := by simpa [h1, bind, Except.bind] using h
    subst this
    obtain ⟨⟨k, v⟩, hm, hx⟩ := mapM_error h1
    cases v with
    | obj s =>
      rcases hs : get s with e'' | o
      · have : e'' = e' := by simpa [loadValue, hs, Except.map] using hx
        exact ⟨k, s, hm, .inl (this ▸ hs)⟩
      · simp [loadValue, hs, Except.map] at hx
    | _ => simp [loadValue] at hx
  · rw [h1] at h
    rcases h2 : (a.items.mapM fun p => do
        let t ← attrText fmt rec p.2
        pure (fmt.text p.1, t) : Except Err (List (Text × Text))) with e' | ts
    · have : e' = e := by
        simp only [bind, Except.bind] at h h2
        rw [h2] at h
        simpa using h
      subst this
      obtain ⟨⟨k, v⟩, hm, hx⟩ := mapM_error h2
      obtain ⟨s, hs, he⟩ := attrEntry_error hx
      exact ⟨k, s, hs ▸ hm, .inr he⟩
    · simp only [bind, Except.bind] at h h2
      rw [h2] at h
      cases h

/-- Printing attributes depends on the lookup and on the printing of the entries. -/
theorem attrStep_congr {get' : Ref → Except Err (Option Obj)} {rec rec' : Ref → Except Err Text} {a : Attributes}
    (hg : ∀ k s, (k, AttrVal.obj s) ∈ a.items → get' s = get s)
    (hr : ∀ k s, (k, AttrVal.obj s) ∈ a.items → rec' s = rec s) :
    attrStep fmt get' rec' a = attrStep fmt get rec a := by
  unfold attrStep
  have h1 : (a.items.mapM fun p => loadValue get' p.2) = a.items.mapM fun p => loadValue get p.2 := by
    refine mapM_congr ?_
    rintro ⟨k, v⟩ hm
    cases v with
    | obj s => simp only [loadValue, hg k s hm]
    | _ => rfl
  have h2 : (a.items.mapM fun p => do
        let t ← attrText fmt rec' p.2
        pure (fmt.text p.1, t) : Except Err (List (Text × Text))) =
      (a.items.mapM fun p => do
        let t ← attrText fmt rec p.2
        pure (fmt.text p.1, t)) := by
    refine mapM_congr ?_
    rintro ⟨k, v⟩ hm
    cases v with
    | obj s => simp only [attrText, hr k s hm]
    | _ => rfl
  rw [h1, h2]

/-- Where printing the entries does not run out of calls. -/
theorem attrStep_stable {rec rec' : Ref → Except Err Text} {a : Attributes}
    (h : ∀ s, rec s ≠ .error .recursion → rec' s = rec s)
    (hne : attrStep fmt get rec a ≠ .error .recursion) : attrStep fmt get rec' a = attrStep fmt get rec a := by
  unfold attrStep at hne ⊢
  rcases h1 : (a.items.mapM fun p => loadValue get p.2) with e | ys
  · rw [h1]; rfl
  · rw [h1] at hne
    have h2 : (a.items.mapM fun p => do
          let t ← attrText fmt rec' p.2
          pure (fmt.text p.1, t) : Except Err (List (Text × Text))) =
        (a.items.mapM fun p => do
          let t ← attrText fmt rec p.2
          pure (fmt.text p.1, t)) := by
      refine mapM_stable (e := .recursion) ?_ ?_
      · rintro ⟨k, v⟩ hm hx
        cases v with
        | obj s =>
          have : rec s ≠ .error .recursion := by
            intro hs
            apply hx
            simp [attrText, hs, bind, Except.bind]
          simp only [attrText, h s this]
        | _ => rfl
      · intro hx
        apply hne
        simp only [bind, Except.bind] at hx ⊢
        rw [hx]
    rw [h2]

theorem objText_stable {rec rec' : Ref → Except Err Text} {r : Ref} {o : Obj}
    (h : ∀ s, rec s ≠ .error .recursion → rec' s = rec s)
    (hne : objText fmt rec r o ≠ .error .recursion) : objText fmt rec' r o = objText fmt rec r o := by
  refine objText_congr ?_
  rintro x s rfl hv
  refine h s fun hs => hne ?_
  rw [objText_eq]
  simp [shown, hv, valueText, hs, bind, Except.bind, Except.map]

/-! ### more calls do not change the result -/

theorem print_stable : ∀ {n m : Nat} {busy : List Ref} {r : Ref}, n ≤ m →
    print fmt get rt n busy r ≠ .error .recursion → print fmt get rt m busy r = print fmt get rt n busy r
  | 0, _, _, _, _, h => absurd rfl h
  | n + 1, 0, _, _, hnm, _ => absurd hnm (by omega)
  | n + 1, m + 1, busy, r, hnm, h => by
    have hnm' : n ≤ m := by omega
    rcases cases_of get r with ⟨e, hg⟩ | hg | ⟨a, hg⟩ | ⟨o, is, hg, ho⟩ | ⟨o, hg, ho⟩
    · rw [print_error hg, print_error hg]
    · rw [print_none hg, print_none hg]
    · rw [print_attr hg] at h ⊢
      rw [print_attr hg]
      split
      · rfl
      · split
        · rfl
        · rename_i h1 h2
          rw [if_neg h1, if_neg h2] at h
          exact attrStep_stable (fun s hs => print_stable hnm' hs) h
    · rw [print_list hg ho, print_list hg ho]
    · rw [print_plain hg ho] at h ⊢
      rw [print_plain hg ho]
      exact objText_stable (fun s hs => print_stable hnm' hs) h

/-! ### why printing raises -/

theorem listText_ok {is : List Ref} : (∃ t, listText rt is = .ok t) ↔ ∀ i ∈ is, ∃ t, rt i = .ok t := by
  rw [← mapM_ok]
  unfold listText
  rcases h : is.mapM rt with e | ts
  · simp [bind, Except.bind]
  · simp [bind, Except.bind, pure, Except.pure]

theorem listText_error {is : List Ref} {e : Err} (h : listText rt is = .error e) : ∃ i ∈ is, rt i = .error e := by
  unfold listText at h
  rcases h1 : is.mapM rt with e' | ts
  · rw [h1] at h
    have : e' = e := by simpa [bind, Except.bind] using h
    exact this ▸ mapM_error h1
  · rw [h1] at h; simp [bind, Except.bind, pure, Except.pure] at h

theorem print_why : ∀ {n : Nat} {busy : List Ref} {r : Ref} {e : Err}, print fmt get rt n busy r = .error e →
    e = .recursion ∨ ∃ s, Inside get r s ∧ (get s = .error e ∨ (e = .value ∧ Untyped get s) ∨
      ∃ i, ListItem get s i ∧ rt i = .error e)
  | 0, _, _, _, h => by injection h with h; exact .inl h.symm
  | n + 1, busy, r, e, h => by
    rcases cases_of get r with ⟨e, hg⟩ | hg | ⟨a, hg⟩ | ⟨o, is, hg, ho⟩ | ⟨o, hg, ho⟩
    · rw [print_error hg] at h
      injection h with h; subst h
      exact .inr ⟨r, .refl, .inl hg⟩
    · rw [print_none hg] at h; cases h
    · rw [print_attr hg] at h
      split at h
      · cases h
      · split at h
        · cases h
        · obtain ⟨k, s, hm, hs | hs⟩ := attrStep_error h
          · exact .inr ⟨s, .single (.inr ⟨a, k, hg, hm⟩), .inl hs⟩
          · refine (print_why hs).imp id ?_
            rintro ⟨q, hq, hc⟩
            exact ⟨q, .head (.inr ⟨a, k, hg, hm⟩) hq, hc⟩
    · rw [print_list hg ho] at h
      obtain ⟨i, hi, he⟩ := listText_error h
      refine .inr ⟨r, .refl, .inr (.inr ⟨i, ?_, he⟩)⟩
      rcases ho with ⟨x, rfl, rfl⟩ | ⟨x, rfl, rfl⟩
      · exact .inl ⟨x, hg, hi⟩
      · exact .inr ⟨x, hg, hi⟩
    · rw [print_plain hg ho] at h
      rcases objText_error h with ⟨he, x, rfl, hx⟩ | ⟨x, s, rfl, hv, hs⟩
      · exact .inr ⟨r, .refl, .inr (.inl ⟨he, x, hg, hx⟩)⟩
      · refine (print_why hs).imp id ?_
        rintro ⟨q, hq, hc⟩
        exact ⟨q, .head (.inl ⟨x, hg, hv⟩) hq, hc⟩

/-! ### only what is inside matters -/

theorem print_congr {get' : Ref → Except Err (Option Obj)} {rt' : Ref → Except Err Text} :
    ∀ {n : Nat} {busy : List Ref} {r : Ref}, (∀ s, Inside get r s → get' s = get s) →
    (∀ s i, Inside get r s → ListItem get s i → rt' i = rt i) →
    print fmt get' rt' n busy r = print fmt get rt n busy r
  | 0, _, _, _, _ => rfl
  | n + 1, busy, r, h, hl => by
    have hr := h r .refl
    rcases cases_of get r with ⟨e, hg⟩ | hg | ⟨a, hg⟩ | ⟨o, is, hg, ho⟩ | ⟨o, hg, ho⟩
    · rw [print_error hg, print_error (hr.trans hg)]
    · rw [print_none hg, print_none (hr.trans hg)]
    · rw [print_attr hg, print_attr (hr.trans hg)]
      have key : attrStep fmt get' (print fmt get' rt' n (r :: busy)) a =
          attrStep fmt get (print fmt get rt n (r :: busy)) a := by
        refine attrStep_congr (fun k s hm => h s (.single (.inr ⟨a, k, hg, hm⟩))) fun k s hm => ?_
        exact print_congr (fun q hq => h q (.head (.inr ⟨a, k, hg, hm⟩) hq))
          fun q i hq => hl q i (.head (.inr ⟨a, k, hg, hm⟩) hq)
      rw [key]
    · rw [print_list hg ho, print_list (hr.trans hg) ho]
      unfold listText
      rw [mapM_congr fun i hi => hl r i .refl ?_]
      rcases ho with ⟨x, rfl, rfl⟩ | ⟨x, rfl, rfl⟩
      · exact .inl ⟨x, hg, hi⟩
      · exact .inr ⟨x, hg, hi⟩
    · rw [print_plain hg ho, print_plain (hr.trans hg) ho]
      refine objText_congr ?_
      rintro x s rfl hv
      exact print_congr (fun q hq => h q (.head (.inl ⟨x, hg, hv⟩) hq))
        fun q i hq => hl q i (.head (.inl ⟨x, hg, hv⟩) hq)

/-! ### values without end -/

theorem valueOf_inj {r s t : Ref} (h : ValueOf get r s) (h' : ValueOf get r t) : s = t := by
  obtain ⟨x, hx, hv⟩ := h
  obtain ⟨y, hy, hw⟩ := h'
  rw [hx] at hy
  injection hy with hy; injection hy with hy; injection hy with hy
  subst hy
  rw [hv] at hw
  injection hw

theorem endless_print (g : Nat → Ref) (hg : ∀ i, ValueOf get (g i) (g (i + 1))) (n : Nat) (busy : List Ref) :
    ∀ i, print fmt get rt n busy (g i) = .error .recursion := by
  induction n with
  | zero => intro i; rfl
  | succ n ih =>
    intro i
    obtain ⟨x, hx, hv⟩ := hg i
    rw [print_plain hx trivial, objText_eq]
    simp [shown, hv, valueText, ih (i + 1), bind, Except.bind, Except.map]

/-! ### calls enough -/

theorem acc_of_not_endless {r : Ref} (h : ¬ Endless get r) : Acc (fun b a => ValueOf get a b) r := by
  by_contra hc
  rw [not_acc_iff_exists_descending_chain] at hc
  obtain ⟨g, h0, hg⟩ := hc
  exact h ⟨g, h0, hg⟩

/-- Enough calls for every object of a list. -/
theorem enough_list {busy : List Ref} (l : List Ref)
    (h : ∀ s ∈ l, ∃ n, print fmt get rt n busy s ≠ .error .recursion) :
    ∃ n, ∀ s ∈ l, print fmt get rt n busy s ≠ .error .recursion := by
  induction l with
  | nil => exact ⟨0, by simp⟩
  | cons s l ih =>
    obtain ⟨n, hn⟩ := ih fun t ht => h t (by simp [ht])
    obtain ⟨m, hm⟩ := h s (by simp)
    refine ⟨max n m, ?_⟩
    intro t ht
    rcases List.mem_cons.1 ht with rfl | ht
    · rw [print_stable (Nat.le_max_right n m) hm]; exact hm
    · rw [print_stable (Nat.le_max_left n m) (hn t ht)]; exact hn t ht

theorem enough {N : Nat} (hN : ∀ r o, get r = .ok (some o) → r < N)
    (hget : ∀ r, get r ≠ .error .recursion) (hrt : ∀ i, rt i ≠ .error .recursion) :
    ∀ (k : Nat) (busy : List Ref) (r : Ref), busy.Nodup → (∀ b ∈ busy, b < N) → N - busy.length = k →
      (∀ s, Inside get r s → ¬ Endless get s) → ∃ n, print fmt get rt n busy r ≠ .error .recursion := by
  intro k
  induction k using Nat.strong_induction_on with
  | _ k ih =>
    intro busy r hnd hb hk hr
    have hacc := acc_of_not_endless (hr r .refl)
    induction hacc with
    | intro r _ ih2 =>
      rcases cases_of get r with ⟨e, hg⟩ | hg | ⟨a, hg⟩ | ⟨o, is, hg, ho⟩ | ⟨o, hg, ho⟩
      · refine ⟨1, ?_⟩
        rw [print_error hg]
        intro h; injection h with h; subst h
        exact hget r hg
      · exact ⟨1, by rw [print_none hg]; exact nofun⟩
      · by_cases h1 : a.items = []
        · exact ⟨1, by rw [print_attr hg, if_pos h1]; exact nofun⟩
        by_cases h2 : r ∈ busy
        · exact ⟨1, by rw [print_attr hg, if_neg h1, if_pos h2]; exact nofun⟩
        have hlen : busy.length + 1 ≤ N := by
          have hsub : (r :: busy).Nodup := List.nodup_cons.2 ⟨h2, hnd⟩
          have : (r :: busy).length ≤ (List.range N).length := by
            refine (List.Nodup.subperm hsub ?_).length_le
            intro x hx
            rcases List.mem_cons.1 hx with rfl | hx
            · exact List.mem_range.2 (hN _ _ hg)
            · exact List.mem_range.2 (hb x hx)
          simpa using this
        have hall : ∀ s ∈ (a.items.filterMap fun p => match p.2 with | .obj s => some s | _ => none),
            ∃ n, print fmt get rt n (r :: busy) s ≠ .error .recursion := by
          intro s hs
          obtain ⟨⟨key, v⟩, hm, hv⟩ := List.mem_filterMap.1 hs
          cases v with
          | obj q =>
            have hq : q = s := by simpa using hv
            subst hq
            refine ih (N - (r :: busy).length) ?_ (r :: busy) q (List.nodup_cons.2 ⟨h2, hnd⟩) ?_ rfl ?_
            · simp only [List.length_cons]; omega
            · intro b hb'
              rcases List.mem_cons.1 hb' with rfl | hb'
              · exact hN _ _ hg
              · exact hb b hb'
            · exact fun t ht => hr t (.head (.inr ⟨a, key, hg, hm⟩) ht)
          | _ => simp at hv
        obtain ⟨n, hn⟩ := enough_list _ hall
        refine ⟨n + 1, ?_⟩
        rw [print_attr hg, if_neg h1, if_neg h2]
        intro h
        obtain ⟨key, s, hm, hs | hs⟩ := attrStep_error h
        · exact hget s hs
        · exact hn s (List.mem_filterMap.2 ⟨_, hm, rfl⟩) hs
      · refine ⟨1, ?_⟩
        rw [print_list hg ho]
        intro h
        obtain ⟨i, -, hi⟩ := listText_error h
        exact hrt i hi
      · by_cases hv : ∃ x s, o = .PRIT x ∧ x.value = .ref s
        · obtain ⟨x, s, rfl, hv⟩ := hv
          obtain ⟨n, hn⟩ := ih2 s ⟨x, hg, hv⟩ fun t ht => hr t (.head (.inl ⟨x, hg, hv⟩) ht)
          refine ⟨n + 1, ?_⟩
          rw [print_plain hg ho]
          intro h
          rcases objText_error h with ⟨he, -⟩ | ⟨y, t, hy, hw, ht⟩
          · cases he
          · injection hy with hy
            subst hy
            rw [hv] at hw
            injection hw with hw
            subst hw
            exact hn ht
        · refine ⟨1, ?_⟩
          rw [print_plain hg ho]
          intro h
          rcases objText_error h with ⟨he, -⟩ | ⟨y, t, hy, hw, ht⟩
          · cases he
          · exact hv ⟨y, t, hy, hw⟩

/-! ### a text means that all inside is fine -/

/-- Inside without passing through the dictionaries being printed. -/
def Clear (get : Ref → Except Err (Option Obj)) (busy : List Ref) (r s : Ref) : Prop :=
  Relation.ReflTransGen (fun a b => a ∉ busy ∧ Shows get a b) r s

/-- The last visit of `r`. -/
theorem clear_cons {busy : List Ref} {r s : Ref} (h : Clear get busy r s) :
    s = r ∨ ∃ c, (r ∉ busy ∧ Shows get r c) ∧ Clear get (r :: busy) c s := by
  induction h with
  | refl => exact .inl rfl
  | @tail b c hrb hbc ih =>
    rcases ih with rfl | ⟨d, hd, hdb⟩
    · exact .inr ⟨c, hbc, .refl⟩
    · by_cases hb : b = r
      · subst hb
        exact .inr ⟨c, hbc, .refl⟩
      · refine .inr ⟨d, hd, hdb.tail ⟨?_, hbc.2⟩⟩
        intro hm
        rcases List.mem_cons.1 hm with h | h
        · exact hb h
        · exact hbc.1 h

theorem clear_nil {r s : Ref} : Clear get [] r s ↔ Inside get r s := by
  have : (fun a b => a ∉ ([] : List Ref) ∧ Shows get a b) = Shows get := by
    funext a b
    simp
  unfold Clear Inside
  rw [this]

/-- The object itself is no obstacle. -/
def Fine (get : Ref → Except Err (Option Obj)) (rt : Ref → Except Err Text) (s : Ref) : Prop :=
  (∃ o, get s = .ok o) ∧ ¬ Untyped get s ∧ ∀ i, ListItem get s i → ∃ t, rt i = .ok t

theorem no_shows {r s : Ref} (hv : ∀ x, get r ≠ .ok (some (.PRIT x))) (ha : ∀ a, get r ≠ .ok (some (.ATTR a))) :
    ¬ Shows get r s := by
  rintro (⟨x, hx, -⟩ | ⟨a, k, hx, -⟩)
  · exact hv x hx
  · exact ha a hx

theorem clear_stop {busy : List Ref} {r s : Ref} (h : ∀ t, ¬ (r ∉ busy ∧ Shows get r t))
    (hc : Clear get busy r s) : s = r := by
  rcases Relation.ReflTransGen.cases_head hc with h' | ⟨c, hc, -⟩
  · exact h'.symm
  · exact absurd hc (h c)

theorem ok_fine : ∀ {n : Nat} {busy : List Ref} {r : Ref} {t : Text}, (∀ b ∈ busy, ∃ a, get b = .ok (some (.ATTR a))) →
    print fmt get rt n busy r = .ok t →
    ∀ s, Clear get busy r s → Fine get rt s
  | 0, _, _, _, _, h => by cases h
  | n + 1, busy, r, t, hbusy, h => by
    intro s hs
    rcases cases_of get r with ⟨e, hg⟩ | hg | ⟨a, hg⟩ | ⟨o, is, hg, ho⟩ | ⟨o, hg, ho⟩
    · rw [print_error hg] at h; cases h
    · have : s = r := clear_stop (fun t ht => no_shows (by rw [hg]; nofun) (by rw [hg]; nofun) ht.2) hs
      subst this
      refine ⟨⟨_, hg⟩, ?_, ?_⟩
      · rintro ⟨x, hx, -⟩; rw [hg] at hx; cases hx
      · rintro i (⟨x, hx, -⟩ | ⟨x, hx, -⟩) <;> (rw [hg] at hx; cases hx)
    · have self : Fine get rt r := by
        refine ⟨⟨_, hg⟩, ?_, ?_⟩
        · rintro ⟨x, hx, -⟩; rw [hg] at hx; cases hx
        · rintro i (⟨x, hx, -⟩ | ⟨x, hx, -⟩) <;> (rw [hg] at hx; cases hx)
      rw [print_attr hg] at h
      rcases clear_cons hs with rfl | ⟨c, ⟨hrb, hrc⟩, hcs⟩
      · exact self
      · rcases hrc with ⟨x, hx, -⟩ | ⟨a', k, hx, hm⟩
        · rw [hg] at hx; cases hx
        · have : a' = a := by rw [hg] at hx; injection hx with hx; injection hx with hx; injection hx with hx; exact hx.symm
          subst this
          rw [if_neg (by rintro h0; rw [h0] at hm; cases hm), if_neg hrb] at h
          obtain ⟨u, hu⟩ := (attrStep_ok.1 ⟨t, h⟩ k c hm).2
          refine ok_fine ?_ hu s hcs
          intro b hb
          rcases List.mem_cons.1 hb with rfl | hb
          · exact ⟨_, hg⟩
          · exact hbusy b hb
    · have : s = r := by
        refine clear_stop (fun t ht => no_shows ?_ ?_ ht.2) hs <;> (rw [hg]; rcases ho with ⟨x, rfl, -⟩ | ⟨x, rfl, -⟩ <;> nofun)
      subst this
      rw [print_list hg ho] at h
      refine ⟨⟨_, hg⟩, ?_, ?_⟩
      · rintro ⟨x, hx, -⟩; rw [hg] at hx; rcases ho with ⟨y, rfl, -⟩ | ⟨y, rfl, -⟩ <;> cases hx
      · intro i hi
        refine listText_ok.1 ⟨t, h⟩ i ?_
        rcases hi with ⟨x, hx, hi⟩ | ⟨x, hx, hi⟩ <;> rcases ho with ⟨y, rfl, rfl⟩ | ⟨y, rfl, rfl⟩ <;>
          (rw [hg] at hx; cases hx) <;> exact hi
    · rw [print_plain hg ho] at h
      obtain ⟨h1, h2⟩ := objText_ok.1 ⟨t, h⟩
      have hrb : r ∉ busy := by
        intro hb
        obtain ⟨a, ha⟩ := hbusy r hb
        rw [hg] at ha; injection ha with ha; injection ha with ha
        subst ha
        exact ho
      rcases Relation.ReflTransGen.cases_head hs with rfl | ⟨c, ⟨-, hc⟩, hcs⟩
      · refine ⟨⟨_, hg⟩, ?_, ?_⟩
        · rintro ⟨x, hx, hn⟩
          rw [hg] at hx; injection hx with hx; injection hx with hx
          exact hn (h1 x hx)
        · rintro i (⟨x, hx, -⟩ | ⟨x, hx, -⟩) <;>
            (rw [hg] at hx; injection hx with hx; injection hx with hx; subst hx; exact ho.elim)
      · rcases hc with ⟨x, hx, hv⟩ | ⟨a, k, hx, -⟩
        · rw [hg] at hx; injection hx with hx; injection hx with hx
          obtain ⟨u, hu⟩ := h2 x c hx hv
          exact ok_fine hbusy hu s hcs
        · rw [hg] at hx; injection hx with hx; injection hx with hx; subst hx; exact ho.elim

/-- A text means that no values go on without end. -/
theorem ok_ended : ∀ {n : Nat} {busy : List Ref} {r : Ref} {t : Text}, (∀ b ∈ busy, ∃ a, get b = .ok (some (.ATTR a))) →
    print fmt get rt n busy r = .ok t → ∀ s, Clear get busy r s → ¬ Endless get s
  | 0, _, _, _, _, h => by cases h
  | n + 1, busy, r, t, hbusy, h => by
    intro s hs
    have self : ¬ Endless get r := by
      rintro ⟨g, rfl, hg⟩
      rw [endless_print g hg] at h
      cases h
    rcases cases_of get r with ⟨e, hg⟩ | hg | ⟨a, hg⟩ | ⟨o, is, hg, ho⟩ | ⟨o, hg, ho⟩
    · rw [print_error hg] at h; cases h
    · have : s = r := clear_stop (fun t ht => no_shows (by rw [hg]; nofun) (by rw [hg]; nofun) ht.2) hs
      exact this ▸ self
    · rw [print_attr hg] at h
      rcases clear_cons hs with rfl | ⟨c, ⟨hrb, hrc⟩, hcs⟩
      · exact self
      · rcases hrc with ⟨x, hx, -⟩ | ⟨a', k, hx, hm⟩
        · rw [hg] at hx; cases hx
        · have : a' = a := by rw [hg] at hx; injection hx with hx; injection hx with hx; injection hx with hx; exact hx.symm
          subst this
          rw [if_neg (by rintro h0; rw [h0] at hm; cases hm), if_neg hrb] at h
          obtain ⟨u, hu⟩ := (attrStep_ok.1 ⟨t, h⟩ k c hm).2
          refine ok_ended ?_ hu s hcs
          intro b hb
          rcases List.mem_cons.1 hb with rfl | hb
          · exact ⟨_, hg⟩
          · exact hbusy b hb
    · have : s = r := by
        refine clear_stop (fun t ht => no_shows ?_ ?_ ht.2) hs <;> (rw [hg]; rcases ho with ⟨x, rfl, -⟩ | ⟨x, rfl, -⟩ <;> nofun)
      exact this ▸ self
    · rw [print_plain hg ho] at h
      obtain ⟨h1, h2⟩ := objText_ok.1 ⟨t, h⟩
      rcases Relation.ReflTransGen.cases_head hs with rfl | ⟨c, ⟨-, hc⟩, hcs⟩
      · exact self
      · rcases hc with ⟨x, hx, hv⟩ | ⟨a, k, hx, -⟩
        · rw [hg] at hx; injection hx with hx; injection hx with hx
          obtain ⟨u, hu⟩ := h2 x c hx hv
          exact ok_ended hbusy hu s hcs
        · rw [hg] at hx; injection hx with hx; injection hx with hx; subst hx; exact ho.elim

end Avb.Print
