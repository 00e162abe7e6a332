import Verif.Model.Attrs
import Verif.Model.Factory

/-
C61: assigning and reading properties by name.
-/

namespace Avb.Attrs

/-- A class declares a property, itself or through a base class. -/
inductive Has : Text → Text → Prop
  | own {c : ClassDef} {a : Text} : c ∈ classDefs → a ∈ c.own → Has c.name a
  | base {c : ClassDef} {b a : Text} : c ∈ classDefs → c.base = some b → Has b a → Has c.name a

/-- The essence descriptors. -/
def descriptors : List Text := [
  "MediaDescriptor".toList, "TapeDescriptor".toList, "FilmDescriptor".toList, "NagraDescriptor".toList,
  "MediaFileDescriptor".toList, "MultiDescriptor".toList, "WaveDescriptor".toList, "AIFCDescriptor".toList,
  "PCMADescriptor".toList, "MPGADescriptor".toList, "DIDDescriptor".toList, "CDCIDescriptor".toList,
  "MPGIDescriptor".toList, "JPEGDescriptor".toList, "RGBADescriptor".toList, "DataDescriptor".toList,
  "ANCDataDescriptor".toList]

/-- A class that objects are made of. -/
def Made (n : Text) : Prop := ∃ c ∈ classDefs, c.registered = true ∧ c.name = n

/-- C61: the classes in question are all that the factory makes, but for those that are lists or dictionaries; and
the components among them are those derived from `Component`. -/
theorem C61_classes (n : Text) :
    (Made n ↔ (n ∈ Factory.classNames ∨ n ∈ Factory.helperNames) ∧
      n ∉ ["Attributes".toList, "ParameterList".toList, "TimeCrumbList".toList, "AVBRefList".toList]) ∧
    (n ∈ Factory.componentNames ↔ Made n ∧ "Component".toList ∈ (chain n).map (·.name)) := by
  have h1 : ∀ n ∈ (classDefs.filter (·.registered)).map (·.name),
      ((n ∈ Factory.classNames ∨ n ∈ Factory.helperNames) ∧
        n ∉ ["Attributes".toList, "ParameterList".toList, "TimeCrumbList".toList, "AVBRefList".toList]) ∧
      ("Component".toList ∈ (chain n).map (·.name) → n ∈ Factory.componentNames) := by decide +kernel
  have h2 : ∀ n ∈ Factory.classNames ++ Factory.helperNames,
      n ∈ ["Attributes".toList, "ParameterList".toList, "TimeCrumbList".toList, "AVBRefList".toList] ∨
      n ∈ (classDefs.filter (·.registered)).map (·.name) := by decide +kernel
  have h3 : ∀ n ∈ Factory.componentNames, n ∈ (classDefs.filter (·.registered)).map (·.name) ∧
      "Component".toList ∈ (chain n).map (·.name) := by decide +kernel
  have hm : Made n ↔ n ∈ (classDefs.filter (·.registered)).map (·.name) := by
    simp only [Made, List.mem_map, List.mem_filter, and_assoc]
  rw [hm]
  refine ⟨⟨fun h => (h1 n h).1, fun ⟨h, h'⟩ => (h2 n (List.mem_append.2 h)).resolve_left h'⟩, h3 n,
    fun ⟨h, h'⟩ => (h1 n h).2 h'⟩

/-! ### Facts about the table -/

theorem table_props : ∀ c ∈ classDefs, propertydefs c.name = (match c.base with
    | none => []
    | some b => propertydefs b) ++ c.own := by
  decide +kernel

theorem table_base : ∀ c ∈ classDefs, ∀ b ∈ c.base, (∃ d ∈ classDefs, d.name = b) ∧
    (chain b).length < (chain c.name).length := by
  decide +kernel

theorem table_owner : ∀ c ∈ classDefs, c.registered = true →
    dictOwner c.name = some (if c.name ∈ descriptors then "MediaDescriptor".toList else c.name) := by
  decide +kernel

theorem table_descriptors : ∀ n ∈ descriptors, ∃ c ∈ classDefs, c.registered = true ∧ c.name = n := by
  decide +kernel

/-- The names of all classes. -/
def common : List Text := [
  "class_id".toList, "mark_modified".toList, "get_property_def".toList, "get".toList, "read".toList,
  "write".toList, "copy".toList, "media_kind".toList, "root".toList, "property_data".toList,
  "instance_id".toList, "propertydefs".toList, "propertydefs_dict".toList]

/-- The names in the bodies of a class and its base classes. -/
def bodies (n : Text) : List Text := (chain n).flatMap fun c => c.attrs.map (·.1)

theorem table_common : ∀ n ∈ descriptors, ∀ x ∈ bodies n, x ∈ common := by
  decide +kernel

theorem table_hidden : ∀ n ∈ descriptors, ∀ x ∈ common, x ∉ propertydefs n := by
  decide +kernel

theorem table_visible : ∀ c ∈ classDefs, c.registered = true → c.name ∉ descriptors → ∀ x ∈ bodies c.name,
    x ∉ propertydefs c.name := by
  decide +kernel

theorem table_dict : ∀ c ∈ classDefs, hasDict c.name = true ↔ c.name = "ShapeList".toList := by
  decide +kernel

theorem mem_propertydefs {c : ClassDef} (hc : c ∈ classDefs) {a : Text} :
    a ∈ propertydefs c.name ↔ Has c.name a := by
  constructor
  · generalize hk : (chain c.name).length = k
    induction k using Nat.strongRecOn generalizing c with
    | _ k ih =>
      intro h
      rw [table_props c hc] at h
      rcases List.mem_append.1 h with h | h
      · cases hb : c.base with
        | none => rw [hb] at h; cases h
        | some b =>
          rw [hb] at h
          obtain ⟨⟨d, hd, rfl⟩, hl⟩ := table_base c hc b hb
          exact .base hc hb (ih _ (by omega) hd rfl h)
      · exact .own hc h
  · have key : ∀ n, Has n a → a ∈ propertydefs n := by
      intro n h
      induction h with
      | own hc ha => rw [table_props _ hc]; exact List.mem_append_right _ ha
      | base hc hb _ ih =>
        rw [table_props _ hc, hb]
        exact List.mem_append_left _ ih
    exact key _

theorem accepts_iff (n a : Text) : accepts n a = true ↔
    ∃ c ∈ classDefs, c.registered = true ∧ dictOwner c.name = dictOwner n ∧ a ∈ propertydefs c.name := by
  unfold accepts dicts
  rw [List.contains_iff_mem]
  simp only [List.mem_flatMap, List.mem_filter, List.mem_map, Prod.mk.injEq]
  constructor
  · rintro ⟨c, ⟨h1, h2⟩, p, h3, h4, rfl⟩
    exact ⟨c, h1, h2, h4, h3⟩
  · rintro ⟨c, h1, h2, h4, h3⟩
    exact ⟨c, ⟨h1, h2⟩, a, h3, h4, rfl⟩

/-- C61: an object accepts assignment to the properties that its class declares; an essence descriptor also
to those that any other descriptor class declares. -/
theorem C61_names {n : Text} (hn : Made n) (a : Text) :
    accepts n a = true ↔ Has n a ∨ (n ∈ descriptors ∧ ∃ m ∈ descriptors, Has m a) := by
  obtain ⟨c, hc, hr, rfl⟩ := hn
  rw [accepts_iff]
  constructor
  · rintro ⟨d, hd, hdr, ho, ha⟩
    rw [table_owner c hc hr, table_owner d hd hdr] at ho
    have ha' := (mem_propertydefs hd).1 ha
    simp only [Option.some.injEq] at ho
    by_cases h1 : c.name ∈ descriptors
    · rw [if_pos h1] at ho
      by_cases h2 : d.name ∈ descriptors
      · exact .inr ⟨h1, _, h2, ha'⟩
      · rw [if_neg h2] at ho
        exact absurd (by rw [ho]; decide) h2
    · rw [if_neg h1] at ho
      by_cases h2 : d.name ∈ descriptors
      · rw [if_pos h2] at ho
        exact absurd (by rw [← ho]; decide) h1
      · rw [if_neg h2] at ho
        rw [ho] at ha'
        exact .inl ha'
  · rintro (h | ⟨h1, m, hm, h⟩)
    · exact ⟨c, hc, hr, rfl, (mem_propertydefs hc).2 h⟩
    · obtain ⟨d, hd, hdr, rfl⟩ := table_descriptors m hm
      refine ⟨d, hd, hdr, ?_, (mem_propertydefs hd).2 h⟩
      rw [table_owner c hc hr, table_owner d hd hdr, if_pos h1, if_pos hm]

theorem classAttr_none {n a : Text} (h : a ∉ bodies n) : classAttr n a = none := by
  unfold classAttr
  rw [List.findSome?_eq_none_iff]
  intro c hc
  rw [List.lookup_eq_none_iff]
  intro p hp
  rw [bne_iff_ne]
  rintro rfl
  exact h (List.mem_flatMap.2 ⟨c, hc, List.mem_map.2 ⟨p, hp, rfl⟩⟩)

/-- C61: no method, constant or slot of a class hides a property that its objects accept. -/
theorem C61_visible {n : Text} (hn : Made n) {a : Text} (ha : accepts n a = true) : classAttr n a = none := by
  apply classAttr_none
  intro hx
  have h := (C61_names hn a).1 ha
  obtain ⟨c, hc, hr, rfl⟩ := hn
  by_cases hd : c.name ∈ descriptors
  · have hx := table_common _ hd a hx
    rcases h with h | ⟨_, m, hm, h⟩
    · exact table_hidden _ hd a hx ((mem_propertydefs hc).2 h)
    · obtain ⟨d, hd, _, rfl⟩ := table_descriptors m hm
      exact table_hidden _ hm a hx ((mem_propertydefs hd).2 h)
  · rcases h with h | ⟨h, _⟩
    · exact table_visible c hc hr hd a hx ((mem_propertydefs hc).2 h)
    · exact hd h

variable {V : Type}

/-- The last value assigned to a name, or the one before the assignments. -/
def latest (a : Text) (before : Option V) : List (Text × V) → Option V
  | [] => before
  | p :: l => latest a (if p.1 = a then some p.2 else before) l

theorem lookup_put (k : Text) (v : V) (l : List (Text × V)) (a : Text) :
    (put k v l).lookup a = if k = a then some v else l.lookup a := by
  induction l with
  | nil =>
    by_cases h : k = a
    · subst h; simp [put]
    · have : (a == k) = false := by simp [Ne.symm h]
      simp [put, List.lookup_cons, this, h]
  | cons p l ih =>
    unfold put
    by_cases hp : p.1 = k
    · rw [if_pos hp]
      by_cases h : k = a
      · subst h; simp
      · have h1 : (a == k) = false := by simp [Ne.symm h]
        have h2 : (a == p.1) = false := by rw [hp]; exact h1
        rw [List.lookup_cons, h1, if_neg h]
        obtain ⟨x, y⟩ := p
        rw [List.lookup_cons, h2]
    · rw [if_neg hp]
      obtain ⟨x, y⟩ := p
      rw [List.lookup_cons, List.lookup_cons]
      by_cases h : a = x
      · subst h
        rw [if_neg (Ne.symm hp)]
        simp
      · have : (a == x) = false := by simp [h]
        rw [this, ih]

theorem assign_cls (o : Inst V) (p : Text × V) : (assign o p).cls = o.cls := by
  unfold assign setattr
  by_cases h : accepts o.cls p.1 = true
  · rw [if_pos h]
  · rw [if_neg h]
    cases classAttr o.cls p.1 with
    | none => dsimp only; by_cases hd : hasDict o.cls = true <;> simp [hd]
    | some k => cases k <;> dsimp only <;> (try by_cases hd : hasDict o.cls = true) <;> simp_all

theorem assign_data (o : Inst V) (p : Text × V) :
    (assign o p).data = if accepts o.cls p.1 = true then put p.1 p.2 o.data else o.data := by
  unfold assign setattr
  by_cases h : accepts o.cls p.1 = true
  · rw [if_pos h, if_pos h]
  · rw [if_neg h, if_neg h]
    cases classAttr o.cls p.1 with
    | none => dsimp only; by_cases hd : hasDict o.cls = true <;> simp [hd]
    | some k => cases k <;> dsimp only <;> (try by_cases hd : hasDict o.cls = true) <;> simp_all

theorem assign_extra (o : Inst V) (p : Text × V) {a : Text} (ha : accepts o.cls a = true) :
    (assign o p).extra.lookup a = o.extra.lookup a := by
  unfold assign setattr
  by_cases h : accepts o.cls p.1 = true
  · rw [if_pos h]
  · have hne : p.1 ≠ a := by rintro rfl; exact h ha
    have hl := lookup_put p.1 p.2 o.extra a
    rw [if_neg hne] at hl
    rw [if_neg h]
    cases classAttr o.cls p.1 with
    | none => dsimp only; by_cases hd : hasDict o.cls = true <;> simp [hd, hl]
    | some k => cases k <;> dsimp only <;> (try by_cases hd : hasDict o.cls = true) <;> simp_all

/-- C61: after any assignments, whatever their names and whether they raise, a property has the value last
assigned to it, else the one it had; reading one that was never given a value raises `AttributeError`. -/
theorem C61_history (l : List (Text × V)) {o : Inst V} (hn : Made o.cls) {a : Text}
    (ha : accepts o.cls a = true) (he : o.extra.lookup a = none) :
    getattr (l.foldl assign o) a = match latest a (o.data.lookup a) l with
      | some v => .val v
      | none => .raises := by
  induction l generalizing o with
  | nil =>
    show getattr o a = _
    unfold getattr
    rw [C61_visible hn ha, he]
    rfl
  | cons p l ih =>
    rw [List.foldl_cons, ih (by rw [assign_cls]; exact hn) (by rw [assign_cls]; exact ha)
      (by rw [assign_extra o p ha]; exact he)]
    have : (assign o p).data.lookup a = if p.1 = a then some p.2 else o.data.lookup a := by
      rw [assign_data]
      by_cases h : accepts o.cls p.1 = true
      · rw [if_pos h, lookup_put]
      · rw [if_neg h, if_neg]
        rintro rfl
        exact h ha
    rw [this]
    rfl

/-- C61: a name that the class neither accepts nor knows, a misspelled one for instance, raises
`AttributeError` and changes nothing; shape lists alone keep the value, though not as a property. -/
theorem C61_unknown {o : Inst V} (hn : Made o.cls) {a : Text} (ha : accepts o.cls a = false)
    (hk : classAttr o.cls a = none) (v : V) :
    (o.cls ≠ "ShapeList".toList → setattr o a v = .raises) ∧
    (o.cls = "ShapeList".toList → ∃ o', setattr o a v = .stored o' ∧ o'.data = o.data ∧ getattr o' a = .val v) := by
  obtain ⟨c, hc, hr, hcn⟩ := hn
  have hd := table_dict c hc
  rw [hcn] at hd
  have hs : setattr o a v = if hasDict o.cls then .stored { o with extra := put a v o.extra } else .raises := by
    unfold setattr
    rw [ha, hk]
    rfl
  constructor
  · intro h
    rw [hs, if_neg (fun h' => h (hd.1 h'))]
  · intro h
    refine ⟨{ o with extra := put a v o.extra }, by rw [hs, if_pos (hd.2 h)], rfl, ?_⟩
    unfold getattr
    simp [hk, lookup_put]

/-- C61: a `property` without setter cannot be assigned, nor, except on shape lists, a method. -/
theorem C61_fixed {o : Inst V} (hn : Made o.cls) {a : Text} (hk : classAttr o.cls a = some .getter ∨
    (classAttr o.cls a = some .plain ∧ o.cls ≠ "ShapeList".toList)) (v : V) : setattr o a v = .raises := by
  have ha : accepts o.cls a = false := by
    rw [Bool.eq_false_iff]
    intro h
    rw [C61_visible hn h] at hk
    simp at hk
  obtain ⟨c, hc, hr, hcn⟩ := hn
  have hd := table_dict c hc
  rw [hcn] at hd
  unfold setattr
  rw [ha]
  rcases hk with hk | ⟨hk, hne⟩
  · rw [hk]
    rfl
  · rw [hk]
    simp only [Bool.false_eq_true, if_false]
    rw [if_neg (fun h' => hne (hd.1 h'))]

theorem find_lookup (key : Text) : ∀ l : List (Text × V),
    (l.find? (fun p => p.1 = key)).map (·.2) = l.lookup key
  | [] => rfl
  | (x, y) :: l => by
    rw [List.lookup_cons, List.find?_cons]
    by_cases h : x = key
    · subst h
      simp
    · have h1 : (key == x) = false := by simp [Ne.symm h]
      rw [h1]
      simp only [h, decide_false]
      exact find_lookup key l

/-- C61: `get` gives the value of a property, and the default exactly where reading it raises. -/
theorem C61_get {o : Inst V} (hn : Made o.cls) {a : Text} (ha : accepts o.cls a = true)
    (he : o.extra.lookup a = none) (d : V) :
    (∀ v, getattr o a = .val v → get o a d = v) ∧ (getattr o a = .raises → get o a d = d) := by
  have h := C61_history [] hn ha he
  simp only [List.foldl_nil, latest] at h
  have hf := find_lookup a o.data
  unfold get
  cases hl : o.data.find? (fun p => p.1 = a) with
  | none =>
    rw [hl] at hf
    rw [← hf] at h
    rw [h]
    exact ⟨fun v hv => (nomatch hv), fun _ => rfl⟩
  | some p =>
    rw [hl] at hf
    rw [← hf] at h
    rw [h]
    refine ⟨fun v hv => ?_, fun hv => nomatch hv⟩
    injection hv

/-! ### Cases -/

/-- `filler.lenght = 5` raises, `filler.length = 5` does not. -/
example : Made "Filler".toList ∧ accepts "Filler".toList "lenght".toList = false ∧
    classAttr "Filler".toList "lenght".toList = none ∧ accepts "Filler".toList "length".toList = true ∧
    "Filler".toList ≠ "ShapeList".toList := by
  refine ⟨⟨clsFiller, ?_, rfl, rfl⟩, ?_⟩
  all_goals decide +kernel

/-- A tape descriptor accepts the compression of file descriptors; nothing in its `write` stores it. -/
example : Made "TapeDescriptor".toList ∧
    ∃ m ∈ descriptors, ∃ a, Has m a ∧ ¬ Has "TapeDescriptor".toList a ∧ accepts "TapeDescriptor".toList a = true := by
  refine ⟨⟨clsTapeDescriptor, by decide +kernel, rfl, rfl⟩, "MediaFileDescriptor".toList,
    by decide +kernel, "is_omfi".toList, ?_, ?_, by decide +kernel⟩
  · exact .own (c := clsMediaFileDescriptor) (by decide +kernel) (by decide +kernel)
  · intro h
    have := (mem_propertydefs (c := clsTapeDescriptor) (by decide +kernel)).2 h
    exact absurd this (by decide +kernel)

/-- Assignments to a composition, one of them misspelled. -/
example : getattr ([("usage_code".toList, 1), ("usage_cod".toList, 9), ("usage_code".toList, 7)].foldl assign
    ⟨"Composition".toList, [], []⟩) "usage_code".toList = .val 7 ∧
    getattr ([("usage_code".toList, 1)].foldl assign ⟨"Composition".toList, [], []⟩) "mob_id".toList = .raises := by
  have hm : Made "Composition".toList := ⟨clsComposition, by decide +kernel, rfl, rfl⟩
  constructor
  · rw [C61_history _ hm (by decide +kernel) rfl]
    rfl
  · rw [C61_history _ hm (by decide +kernel) rfl]
    rfl

/-- A misspelled name on a shape list is kept, silently. -/
example : Made "ShapeList".toList ∧ accepts "ShapeList".toList "shape_date".toList = false ∧
    classAttr "ShapeList".toList "shape_date".toList = none := by
  refine ⟨⟨clsShapeList, ?_, rfl, rfl⟩, ?_⟩ <;> decide +kernel

/-- `mob.mob_type = 1` raises, and so does `mob.copy = 1`. -/
example : classAttr "Composition".toList "mob_type".toList = some .getter ∧
    classAttr "Composition".toList "copy".toList = some .plain := by
  decide +kernel

/-- C61_unknown: `filler.lenght = 5` raises. -/
example : setattr ⟨"Filler".toList, [], []⟩ "lenght".toList 5 = .raises :=
  (C61_unknown (o := ⟨"Filler".toList, [], []⟩) ⟨clsFiller, by decide +kernel, rfl, rfl⟩ (by decide +kernel)
    (by decide +kernel) 5).1 (by decide)

/-- C61_fixed: `mob.mob_type = 1` raises. -/
example : setattr ⟨"Composition".toList, [], []⟩ "mob_type".toList 1 = .raises :=
  C61_fixed (o := ⟨"Composition".toList, [], []⟩) ⟨clsComposition, by decide +kernel, rfl, rfl⟩
    (.inl (by decide +kernel)) 1

end Avb.Attrs
