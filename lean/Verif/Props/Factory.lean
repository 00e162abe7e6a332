import Verif.Model.Factory

/-
C58: making objects by the name of their class.
-/

namespace Avb.Factory

theorem foldl_inner {ns : List Text} : ∀ {s : St},
    ((ns.foldl (fun s n => enter (getattr s n) n) s).made.take s.made.length = s.made) ∧
    s.made.length ≤ (ns.foldl (fun s n => enter (getattr s n) n) s).made.length ∧
    (ns.foldl (fun s n => enter (getattr s n) n) s).class_name = (ns.getLast? <|> s.class_name) := by
  induction ns with
  | nil => intro s; simp
  | cons n ns ih =>
    intro s
    have e : (enter (getattr s n) n).made.take s.made.length = s.made ∧
        (enter (getattr s n) n).made.length = s.made.length + 1 ∧
        (enter (getattr s n) n).class_name = some n := by
      unfold enter getattr
      split <;> simp
    obtain ⟨h1, h2, h3⟩ := ih (s := enter (getattr s n) n)
    refine ⟨?_, ?_, ?_⟩
    · have := congrArg (List.take s.made.length) h1
      rw [List.take_take, e.1, Nat.min_eq_left (by omega)] at this
      exact this
    · rw [List.foldl_cons]
      omega
    · rw [List.foldl_cons, h3, e.2.2]
      cases ns with
      | nil => simp
      | cons m ns =>
        rw [List.getLast?_cons_cons]
        cases hl : (m :: ns).getLast? with
        | none => simp at hl
        | some x => rfl

/-- What the user does with the factory: gets a maker by naming a class, and calls a maker (which one makes
no difference). -/
inductive Op where
  | get (name : Text)
  | call

/-- One step. -/
def step (s : St) : Op → St
  | .get n => getattr s n
  | .call => (createInstance s).2

/-- C58: whatever was done before, `create.N()` for a registered class `N` makes an object of that class.
It has the next number if the class has an id, and no number otherwise.  What was made before stays. -/
theorem C58_direct (s : St) {n : Text} (h : n ∈ classNames ∨ n ∈ helperNames) :
    ∃ k, (createInstance (getattr s n)).1 = .ok k ∧ k = s.made.length ∧
      (createInstance (getattr s n)).2.made[k]? =
        some (n, if n ∈ classNames then some (s.next + 1) else none) ∧
      (createInstance (getattr s n)).2.made.take k = s.made := by
  refine ⟨s.made.length, ?_, rfl, ?_, ?_⟩
  · simp [createInstance, getattr, fromName, h]
  all_goals
    simp only [createInstance, getattr, fromName, if_pos h]
    obtain ⟨h1, h2, _⟩ := foldl_inner (ns := inner n) (s := enter ⟨some n, s.next, s.made⟩ n)
    simp only [getattr] at h1 h2
    have he : (enter ⟨some n, s.next, s.made⟩ n).made =
        s.made ++ [(n, if n ∈ classNames then some (s.next + 1) else none)] := by
      unfold enter
      split <;> rfl
    rw [he] at h1 h2
    simp only [List.length_append, List.length_singleton] at h1 h2
  · have := congrArg (fun l => l[s.made.length]?) h1
    simp only [List.getElem?_take, Nat.lt_add_one, if_true] at this
    rw [this]
    simp
  · have := congrArg (List.take s.made.length) h1
    rw [List.take_take] at this
    simpa using this

/-- C58: a name that is not registered raises when the maker is called, and nothing changes. -/
theorem C58_unknown (s : St) {n : Text} (h : n ∉ classNames) (h' : n ∉ helperNames) :
    createInstance (getattr s n) = (.error .value, getattr s n) := by
  simp [createInstance, getattr, fromName, h, h']

/-- C58: makers are not bound to the class they were got for: a maker that is called after another one
was got makes an object of the other class. -/
theorem C58_other (s : St) (n m : Text) :
    createInstance (getattr (getattr s n) m) = createInstance (getattr s m) := rfl

theorem inner_last (n : Text) : inner n = [] ∨ (inner n).getLast? = some "Attributes".toList := by
  unfold inner
  split
  · exact .inr (by decide)
  · split
    · exact .inr (by decide)
    · split
      · exact .inr (by decide)
      · exact .inl rfl

/-- The components, which have an attribute set of their own. -/
def components : List Text := [
  "Sequence".toList, "SourceClip".toList, "Timecode".toList, "Edgecode".toList, "TrackRef".toList,
  "ParamClip".toList, "ControlClip".toList, "Filler".toList, "TrackGroup".toList, "TrackEffect".toList,
  "PanVolumeEffect".toList, "AudioSuitePluginEffect".toList, "EqualizerMultiBand".toList,
  "CaptureMask".toList, "StrobeEffect".toList, "MotionEffect".toList, "Repeat".toList,
  "EssenceGroup".toList, "TransitionEffect".toList, "Selector".toList, "Composition".toList]

/-- What a new object of a class brings with it: a bin its view with its attribute set, six sift settings and
its own attribute set; a view and a component an attribute set; anything else nothing. -/
def Brings (n : Text) (ns : List Text) : Prop :=
  ((n = "Bin".toList ∨ n = "BinFirst".toList) ∧ ∃ a b c d e f g h i, ns = [a, b, c, d, e, f, g, h, i] ∧
    a = "BinViewSetting".toList ∧ b = "Attributes".toList ∧ (∀ x ∈ [c, d, e, f, g, h], x = "SiftItem".toList) ∧
    i = "Attributes".toList) ∨
  ((n = "BinViewSetting".toList ∨ n ∈ components) ∧ ns = ["Attributes".toList]) ∨
  (n ∉ ["Bin".toList, "BinFirst".toList, "BinViewSetting".toList] ∧ n ∉ components ∧ ns = [])

theorem inner_brings (n : Text) : Brings n (inner n) := by
  unfold inner
  split
  · next h => exact .inl ⟨h, _, _, _, _, _, _, _, _, _, rfl, rfl, rfl, by decide, rfl⟩
  · next h =>
    split
    · next h1 => exact .inr (.inl ⟨.inl h1, rfl⟩)
    · next h1 =>
      split
      · next h2 => exact .inr (.inl ⟨.inr h2, rfl⟩)
      · next h2 =>
        refine .inr (.inr ⟨?_, h2, rfl⟩)
        simp only [List.mem_cons, List.not_mem_nil, or_false, not_or]
        exact ⟨fun e => h (.inl e), fun e => h (.inr e), h1⟩

theorem foldl_names (ns : List Text) : ∀ s : St,
    ((ns.foldl (fun s n => enter (getattr s n) n) s).made).map (·.1) = s.made.map (·.1) ++ ns := by
  induction ns with
  | nil => intro s; simp
  | cons n ns ih =>
    intro s
    rw [List.foldl_cons, ih]
    unfold enter getattr
    split <;> simp

/-- C58: one call of a maker makes an object of its class and those it brings with it, in this order, and
nothing else. -/
theorem C58_made (s : St) {n : Text} (h : n ∈ classNames ∨ n ∈ helperNames) :
    ∃ ns, Brings n ns ∧ ((createInstance (getattr s n)).2.made).map (·.1) = s.made.map (·.1) ++ n :: ns := by
  refine ⟨inner n, inner_brings n, ?_⟩
  simp only [createInstance, getattr, fromName, if_pos h]
  have := foldl_names (inner n) (enter ⟨some n, s.next, s.made⟩ n)
  simp only [getattr] at this
  rw [this]
  unfold enter
  split <;> simp

theorem again (s : St) {n : Text} (h : n ∈ classNames ∨ n ∈ helperNames) :
    ∃ k, (createInstance (createInstance (getattr s n)).2).1 = .ok k ∧
      ((createInstance (createInstance (getattr s n)).2).2.made[k]?).map (·.1) =
        some (if inner n = [] then n else "Attributes".toList) := by
  obtain ⟨_, _, h3⟩ := foldl_inner (ns := inner n) (s := enter ⟨some n, s.next, s.made⟩ n)
  have hc : (createInstance (getattr s n)).2.class_name = some (if inner n = [] then n else "Attributes".toList) := by
    simp only [createInstance, getattr, fromName, if_pos h]
    simp only [getattr] at h3
    rw [h3]
    rcases inner_last n with e | e
    · simp only [e]
      unfold enter
      split <;> simp
    · rw [e, if_neg (by rintro h; rw [h] at e; cases e)]
      rfl
  generalize (createInstance (getattr s n)).2 = s' at hc ⊢
  have hs : s' = getattr s' (if inner n = [] then n else "Attributes".toList) := by
    cases s'
    simp only at hc
    subst hc
    rfl
  rw [hs]
  obtain ⟨k, h1, _, h2, _⟩ := C58_direct s' (n := if inner n = [] then n else "Attributes".toList)
    (by split
        · exact h
        · exact .inl (by decide))
  exact ⟨k, h1, by rw [h2]; rfl⟩

/-- C58: a maker that is kept and called again makes an object of its class again, unless the class is a
bin, a bin view or a component: then it makes an `Attributes`. -/
theorem C58_again (s : St) {n : Text} (h : n ∈ classNames ∨ n ∈ helperNames) :
    ∃ k m, (createInstance (createInstance (getattr s n)).2).1 = .ok k ∧
      ((createInstance (createInstance (getattr s n)).2).2.made[k]?).map (·.1) = some m ∧
      ((n ∈ ["Bin".toList, "BinFirst".toList, "BinViewSetting".toList] ∨ n ∈ components) → m = "Attributes".toList) ∧
      (¬ (n ∈ ["Bin".toList, "BinFirst".toList, "BinViewSetting".toList] ∨ n ∈ components) → m = n) := by
  obtain ⟨k, h1, h2⟩ := again s h
  refine ⟨k, _, h1, h2, ?_, ?_⟩
  · intro hn
    rw [if_neg]
    intro he
    rcases inner_brings n with ⟨_, _, _, _, _, _, _, _, _, _, h4, _⟩ | ⟨_, h4⟩ | ⟨h4, h5, _⟩
    · rw [he] at h4; cases h4
    · rw [he] at h4; cases h4
    · exact hn.elim h4 h5
  · intro hn
    rw [if_pos]
    rcases inner_brings n with ⟨h3, _⟩ | ⟨h3, _⟩ | ⟨_, _, h5⟩
    · exact absurd (.inl (by rcases h3 with rfl | rfl <;> simp)) hn
    · exact absurd (h3.elim (fun e => .inl (by subst e; simp)) .inr) hn
    · exact h5

/-- C58: over any history the numbers given are consecutive, each given once, in the order of making. -/
theorem C58_numbers (ops : List Op) (s : St) :
    ∃ new, (ops.foldl step s).made = s.made ++ new ∧
      new.filterMap (·.2) = List.range' (s.next + 1) ((ops.foldl step s).next - s.next) ∧
      s.next ≤ (ops.foldl step s).next ∧
      ∀ p ∈ new, p.2.isSome ↔ p.1 ∈ classNames := by
  have he : ∀ (s : St) (n : Text), ∃ new, (enter s n).made = s.made ++ new ∧
      new.filterMap (·.2) = List.range' (s.next + 1) ((enter s n).next - s.next) ∧ s.next ≤ (enter s n).next ∧
      ∀ p ∈ new, p.2.isSome ↔ p.1 ∈ classNames := by
    intro s n
    unfold enter
    split
    · next h => exact ⟨[(n, some (s.next + 1))], rfl, by simp, Nat.le_succ _, by simpa using h⟩
    · next h => exact ⟨[(n, none)], rfl, by simp, Nat.le_refl _, by simpa using h⟩
  have trans : ∀ {a b c : St}, (∃ new, b.made = a.made ++ new ∧
      new.filterMap (·.2) = List.range' (a.next + 1) (b.next - a.next) ∧ a.next ≤ b.next ∧
      ∀ p ∈ new, p.2.isSome ↔ p.1 ∈ classNames) → (∃ new, c.made = b.made ++ new ∧
      new.filterMap (·.2) = List.range' (b.next + 1) (c.next - b.next) ∧ b.next ≤ c.next ∧
      ∀ p ∈ new, p.2.isSome ↔ p.1 ∈ classNames) → (∃ new, c.made = a.made ++ new ∧
      new.filterMap (·.2) = List.range' (a.next + 1) (c.next - a.next) ∧ a.next ≤ c.next ∧
      ∀ p ∈ new, p.2.isSome ↔ p.1 ∈ classNames) := by
    rintro a b c ⟨n1, h1, h2, h3, h4⟩ ⟨n2, k1, k2, k3, k4⟩
    refine ⟨n1 ++ n2, by rw [k1, h1, List.append_assoc], ?_, by omega, ?_⟩
    · rw [List.filterMap_append, h2, k2, show b.next + 1 = a.next + 1 + (b.next - a.next) by omega,
        List.range'_append_1]
      congr 1
      omega
    · intro p hp
      rcases List.mem_append.1 hp with hp | hp
      · exact h4 p hp
      · exact k4 p hp
  have hf : ∀ (ns : List Text) (s : St), ∃ new, (ns.foldl (fun s n => enter (getattr s n) n) s).made = s.made ++ new ∧
      new.filterMap (·.2) = List.range' (s.next + 1) ((ns.foldl (fun s n => enter (getattr s n) n) s).next - s.next) ∧
      s.next ≤ (ns.foldl (fun s n => enter (getattr s n) n) s).next ∧
      ∀ p ∈ new, p.2.isSome ↔ p.1 ∈ classNames := by
    intro ns
    induction ns with
    | nil => intro s; exact ⟨[], by simp⟩
    | cons n ns ih => intro s; exact trans (he (getattr s n) n) (ih _)
  have hs : ∀ (s : St) (o : Op), ∃ new, (step s o).made = s.made ++ new ∧
      new.filterMap (·.2) = List.range' (s.next + 1) ((step s o).next - s.next) ∧ s.next ≤ (step s o).next ∧
      ∀ p ∈ new, p.2.isSome ↔ p.1 ∈ classNames := by
    intro s o
    cases o with
    | get n => exact ⟨[], by simp [step, getattr]⟩
    | call =>
      unfold step createInstance
      cases s.class_name with
      | none => exact ⟨[], by simp⟩
      | some n =>
        dsimp only
        unfold fromName
        split
        · exact trans (he s n) (hf _ _)
        · exact ⟨[], by simp⟩
  induction ops generalizing s with
  | nil => exact ⟨[], by simp⟩
  | cons o ops ih => exact trans (hs s o) (ih _)

/-! ### Cases -/

/-- `mk = f.create.Filler; mk(); mk()`: the second object is an `Attributes`. -/
example : ([Op.get "Filler".toList, .call, .call].foldl step ⟨none, 0, []⟩).made =
    [("Filler".toList, some 1), ("Attributes".toList, some 2), ("Attributes".toList, some 3)] := by
  decide

/-- Two markers with a kept maker are two markers. -/
example : ([Op.get "Marker".toList, .call, .call].foldl step ⟨none, 7, []⟩).made =
    [("Marker".toList, some 8), ("Marker".toList, some 9)] := by
  decide

example : ∃ k, (createInstance (getattr ⟨some "Track".toList, 7, []⟩ "Sequence".toList)).1 = .ok k ∧
    (createInstance (getattr ⟨some "Track".toList, 7, []⟩ "Sequence".toList)).2.made[k]? =
      some ("Sequence".toList, some 8) := by
  obtain ⟨k, h1, _, h2, _⟩ := C58_direct ⟨some "Track".toList, 7, []⟩ (n := "Sequence".toList) (.inl (by decide))
  exact ⟨k, h1, h2⟩

example : createInstance (getattr ⟨none, 0, []⟩ "Clip".toList) =
    (.error .value, getattr ⟨none, 0, []⟩ "Clip".toList) :=
  C58_unknown _ (by decide) (by decide)

/-- C58_made: a sequence brings attributes along. -/
example : ∃ ns, Brings "Sequence".toList ns ∧
    ((createInstance (getattr ⟨none, 0, [("Track".toList, none)]⟩ "Sequence".toList)).2.made).map (·.1) =
      "Track".toList :: "Sequence".toList :: ns :=
  C58_made ⟨none, 0, [("Track".toList, none)]⟩ (.inl (by decide))

/-- C58_again: a kept maker of markers makes markers. -/
example : ∃ k, (createInstance (createInstance (getattr ⟨none, 7, []⟩ "Marker".toList)).2).1 = .ok k ∧
    ((createInstance (createInstance (getattr ⟨none, 7, []⟩ "Marker".toList)).2).2.made[k]?).map (·.1) =
      some "Marker".toList := by
  obtain ⟨k, m, h1, h2, _, h3⟩ := C58_again ⟨none, 7, []⟩ (n := "Marker".toList) (.inl (by decide))
  exact ⟨k, h1, h3 (by decide) ▸ h2⟩

end Avb.Factory
